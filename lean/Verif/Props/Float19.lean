/-
  C108: rotations from angles in floating point (IEEE binary32), for a C library whose sinf and cosf are accurate.
-/
import Verif.Props.Float18
import Verif.Props.Quats2
import Verif.Proofs.Round3
import Mathlib.Analysis.Real.Pi.Bounds
import Verif.Proofs.KDecide

set_option exponentiation.threshold 3000

namespace Graphene
open Fp Spec
variable [Libm binary32]

/-- `sinf` and `cosf` of the C library are accurate to `2^-23` for arguments up to `2^16` (glibc, musl and the others stay
below one unit in the last place, at most `2^-24`). -/
def Spec.TrigAccurate : Prop :=
  ∀ v : F32, v.isFin = true → |v.val| ≤ 2 ^ 16 →
    ((Libm.sin v).isFin = true ∧ |(Libm.sin v).val - Real.sin v.val| ≤ 1 / 2 ^ 23) ∧
    ((Libm.cos v).isFin = true ∧ |(Libm.cos v).val - Real.cos v.val| ≤ 1 / 2 ^ 23)

/-- the matrix of a rotation about a unit axis: row `i` is the image of the `i`-th basis vector under Rodrigues' formula -/
noncomputable def Spec.rodMat (u : Point3D ℝ) (θ : ℝ) : Matrix (Fin 4) (Fin 4) ℝ :=
  let row := fun v : Point3D ℝ => let r := rodrigues u θ v; ![r.x, r.y, r.z, 0]
  Matrix.of ![row ⟨1, 0, 0⟩, row ⟨0, 1, 0⟩, row ⟨0, 0, 1⟩, ![0, 0, 0, 1]]

/-- the vector stored, as real numbers -/
noncomputable def Spec.exactV (v : Vec3 F32) : Vec3 ℝ := ⟨⟨v.getX.val, v.getY.val, v.getZ.val, 0⟩⟩

/-- a finite axis, neither too short nor too long to be normalised (C99) -/
def Spec.GoodAxis (bk : Backend) (v : Vec3 F32) : Prop :=
  (v.getX.isFin = true ∧ v.getY.isFin = true ∧ v.getZ.isFin = true) ∧
  NormLen bk √(v.getX.val ^ 2 + v.getY.val ^ 2 + v.getZ.val ^ 2)

theorem goodAxis_pos {bk : Backend} {v : Vec3 F32} (h : GoodAxis bk v) :
    0 < v.getX.val ^ 2 + v.getY.val ^ 2 + v.getZ.val ^ 2 :=
  Real.sqrt_pos.1 (lt_of_lt_of_le (by positivity) h.2.1)

theorem exactV_unit {bk : Backend} {v : Vec3 F32} (h : GoodAxis bk v) :
    (unitOf (exactV v)).x ^ 2 + (unitOf (exactV v)).y ^ 2 + (unitOf (exactV v)).z ^ 2 = 1 :=
  unitOf_sq (a := exactV v) (goodAxis_pos h)

/-- the computed unit axis -/
theorem axis_approx (bk : Backend) (he : EstAccurate bk) {v : Vec3 F32} (h : GoodAxis bk v) :
    let n := Simd4f.normalize3 bk v.value
    let u := unitOf (exactV v)
    Approx n.x u.x 1 (1 + 17 / 2 ^ 23) ∧ Approx n.y u.y 1 (1 + 17 / 2 ^ 23) ∧ Approx n.z u.z 1 (1 + 17 / 2 ^ 23) := by
  have hp := goodAxis_pos h
  have hu := exactV_unit h
  have hl := C99_length3 bk he v h.1 rfl (le_trans (by norm_num) h.2.1) h.2.2.1
  have hg := length_gt hl.1 hl.2 h.2.1
  obtain ⟨h1, h2, h3⟩ := C99_normalize3 bk he v h.1 rfl h.2
  have e : Vec3.normalize bk v = ⟨Simd4f.normalize3 bk v.value⟩ := by unfold Vec3.normalize; rw [if_pos hg]
  rw [e] at h1 h2 h3
  set L := √(v.getX.val ^ 2 + v.getY.val ^ 2 + v.getZ.val ^ 2) with hL
  have L0 : 0 < L := Real.sqrt_pos.2 hp
  have k : ∀ {c : F32} {t X : ℝ}, UnitComp c t L → X = t / L → X ^ 2 ≤ 1 → Approx c X 1 (1 + 17 / 2 ^ 23) := by
    intro c t X hc hX hs
    have ha : |X| ≤ 1 := by rw [← sq_abs] at hs; nlinarith [abs_nonneg X]
    refine ⟨hc.1, ha, ?_⟩
    have e : |t| / L = |X| := by rw [hX, abs_div, abs_of_pos L0]
    have := hc.2
    rw [e, ← hX] at this
    generalize |c.val - X| = q at *
    norm_num at *; linarith
  intro n u
  have ux : u.x = v.getX.val / L := by simp only [u, unitOf, exactV, Vec3.getX, Vec3.getY, Vec3.getZ, Simd4f.get, div_eq_mul_inv]; rfl
  have uy : u.y = v.getY.val / L := by simp only [u, unitOf, exactV, Vec3.getX, Vec3.getY, Vec3.getZ, Simd4f.get, div_eq_mul_inv]; rfl
  have uz : u.z = v.getZ.val / L := by simp only [u, unitOf, exactV, Vec3.getX, Vec3.getY, Vec3.getZ, Simd4f.get, div_eq_mul_inv]; rfl
  have s1 := sq_nonneg u.x
  have s2 := sq_nonneg u.y
  have s3 := sq_nonneg u.z
  exact ⟨k h1 ux (by change u.x ^ 2 + u.y ^ 2 + u.z ^ 2 = 1 at hu; linarith),
    k h2 uy (by change u.x ^ 2 + u.y ^ 2 + u.z ^ 2 = 1 at hu; linarith),
    k h3 uz (by change u.x ^ 2 + u.y ^ 2 + u.z ^ 2 = 1 at hu; linarith)⟩

omit [Libm binary32] in
theorem mul2_approx {p q : F32} {x y A B E F : ℝ} (hp : Approx p x A E) (hq : Approx q y B F) (h : E * F ≤ 2 ^ 127) :
    Approx (Fp.mul p q) (x * y) (A * B) ((1 + 1 / 16777216) * (E * F) + 1 / 2 ^ 150) := by
  have := Approx.mul hp32 hp hq (h.trans le_max32)
  rwa [u32, eta32] at this

theorem one_approx : Approx (f1 : F32) 1 1 1 := by
  have := Approx.of_eq is_f1.fin is_f1.val
  rwa [abs_of_nonneg (by norm_num)] at this

/-- the nine entries -/
theorem rot_entries {x y z s c : F32} {X Y Z S C : ℝ} (hx : Approx x X 1 (1 + 17 / 2 ^ 23))
    (hy : Approx y Y 1 (1 + 17 / 2 ^ 23)) (hz : Approx z Z 1 (1 + 17 / 2 ^ 23))
    (hs : Approx s S 1 (1 + 1 / 2 ^ 23)) (hc : Approx c C 1 (1 + 1 / 2 ^ 23)) :
    (let r := Fp.add (Fp.mul x x) (Fp.mul c (Fp.sub f1 (Fp.mul x x)))
     r.isFin = true ∧ |r.val - (X * X + C * (1 - X * X))| ≤ 3 / 2 ^ 18) ∧
    (let r := Fp.add (Fp.mul (Fp.mul x y) (Fp.sub f1 c)) (Fp.mul z s)
     r.isFin = true ∧ |r.val - (X * Y * (1 - C) + Z * S)| ≤ 3 / 2 ^ 18) ∧
    (let r := Fp.sub (Fp.mul (Fp.mul x y) (Fp.sub f1 c)) (Fp.mul z s)
     r.isFin = true ∧ |r.val - (X * Y * (1 - C) - Z * S)| ≤ 3 / 2 ^ 18) := by
  have xx := mul2_approx hx hx (by norm_num)
  have o1 := sub2_approx one_approx xx (by norm_num)
  have cc := mul2_approx hc o1 (by norm_num)
  have d := sum2_approx xx cc (by norm_num)
  have xy := mul2_approx hx hy (by norm_num)
  have oc := sub2_approx one_approx hc (by norm_num)
  have ab := mul2_approx xy oc (by norm_num)
  have zs := mul2_approx hz hs (by norm_num)
  have p := sum2_approx ab zs (by norm_num)
  have m := sub2_approx ab zs (by norm_num)
  exact ⟨⟨d.fin, d.err.trans (by norm_num)⟩, ⟨p.fin, p.err.trans (by norm_num)⟩, ⟨m.fin, m.err.trans (by norm_num)⟩⟩

theorem trig_approx (ht : TrigAccurate) {v : F32} (hv : v.isFin = true) (hb : |v.val| ≤ 2 ^ 16) :
    Approx (Libm.sin v) (Real.sin v.val) 1 (1 + 1 / 2 ^ 23) ∧ Approx (Libm.cos v) (Real.cos v.val) 1 (1 + 1 / 2 ^ 23) := by
  obtain ⟨⟨a, b⟩, c, d⟩ := ht v hv hb
  exact ⟨⟨a, Real.abs_sin_le_one _, by linarith⟩, ⟨c, Real.abs_cos_le_one _, by linarith⟩⟩

/-- C108: the rotation matrix by `rad` radians about an axis, every back end: finite entries, each within `3·2^-18` of the
exact rotation (Rodrigues) about the exact direction of the axis. -/
theorem C108_rotation (bk : Backend) (he : EstAccurate bk) (ht : TrigAccurate) (rad : F32) (axis : Vec3 F32)
    (hr : rad.isFin = true) (hb : |rad.val| ≤ 2 ^ 16) (ha : GoodAxis bk axis) (i j : Fin 4) :
    (mat (Simd4x4f.rotation bk rad axis.value) i j).isFin = true ∧
      |(mat (Simd4x4f.rotation bk rad axis.value) i j).val - rodMat (unitOf (exactV axis)) rad.val i j| ≤ 3 / 2 ^ 18 := by
  obtain ⟨hx, hy, hz⟩ := axis_approx bk he ha
  obtain ⟨hs, hc⟩ := trig_approx ht (v := Fp.neg rad) (by simpa using hr) (by rw [val_neg, _root_.abs_neg]; exact hb)
  rw [val_neg, Real.sin_neg] at hs
  rw [val_neg, Real.cos_neg] at hc
  set u := unitOf (exactV axis)
  set n := Simd4f.normalize3 bk axis.value
  set s := Real.sin rad.val
  set c := Real.cos rad.val
  have xyz := rot_entries hx hy hz hs hc
  have yzx := rot_entries hy hz hx hs hc
  have zxy := rot_entries hz hx hy hs hc
  have e0 : (f0 : F32).isFin = true ∧ |(f0 : F32).val - 0| ≤ 3 / 2 ^ 18 := ⟨is_f0.fin, by rw [is_f0.val]; norm_num⟩
  have e1 : (f1 : F32).isFin = true ∧ |(f1 : F32).val - 1| ≤ 3 / 2 ^ 18 := ⟨is_f1.fin, by rw [is_f1.val]; norm_num⟩
  have go : ∀ {a : F32} {x y : ℝ}, (a.isFin = true ∧ |a.val - x| ≤ 3 / 2 ^ 18) → x = y →
      (a.isFin = true ∧ |a.val - y| ≤ 3 / 2 ^ 18) := fun h e => e ▸ h
  have R : ∀ k l : Fin 4, rodMat u rad.val k l =
      !![u.x * u.x + c * (1 - u.x * u.x), u.x * u.y * (1 - c) - u.z * -s, u.z * u.x * (1 - c) + u.y * -s, 0;
         u.x * u.y * (1 - c) + u.z * -s, u.y * u.y + c * (1 - u.y * u.y), u.y * u.z * (1 - c) - u.x * -s, 0;
         u.z * u.x * (1 - c) - u.y * -s, u.y * u.z * (1 - c) + u.x * -s, u.z * u.z + c * (1 - u.z * u.z), 0;
         0, 0, 0, 1] k l := by
    intro k l
    fin_cases k <;> fin_cases l <;> simp [rodMat, rodrigues, c, s] <;> ring
  rw [R]
  fin_cases i <;> fin_cases j
  · exact xyz.1
  · exact xyz.2.2
  · exact zxy.2.1
  · exact e0
  · exact xyz.2.1
  · exact yzx.1
  · exact yzx.2.2
  · exact e0
  · exact zxy.2.2
  · exact yzx.2.1
  · exact zxy.1
  · exact e0
  · exact e0
  · exact e0
  · exact e0
  · exact e1

/-- the constant `PI / 180.f` -/
theorem deg_const : (Fp.div (Scalar.pi : F32) (lit 180 1)) = lit 9370165 (2 ^ 29) := by kdecide

/-- C108: degrees to radians: off by at most `|angle| / 2^29` (and half a subnormal step). -/
theorem C108_radians (angle : F32) (h : angle.isFin = true) (hb : |angle.val| ≤ 2 ^ 100) :
    (degToRad angle).isFin = true ∧
      |(degToRad angle).val - angle.val * (Real.pi / 180)| ≤ |angle.val| / 2 ^ 29 + 1 / 2 ^ 150 := by
  have lo := Real.pi_gt_d20
  have hi := Real.pi_lt_d20
  obtain ⟨kf, kv⟩ := lit_dyadic 9370165 29 (by norm_num) (by norm_num)
  have e : degToRad angle = Fp.mul angle (lit 9370165 (2 ^ 29)) := by
    rw [← deg_const]; rfl
  rw [e]
  have kv' : (lit 9370165 (2 ^ 29) : F32).val = 9370165 / 2 ^ 29 := by rw [kv]; norm_num
  have ab : |angle.val * (lit 9370165 (2 ^ 29) : F32).val| = |angle.val| * (9370165 / 2 ^ 29) := by
    rw [_root_.abs_mul, kv', abs_of_nonneg (by norm_num : (0 : ℝ) ≤ 9370165 / 2 ^ 29)]
  have p := prod_approx h kf (by rw [ab]; norm_num at hb ⊢; linarith)
  refine ⟨p.fin, ?_⟩
  have er := p.err
  rw [ab] at er
  have t := abs_add_le ((Fp.mul angle (lit 9370165 (2 ^ 29))).val - angle.val * (lit 9370165 (2 ^ 29) : F32).val)
    (angle.val * (lit 9370165 (2 ^ 29) : F32).val - angle.val * (Real.pi / 180))
  rw [sub_add_sub_cancel, ← mul_sub, _root_.abs_mul angle.val, kv'] at t
  have d : |(9370165 / 2 ^ 29 : ℝ) - Real.pi / 180| ≤ 1 / 2 ^ 32 := by
    rw [_root_.abs_le]; constructor <;> norm_num at * <;> linarith
  have d' := mul_le_mul_of_nonneg_left d (abs_nonneg angle.val)
  rw [kv'] at er
  refine t.trans ((add_le_add er d').trans ?_)
  have := abs_nonneg angle.val
  generalize |angle.val| = q at *
  norm_num at *; linarith

omit [Libm binary32] in
theorem rodMat_lip {u : Point3D ℝ} (hu : u.x ^ 2 + u.y ^ 2 + u.z ^ 2 = 1) (θ φ : ℝ) (i j : Fin 4) :
    |rodMat u θ i j - rodMat u φ i j| ≤ 2 * |θ - φ| := by
  have hs := Real.abs_sin_sub_sin_le θ φ
  have hc := Real.abs_cos_sub_cos_le θ φ
  have d0 := abs_nonneg (θ - φ)
  have ax : ∀ {t : ℝ}, t ^ 2 ≤ 1 → |t| ≤ 1 := fun {t} h => by rw [← sq_abs] at h; nlinarith [abs_nonneg t]
  have s1 := sq_nonneg u.x
  have s2 := sq_nonneg u.y
  have s3 := sq_nonneg u.z
  have x1 := ax (t := u.x) (by linarith)
  have y1 := ax (t := u.y) (by linarith)
  have z1 := ax (t := u.z) (by linarith)
  have m1 : ∀ {a b : ℝ}, |a| ≤ 1 → |b| ≤ 1 → |a * b| ≤ 1 := fun ha hb => by
    rw [_root_.abs_mul]; exact mul_le_one₀ ha (abs_nonneg _) hb
  have q1 : ∀ {a : ℝ}, |a| ≤ 1 → |1 - a * a| ≤ 1 := fun {a} ha => by
    have h0 := mul_self_nonneg a
    have h1 : a * a ≤ 1 := by nlinarith [(_root_.abs_le.1 ha).1, (_root_.abs_le.1 ha).2]
    rw [_root_.abs_le]; constructor <;> linarith
  have c1 : ∀ {a b : ℝ}, |a| ≤ 1 → |b| ≤ 1 →
      |a * (Real.cos θ - Real.cos φ) + b * (Real.sin θ - Real.sin φ)| ≤ 2 * |θ - φ| := by
    intro a b ha hb
    refine (abs_add_le _ _).trans ?_
    rw [_root_.abs_mul, _root_.abs_mul]
    have := mul_le_mul ha hc (abs_nonneg _) zero_le_one
    have := mul_le_mul hb hs (abs_nonneg _) zero_le_one
    linarith
  have go : ∀ {a b e : ℝ}, |a| ≤ 1 → |b| ≤ 1 →
      e = a * (Real.cos θ - Real.cos φ) + b * (Real.sin θ - Real.sin φ) → |e| ≤ 2 * |θ - φ| := fun ha hb he => he ▸ c1 ha hb
  have zz : |(0 : ℝ)| ≤ 1 := by norm_num
  have ng : ∀ {a : ℝ}, |a| ≤ 1 → |(-a)| ≤ 1 := fun h => by rwa [_root_.abs_neg]
  fin_cases i <;> fin_cases j
  · exact go (q1 x1) zz (by simp [rodMat, rodrigues]; ring)
  · exact go (ng (m1 x1 y1)) z1 (by simp [rodMat, rodrigues]; ring)
  · exact go (ng (m1 z1 x1)) (ng y1) (by simp [rodMat, rodrigues]; ring)
  · exact go zz zz (by simp [rodMat, rodrigues])
  · exact go (ng (m1 x1 y1)) (ng z1) (by simp [rodMat, rodrigues]; ring)
  · exact go (q1 y1) zz (by simp [rodMat, rodrigues]; ring)
  · exact go (ng (m1 y1 z1)) x1 (by simp [rodMat, rodrigues]; ring)
  · exact go zz zz (by simp [rodMat, rodrigues])
  · exact go (ng (m1 z1 x1)) y1 (by simp [rodMat, rodrigues]; ring)
  · exact go (ng (m1 y1 z1)) (ng x1) (by simp [rodMat, rodrigues]; ring)
  · exact go (q1 z1) zz (by simp [rodMat, rodrigues]; ring)
  · exact go zz zz (by simp [rodMat, rodrigues])
  · exact go zz zz (by simp [rodMat])
  · exact go zz zz (by simp [rodMat])
  · exact go zz zz (by simp [rodMat])
  · exact go zz zz (by simp [rodMat])

omit [Libm binary32] in
theorem rodMat_bound {u : Point3D ℝ} (hu : u.x ^ 2 + u.y ^ 2 + u.z ^ 2 = 1) (θ : ℝ) (i j : Fin 4) :
    |rodMat u θ i j| ≤ 3 := by
  have hs := Real.abs_sin_le_one θ
  have hc := Real.abs_cos_le_one θ
  have ax : ∀ {t : ℝ}, t ^ 2 ≤ 1 → |t| ≤ 1 := fun {t} h => by rw [← sq_abs] at h; nlinarith [abs_nonneg t]
  have s1 := sq_nonneg u.x
  have s2 := sq_nonneg u.y
  have s3 := sq_nonneg u.z
  have x1 := ax (t := u.x) (by linarith)
  have y1 := ax (t := u.y) (by linarith)
  have z1 := ax (t := u.z) (by linarith)
  have m1 : ∀ {a b : ℝ}, |a| ≤ 1 → |b| ≤ 1 → |a * b| ≤ 1 := fun ha hb => by
    rw [_root_.abs_mul]; exact mul_le_one₀ ha (abs_nonneg _) hb
  have zz : |(0 : ℝ)| ≤ 1 := by norm_num
  have oo : |(1 : ℝ)| ≤ 1 := by norm_num
  have k : ∀ {a b d e : ℝ}, |a| ≤ 1 → |b| ≤ 1 → |d| ≤ 1 → e = a + b + d → |e| ≤ 3 := by
    intro a b d e ha hb hd he
    rw [he]
    have h1 := abs_add_le (a + b) d
    have h2 := abs_add_le a b
    linarith
  have ng : ∀ {a : ℝ}, |a| ≤ 1 → |(-a)| ≤ 1 := fun h => by rwa [_root_.abs_neg]
  have q1 : ∀ {a : ℝ}, |a| ≤ 1 → |1 - a * a| ≤ 1 := fun {a} ha => by
    have h0 := mul_self_nonneg a
    have h1 : a * a ≤ 1 := by nlinarith [(_root_.abs_le.1 ha).1, (_root_.abs_le.1 ha).2]
    rw [_root_.abs_le]; constructor <;> linarith
  fin_cases i <;> fin_cases j
  · exact k (m1 (q1 x1) hc) zz (m1 x1 x1) (by simp [rodMat, rodrigues]; ring)
  · exact k (ng (m1 (m1 x1 y1) hc)) (m1 z1 hs) (m1 x1 y1) (by simp [rodMat, rodrigues]; ring)
  · exact k (ng (m1 (m1 z1 x1) hc)) (ng (m1 y1 hs)) (m1 z1 x1) (by simp [rodMat, rodrigues]; ring)
  · exact k zz zz zz (by simp [rodMat, rodrigues])
  · exact k (ng (m1 (m1 x1 y1) hc)) (ng (m1 z1 hs)) (m1 x1 y1) (by simp [rodMat, rodrigues]; ring)
  · exact k (m1 (q1 y1) hc) zz (m1 y1 y1) (by simp [rodMat, rodrigues]; ring)
  · exact k (ng (m1 (m1 y1 z1) hc)) (m1 x1 hs) (m1 y1 z1) (by simp [rodMat, rodrigues]; ring)
  · exact k zz zz zz (by simp [rodMat, rodrigues])
  · exact k (ng (m1 (m1 z1 x1) hc)) (m1 y1 hs) (m1 z1 x1) (by simp [rodMat, rodrigues]; ring)
  · exact k (ng (m1 (m1 y1 z1) hc)) (ng (m1 x1 hs)) (m1 y1 z1) (by simp [rodMat, rodrigues]; ring)
  · exact k (m1 (q1 z1) hc) zz (m1 z1 z1) (by simp [rodMat, rodrigues]; ring)
  · exact k zz zz zz (by simp [rodMat, rodrigues])
  · exact k zz zz zz (by simp [rodMat])
  · exact k zz zz zz (by simp [rodMat])
  · exact k zz zz zz (by simp [rodMat])
  · exact k oo zz zz (by simp [rodMat])

theorem rad_range {angle : F32} (h : angle.isFin = true) (hb : |angle.val| ≤ 2 ^ 20) : |(degToRad angle).val| ≤ 2 ^ 16 := by
  have r := (C108_radians angle h (hb.trans (by norm_num))).2
  have lo := Real.pi_gt_three
  have hi := Real.pi_lt_four
  have t := abs_add_le ((degToRad angle).val - angle.val * (Real.pi / 180)) (angle.val * (Real.pi / 180))
  rw [sub_add_cancel, _root_.abs_mul angle.val, abs_of_pos (by linarith : (0 : ℝ) < Real.pi / 180)] at t
  have : |angle.val| * (Real.pi / 180) ≤ 2 ^ 20 * (4 / 180) := mul_le_mul hb (by linarith) (by positivity) (by norm_num)
  norm_num at *; linarith

/-- C108: `init_rotate (angle, axis)`, in degrees, every back end: finite entries, each within `2^-16 + |angle| / 2^28`
of the exact rotation by that angle about the exact direction of the axis. -/
theorem C108_init_rotate (bk : Backend) (he : EstAccurate bk) (ht : TrigAccurate) (angle : F32) (axis : Vec3 F32)
    (h : angle.isFin = true) (hb : |angle.val| ≤ 2 ^ 20) (ha : GoodAxis bk axis) (i j : Fin 4) :
    (mat (GMatrix.initRotate bk angle axis) i j).isFin = true ∧
      |(mat (GMatrix.initRotate bk angle axis) i j).val
        - rodMat (unitOf (exactV axis)) (angle.val * (Real.pi / 180)) i j| ≤ 1 / 2 ^ 16 + |angle.val| / 2 ^ 28 := by
  obtain ⟨rf, re⟩ := C108_radians angle h (hb.trans (by norm_num))
  obtain ⟨f, e⟩ := C108_rotation bk he ht (degToRad angle) axis rf (rad_range h hb) ha i j
  refine ⟨f, ?_⟩
  have l := rodMat_lip (exactV_unit ha) (degToRad angle).val (angle.val * (Real.pi / 180)) i j
  have t := abs_add_le ((mat (GMatrix.initRotate bk angle axis) i j).val - rodMat (unitOf (exactV axis)) (degToRad angle).val i j)
    (rodMat (unitOf (exactV axis)) (degToRad angle).val i j - rodMat (unitOf (exactV axis)) (angle.val * (Real.pi / 180)) i j)
  rw [sub_add_sub_cancel] at t
  refine t.trans ((add_le_add e l).trans ?_)
  norm_num at re ⊢; linarith

/-- C108: transforming a finite point by `init_rotate (angle, axis)`: every coordinate of the result is finite and within
`(|x| + |y| + |z|) (2^-15 + |angle| / 2^28) + 2^-146` of the point rotated exactly. -/
theorem C108_rotate_point (bk : Backend) (he : EstAccurate bk) (ht : TrigAccurate) (angle : F32) (axis : Vec3 F32)
    (h : angle.isFin = true) (hb : |angle.val| ≤ 2 ^ 20) (ha : GoodAxis bk axis) (p : Point3D F32)
    (hx : p.x.isFin = true) (hy : p.y.isFin = true) (hz : p.z.isFin = true)
    (hp : |p.x.val| + |p.y.val| + |p.z.val| ≤ 2 ^ 100) :
    let r := GMatrix.transformPoint3D (GMatrix.initRotate bk angle axis) p
    let t := rodrigues (unitOf (exactV axis)) (angle.val * (Real.pi / 180)) ⟨p.x.val, p.y.val, p.z.val⟩
    let e := (|p.x.val| + |p.y.val| + |p.z.val|) * (1 / 2 ^ 15 + |angle.val| / 2 ^ 28) + 1 / 2 ^ 146
    (r.x.isFin = true ∧ r.y.isFin = true ∧ r.z.isFin = true) ∧
      |r.x.val - t.x| ≤ e ∧ |r.y.val - t.y| ≤ e ∧ |r.z.val - t.z| ≤ e := by
  have ent := C108_init_rotate bk he ht angle axis h hb ha
  set m := GMatrix.initRotate bk angle axis with hm
  set R := rodMat (unitOf (exactV axis)) (angle.val * (Real.pi / 180)) with hR
  have fm : FinMat m := fun i j => (ent i j).1
  have rm : ∀ i j, rmat m i j = (mat m i j).val := fun _ _ => rfl
  have a0 := abs_nonneg angle.val
  have ub : ∀ i j, |rmat m i j - R i j| ≤ 1 / 2 ^ 16 + |angle.val| / 2 ^ 28 := fun i j => (ent i j).2
  have w : ∀ j : Fin 3, rmat m 3 j.castSucc = 0 := by
    intro j
    fin_cases j <;> exact is_f0.val
  have ru : ∀ i j, |R i j| ≤ 3 := fun i j => rodMat_bound (exactV_unit ha) _ i j
  set P := |p.x.val| + |p.y.val| + |p.z.val| with hP
  set d := 1 / 2 ^ 16 + |angle.val| / 2 ^ 28 with hd
  have d1 : d ≤ 1 := by rw [hd]; norm_num at hb ⊢; linarith
  have px := abs_nonneg p.x.val
  have py := abs_nonneg p.y.val
  have pz := abs_nonneg p.z.val
  have mb : ∀ i j, |rmat m i j| ≤ 4 := by
    intro i j
    have t := abs_add_le (rmat m i j - R i j) (R i j)
    rw [sub_add_cancel] at t
    linarith [ub i j, ru i j]
  have core : ∀ j : Fin 3,
      (![(GMatrix.transformPoint3D m p).x, (GMatrix.transformPoint3D m p).y, (GMatrix.transformPoint3D m p).z] j).isFin = true ∧
      |(![(GMatrix.transformPoint3D m p).x, (GMatrix.transformPoint3D m p).y, (GMatrix.transformPoint3D m p).z] j).val -
        (p.x.val * R 0 j.castSucc + p.y.val * R 1 j.castSucc + p.z.val * R 2 j.castSucc)| ≤
        P * (1 / 2 ^ 15 + |angle.val| / 2 ^ 28) + 1 / 2 ^ 146 := by
    intro j
    have S : |p.x.val * rmat m 0 j.castSucc| + |p.y.val * rmat m 1 j.castSucc| + |p.z.val * rmat m 2 j.castSucc|
        + |rmat m 3 j.castSucc| ≤ P * 4 := by
      rw [w j, abs_zero, _root_.abs_mul, _root_.abs_mul, _root_.abs_mul]
      have := mul_le_mul_of_nonneg_left (mb 0 j.castSucc) px
      have := mul_le_mul_of_nonneg_left (mb 1 j.castSucc) py
      have := mul_le_mul_of_nonneg_left (mb 2 j.castSucc) pz
      linarith
    obtain ⟨f, e⟩ := C87_transform_point3d m p fm hx hy hz j (S.trans (by norm_num at hp ⊢; linarith))
    refine ⟨f, ?_⟩
    have D : |(p.x.val * rmat m 0 j.castSucc + p.y.val * rmat m 1 j.castSucc + p.z.val * rmat m 2 j.castSucc
        + rmat m 3 j.castSucc) - (p.x.val * R 0 j.castSucc + p.y.val * R 1 j.castSucc + p.z.val * R 2 j.castSucc)| ≤ P * d := by
      have e2 : (p.x.val * rmat m 0 j.castSucc + p.y.val * rmat m 1 j.castSucc + p.z.val * rmat m 2 j.castSucc
        + rmat m 3 j.castSucc) - (p.x.val * R 0 j.castSucc + p.y.val * R 1 j.castSucc + p.z.val * R 2 j.castSucc) =
        p.x.val * (rmat m 0 j.castSucc - R 0 j.castSucc) + p.y.val * (rmat m 1 j.castSucc - R 1 j.castSucc)
          + p.z.val * (rmat m 2 j.castSucc - R 2 j.castSucc) := by rw [w j]; ring
      rw [e2]
      refine (abs_add_le _ _).trans ((add_le_add (abs_add_le _ _) le_rfl).trans ?_)
      rw [_root_.abs_mul, _root_.abs_mul, _root_.abs_mul]
      have := mul_le_mul_of_nonneg_left (ub 0 j.castSucc) px
      have := mul_le_mul_of_nonneg_left (ub 1 j.castSucc) py
      have := mul_le_mul_of_nonneg_left (ub 2 j.castSucc) pz
      rw [hP]; linarith
    have t := (abs_sub_le _ _ _).trans (add_le_add e D)
    refine t.trans ?_
    have e3 : P * (1 / 2 ^ 15 + |angle.val| / 2 ^ 28) = P * d + P / 2 ^ 16 := by rw [hd]; ring
    have P0 : 0 ≤ P := by positivity
    rw [e3]; unfold dotErr
    norm_num at S ⊢; linarith
  intro r t e
  have c0 := core 0
  have c1 := core 1
  have c2 := core 2
  have t0 : t.x = p.x.val * R 0 0 + p.y.val * R 1 0 + p.z.val * R 2 0 := by
    simp [t, hR, rodMat, rodrigues]; ring
  have t1 : t.y = p.x.val * R 0 1 + p.y.val * R 1 1 + p.z.val * R 2 1 := by
    simp [t, hR, rodMat, rodrigues]; ring
  have t2 : t.z = p.x.val * R 0 2 + p.y.val * R 1 2 + p.z.val * R 2 2 := by
    simp [t, hR, rodMat, rodrigues]; ring
  refine ⟨⟨c0.1, c1.1, c2.1⟩, ?_, ?_, ?_⟩
  · rw [t0]; exact c0.2
  · rw [t1]; exact c1.2
  · rw [t2]; exact c2.2

/-! ## quaternions from angles -/

omit [Libm binary32] in
/-- halving is exact, up to half a subnormal step -/
theorem half_near {a r : F32} (ha : a.isFin = true) (hb : |a.val| ≤ 2 ^ 127) (h : Rnd (a.val / 2) r) :
    r.isFin = true ∧ |r.val - a.val / 2| ≤ 1 / 2 ^ 150 := by
  have hr : r.isFin = true := h.isFin hp32 (by
    rw [abs_div, abs_of_pos (by norm_num : (0 : ℝ) < 2)]
    exact le_trans (by linarith [abs_nonneg a.val]) le_max32)
  refine ⟨hr, ?_⟩
  cases a with
  | nan => simp [Fp.isFin] at ha
  | inf s => simp [Fp.isFin] at ha
  | fin s m hm =>
    have rep : binary32.Rep (m / 2) := by
      obtain ⟨h1, h2⟩ := hm
      refine ⟨lt_of_le_of_lt (Nat.div_le_self _ _) h1, ?_⟩
      unfold Fmt.ulpExp at *
      rcases Nat.lt_or_ge m 2 with h0 | h0
      · have : m / 2 = 0 := Nat.div_eq_of_lt h0
        rw [this]; exact dvd_zero _
      · have lg : (m / 2).log2 = m.log2 - 1 := by
          conv_rhs => rw [Nat.log2_def, if_pos h0]
          omega
        rw [lg]
        rcases Nat.eq_zero_or_pos (m.log2 + 1 - binary32.prec) with hz | hz
        · have : m.log2 - 1 + 1 - binary32.prec = 0 := by omega
          rw [this]; exact one_dvd _
        · have e : m.log2 + 1 - binary32.prec = (m.log2 - 1 + 1 - binary32.prec) + 1 := by
            have : 1 ≤ m.log2 := by
              rw [Nat.le_log2 (by omega)]; simpa using h0
            omega
          rw [e, pow_succ] at h2
          obtain ⟨k, hk⟩ := h2
          refine ⟨k, ?_⟩
          generalize 2 ^ (m.log2 - 1 + 1 - binary32.prec) = w at *
          rw [hk, Nat.mul_assoc, Nat.mul_comm 2 k, ← Nat.mul_assoc, Nat.mul_div_cancel _ (by norm_num)]
    have n := Rnd.nearest h hr (c := fin s (m / 2) rep) rfl
    refine n.trans ?_
    have hh : |((m / 2 : ℕ) : ℝ) - (m : ℝ) / 2| ≤ 1 / 2 := by
      have h1 := Nat.div_add_mod m 2
      have h2 : m % 2 < 2 := Nat.mod_lt _ (by norm_num)
      have h3 : (2 : ℝ) * ((m / 2 : ℕ) : ℝ) + ((m % 2 : ℕ) : ℝ) = m := by exact_mod_cast h1
      have h4 : ((m % 2 : ℕ) : ℝ) ≤ 1 := by exact_mod_cast (by omega : m % 2 ≤ 1)
      have h5 : (0 : ℝ) ≤ ((m % 2 : ℕ) : ℝ) := Nat.cast_nonneg _
      rw [_root_.abs_le]; constructor <;> linarith
    rw [val_fin, val_fin, sgn_real, sgn_real]
    have e : ∀ t : ℝ, |t| = 1 → |t * ((m / 2 : ℕ) : ℝ) / 2 ^ binary32.ubit - t * (m : ℝ) / 2 ^ binary32.ubit / 2| =
        |((m / 2 : ℕ) : ℝ) - (m : ℝ) / 2| / 2 ^ 149 := by
      intro t ht
      have : t * ((m / 2 : ℕ) : ℝ) / 2 ^ binary32.ubit - t * (m : ℝ) / 2 ^ binary32.ubit / 2 =
          t * (((m / 2 : ℕ) : ℝ) - (m : ℝ) / 2) / 2 ^ 149 := by ring
      rw [this, abs_div, _root_.abs_mul, ht, _root_.one_mul, abs_of_pos (by positivity : (0 : ℝ) < 2 ^ 149)]
    rw [e _ (by cases s <;> simp), div_le_iff₀ (by positivity)]
    refine hh.trans (by norm_num)

theorem half_trig (ht : TrigAccurate) {a r : F32} (ha : a.isFin = true) (hb : |a.val| ≤ 2 ^ 16) (h : Rnd (a.val / 2) r) :
    Approx (Libm.sin r) (Real.sin (a.val / 2)) 1 (1 + 9 / 2 ^ 26) ∧ Approx (Libm.cos r) (Real.cos (a.val / 2)) 1 (1 + 9 / 2 ^ 26) := by
  obtain ⟨rf, re⟩ := half_near ha (hb.trans (by norm_num)) h
  have rb : |r.val| ≤ 2 ^ 16 := by
    have t := abs_add_le (r.val - a.val / 2) (a.val / 2)
    rw [sub_add_cancel, abs_div, abs_of_pos (by norm_num : (0 : ℝ) < 2)] at t
    norm_num at *; linarith
  obtain ⟨⟨a1, b1⟩, a2, b2⟩ := ht r rf rb
  have s := Real.abs_sin_sub_sin_le r.val (a.val / 2)
  have c := Real.abs_cos_sub_cos_le r.val (a.val / 2)
  refine ⟨⟨a1, Real.abs_sin_le_one _, ((abs_sub_le _ _ _).trans (add_le_add b1 (s.trans re))).trans (by norm_num)⟩,
    ⟨a2, Real.abs_cos_le_one _, ((abs_sub_le _ _ _).trans (add_le_add b2 (c.trans re))).trans (by norm_num)⟩⟩

theorem triple {a b c d e f : F32} {A B C D E F : ℝ} (ha : Approx a A 1 (1 + 9 / 2 ^ 26)) (hb : Approx b B 1 (1 + 9 / 2 ^ 26))
    (hc : Approx c C 1 (1 + 9 / 2 ^ 26)) (hd : Approx d D 1 (1 + 9 / 2 ^ 26)) (he : Approx e E 1 (1 + 9 / 2 ^ 26))
    (hf : Approx f F 1 (1 + 9 / 2 ^ 26)) :
    (let r := Fp.add (Fp.mul (Fp.mul a b) c) (Fp.mul (Fp.mul d e) f)
     r.isFin = true ∧ |r.val - (A * B * C + D * E * F)| ≤ 5 / 2 ^ 22) ∧
    (let r := Fp.sub (Fp.mul (Fp.mul a b) c) (Fp.mul (Fp.mul d e) f)
     r.isFin = true ∧ |r.val - (A * B * C - D * E * F)| ≤ 5 / 2 ^ 22) := by
  have ab := mul2_approx ha hb (by norm_num)
  have abc := mul2_approx ab hc (by norm_num)
  have de := mul2_approx hd he (by norm_num)
  have def' := mul2_approx de hf (by norm_num)
  have p := sum2_approx abc def' (by norm_num)
  have m := sub2_approx abc def' (by norm_num)
  exact ⟨⟨p.fin, p.err.trans (by norm_num)⟩, ⟨m.fin, m.err.trans (by norm_num)⟩⟩

/-- C108: the quaternion from three angles in radians (each at most `2^16`) is finite and within `5·2^-21` of the product of
the exact rotations about the axes. -/
theorem C108_from_radians (ht : TrigAccurate) (x y z : F32) (hx : x.isFin = true) (hy : y.isFin = true) (hz : z.isFin = true)
    (bx : |x.val| ≤ 2 ^ 16) (by' : |y.val| ≤ 2 ^ 16) (bz : |z.val| ≤ 2 ^ 16) :
    FiniteQ (Quat.initFromRadians x y z) ∧
      ‖ham (Quat.initFromRadians x y z) - rotX x.val * rotY y.val * rotZ z.val‖ ≤ 5 / 2 ^ 21 := by
  have hr : ∀ {a : F32}, a.isFin = true → Rnd (a.val / 2) (Fp.mul a (lit 1 2)) := by
    intro a ha
    have := rnd_mul ha Newton.half.1
    rwa [Newton.half.2, mul_one_div] at this
  obtain ⟨sx, cx⟩ := half_trig ht hx bx (hr hx)
  obtain ⟨sy, cy⟩ := half_trig ht hy by' (hr hy)
  obtain ⟨sz, cz⟩ := half_trig ht hz bz (hr hz)
  have kx := (triple sx cy cz cx sy sz).1
  have ky := (triple cx sy cz sx cy sz).2
  have kz := (triple cx cy sz sx sy cz).1
  have kw := (triple cx cy cz sx sy sz).2
  have ex : rotX x.val * rotY y.val * rotZ z.val = quat (Quat.initFromRadians x.val y.val z.val) :=
    (C73_from_radians x.val y.val z.val).1.symm
  have er : Quat.initFromRadians x.val y.val z.val =
      ⟨Real.sin (x.val / 2) * Real.cos (y.val / 2) * Real.cos (z.val / 2) + Real.cos (x.val / 2) * Real.sin (y.val / 2) * Real.sin (z.val / 2),
       Real.cos (x.val / 2) * Real.sin (y.val / 2) * Real.cos (z.val / 2) - Real.sin (x.val / 2) * Real.cos (y.val / 2) * Real.sin (z.val / 2),
       Real.cos (x.val / 2) * Real.cos (y.val / 2) * Real.sin (z.val / 2) + Real.sin (x.val / 2) * Real.sin (y.val / 2) * Real.cos (z.val / 2),
       Real.cos (x.val / 2) * Real.cos (y.val / 2) * Real.cos (z.val / 2) - Real.sin (x.val / 2) * Real.sin (y.val / 2) * Real.sin (z.val / 2)⟩ := by
    simp [Quat.initFromRadians, greal, div_eq_mul_inv]
  refine ⟨⟨kx.1, ky.1, kz.1, kw.1⟩, ?_⟩
  rw [ex, er]
  refine (norm_le_of_comp (e := 5 / 2 ^ 22) ?_ ?_ ?_ ?_).trans (by norm_num)
  · rw [Quaternion.re_sub]; exact kw.2
  · rw [Quaternion.imI_sub]; exact kx.2
  · rw [Quaternion.imJ_sub]; exact ky.2
  · rw [Quaternion.imK_sub]; exact kz.2

omit [Libm binary32] in
theorem rot_norm (r : ℝ) : ‖rotX r‖ = 1 ∧ ‖rotY r‖ = 1 ∧ ‖rotZ r‖ = 1 := by
  have h : ∀ q : Quaternion ℝ, Quaternion.normSq q = 1 → ‖q‖ = 1 := by
    intro q h
    rw [Quaternion.normSq_eq_norm_mul_self] at h
    nlinarith [norm_nonneg q]
  have s := Real.sin_sq_add_cos_sq (r / 2)
  refine ⟨h _ ?_, h _ ?_, h _ ?_⟩ <;> rw [Quaternion.normSq_def'] <;> simp only [rotX, rotY, rotZ, quat] <;> linarith

omit [Libm binary32] in
theorem rot_lip (r t : ℝ) : ‖rotX r - rotX t‖ ≤ |r - t| ∧ ‖rotY r - rotY t‖ ≤ |r - t| ∧ ‖rotZ r - rotZ t‖ ≤ |r - t| := by
  have e : r / 2 - t / 2 = (r - t) / 2 := by ring
  have s := Real.abs_sin_sub_sin_le (r / 2) (t / 2)
  have c := Real.abs_cos_sub_cos_le (r / 2) (t / 2)
  rw [e, abs_div, abs_of_pos (by norm_num : (0 : ℝ) < 2)] at s c
  have z : |(0 : ℝ) - 0| ≤ |r - t| / 2 := by rw [sub_zero, abs_zero]; positivity
  refine ⟨?_, ?_, ?_⟩ <;>
    refine (norm_le_of_comp (e := |r - t| / 2) ?_ ?_ ?_ ?_).trans (by linarith) <;>
    simp only [Quaternion.re_sub, Quaternion.imI_sub, Quaternion.imJ_sub, Quaternion.imK_sub, rotX, rotY, rotZ, quat_re, quat_i,
      quat_j, quat_k] <;> first | exact c | exact s | exact z

/-- C108: the quaternion from three angles in degrees (each at most `2^20`) is finite and within
`5·2^-21 + (|x| + |y| + |z|) / 2^29 + 2^-148` of the exact one. -/
theorem C108_from_angles (ht : TrigAccurate) (x y z : F32) (hx : x.isFin = true) (hy : y.isFin = true) (hz : z.isFin = true)
    (bx : |x.val| ≤ 2 ^ 20) (by' : |y.val| ≤ 2 ^ 20) (bz : |z.val| ≤ 2 ^ 20) :
    let d := Real.pi / 180
    FiniteQ (Quat.initFromAngles x y z) ∧
      ‖ham (Quat.initFromAngles x y z) - rotX (x.val * d) * rotY (y.val * d) * rotZ (z.val * d)‖ ≤
        5 / 2 ^ 21 + (|x.val| + |y.val| + |z.val|) / 2 ^ 29 + 1 / 2 ^ 148 := by
  intro d
  obtain ⟨fx, ex⟩ := C108_radians x hx (bx.trans (by norm_num))
  obtain ⟨fy, ey⟩ := C108_radians y hy (by'.trans (by norm_num))
  obtain ⟨fz, ez⟩ := C108_radians z hz (bz.trans (by norm_num))
  obtain ⟨f, e⟩ := C108_from_radians ht (degToRad x) (degToRad y) (degToRad z) fx fy fz (rad_range hx bx) (rad_range hy by')
    (rad_range hz bz)
  refine ⟨f, ?_⟩
  set X := (degToRad x).val
  set Y := (degToRad y).val
  set Z := (degToRad z).val
  have lx := (rot_lip X (x.val * d)).1.trans ex
  have ly := (rot_lip Y (y.val * d)).2.1.trans ey
  have lz := (rot_lip Z (z.val * d)).2.2.trans ez
  have split : rotX X * rotY Y * rotZ Z - rotX (x.val * d) * rotY (y.val * d) * rotZ (z.val * d) =
      (rotX X - rotX (x.val * d)) * rotY Y * rotZ Z + rotX (x.val * d) * (rotY Y - rotY (y.val * d)) * rotZ Z
        + rotX (x.val * d) * rotY (y.val * d) * (rotZ Z - rotZ (z.val * d)) := by
    simp only [mul_sub, sub_mul]; abel
  have n : ‖rotX X * rotY Y * rotZ Z - rotX (x.val * d) * rotY (y.val * d) * rotZ (z.val * d)‖ ≤
      (|x.val| / 2 ^ 29 + 1 / 2 ^ 150) + (|y.val| / 2 ^ 29 + 1 / 2 ^ 150) + (|z.val| / 2 ^ 29 + 1 / 2 ^ 150) := by
    rw [split]
    refine (norm_add_le _ _).trans (add_le_add ((norm_add_le _ _).trans (add_le_add ?_ ?_)) ?_)
    · rw [norm_mul, norm_mul, (rot_norm _).2.1, (rot_norm _).2.2, _root_.mul_one, _root_.mul_one]; exact lx
    · rw [norm_mul, norm_mul, (rot_norm _).1, (rot_norm _).2.2, _root_.mul_one, _root_.one_mul]; exact ly
    · rw [norm_mul, norm_mul, (rot_norm _).1, (rot_norm _).2.1, _root_.one_mul, _root_.one_mul]; exact lz
  have t := norm_add_le (ham (Quat.initFromAngles x y z) - rotX X * rotY Y * rotZ Z)
    (rotX X * rotY Y * rotZ Z - rotX (x.val * d) * rotY (y.val * d) * rotZ (z.val * d))
  rw [sub_add_sub_cancel] at t
  refine t.trans ((add_le_add e n).trans ?_)
  norm_num; linarith

/-- the unit quaternion of the rotation by `φ` about a unit axis -/
noncomputable def Spec.axisQuat (u : Point3D ℝ) (φ : ℝ) : Quaternion ℝ :=
  quat ⟨u.x * Real.sin (φ / 2), u.y * Real.sin (φ / 2), u.z * Real.sin (φ / 2), Real.cos (φ / 2)⟩

/-- C108: the quaternion from an angle in degrees (at most `2^20`) and an axis is finite and within
`5·2^-20 + |angle| / 2^29 + 2^-148` of the exact one, every back end; so is its length of 1. -/
theorem C108_angle_axis (bk : Backend) (he : EstAccurate bk) (ht : TrigAccurate) (angle : F32) (axis : Vec3 F32)
    (h : angle.isFin = true) (hb : |angle.val| ≤ 2 ^ 20) (ha : GoodAxis bk axis) :
    let q := Quat.initFromAngleVec3 bk angle axis
    let t := axisQuat (unitOf (exactV axis)) (angle.val * (Real.pi / 180))
    FiniteQ q ∧ ‖ham q - t‖ ≤ 5 / 2 ^ 20 + |angle.val| / 2 ^ 29 + 1 / 2 ^ 148 ∧ ‖t‖ = 1 ∧
      |‖ham q‖ - 1| ≤ 5 / 2 ^ 20 + |angle.val| / 2 ^ 29 + 1 / 2 ^ 148 := by
  obtain ⟨hx, hy, hz⟩ := axis_approx bk he ha
  obtain ⟨rf, re⟩ := C108_radians angle h (hb.trans (by norm_num))
  have hd : Rnd ((degToRad angle).val / 2) (Fp.div (degToRad angle) f2) := by
    have := rnd_div rf two_is.fin (by rw [two_is.val]; norm_num)
    rwa [two_is.val] at this
  obtain ⟨sa, ca⟩ := half_trig ht rf (rad_range h hb) hd
  set n := Simd4f.normalize3 bk axis.value
  have hu := exactV_unit ha
  set u := unitOf (exactV axis)
  set R := (degToRad angle).val
  have qx := mul2_approx hx sa (by norm_num)
  have qy := mul2_approx hy sa (by norm_num)
  have qz := mul2_approx hz sa (by norm_num)
  intro q t
  have fq : FiniteQ q := ⟨qx.fin, qy.fin, qz.fin, ca.fin⟩
  have e1 : ‖ham q - axisQuat u R‖ ≤ 5 / 2 ^ 20 := by
    refine (norm_le_of_comp (e := 5 / 2 ^ 21) ?_ ?_ ?_ ?_).trans (by norm_num)
    · rw [Quaternion.re_sub]; exact ca.err.trans (by norm_num)
    · rw [Quaternion.imI_sub]; exact qx.err.trans (by norm_num)
    · rw [Quaternion.imJ_sub]; exact qy.err.trans (by norm_num)
    · rw [Quaternion.imK_sub]; exact qz.err.trans (by norm_num)
  have e2 : ‖axisQuat u R - t‖ ≤ |angle.val| / 2 ^ 29 + 1 / 2 ^ 150 := by
    refine le_trans ?_ re
    have s := Real.abs_sin_sub_sin_le (R / 2) (angle.val * (Real.pi / 180) / 2)
    have c := Real.abs_cos_sub_cos_le (R / 2) (angle.val * (Real.pi / 180) / 2)
    have e : R / 2 - angle.val * (Real.pi / 180) / 2 = (R - angle.val * (Real.pi / 180)) / 2 := by ring
    rw [e, abs_div, abs_of_pos (by norm_num : (0 : ℝ) < 2)] at s c
    have ax : ∀ {t : ℝ}, t ^ 2 ≤ 1 → |t| ≤ 1 := fun {t} h => by rw [← sq_abs] at h; nlinarith [abs_nonneg t]
    have m : ∀ {a : ℝ}, a ^ 2 ≤ 1 → |a * Real.sin (R / 2) - a * Real.sin (angle.val * (Real.pi / 180) / 2)| ≤
        |R - angle.val * (Real.pi / 180)| / 2 := by
      intro a h2
      rw [← mul_sub, _root_.abs_mul]
      exact (mul_le_of_le_one_left (abs_nonneg _) (ax h2)).trans s
    have s1 := sq_nonneg u.x
    have s2 := sq_nonneg u.y
    have s3 := sq_nonneg u.z
    refine (norm_le_of_comp (e := |R - angle.val * (Real.pi / 180)| / 2) ?_ ?_ ?_ ?_).trans (by linarith)
    · rw [Quaternion.re_sub]; exact c
    · rw [Quaternion.imI_sub]; exact m (by linarith)
    · rw [Quaternion.imJ_sub]; exact m (by linarith)
    · rw [Quaternion.imK_sub]; exact m (by linarith)
  have tn : ‖t‖ = 1 := by
    have hs := Real.sin_sq_add_cos_sq (angle.val * (Real.pi / 180) / 2)
    have : ‖t‖ ^ 2 = 1 := by
      simp only [t, axisQuat, quat_norm_sq]
      linear_combination hs + (Real.sin (angle.val * (Real.pi / 180) / 2)) ^ 2 * hu
    nlinarith [norm_nonneg t]
  have tot : ‖ham q - t‖ ≤ 5 / 2 ^ 20 + |angle.val| / 2 ^ 29 + 1 / 2 ^ 148 := by
    have tr := norm_add_le (ham q - axisQuat u R) (axisQuat u R - t)
    rw [sub_add_sub_cancel] at tr
    refine tr.trans ((add_le_add e1 e2).trans ?_)
    norm_num; linarith
  refine ⟨fq, tot, tn, ?_⟩
  have := abs_norm_sub_norm_le (ham q) t
  rw [tn] at this
  exact this.trans tot

/-! ### The hypotheses are met -/

omit [Libm binary32] in
/-- the multiple of `2^-24` nearest to a number in `[-1, 1]` -/
theorem near_grid {t : ℝ} (h : |t| ≤ 1) :
    (lit (round (t * 2 ^ 24)) (2 ^ 24) : F32).isFin = true ∧
      |(lit (round (t * 2 ^ 24)) (2 ^ 24) : F32).val - t| ≤ 1 / 2 ^ 23 := by
  obtain ⟨l, u⟩ := _root_.abs_le.1 h
  have hr := abs_sub_round (t * 2 ^ 24)
  obtain ⟨r1, r2⟩ := _root_.abs_le.1 hr
  generalize round (t * 2 ^ 24) = n at *
  have b1 : n < (2 ^ 24 + 1 : ℤ) := by
    have : ((n : ℤ) : ℝ) < ((2 ^ 24 + 1 : ℤ) : ℝ) := by push_cast; norm_num at r1 r2 ⊢; linarith
    exact_mod_cast this
  have b2 : (-(2 ^ 24 + 1) : ℤ) < n := by
    have : ((-(2 ^ 24 + 1) : ℤ) : ℝ) < ((n : ℤ) : ℝ) := by push_cast; norm_num at r1 r2 ⊢; linarith
    exact_mod_cast this
  obtain ⟨f, v⟩ := lit_dyadic (n) 24 (by omega) (by norm_num)
  refine ⟨f, ?_⟩
  rw [v, _root_.abs_le]
  constructor
  · rw [le_sub_iff_add_le, le_div_iff₀ (by positivity)]; norm_num at r1 r2 ⊢; linarith
  · rw [sub_le_iff_le_add, div_le_iff₀ (by positivity)]; norm_num at r1 r2 ⊢; linarith

omit [Libm binary32] in
/-- A C library satisfying `TrigAccurate` (and any assumption on the remaining functions) exists. -/
theorem trig_exists (L : Libm binary32) :
    @Spec.TrigAccurate { L with
      sin := fun v => by
        classical exact Classical.choose (⟨lit (round (Real.sin v.val * 2 ^ 24)) (2 ^ 24), near_grid (Real.abs_sin_le_one _)⟩ :
          ∃ r : F32, r.isFin = true ∧ |r.val - Real.sin v.val| ≤ 1 / 2 ^ 23)
      cos := fun v => by
        classical exact Classical.choose (⟨lit (round (Real.cos v.val * 2 ^ 24)) (2 ^ 24), near_grid (Real.abs_cos_le_one _)⟩ :
          ∃ r : F32, r.isFin = true ∧ |r.val - Real.cos v.val| ≤ 1 / 2 ^ 23) } := by
  intro v _ _
  exact ⟨Classical.choose_spec (⟨_, near_grid (Real.abs_sin_le_one _)⟩ :
      ∃ r : F32, r.isFin = true ∧ |r.val - Real.sin v.val| ≤ 1 / 2 ^ 23),
    Classical.choose_spec (⟨_, near_grid (Real.abs_cos_le_one _)⟩ :
      ∃ r : F32, r.isFin = true ∧ |r.val - Real.cos v.val| ≤ 1 / 2 ^ 23)⟩

/-- a concrete axis is good on every backend -/
theorem axis_345 (bk : Backend) :
    GoodAxis bk (Vec3.init (lit 3 1) (lit 4 1) (lit 12 1) : Vec3 F32) := by
  have e3 := lit_int 3 (by decide)
  have e4 := lit_int 4 (by decide)
  have e5 := lit_int 12 (by decide)
  refine ⟨⟨e3.1, e4.1, e5.1⟩, ?_⟩
  have x : (Vec3.init (lit 3 1) (lit 4 1) (lit 12 1) : Vec3 F32).getX = lit 3 1 := rfl
  have y : (Vec3.init (lit 3 1) (lit 4 1) (lit 12 1) : Vec3 F32).getY = lit 4 1 := rfl
  have z : (Vec3.init (lit 3 1) (lit 4 1) (lit 12 1) : Vec3 F32).getZ = lit 12 1 := rfl
  rw [x, y, z, e3.2, e4.2, e5.2,
    show ((3 : ℤ) : ℝ) ^ 2 + ((4 : ℤ) : ℝ) ^ 2 + ((12 : ℤ) : ℝ) ^ 2 = 13 ^ 2 by norm_num, Real.sqrt_sq (by norm_num)]
  exact ⟨by norm_num, by norm_num, fun b _ => by norm_num⟩

/-- 90 degrees about (3, 4, 12), every backend: all nine entries, to within `2^-15` -/
example (bk : Backend) (he : EstAccurate bk) (ht : TrigAccurate) (i j : Fin 4) :
    |(mat (GMatrix.initRotate bk (lit 90 1 : F32) (Vec3.init (lit 3 1) (lit 4 1) (lit 12 1) : Vec3 F32)) i j).val
      - rodMat (unitOf (exactV (Vec3.init (lit 3 1) (lit 4 1) (lit 12 1) : Vec3 F32))) (Real.pi / 2) i j| ≤ 1 / 2 ^ 15 := by
  have e := lit_int 90 (by decide)
  have h := (C108_init_rotate bk he ht (lit 90 1) _ e.1 (by rw [e.2]; norm_num) (axis_345 bk) i j).2
  rw [e.2] at h
  have k : ((90 : ℤ) : ℝ) * (Real.pi / 180) = Real.pi / 2 := by push_cast; ring
  rw [k] at h
  refine h.trans ?_
  norm_num

/-- the quarter turn about the first axis, from radians -/
example (ht : TrigAccurate) : FiniteQ (Quat.initFromRadians (lit 1 1) (lit 2 1) (lit (-3) 1)) :=
  have e1 := lit_int 1 (by decide)
  have e2 := lit_int 2 (by decide)
  have e3 := lit_int (-3) (by decide)
  (C108_from_radians ht _ _ _ e1.1 e2.1 e3.1 (by rw [e1.2]; norm_num) (by rw [e2.2]; norm_num) (by rw [e3.2]; norm_num)).1

end Graphene

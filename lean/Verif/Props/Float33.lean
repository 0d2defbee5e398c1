/-
  C123: look-at matrices, skewing, perspective and normalisation of matrices in single precision.
-/
import Verif.Props.Matrix8
import Verif.Props.Float20
import Verif.Props.Float32

set_option exponentiation.threshold 3000

namespace Graphene
open Fp Spec
variable [Libm binary32]

/-! ### Look-at matrices -/

/-- the cross product of two vectors known up to an absolute error -/
theorem cross_abs (bk : Backend) (E F : V4 F32) {x y z x' y' z' A B M N : ℝ}
    (ex : Approx E.x x A M) (ey : Approx E.y y A M) (ez : Approx E.z z A M) (fx : Approx F.x x' B N)
    (fy : Approx F.y y' B N) (fz : Approx F.z z' B N) (hb : M * N ≤ 2 ^ 120) {δ : ℝ}
    (hδ : 2 * ((1 + 1 / 2 ^ 23 + 1 / 2 ^ 47) * (M * N) - A * B) + 1 / 2 ^ 148 ≤ δ) :
    let r := Simd4f.cross3 bk E F
    (r.x.isFin = true ∧ |r.x.val - (y * z' - z * y')| ≤ δ) ∧ (r.y.isFin = true ∧ |r.y.val - (z * x' - x * z')| ≤ δ) ∧
    (r.z.isFin = true ∧ |r.z.val - (x * y' - y * x')| ≤ δ) := by
  have M0 : 0 ≤ M := ex.nonneg.trans ex.le
  have N0 : 0 ≤ N := fx.nonneg.trans fx.le
  have MN := mul_nonneg M0 N0
  have k : ∀ {a b c d : F32} {s t p q : ℝ}, Approx a s A M → Approx b t B N → Approx c p A M → Approx d q B N →
      let r := Fp.sub (Fp.mul a b) (Fp.mul c d)
      r.isFin = true ∧ |r.val - (s * t - p * q)| ≤ δ := by
    intro a b c d s t p q ha hb' hc hd
    have m1 := mul2_approx ha hb' (hb.trans (by norm_num))
    have m2 := mul2_approx hc hd (hb.trans (by norm_num))
    have g := sub2_approx m1 m2 (by norm_num at hb ⊢; linarith)
    refine ⟨g.fin, g.err.trans (_root_.le_trans ?_ hδ)⟩
    norm_num; linarith
  have e : (Simd4f.cross3 bk E F).x = Fp.sub (Fp.mul E.y F.z) (Fp.mul E.z F.y) ∧
      (Simd4f.cross3 bk E F).y = Fp.sub (Fp.mul E.z F.x) (Fp.mul E.x F.z) ∧
      (Simd4f.cross3 bk E F).z = Fp.sub (Fp.mul E.x F.y) (Fp.mul E.y F.x) := by
    rcases bk with _ | _ | _ | _
    · exact ⟨rfl, rfl, rfl⟩
    · exact ⟨rfl, rfl, rfl⟩
    · rw [fmul_comm E.y F.z, fmul_comm E.z F.x, fmul_comm E.x F.y]
      exact ⟨rfl, rfl, rfl⟩
    · exact ⟨rfl, rfl, rfl⟩
  intro r
  simp only [r]
  rw [e.1, e.2.1, e.2.2]
  exact ⟨k ey fz ez fy, k ez fx ex fz, k ex fy ey fx⟩

/-- normalising (without the check for short vectors) a vector that is within `η` of an exact one of length `V` -/
theorem normalize3_near (bk : Backend) (he : EstAccurate bk) (w : V4 F32) (d : Point3D ℝ) {V η : ℝ}
    (wx : w.x.isFin = true ∧ |w.x.val - d.x| ≤ η) (wy : w.y.isFin = true ∧ |w.y.val - d.y| ≤ η)
    (wz : w.z.isFin = true ∧ |w.z.val - d.z| ≤ η) (hV : V = norm3 d)
    (V1 : 1 / 2 ^ 8 ≤ V) (V2 : V ≤ 2 ^ 61) (sm : η ≤ V / 4) :
    let n := Simd4f.normalize3 bk w
    ((Simd4f.dot3 bk w w).x <. (fltEps : F32)) = false ∧
    (n.x.isFin = true ∧ |n.x.val - d.x / V| ≤ 1 / 2 ^ 18 + 3 * η / V) ∧
    (n.y.isFin = true ∧ |n.y.val - d.y / V| ≤ 1 / 2 ^ 18 + 3 * η / V) ∧
    (n.z.isFin = true ∧ |n.z.val - d.z / V| ≤ 1 / 2 ^ 18 + 3 * η / V) ∧
    (Is w.w 0 → Is n.w 0) := by
  obtain ⟨a1, a2, a3, -⟩ := normalize_near bk he ⟨w⟩ d wx wy wz hV (_root_.le_trans (by norm_num) V1) V2 sm
  have η0 : 0 ≤ η := (abs_nonneg _).trans wx.2
  have ln := len3_near η0 wx.2 wy.2 wz.2
  obtain ⟨W, hW⟩ : ∃ W, W = √(w.x.val ^ 2 + w.y.val ^ 2 + w.z.val ^ 2) := ⟨_, rfl⟩
  have hV' : √(d.x ^ 2 + d.y ^ 2 + d.z ^ 2) = V := hV.symm
  rw [← hW, hV'] at ln
  obtain ⟨l1, l2⟩ := _root_.abs_le.1 ln
  have V0 : 0 < V := lt_of_lt_of_le (by positivity) V1
  have W0 : 0 < W := by linarith
  have W9 : 1 / 2 ^ 9 ≤ W := by norm_num at V1 ⊢; linarith
  have nl : NormLen bk W := ⟨by norm_num at W9 ⊢; linarith, by norm_num at V2 ⊢; linarith, fun _ _ => by norm_num at W9 ⊢; linarith⟩
  have hlen := C99_length3 bk he ⟨w⟩ ⟨wx.1, wy.1, wz.1⟩ hW (_root_.le_trans (by norm_num) nl.1) nl.2.1
  have hg := length_gt hlen.1 hlen.2 nl.1
  have en : Vec3.normalize bk ⟨w⟩ = ⟨Simd4f.normalize3 bk w⟩ := by unfold Vec3.normalize; rw [if_pos hg]
  rw [en] at a1 a2 a3
  have sqW : W ^ 2 = w.x.val ^ 2 + w.y.val ^ 2 + w.z.val ^ 2 := by rw [hW]; exact Real.sq_sqrt (by positivity)
  have S1 : 1 / 2 ^ 18 ≤ w.x.val ^ 2 + w.y.val ^ 2 + w.z.val ^ 2 := by
    rw [← sqW]
    calc (1 : ℝ) / 2 ^ 18 = (1 / 2 ^ 9) ^ 2 := by norm_num
      _ ≤ W ^ 2 := pow_le_pow_left₀ (by positivity) W9 2
  have S2 : w.x.val ^ 2 + w.y.val ^ 2 + w.z.val ^ 2 ≤ 2 ^ 124 := by
    rw [← sqW]
    calc W ^ 2 ≤ (2 ^ 62) ^ 2 := pow_le_pow_left₀ W0.le nl.2.1 2
      _ = 2 ^ 124 := by norm_num
  obtain ⟨f, n0, g⟩ := dot3_self bk ⟨w⟩ ⟨wx.1, wy.1, wz.1⟩ (S2.trans (by norm_num))
  change |(Vec3.dot bk ⟨w⟩ ⟨w⟩).val - (w.x.val ^ 2 + w.y.val ^ 2 + w.z.val ^ 2)| ≤ dotErr (w.x.val ^ 2 + w.y.val ^ 2 + w.z.val ^ 2) at g
  refine ⟨?_, a1, a2, a3, fun hw => ?_⟩
  · rw [Bool.eq_false_iff]
    intro hc
    change (Vec3.dot bk ⟨w⟩ ⟨w⟩).lt (fltEps : F32) = true at hc
    rw [lt_iff_val (isNaN_of_isFin f) (isNaN_of_isFin eps_is.fin), eps_is.val] at hc
    have := (_root_.abs_le.1 g).1
    unfold dotErr at this
    generalize w.x.val ^ 2 + w.y.val ^ 2 + w.z.val ^ 2 = S at *
    norm_num at this S1 hc; linarith
  · obtain ⟨rf, -⟩ := norm_core bk he f g (_root_.le_trans (by norm_num) S1) (S2.trans (by norm_num)) (fun _ _ => _root_.le_trans (by norm_num) S1)
    exact hw.zero_mul (Is.self rf)

/-- the coordinates of a vector are finite and up to `2^20` -/
def Spec.TameV (v : Vec3 F32) : Prop := Tame ⟨v.getX, v.getY, v.getZ⟩
/-- a vector divided by its length -/
noncomputable def Spec.dirOf (v : Point3D ℝ) : Point3D ℝ := ⟨v.x / norm3 v, v.y / norm3 v, v.z / norm3 v⟩
/-- the cross product -/
def Spec.crossP (u v : Point3D ℝ) : Point3D ℝ := ⟨u.y * v.z - u.z * v.y, u.z * v.x - u.x * v.z, u.x * v.y - u.y * v.x⟩
/-- the vector from one point to another -/
noncomputable def Spec.toward (a b : Vec3 F32) : Point3D ℝ := ⟨b.getX.val - a.getX.val, b.getY.val - a.getY.val, b.getZ.val - a.getZ.val⟩
/-- the first three entries of a row are within `ε` of a vector -/
def Spec.RowNear (r : V4 F32) (v : Point3D ℝ) (ε : ℝ) : Prop :=
  (r.x.isFin = true ∧ |r.x.val - v.x| ≤ ε) ∧ (r.y.isFin = true ∧ |r.y.val - v.y| ≤ ε) ∧ (r.z.isFin = true ∧ |r.z.val - v.z| ≤ ε)

omit [Libm binary32] in
theorem comp_le_norm3 (v : Point3D ℝ) : |v.x| ≤ norm3 v ∧ |v.y| ≤ norm3 v ∧ |v.z| ≤ norm3 v := by
  have s : norm3 v ^ 2 = v.x ^ 2 + v.y ^ 2 + v.z ^ 2 := Real.sq_sqrt (by positivity)
  have n : 0 ≤ norm3 v := Real.sqrt_nonneg _
  refine ⟨abs_le_of_sq_le_sq ?_ n, abs_le_of_sq_le_sq ?_ n, abs_le_of_sq_le_sq ?_ n⟩ <;> rw [s] <;>
    nlinarith [sq_nonneg v.x, sq_nonneg v.y, sq_nonneg v.z]

omit [Libm binary32] in
theorem dirOf_le (v : Point3D ℝ) (h : 0 < norm3 v) : |(dirOf v).x| ≤ 1 ∧ |(dirOf v).y| ≤ 1 ∧ |(dirOf v).z| ≤ 1 := by
  obtain ⟨a, b, c⟩ := comp_le_norm3 v
  simp only [dirOf, abs_div, abs_of_pos h, div_le_one h]
  exact ⟨a, b, c⟩

omit [Libm binary32] in
theorem dirOf_norm (v : Point3D ℝ) (h : 0 < norm3 v) : norm3 (dirOf v) = 1 := by
  have s : norm3 v ^ 2 = v.x ^ 2 + v.y ^ 2 + v.z ^ 2 := Real.sq_sqrt (by positivity)
  have e : (dirOf v).x ^ 2 + (dirOf v).y ^ 2 + (dirOf v).z ^ 2 = 1 := by
    simp only [dirOf]; field_simp; linarith
  unfold norm3; rw [e, Real.sqrt_one]

omit [Libm binary32] in
theorem crossP_norm_le (u v : Point3D ℝ) : norm3 (crossP u v) ≤ norm3 u * norm3 v := by
  have hu : norm3 u ^ 2 = u.x ^ 2 + u.y ^ 2 + u.z ^ 2 := Real.sq_sqrt (by positivity)
  have hv : norm3 v ^ 2 = v.x ^ 2 + v.y ^ 2 + v.z ^ 2 := Real.sq_sqrt (by positivity)
  have n : 0 ≤ norm3 u * norm3 v := mul_nonneg (Real.sqrt_nonneg _) (Real.sqrt_nonneg _)
  unfold norm3 at n ⊢
  rw [Real.sqrt_le_left n, mul_pow]
  change _ ≤ norm3 u ^ 2 * norm3 v ^ 2
  rw [hu, hv]
  simp only [crossP]
  nlinarith [sq_nonneg (u.x * v.x + u.y * v.y + u.z * v.z)]

/-- C123: `graphene_matrix_init_look_at` away from its degenerate cases: the rows are the axes of the exact camera frame (to the right, up, and
backwards) up to 2^-17 for the viewing direction and k·2^-13 for the others, where 1/k bounds the sine of the angle between the viewing
direction and the up vector, and the last row is exactly minus the eye. -/
theorem C123_look_at [Libm binary64] (bk : Backend) (he : EstAccurate bk) (eye center up : Vec3 F32) (h1 : TameV eye) (h2 : TameV center) (h3 : TameV up) {k : ℝ}
    (far : 1 / 2 ^ 8 ≤ norm3 (toward eye center)) (k2 : k ≤ 2 ^ 10)
    (tilt : 1 / 2 ^ 8 ≤ norm3 (crossP (dirOf (toward eye center)) (exactVec3 up)))
    (hk : norm3 (exactVec3 up) ≤ k * norm3 (crossP (dirOf (toward eye center)) (exactVec3 up))) :
    let m := GMatrix.initLookAt bk eye center up
    let z := dirOf (toward eye center)
    let x := dirOf (crossP z (exactVec3 up))
    RowNear m.x x (k / 2 ^ 14) ∧ RowNear m.y (crossP x z) (k / 2 ^ 13) ∧ RowNear m.z ⟨-z.x, -z.y, -z.z⟩ (1 / 2 ^ 17) ∧
    m.w = ⟨Fp.neg eye.getX, Fp.neg eye.getY, Fp.neg eye.getZ, f1⟩ ∧
    (Is eye.value.w 0 → Is center.value.w 0 → Is up.value.w 0 → Is m.x.w 0 ∧ Is m.y.w 0 ∧ Is m.z.w 0) := by
  intro m z x
  obtain ⟨D, hD⟩ : ∃ D, D = norm3 (toward eye center) := ⟨_, rfl⟩
  obtain ⟨C, hC⟩ : ∃ C, C = norm3 (crossP z (exactVec3 up)) := ⟨_, rfl⟩
  obtain ⟨U, hU⟩ : ∃ U, U = norm3 (exactVec3 up) := ⟨_, rfl⟩
  rw [← hD] at far
  change 1 / 2 ^ 8 ≤ norm3 (crossP z (exactVec3 up)) at tilt
  change norm3 (exactVec3 up) ≤ k * norm3 (crossP z (exactVec3 up)) at hk
  rw [← hC] at tilt hk
  rw [← hU] at hk
  have D0 : 0 < D := lt_of_lt_of_le (by positivity) far
  have C0 : 0 < C := lt_of_lt_of_le (by positivity) tilt
  -- sizes
  have D2 : D ≤ 2 ^ 22 := by
    have := gap_le h1 h2
    rw [hD]; exact this
  have U2 : U ≤ 2 ^ 22 := by
    have o := (tame_lit 0 0 0 (by decide) (by decide) (by decide))
    have := gap_le o.1 h3
    rw [o.2] at this
    rw [hU]
    refine le_trans (le_of_eq ?_) this
    simp only [gap, norm3, exactVec3, exactP, Int.cast_zero, _root_.sub_zero]
  have zn : norm3 z = 1 := dirOf_norm _ (hD ▸ D0)
  have CU : C ≤ U := by
    have := crossP_norm_le z (exactVec3 up)
    rw [zn, _root_.one_mul, ← hC, ← hU] at this; exact this
  have k1 : 1 ≤ k := by
    by_contra h
    have := mul_lt_mul_of_pos_right (_root_.not_le.1 h) C0
    linarith
  have U0 : 0 < U := by linarith
  -- the viewing direction
  obtain ⟨dv, hdv⟩ : ∃ dv, dv = Simd4f.sub center.value eye.value := ⟨_, rfl⟩
  obtain ⟨b1, b2, b3⟩ := comp_le_norm3 (toward eye center)
  rw [← hD] at b1 b2 b3
  have ed : ∀ {p q : F32}, p.isFin = true ∧ |p.val| ≤ 2 ^ 20 → q.isFin = true ∧ |q.val| ≤ 2 ^ 20 → |q.val - p.val| ≤ D →
      (Fp.sub q p).isFin = true ∧ |(Fp.sub q p).val - (q.val - p.val)| ≤ D / 2 ^ 24 := by
    intro p q hp hq h
    have a := edge_approx hp hq
    refine ⟨a.fin, a.err.trans ?_⟩
    norm_num; linarith
  obtain ⟨n1, z1, z2, z3, zw⟩ := normalize3_near bk he dv (toward eye center) (by rw [hdv]; exact ed h1.1 h2.1 b1) (by rw [hdv]; exact ed h1.2.1 h2.2.1 b2)
    (by rw [hdv]; exact ed h1.2.2 h2.2.2 b3) hD far (D2.trans (by norm_num)) (by norm_num; linarith)
  obtain ⟨Z, hZ⟩ : ∃ Z, Z = Simd4f.normalize3 bk dv := ⟨_, rfl⟩
  rw [← hZ] at z1 z2 z3 zw
  have za : 1 / 2 ^ 18 + 3 * (D / 2 ^ 24) / D ≤ 5 / 2 ^ 20 := by
    have : 3 * (D / 2 ^ 24) / D = 3 / 2 ^ 24 := by field_simp
    rw [this]; norm_num
  have zx : |Z.x.val - z.x| ≤ 5 / 2 ^ 20 := (le_of_eq (by rw [hD]; rfl)).trans (z1.2.trans za)
  have zy : |Z.y.val - z.y| ≤ 5 / 2 ^ 20 := (le_of_eq (by rw [hD]; rfl)).trans (z2.2.trans za)
  have zz : |Z.z.val - z.z| ≤ 5 / 2 ^ 20 := (le_of_eq (by rw [hD]; rfl)).trans (z3.2.trans za)
  obtain ⟨l1, l2, l3⟩ := dirOf_le (toward eye center) (hD ▸ D0)
  have Zx : Approx Z.x z.x 1 (1 + 5 / 2 ^ 20) := ⟨z1.1, l1, by linarith⟩
  have Zy : Approx Z.y z.y 1 (1 + 5 / 2 ^ 20) := ⟨z2.1, l2, by linarith⟩
  have Zz : Approx Z.z z.z 1 (1 + 5 / 2 ^ 20) := ⟨z3.1, l3, by linarith⟩
  obtain ⟨u1, u2, u3⟩ := comp_le_norm3 (exactVec3 up)
  rw [← hU] at u1 u2 u3
  have up_ : ∀ {a : F32}, a.isFin = true → |a.val| ≤ U → Approx a a.val U U := fun h1 h2 => ⟨h1, h2, by simp⟩
  obtain ⟨c1, c2, c3⟩ := cross_abs bk Z up.value Zx Zy Zz (up_ h3.1.1 u1) (up_ h3.2.1.1 u2) (up_ h3.2.2.1 u3)
    (by norm_num at U2 ⊢; linarith) (δ := 11 / 2 ^ 20 * U + 1 / 2 ^ 147) (by norm_num; linarith)
  obtain ⟨c, hc⟩ : ∃ c, c = Simd4f.cross3 bk Z up.value := ⟨_, rfl⟩
  rw [← hc] at c1 c2 c3
  have kC := mul_le_mul_of_nonneg_right k1 C0.le
  have kC2 := mul_le_mul_of_nonneg_right k2 C0.le
  have η1 : 11 / 2 ^ 20 * U + 1 / 2 ^ 147 ≤ 23 / 2 ^ 21 * (k * C) := by norm_num at hk kC tilt ⊢; linarith
  obtain ⟨n2, x1, x2, x3, xw⟩ := normalize3_near bk he c (crossP z (exactVec3 up)) c1 c2 c3 hC tilt (by norm_num at U2 CU ⊢; linarith)
    (by norm_num at η1 kC2 ⊢; linarith)
  obtain ⟨X, hX⟩ : ∃ X, X = Simd4f.normalize3 bk c := ⟨_, rfl⟩
  rw [← hX] at x1 x2 x3 xw
  have xa : 1 / 2 ^ 18 + 3 * (11 / 2 ^ 20 * U + 1 / 2 ^ 147) / C ≤ 40 * k / 2 ^ 20 := by
    have : 3 * (11 / 2 ^ 20 * U + 1 / 2 ^ 147) / C ≤ 69 / 2 ^ 21 * k := by
      rw [div_le_iff₀ C0]; norm_num at η1 ⊢; linarith
    norm_num at this ⊢; linarith
  have xx : |X.x.val - x.x| ≤ 40 * k / 2 ^ 20 := (le_of_eq (by rw [hC]; rfl)).trans (x1.2.trans xa)
  have xy : |X.y.val - x.y| ≤ 40 * k / 2 ^ 20 := (le_of_eq (by rw [hC]; rfl)).trans (x2.2.trans xa)
  have xz : |X.z.val - x.z| ≤ 40 * k / 2 ^ 20 := (le_of_eq (by rw [hC]; rfl)).trans (x3.2.trans xa)
  obtain ⟨m1, m2, m3⟩ := dirOf_le (crossP z (exactVec3 up)) (hC ▸ C0)
  have Xx : Approx X.x x.x 1 (1 + 40 * k / 2 ^ 20) := ⟨x1.1, m1, by linarith⟩
  have Xy : Approx X.y x.y 1 (1 + 40 * k / 2 ^ 20) := ⟨x2.1, m2, by linarith⟩
  have Xz : Approx X.z x.z 1 (1 + 40 * k / 2 ^ 20) := ⟨x3.1, m3, by linarith⟩
  obtain ⟨y1, y2, y3⟩ := cross_abs bk X Z Xx Xy Xz Zx Zy Zz (by norm_num at k2 ⊢; linarith) (δ := k / 2 ^ 13) (by
    norm_num at k2 ⊢; linarith)
  have hm : m = ⟨X, Simd4f.cross3 bk X Z, Simd4f.neg bk Z, ⟨Fp.neg eye.getX, Fp.neg eye.getY, Fp.neg eye.getZ, f1⟩⟩ := by
    subst hX hc hZ hdv
    have e : m = GMatrix.initLookAt bk eye center up := rfl
    rw [e]
    simp only [GMatrix.initLookAt, Simd4x4f.initLookAt, n1, Bool.false_eq_true, if_false, n2]
    rfl
  have cw : ∀ {a b : V4 F32}, Is a.w 0 → Is b.w 0 → Is (Simd4f.cross3 bk a b).w 0 := by
    intro a b ha hb
    rcases bk with _ | _ | _ | _
    · exact (ha.mul_zero hb).sub_zero (ha.mul_zero hb)
    · exact is_f0
    · exact is_f0
    · exact is_f0
  rw [hm]
  have w14 : 40 * k / 2 ^ 20 ≤ k / 2 ^ 14 := by norm_num; linarith
  refine ⟨⟨⟨x1.1, xx.trans w14⟩, ⟨x2.1, xy.trans w14⟩, ⟨x3.1, xz.trans w14⟩⟩, ⟨y1, y2, y3⟩, ?_, rfl, ?_⟩
  · have ng : ∀ {a : F32} {v : ℝ}, a.isFin = true → |a.val - v| ≤ 5 / 2 ^ 20 → (Simd4f.neg1 bk a).isFin = true ∧ |(Simd4f.neg1 bk a).val - -v| ≤ 1 / 2 ^ 17 := by
      intro a v ha hv
      obtain ⟨p, q⟩ := neg1_val bk ha
      refine ⟨p, ?_⟩
      rw [q, neg_sub_neg, _root_.abs_sub_comm]
      exact hv.trans (by norm_num)
    exact ⟨ng z1.1 zx, ng z2.1 zy, ng z3.1 zz⟩
  · intro e1 e2 e3
    have dw : Is dv.w 0 := by rw [hdv]; exact e2.sub_zero e1
    have Zw := zw dw
    have Xw := xw (by rw [hc]; exact cw Zw e3)
    refine ⟨Xw, cw Xw Zw, ?_⟩
    obtain ⟨p, q⟩ := neg1_val bk Zw.fin
    exact ⟨p, by rw [show (Simd4f.neg bk Z).w = Simd4f.neg1 bk Z.w from rfl, q, Zw.val, neg_zero]⟩

/-! ### Skewing -/

/-- one entry of a fused or separate multiplication and addition -/
theorem madd_near (bk : Backend) (a c : V4 F32) (t : F32) (ha : FinVec a) (hc : FinVec c) (ht : t.isFin = true) (j : Fin 4)
    (h : |rvec a j * t.val| + |rvec c j| ≤ 2 ^ 126) :
    (vec (Simd4f.madd bk a (Simd4f.splat t) c) j).isFin = true ∧
    |rvec (Simd4f.madd bk a (Simd4f.splat t) c) j - (rvec c j + t.val * rvec a j)| ≤ (|rvec a j * t.val| + |rvec c j|) / 2 ^ 22 + 1 / 2 ^ 149 := by
  have sep := axpy_approx (ha j) ht (hc j) h
  have fus : (Fp.fma (vec a j) t (vec c j)).isFin = true ∧ |(Fp.fma (vec a j) t (vec c j)).val - (rvec c j + t.val * rvec a j)| ≤
      (|rvec a j * t.val| + |rvec c j|) / 2 ^ 22 + 1 / 2 ^ 149 := by
    have r := rnd_fma (ha j) ht (hc j)
    have b : |rvec a j * t.val + rvec c j| ≤ |rvec a j * t.val| + |rvec c j| := abs_add_le _ _
    have f := r.isFin hp32 ((b.trans h).trans (le_trans (by norm_num) le_max32))
    have e := r.err_add f
    rw [u32, eta32] at e
    change |_ - (rvec a j * t.val + rvec c j)| ≤ 1 / 16777216 * |rvec a j * t.val + rvec c j| + _ at e
    rw [show rvec c j + t.val * rvec a j = rvec a j * t.val + rvec c j by ring]
    refine ⟨f, e.trans ?_⟩
    have B0 := abs_nonneg (rvec a j * t.val)
    have C0 := abs_nonneg (rvec c j)
    generalize |rvec a j * t.val + rvec c j| = A at *
    generalize |rvec a j * t.val| = B at *
    generalize |rvec c j| = C at *
    norm_num at b B0 C0 ⊢; linarith
  rcases bk with ⟨s, _ | _⟩ | _ | _ | _ <;> fin_cases j <;> first | exact sep | exact fus

/-- C123: the three skews change a single row, to the exact combination of two rows up to a relative 2^-22 of its terms. -/
theorem C123_skew (bk : Backend) (m : M4 F32) (t : F32) (hm : FinMat m) (ht : t.isFin = true)
    (hbig : ∀ i i' j, |rmat m i j * t.val| + |rmat m i' j| ≤ 2 ^ 126) :
    let near := fun (r : V4 F32) (i i' : Fin 4) => ∀ j, (vec r j).isFin = true ∧
      |rvec r j - (rmat m i' j + t.val * rmat m i j)| ≤ (|rmat m i j * t.val| + |rmat m i' j|) / 2 ^ 22 + 1 / 2 ^ 149
    let xy := GMatrix.skewXY bk m t
    let xz := GMatrix.skewXZ bk m t
    let yz := GMatrix.skewYZ bk m t
    (xy.x = m.x ∧ near xy.y 0 1 ∧ xy.z = m.z ∧ xy.w = m.w) ∧
    (xz.x = m.x ∧ xz.y = m.y ∧ near xz.z 0 2 ∧ xz.w = m.w) ∧
    (yz.x = m.x ∧ yz.y = m.y ∧ near yz.z 1 2 ∧ yz.w = m.w) :=
  ⟨⟨rfl, fun j => madd_near bk m.x m.y t (hm 0) (hm 1) ht j (hbig 0 1 j), rfl, rfl⟩,
   ⟨rfl, rfl, fun j => madd_near bk m.x m.z t (hm 0) (hm 2) ht j (hbig 0 2 j), rfl⟩,
   ⟨rfl, rfl, fun j => madd_near bk m.y m.z t (hm 1) (hm 2) ht j (hbig 1 2 j), rfl⟩⟩

/-! ### Perspective and normalisation -/

theorem persp_recip {d : F32} (hd : d.isFin = true) (d1 : 1 / 2 ^ 60 ≤ |d.val|) (d2 : |d.val| ≤ 2 ^ 60) :
    (Fp.div (lit (-1) 1) d).isFin = true ∧ |(Fp.div (lit (-1) 1) d).val - -1 / d.val| ≤ |1 / d.val| / 2 ^ 24 := by
  have d0 : 0 < |d.val| := lt_of_lt_of_le (by positivity) d1
  have dne : d.val ≠ 0 := abs_pos.1 d0
  have n1 := is_lit_int (-1) (by decide)
  have n1' : (lit (-1) 1 : F32).val = -1 := by simpa using n1.val
  have r := rnd_div n1.fin hd dne
  have b : |(lit (-1) 1 : F32).val / d.val| ≤ 2 ^ 60 := by
    rw [n1', abs_div, _root_.abs_neg, abs_one, div_le_iff₀ d0]; norm_num at d1 ⊢; linarith
  have kf := r.isFin hp32 (b.trans (le_trans (by norm_num) le_max32))
  refine ⟨kf, ?_⟩
  have e := r.err kf
  rw [n1', u32, eta32] at e
  have q : |(-1) / d.val| = |1 / d.val| := by rw [neg_div, _root_.abs_neg]
  rw [q] at e
  have lo : 1 / 2 ^ 60 ≤ |1 / d.val| := by
    rw [abs_div, abs_one, le_div_iff₀ d0]; norm_num at d2 ⊢; linarith
  rcases e with e | e <;> refine e.trans ?_ <;> generalize |1 / d.val| = A at * <;> norm_num at lo ⊢ <;> linarith

theorem persp_entry {d k z w : F32} (kf : k.isFin = true) (d1 : 1 / 2 ^ 60 ≤ |d.val|)
    (ke : |k.val - -1 / d.val| ≤ |1 / d.val| / 2 ^ 24) (hz : z.isFin = true) (hw : w.isFin = true) (zb : |z.val| ≤ 2 ^ 60)
    (wb : |w.val| ≤ 2 ^ 60) :
    (Fp.add w (Fp.add z (Fp.mul k w))).isFin = true ∧ |(Fp.add w (Fp.add z (Fp.mul k w))).val - (w.val + (z.val - w.val / d.val))| ≤
        (|w.val| + |z.val| + |w.val / d.val|) / 2 ^ 21 + 1 / 2 ^ 148 := by
  have d0 : 0 < |d.val| := lt_of_lt_of_le (by positivity) d1
  have q0 : |w.val / d.val| ≤ 2 ^ 120 := by
    rw [abs_div, div_le_iff₀ d0]
    norm_num at d1 wb ⊢; linarith
  have ak : Approx k (-1 / d.val) |1 / d.val| ((1 + 1 / 2 ^ 24) * |1 / d.val|) :=
    ⟨kf, by rw [neg_div, _root_.abs_neg], by refine ke.trans (le_of_eq ?_); ring⟩
  have e1 : (1 + 1 / 2 ^ 24) * |1 / d.val| * |w.val| = (1 + 1 / 2 ^ 24) * |w.val / d.val| := by
    rw [abs_div, abs_div, abs_one]; ring
  have e2 : |1 / d.val| * |w.val| = |w.val / d.val| := by
    rw [abs_div, abs_div, abs_one]; ring
  have A0 := abs_nonneg (w.val / d.val)
  have B0 := abs_nonneg w.val
  have C0 := abs_nonneg z.val
  have p := mul2_approx ak (Approx.exact hw) (by rw [e1]; generalize |w.val / d.val| = A at *; norm_num at q0 ⊢; linarith)
  rw [e1, e2] at p
  have s := sum2_approx (Approx.exact hz) p (by
    generalize |w.val / d.val| = A at *; generalize |z.val| = C at *; norm_num at q0 zb ⊢; linarith)
  have t := sum2_approx (Approx.exact hw) s (by
    generalize |w.val / d.val| = A at *; generalize |z.val| = C at *; generalize |w.val| = B at *; norm_num at q0 zb wb ⊢; linarith)
  have ee : w.val + (z.val + -1 / d.val * w.val) = w.val + (z.val - w.val / d.val) := by ring
  rw [ee] at t
  refine ⟨t.fin, t.err.trans ?_⟩
  generalize |w.val / d.val| = A at *; generalize |z.val| = C at *; generalize |w.val| = B at *
  norm_num at A0 B0 C0 ⊢; linarith

theorem rmat_val (m : M4 F32) (i j : Fin 4) : rmat m i j = (mat m i j).val := rfl

omit [Libm binary32] in
theorem mat_zero {α : Type} (m : M4 α) (i : Fin 4) : mat m i 0 = ![m.x.x, m.y.x, m.z.x, m.w.x] i := by fin_cases i <;> rfl
omit [Libm binary32] in
theorem mat_one {α : Type} (m : M4 α) (i : Fin 4) : mat m i 1 = ![m.x.y, m.y.y, m.z.y, m.w.y] i := by fin_cases i <;> rfl
omit [Libm binary32] in
theorem mat_two {α : Type} (m : M4 α) (i : Fin 4) : mat m i 2 = ![m.x.z, m.y.z, m.z.z, m.w.z] i := by fin_cases i <;> rfl
omit [Libm binary32] in
theorem mat_three {α : Type} (m : M4 α) (i : Fin 4) : mat m i 3 = ![m.x.w, m.y.w, m.z.w, m.w.w] i := by fin_cases i <;> rfl

omit [Libm binary32] in
theorem persp_cols {α : Type} [Scalar α] (m : M4 α) (d : α) (i : Fin 4) :
    (∀ j : Fin 4, j ≠ 3 → mat (GMatrix.perspective m d) i j = mat m i j) ∧
    mat (GMatrix.perspective m d) i 3 = mat m i 3 +. (mat m i 2 +. (Scalar.lit (-1) 1 /. d) *. mat m i 3) := by
  refine ⟨fun j h => ?_, ?_⟩
  · have : j = 0 ∨ j = 1 ∨ j = 2 := by revert h; revert j; decide
    rcases this with rfl | rfl | rfl
    · rw [mat_zero, mat_zero]; rfl
    · rw [mat_one, mat_one]; rfl
    · rw [mat_two, mat_two]; rfl
  · rw [mat_three, mat_three, mat_two]
    fin_cases i <;> rfl
omit [Libm binary32] in
theorem normalize_entry {α : Type} [Scalar α] (m : M4 α) (k : α) (i j : Fin 4) :
    mat (⟨Simd4f.mul m.x (Simd4f.splat k), Simd4f.mul m.y (Simd4f.splat k), Simd4f.mul m.z (Simd4f.splat k), Simd4f.mul m.w (Simd4f.splat k)⟩ : M4 α) i j =
      mat m i j *. k := by
  fin_cases i <;> fin_cases j <;> rfl

/-- C123: `graphene_matrix_perspective` keeps the first three columns and adds `z - w/depth` to the last one, up to a relative 2^-21 of the terms. -/
theorem C123_perspective (m : M4 F32) (d : F32) (hm : FinMat m) (hd : d.isFin = true) (d1 : 1 / 2 ^ 60 ≤ |d.val|) (d2 : |d.val| ≤ 2 ^ 60)
    (hbig : ∀ i j, |rmat m i j| ≤ 2 ^ 60) (i : Fin 4) :
    let r := GMatrix.perspective m d
    (∀ j : Fin 4, j ≠ 3 → mat r i j = mat m i j) ∧ (mat r i 3).isFin = true ∧
    |rmat r i 3 - (rmat m i 3 + (rmat m i 2 - rmat m i 3 / d.val))| ≤
      (|rmat m i 3| + |rmat m i 2| + |rmat m i 3 / d.val|) / 2 ^ 21 + 1 / 2 ^ 148 := by
  obtain ⟨kf, ke⟩ := persp_recip hd d1 d2
  obtain ⟨c, e⟩ := persp_cols m d i
  refine ⟨c, ?_⟩
  simp only [rmat_val, e] at hbig ⊢
  exact persp_entry kf d1 ke (hm i 2) (hm i 3) (hbig i 2) (hbig i 3)

theorem approx_zero {a : F32} (ha : a.isFin = true) : approxVal a (f0 : F32) = true ↔ |a.val| < 1 / 2 ^ 23 := by
  have e := eps_is
  have z : Is (f0 : F32) 0 := is_f0
  have s := (Is.self ha).sub_zero z
  have s' : Is (Fp.sub (f0 : F32) a) (-a.val) := by
    have := Is.sub_of z (Is.self ha) (c := Fp.neg a) ((Is.self ha).neg.congr (by ring))
    exact this.congr (by ring)
  change (if (f0 : F32).lt a = true then Fp.sub a f0 else Fp.sub f0 a).lt (fltEps : F32) = true ↔ _
  have cmp : (f0 : F32).lt a = true ↔ 0 < a.val := by
    rw [lt_iff_val (isNaN_of_isFin z.fin) (isNaN_of_isFin ha), z.val]
  by_cases h : (f0 : F32).lt a = true
  · rw [if_pos h, lt_iff_val (isNaN_of_isFin s.fin) (isNaN_of_isFin e.fin), s.val, e.val, _root_.abs_of_pos (cmp.1 h)]
  · rw [if_neg h, lt_iff_val (isNaN_of_isFin s'.fin) (isNaN_of_isFin e.fin), s'.val, e.val,
      _root_.abs_of_nonpos (not_lt.1 (fun q => h (cmp.2 q)))]

/-- C123: `graphene_matrix_normalize` divides every entry by the last one, up to a relative 2^-22; it gives no result exactly when that entry is
smaller than FLT_EPSILON. -/
theorem C123_normalize (m : M4 F32) (hm : FinMat m) (hb : |rmat m 3 3| ≤ 2 ^ 100) :
    (|rmat m 3 3| < 1 / 2 ^ 23 → GMatrix.normalize m = none) ∧
    (1 / 2 ^ 23 ≤ |rmat m 3 3| → ∃ r, GMatrix.normalize m = some r ∧ ∀ i j, |rmat m i j / rmat m 3 3| ≤ 2 ^ 126 →
      (mat r i j).isFin = true ∧ |rmat r i j - rmat m i j / rmat m 3 3| ≤ |rmat m i j / rmat m 3 3| / 2 ^ 22 + 1 / 2 ^ 149) := by
  have av := approx_zero (hm 3 3)
  refine ⟨fun h => if_pos (av.2 h), fun h => ?_⟩
  have ne : ¬ approxVal m.w.w (f0 : F32) = true := fun q => absurd (av.1 q) (not_lt.2 h)
  refine ⟨_, if_neg ne, fun i j hij => ?_⟩
  have d0 : 0 < |rmat m 3 3| := lt_of_lt_of_le (by positivity) h
  have r := rnd_div is_f1.fin (hm 3 3) (abs_pos.1 d0)
  change Rnd ((f1 : F32).val / rmat m 3 3) _ at r
  rw [is_f1.val] at r
  have b : |1 / rmat m 3 3| ≤ 2 ^ 23 := by
    rw [abs_div, abs_one, div_le_iff₀ d0]; norm_num at h ⊢; linarith
  have kf := r.isFin hp32 (b.trans (le_trans (by norm_num) le_max32))
  have lo : 1 / 2 ^ 100 ≤ |1 / rmat m 3 3| := by
    rw [abs_div, abs_one, le_div_iff₀ d0]; norm_num at hb ⊢; linarith
  have ke : |(Fp.div (f1 : F32) (mat m 3 3)).val - 1 / rmat m 3 3| ≤ |1 / rmat m 3 3| / 2 ^ 24 := by
    have e := r.err kf
    rw [u32, eta32] at e
    rcases e with e | e <;> refine e.trans ?_ <;> generalize |1 / rmat m 3 3| = A at * <;> norm_num at lo ⊢ <;> linarith
  have ak : Approx (Fp.div (f1 : F32) (mat m 3 3)) (1 / rmat m 3 3) |1 / rmat m 3 3| ((1 + 1 / 2 ^ 24) * |1 / rmat m 3 3|) :=
    ⟨kf, _root_.le_refl _, by refine ke.trans (le_of_eq ?_); ring⟩
  have e1 : |(mat m i j).val| * ((1 + 1 / 2 ^ 24) * |1 / rmat m 3 3|) = (1 + 1 / 2 ^ 24) * |rmat m i j / rmat m 3 3| := by
    rw [abs_div, abs_div, abs_one, show rmat m i j = (mat m i j).val from rfl]; ring
  have e2 : |(mat m i j).val| * |1 / rmat m 3 3| = |rmat m i j / rmat m 3 3| := by
    rw [abs_div, abs_div, abs_one, show rmat m i j = (mat m i j).val from rfl]; ring
  have A0 := abs_nonneg (rmat m i j / rmat m 3 3)
  have p := mul2_approx (Approx.exact (hm i j)) ak (by
    rw [e1]; generalize |rmat m i j / rmat m 3 3| = A at *; norm_num at hij ⊢; linarith)
  rw [e1, e2, show (mat m i j).val * (1 / rmat m 3 3) = rmat m i j / rmat m 3 3 by rw [show (mat m i j).val = rmat m i j from rfl]; ring] at p
  have pe := p.err
  have pf := p.fin
  have me := normalize_entry m ((f1 : F32) /. m.w.w) i j
  have me' : rmat _ i j = (mat m i j *. ((f1 : F32) /. m.w.w)).val := congrArg Fp.val me
  rw [me, me']
  refine ⟨pf, pe.trans ?_⟩
  generalize |rmat m i j / rmat m 3 3| = A at *
  norm_num at A0 ⊢; linarith

/-- C123: `graphene_matrix_init_skew` moves a point by the tangents of the two angles: with a tangent function accurate to a relative 2^-22, the two
entries off the diagonal are within that of the true tangents, and the other fourteen are exact. -/
theorem C123_init_skew (ht : TanAccurate) (a b : F32) (ha : a.isFin = true) (hb : b.isFin = true) (a1 : 1 / 2 ^ 8 ≤ a.val) (a2 : a.val ≤ 25 / 16)
    (b1 : 1 / 2 ^ 8 ≤ b.val) (b2 : b.val ≤ 25 / 16) :
    let m := GMatrix.initSkew a b
    FinMat m ∧ |rmat m 1 0 - Real.tan a.val| ≤ Real.tan a.val / 2 ^ 22 ∧ |rmat m 0 1 - Real.tan b.val| ≤ Real.tan b.val / 2 ^ 22 ∧
    ∀ i j, (i, j) ≠ (1, 0) → (i, j) ≠ (0, 1) → rmat m i j = if i = j then 1 else 0 := by
  obtain ⟨fa, ea⟩ := ht a ha a1 a2
  obtain ⟨fb, eb⟩ := ht b hb b1 b2
  have z : Is (f0 : F32) 0 := is_f0
  have o : Is (f1 : F32) 1 := is_f1
  refine ⟨?_, ea, eb, ?_⟩
  · intro i j; fin_cases i <;> fin_cases j <;> first | exact z.fin | exact o.fin | exact fa | exact fb
  · intro i j h h'
    fin_cases i <;> fin_cases j <;> first | exact z.val | exact o.val | exact absurd rfl h | exact absurd rfl h'

/-! ### The conditions are met -/

/-- the camera at (0, 0, 5) looking at (3, 0, 1) with the y axis up -/
example [Libm binary64] (bk : Backend) (he : EstAccurate bk) :
    RowNear (GMatrix.initLookAt bk (Vec3.init (lit 0 1) (lit 0 1) (lit 5 1)) (Vec3.init (lit 3 1) (lit 0 1) (lit 1 1)) (Vec3.init (lit 0 1) (lit 1 1) (lit 0 1))).z
      ⟨-3 / 5, 0, 4 / 5⟩ (1 / 2 ^ 17) := by
  have v : ∀ n : ℤ, n.natAbs ≤ 5 → (lit n 1 : F32).val = n := fun n hn => (lit_int n (by omega)).2
  have v0 : (lit 0 1 : F32).val = 0 := by simpa using v 0 (by decide)
  have v1 : (lit 1 1 : F32).val = 1 := by simpa using v 1 (by decide)
  have v3 : (lit 3 1 : F32).val = 3 := by simpa using v 3 (by decide)
  have v5 : (lit 5 1 : F32).val = 5 := by simpa using v 5 (by decide)
  have t : toward (Vec3.init (lit 0 1) (lit 0 1) (lit 5 1)) (Vec3.init (lit 3 1) (lit 0 1) (lit 1 1)) = ⟨3, 0, -4⟩ := by
    change (⟨(lit 3 1 : F32).val - (lit 0 1 : F32).val, (lit 0 1 : F32).val - (lit 0 1 : F32).val, (lit 1 1 : F32).val - (lit 5 1 : F32).val⟩ : Point3D ℝ) = _
    rw [v0, v1, v3, v5]; norm_num
  have u : exactVec3 (Vec3.init (lit 0 1) (lit 1 1) (lit 0 1) : Vec3 F32) = ⟨0, 1, 0⟩ := by
    change (⟨(lit 0 1 : F32).val, (lit 1 1 : F32).val, (lit 0 1 : F32).val⟩ : Point3D ℝ) = _
    rw [v1, v0]
  have n5 : norm3 ⟨3, 0, -4⟩ = 5 := by
    rw [norm3, show ((3 : ℝ) ^ 2 + 0 ^ 2 + (-4) ^ 2) = 5 ^ 2 by norm_num]; exact Real.sqrt_sq (by norm_num)
  have d : dirOf ⟨3, 0, -4⟩ = ⟨3 / 5, 0, -4 / 5⟩ := by
    rw [dirOf, n5]; norm_num
  have c : norm3 (crossP ⟨3 / 5, 0, -4 / 5⟩ ⟨0, 1, 0⟩) = 1 := by
    simp only [norm3, crossP]; norm_num
  have n1 : norm3 ⟨0, 1, 0⟩ = 1 := by
    simp only [norm3]; norm_num
  have h := (C123_look_at bk he (Vec3.init (lit 0 1) (lit 0 1) (lit 5 1)) (Vec3.init (lit 3 1) (lit 0 1) (lit 1 1)) (Vec3.init (lit 0 1) (lit 1 1) (lit 0 1))
    (tame_lit 0 0 5 (by decide) (by decide) (by decide)).1 (tame_lit 3 0 1 (by decide) (by decide) (by decide)).1
    (tame_lit 0 1 0 (by decide) (by decide) (by decide)).1 (k := 1) (by rw [t, n5]; norm_num) (by norm_num) (by rw [t, d, u, c]; norm_num)
    (by rw [t, d, u, c, n1]; norm_num)).2.2.1
  rw [t, d] at h
  norm_num at h ⊢
  exact h

/-- a matrix and a factor that meet the conditions of the skews, of the perspective and of the normalisation -/
example : ∃ (m : M4 F32) (t : F32), FinMat m ∧ t.isFin = true ∧ t.val = 3 ∧ (∀ i j, |rmat m i j| ≤ 4) ∧ rmat m 3 3 = 4 ∧ rmat m 0 1 = 3 := by
  have g : ∀ n : ℤ, n.natAbs ≤ 7 → (lit n 1 : F32).isFin = true ∧ (lit n 1 : F32).val = n := fun n hn => lit_int n (by omega)
  have c0 := g 0 (by decide)
  have c1 := g 1 (by decide)
  have c3 := g 3 (by decide)
  have c4 := g 4 (by decide)
  have v0 : (lit 0 1 : F32).val = 0 := by simpa using c0.2
  have v1 : (lit 1 1 : F32).val = 1 := by simpa using c1.2
  have v3 : (lit 3 1 : F32).val = 3 := by simpa using c3.2
  have v4 : (lit 4 1 : F32).val = 4 := by simpa using c4.2
  refine ⟨⟨⟨lit 1 1, lit 3 1, lit 0 1, lit 0 1⟩, ⟨lit 0 1, lit 1 1, lit 0 1, lit 0 1⟩, ⟨lit 0 1, lit 0 1, lit 1 1, lit 0 1⟩,
    ⟨lit 3 1, lit 3 1, lit 1 1, lit 4 1⟩⟩, lit 3 1, ?_, c3.1, v3, ?_, v4, v3⟩
  · intro i j; fin_cases i <;> fin_cases j <;> first | exact c0.1 | exact c1.1 | exact c3.1 | exact c4.1
  · have k0 : |(lit 0 1 : F32).val| ≤ 4 := by rw [v0]; norm_num
    have k1 : |(lit 1 1 : F32).val| ≤ 4 := by rw [v1]; norm_num
    have k3 : |(lit 3 1 : F32).val| ≤ 4 := by rw [v3]; norm_num
    have k4 : |(lit 4 1 : F32).val| ≤ 4 := by rw [v4]; norm_num
    intro i j; fin_cases i <;> fin_cases j <;> first | exact k0 | exact k1 | exact k3 | exact k4

/-- skew angles of one radian -/
example (ht : TanAccurate) : |rmat (GMatrix.initSkew (lit 1 1) (lit 1 1) : M4 F32) 1 0 - Real.tan 1| ≤ Real.tan 1 / 2 ^ 22 := by
  have e := lit_int 1 (by decide)
  have v : (lit 1 1 : F32).val = 1 := by simpa using e.2
  have h := (C123_init_skew ht (lit 1 1) (lit 1 1) e.1 e.1 (by rw [v]; norm_num) (by rw [v]; norm_num) (by rw [v]; norm_num) (by rw [v]; norm_num)).2.1
  rwa [v] at h

end Graphene

/-
  C125: determinant and inverse of every matrix, in single precision.
-/
import Verif.Props.Float34
import Verif.Proofs.KDecide

set_option exponentiation.threshold 3000

namespace Graphene
open Fp Spec Simd4f
variable [Libm binary32]

/-- the cofactor expansion of a determinant with every term made positive -/
noncomputable def Spec.absExpand : (n : ℕ) → Matrix (Fin n) (Fin n) ℝ → ℝ
  | 0, _ => 1
  | n + 1, M => ∑ j, |M 0 j| * Spec.absExpand n (M.submatrix Fin.succ j.succAbove)

/-- computed with relative error `ρ` of the magnitude `W`, and absolute error `τ` -/
def Apx (ρ τ W : ℝ) (a : F32) (x : ℝ) : Prop := Approx a x W (W * (1 + ρ) + τ)

theorem apx_minor {a b c d : F32} (ha : a.isFin = true) (hb : b.isFin = true) (hc : c.isFin = true) (hd : d.isFin = true)
    (a2 : |a.val| ≤ 2 ^ 30) (b2 : |b.val| ≤ 2 ^ 30) (c2 : |c.val| ≤ 2 ^ 30) (d2 : |d.val| ≤ 2 ^ 30) {E : ℝ} (hE : |a.val| * |b.val| + |c.val| * |d.val| = E) :
    Apx (1 / 2 ^ 22) (1 / 2 ^ 148) E (a *. b -. c *. d) (a.val *. b.val -. c.val *. d.val) ∧ E ≤ 2 ^ 61 ∧ 0 ≤ E := by
  have p0 : 0 ≤ |a.val| * |b.val| := by positivity
  have q0 : 0 ≤ |c.val| * |d.val| := by positivity
  have p2 : |a.val| * |b.val| ≤ 2 ^ 30 * 2 ^ 30 := by gcongr
  have q2 : |c.val| * |d.val| ≤ 2 ^ 30 * 2 ^ 30 := by gcongr
  have p := mul2_approx (Approx.exact ha) (Approx.exact hb) (p2.trans (by norm_num))
  have q := mul2_approx (Approx.exact hc) (Approx.exact hd) (q2.trans (by norm_num))
  generalize |a.val| * |b.val| = P at *
  generalize |c.val| * |d.val| = Q at *
  have s := Approx.sub hp32 p q (le_trans (by norm_num at p2 q2 ⊢; linarith) le_max32)
  rw [u32] at s
  subst hE
  refine ⟨s.mono ?_, by norm_num at p2 q2 ⊢; linarith, by linarith⟩
  norm_num; linarith

theorem apx_maddL (bk : Backend) {a p z : F32} {p' z' A P Z ρ τ σ υ : ℝ} (ha : a.isFin = true) (hA : |a.val| = A) (A2 : A ≤ 2 ^ 30) (hp : Apx ρ τ P p p')
    (hz : Apx σ υ Z z z') (P2 : P ≤ 2 ^ 61) (Z2 : Z ≤ 2 ^ 96) (r0 : 0 ≤ ρ) (r1 : ρ ≤ 1) (t0 : 0 ≤ τ) (t1 : τ ≤ 1) (s1 : σ ≤ 1) (v1 : υ ≤ 1) {κ ω : ℝ}
    (hκ1 : (1 + 1 / 2 ^ 24) ^ 2 * (1 + ρ) ≤ 1 + κ) (hκ2 : (1 + 1 / 2 ^ 24) * (1 + σ) ≤ 1 + κ)
    (hω : 2 ^ 31 * τ + 2 * υ + 1 / 2 ^ 148 ≤ ω) (v0 : 0 ≤ υ) :
    Apx κ ω (A * P + Z) (maddL bk a p z) (maddL bk a.val p' z') := by
  have A0 : 0 ≤ A := hA ▸ abs_nonneg _
  have P0 : 0 ≤ P := hp.nonneg
  have Z0 : 0 ≤ Z := hz.nonneg
  have AP0 : 0 ≤ A * P := by positivity
  have AP2 : A * P ≤ 2 ^ 30 * 2 ^ 61 := by gcongr
  have At : A * τ ≤ 2 ^ 30 * τ := by gcongr
  have At0 : 0 ≤ A * τ := by positivity
  have E1 : A * (P * (1 + ρ) + τ) = A * P * (1 + ρ) + A * τ := by ring
  have APr : A * P * (1 + ρ) ≤ A * P * 2 := by gcongr; linarith
  have APr0 : 0 ≤ A * P * (1 + ρ) := by positivity
  have Zs : Z * (1 + σ) ≤ Z * 2 := by gcongr; linarith
  have key : Approx a a.val A A := hA ▸ Approx.exact ha
  have fin : ∀ X Y : ℝ, X = A * P * (1 + ρ) → Y = Z * (1 + σ) →
      (1 + 1 / 16777216) * ((1 + 1 / 16777216) * (X + A * τ) + 1 / 2 ^ 150 + (Y + υ)) ≤ (A * P + Z) * (1 + κ) + ω := by
    intro X Y hX hY
    have h1 : (1 + 1 / 2 ^ 24) ^ 2 * X ≤ A * P * (1 + κ) := by
      rw [hX]; calc _ = A * P * ((1 + 1 / 2 ^ 24) ^ 2 * (1 + ρ)) := by ring
        _ ≤ _ := by gcongr
    have h2 : (1 + 1 / 2 ^ 24) * Y ≤ Z * (1 + κ) := by
      rw [hY]; calc _ = Z * ((1 + 1 / 2 ^ 24) * (1 + σ)) := by ring
        _ ≤ _ := by gcongr
    have : (A * P + Z) * (1 + κ) = A * P * (1 + κ) + Z * (1 + κ) := by ring
    rw [this]
    generalize A * P * (1 + κ) = U at *
    generalize Z * (1 + κ) = V at *
    norm_num at h1 h2 hω ⊢
    linarith
  have sep : Apx κ ω (A * P + Z) (Fp.add (Fp.mul a p) z) (a.val * p' + z') := by
    have m := mul2_approx key hp (by
      rw [E1]; norm_num at AP2 At t1 ⊢; linarith)
    have s := sum2_approx m hz (by
      rw [E1]; norm_num at AP2 At t1 Z2 ⊢; linarith)
    refine s.mono ?_
    rw [E1]
    exact fin _ _ rfl rfl
  have fus : Apx κ ω (A * P + Z) (Fp.fma a p z) (a.val * p' + z') := by
    have m := Approx.fma hp32 key hp hz (le_trans (by
      rw [E1]; norm_num at AP2 At t1 Z2 ⊢; linarith) le_max32)
    refine m.mono ?_
    refine le_trans ?_ (fin _ _ rfl rfl)
    rw [E1, u32, eta32]
    have : 0 ≤ A * P * (1 + ρ) + A * τ := by positivity
    generalize A * P * (1 + ρ) + A * τ = U at *
    generalize Z * (1 + σ) + υ = V at *
    norm_num; linarith
  rcases bk with ⟨_, _ | _⟩ | _ | _ | _ <;> first | exact sep | exact fus

theorem apx_row (bk : Backend) {a b c p q r : F32} {p' q' r' P Q R E : ℝ} (ha : a.isFin = true) (hb : b.isFin = true) (hc : c.isFin = true)
    (a2 : |a.val| ≤ 2 ^ 30) (b2 : |b.val| ≤ 2 ^ 30) (c2 : |c.val| ≤ 2 ^ 30)
    (hp : Apx (1 / 2 ^ 22) (1 / 2 ^ 148) P p p' ∧ P ≤ 2 ^ 61 ∧ 0 ≤ P) (hq : Apx (1 / 2 ^ 22) (1 / 2 ^ 148) Q q q' ∧ Q ≤ 2 ^ 61 ∧ 0 ≤ Q)
    (hr : Apx (1 / 2 ^ 22) (1 / 2 ^ 148) R r r' ∧ R ≤ 2 ^ 61 ∧ 0 ≤ R) (hE : |a.val| * P + |b.val| * Q + |c.val| * R = E) :
    Apx (1 / 2 ^ 20) (1 / 2 ^ 113) E (maddL bk a p (maddL bk b q (c *. r))) (maddL bk a.val p' (maddL bk b.val q' (c.val *. r'))) ∧ E ≤ 2 ^ 93 ∧ 0 ≤ E := by
  obtain ⟨hp, P2, P0⟩ := hp
  obtain ⟨hq, Q2, Q0⟩ := hq
  obtain ⟨hr, R2, R0⟩ := hr
  have A0 : 0 ≤ |a.val| * P := by positivity
  have B0 : 0 ≤ |b.val| * Q := by positivity
  have C0 : 0 ≤ |c.val| * R := by positivity
  have A2 : |a.val| * P ≤ 2 ^ 30 * 2 ^ 61 := by gcongr
  have B2 : |b.val| * Q ≤ 2 ^ 30 * 2 ^ 61 := by gcongr
  have C2 : |c.val| * R ≤ 2 ^ 30 * 2 ^ 61 := by gcongr
  have E1 : |c.val| * (R * (1 + 1 / 2 ^ 22) + 1 / 2 ^ 148) = |c.val| * R * (1 + 1 / 2 ^ 22) + |c.val| / 2 ^ 148 := by ring
  have m1 : Apx (1 / 2 ^ 21) (1 / 2 ^ 117) (|c.val| * R) (c *. r) (c.val *. r') := by
    have m := mul2_approx (Approx.exact hc) hr (by
      rw [E1]; generalize |c.val| * R = U at *; generalize |c.val| = V at *; norm_num at C2 c2 ⊢; linarith)
    refine m.mono ?_
    rw [E1]; generalize |c.val| * R = U at *; generalize |c.val| = V at *; norm_num at C2 c2 ⊢; linarith
  have m2 := apx_maddL bk hb rfl b2 hq m1 Q2 (C2.trans (by norm_num)) (by norm_num) (by norm_num) (by norm_num) (by norm_num) (by norm_num) (by norm_num)
    (κ := 5 / 2 ^ 23) (ω := 1 / 2 ^ 115) (by norm_num) (by norm_num) (by norm_num) (by norm_num)
  have m3 := apx_maddL bk ha rfl a2 hp m2 P2 (by
      generalize |c.val| * R = U at *; generalize |b.val| * Q = V at *; norm_num at C2 B2 ⊢; linarith) (by norm_num) (by norm_num) (by norm_num) (by norm_num) (by norm_num) (by norm_num)
    (κ := 1 / 2 ^ 20) (ω := 1 / 2 ^ 113) (by norm_num) (by norm_num) (by norm_num) (by norm_num)
  rw [← add_assoc, hE] at m3
  refine ⟨m3, ?_, by rw [← hE]; positivity⟩
  rw [← hE]
  generalize |c.val| * R = U at *; generalize |b.val| * Q = V at *; generalize |a.val| * P = W at *; norm_num at C2 B2 A2 ⊢; linarith

/-- the lanes of a vector -/
structure ApxV (ρ τ B : ℝ) (W : V4 ℝ) (a : V4 F32) (v : V4 ℝ) : Prop where
  x : Apx ρ τ W.x a.x v.x ∧ W.x ≤ B ∧ 0 ≤ W.x
  y : Apx ρ τ W.y a.y v.y ∧ W.y ≤ B ∧ 0 ≤ W.y
  z : Apx ρ τ W.z a.z v.z ∧ W.z ≤ B ∧ 0 ≤ W.z
  w : Apx ρ τ W.w a.w v.w ∧ W.w ≤ B ∧ 0 ≤ W.w

/-- a row of finite entries of moderate size and its exact values -/
structure RowV (a : V4 F32) (v : V4 ℝ) : Prop where
  x : a.x.isFin = true ∧ |a.x.val| ≤ 2 ^ 30
  y : a.y.isFin = true ∧ |a.y.val| ≤ 2 ^ 30
  z : a.z.isFin = true ∧ |a.z.val| ≤ 2 ^ 30
  w : a.w.isFin = true ∧ |a.w.val| ≤ 2 ^ 30
  e : v = ⟨a.x.val, a.y.val, a.z.val, a.w.val⟩

/-- 2×2 and 3×3 determinants of columns of rows with all terms positive -/
noncomputable def mag2 (a b : V4 F32) (c d : Fin 4) : ℝ := |(vec a c).val| * |(vec b d).val| + |(vec a d).val| * |(vec b c).val|
noncomputable def mag3 (r a b : V4 F32) (c d e : Fin 4) : ℝ :=
  |(vec r c).val| * mag2 a b d e + |(vec r d).val| * mag2 a b c e + |(vec r e).val| * mag2 a b c d
noncomputable def mag3v (r a b : V4 F32) : V4 ℝ := ⟨mag3 r a b 1 2 3, mag3 r a b 0 2 3, mag3 r a b 0 1 3, mag3 r a b 0 1 2⟩

theorem minors_apx {a b : V4 F32} {a' b' : V4 ℝ} (ha : RowV a a') (hb : RowV b b') :
    ApxV (1 / 2 ^ 22) (1 / 2 ^ 148) (2 ^ 61) ⟨mag2 a b 1 2, mag2 a b 2 3, mag2 a b 0 3, mag2 a b 0 1⟩ (Simd4x4f.minor1 a b) (Simd4x4f.minor1 a' b') ∧
    ApxV (1 / 2 ^ 22) (1 / 2 ^ 148) (2 ^ 61) ⟨mag2 a b 1 3, mag2 a b 0 2, mag2 a b 1 3, mag2 a b 0 2⟩ (Simd4x4f.minor2 a b) (Simd4x4f.minor2 a' b') ∧
    ApxV (1 / 2 ^ 22) (1 / 2 ^ 148) (2 ^ 61) ⟨mag2 a b 2 3, mag2 a b 0 3, mag2 a b 0 1, mag2 a b 1 2⟩ (Simd4x4f.minor3 a b) (Simd4x4f.minor3 a' b') := by
  obtain ⟨ax, ay, az, aw, rfl⟩ := ha
  obtain ⟨bx, by', bz, bw, rfl⟩ := hb
  have e : ∀ c d, |(vec a d).val| * |(vec b c).val| + |(vec a c).val| * |(vec b d).val| = mag2 a b c d := fun c d => by rw [mag2, _root_.add_comm]
  have f : ∀ c d, |(vec a c).val| * |(vec b d).val| + |(vec a d).val| * |(vec b c).val| = mag2 a b c d := fun c d => rfl
  refine ⟨⟨?_, ?_, ?_, ?_⟩, ⟨?_, ?_, ?_, ?_⟩, ⟨?_, ?_, ?_, ?_⟩⟩
  · exact apx_minor az.1 by'.1 ay.1 bz.1 az.2 by'.2 ay.2 bz.2 (e 1 2)
  · exact apx_minor aw.1 bz.1 az.1 bw.1 aw.2 bz.2 az.2 bw.2 (e 2 3)
  · exact apx_minor ax.1 bw.1 aw.1 bx.1 ax.2 bw.2 aw.2 bx.2 (f 0 3)
  · exact apx_minor ay.1 bx.1 ax.1 by'.1 ay.2 bx.2 ax.2 by'.2 (e 0 1)
  · exact apx_minor ay.1 bw.1 aw.1 by'.1 ay.2 bw.2 aw.2 by'.2 (f 1 3)
  · exact apx_minor az.1 bx.1 ax.1 bz.1 az.2 bx.2 ax.2 bz.2 (e 0 2)
  · exact apx_minor aw.1 by'.1 ay.1 bw.1 aw.2 by'.2 ay.2 bw.2 (e 1 3)
  · exact apx_minor ax.1 bz.1 az.1 bx.1 ax.2 bz.2 az.2 bx.2 (f 0 2)
  · exact apx_minor aw.1 bz.1 az.1 bw.1 aw.2 bz.2 az.2 bw.2 (e 2 3)
  · exact apx_minor ax.1 bw.1 aw.1 bx.1 ax.2 bw.2 aw.2 bx.2 (f 0 3)
  · exact apx_minor ay.1 bx.1 ax.1 by'.1 ay.2 bx.2 ax.2 by'.2 (e 0 1)
  · exact apx_minor az.1 by'.1 ay.1 bz.1 az.2 by'.2 ay.2 bz.2 (e 1 2)

theorem rows_apx (bk : Backend) {r a b : V4 F32} {r' a' b' : V4 ℝ} (hr : RowV r r') (ha : RowV a a') (hb : RowV b b') :
    ApxV (1 / 2 ^ 20) (1 / 2 ^ 113) (2 ^ 93) (mag3v r a b) (Simd4x4f.rowSum bk r a b) (Simd4x4f.rowSum bk r' a' b') ∧
    ∀ x z w x' z' w', z = a → w = b → z' = a' → w' = b' →
      ApxV (1 / 2 ^ 20) (1 / 2 ^ 113) (2 ^ 93) (mag3v r a b) (Simd4x4f.r1Sum bk ⟨x, r, z, w⟩) (Simd4x4f.r1Sum bk ⟨x', r', z', w'⟩) := by
  obtain ⟨m1, m2, m3⟩ := minors_apx ha hb
  obtain ⟨rx, ry, rz, rw', rfl⟩ := hr
  have p : ∀ c d e, |(vec r c).val| * mag2 a b d e + |(vec r d).val| * mag2 a b c e + |(vec r e).val| * mag2 a b c d = mag3 r a b c d e :=
    fun _ _ _ => rfl
  have p2 : ∀ c d e, |(vec r d).val| * mag2 a b c e + |(vec r e).val| * mag2 a b c d + |(vec r c).val| * mag2 a b d e = mag3 r a b c d e :=
    fun c d e => by rw [← p c d e]; ring
  have p3 : ∀ c d e, |(vec r e).val| * mag2 a b c d + |(vec r c).val| * mag2 a b d e + |(vec r d).val| * mag2 a b c e = mag3 r a b c d e :=
    fun c d e => by rw [← p c d e]; ring
  have p4 : ∀ c d e, |(vec r e).val| * mag2 a b c d + |(vec r d).val| * mag2 a b c e + |(vec r c).val| * mag2 a b d e = mag3 r a b c d e :=
    fun c d e => by rw [← p c d e]; ring
  have p5 : ∀ c d e, |(vec r c).val| * mag2 a b d e + |(vec r e).val| * mag2 a b c d + |(vec r d).val| * mag2 a b c e = mag3 r a b c d e :=
    fun c d e => by rw [← p c d e]; ring
  have p6 : ∀ c d e, |(vec r d).val| * mag2 a b c e + |(vec r c).val| * mag2 a b d e + |(vec r e).val| * mag2 a b c d = mag3 r a b c d e :=
    fun c d e => by rw [← p c d e]; ring
  constructor
  · simp only [Simd4x4f.rowSum, madd_lanes]
    refine ⟨?_, ?_, ?_, ?_⟩
    · exact apx_row bk ry.1 rz.1 rw'.1 ry.2 rz.2 rw'.2 m3.x m2.x m1.x (p 1 2 3)
    · exact apx_row bk rz.1 rw'.1 rx.1 rz.2 rw'.2 rx.2 m3.y m2.y m1.y (p2 0 2 3)
    · exact apx_row bk rw'.1 rx.1 ry.1 rw'.2 rx.2 ry.2 m3.z m2.z m1.z (p3 0 1 3)
    · exact apx_row bk rx.1 ry.1 rz.1 rx.2 ry.2 rz.2 m3.w m2.w m1.w (p 0 1 2)
  · rintro x z w x' z' w' rfl rfl rfl rfl
    simp only [Simd4x4f.r1Sum, madd_lanes]
    refine ⟨?_, ?_, ?_, ?_⟩
    · exact apx_row bk rw'.1 rz.1 ry.1 rw'.2 rz.2 ry.2 m1.x m2.x m3.x (p4 1 2 3)
    · exact apx_row bk rx.1 rw'.1 rz.1 rx.2 rw'.2 rz.2 m1.y m2.y m3.y (p5 0 2 3)
    · exact apx_row bk ry.1 rx.1 rw'.1 ry.2 rx.2 rw'.2 m1.z m2.z m3.z (p6 0 1 3)
    · exact apx_row bk rz.1 ry.1 rx.1 rz.2 ry.2 rx.2 m1.w m2.w m3.w (p4 0 1 2)

/-- every entry is finite and at most 2^30 -/
def Spec.ModerateMat (m : M4 F32) : Prop := ∀ i j, (mat m i j).isFin = true ∧ |rmat m i j| ≤ 2 ^ 30

theorem rows_of {m : M4 F32} (h : ModerateMat m) :
    RowV m.x (exactMat m).x ∧ RowV m.y (exactMat m).y ∧ RowV m.z (exactMat m).z ∧ RowV m.w (exactMat m).w :=
  ⟨⟨h 0 0, h 0 1, h 0 2, h 0 3, rfl⟩, ⟨h 1 0, h 1 1, h 1 2, h 1 3, rfl⟩, ⟨h 2 0, h 2 1, h 2 2, h 2 3, rfl⟩, ⟨h 3 0, h 3 1, h 3 2, h 3 3, rfl⟩⟩

omit [Libm binary32] in
theorem absExpand_two (M : Matrix (Fin 2) (Fin 2) ℝ) : absExpand 2 M = |M 0 0| * |M 1 1| + |M 0 1| * |M 1 0| := by
  simp [absExpand, Fin.sum_univ_succ, Matrix.submatrix, Fin.succAbove]
omit [Libm binary32] in
theorem absExpand_three (M : Matrix (Fin 3) (Fin 3) ℝ) : absExpand 3 M =
    |M 0 0| * (|M 1 1| * |M 2 2| + |M 1 2| * |M 2 1|) + |M 0 1| * (|M 1 0| * |M 2 2| + |M 1 2| * |M 2 0|) + |M 0 2| * (|M 1 0| * |M 2 1| + |M 1 1| * |M 2 0|) := by
  rw [absExpand, Fin.sum_univ_three]
  simp only [absExpand_two]
  rfl
omit [Libm binary32] in
theorem absExpand_four (M : Matrix (Fin 4) (Fin 4) ℝ) : absExpand 4 M =
    |M 0 0| * absExpand 3 (M.submatrix Fin.succ (Fin.succAbove 0)) + |M 0 1| * absExpand 3 (M.submatrix Fin.succ (Fin.succAbove 1)) +
    |M 0 2| * absExpand 3 (M.submatrix Fin.succ (Fin.succAbove 2)) + |M 0 3| * absExpand 3 (M.submatrix Fin.succ (Fin.succAbove 3)) := by
  rw [absExpand, Fin.sum_univ_four]

/-- the magnitudes of the cofactors -/
noncomputable def magC (m : M4 F32) : M4 ℝ := ⟨mag3v m.y m.z m.w, mag3v m.x m.z m.w, mag3v m.w m.x m.y, mag3v m.z m.x m.y⟩

theorem magC_eq (m : M4 F32) (i j : Fin 4) : mat (magC m) i j = absExpand 3 ((rmat m).submatrix i.succAbove j.succAbove) := by
  rw [absExpand_three]
  fin_cases i <;> fin_cases j <;>
    simp [magC, mat, vec, mag3v, mag3, mag2, rmat, Fin.succAbove, Matrix.submatrix] <;> ring

theorem cofs_apx (bk : Backend) {m : M4 F32} (h : ModerateMat m) (i j : Fin 4) :
    Apx (1 / 2 ^ 20) (1 / 2 ^ 113) (absExpand 3 ((rmat m).submatrix i.succAbove j.succAbove)) (mat (cofs bk m) i j) (mat (cofs bk (exactMat m)) i j) ∧
    absExpand 3 ((rmat m).submatrix i.succAbove j.succAbove) ≤ 2 ^ 93 := by
  obtain ⟨hx, hy, hz, hw⟩ := rows_of h
  rw [← magC_eq]
  have r1 := (rows_apx bk hy hz hw).2 m.x m.z m.w (exactMat m).x (exactMat m).z (exactMat m).w rfl rfl rfl rfl
  have r2 := (rows_apx bk hx hz hw).1
  have r3 := (rows_apx bk hw hx hy).1
  have r4 := (rows_apx bk hz hx hy).1
  fin_cases i <;> fin_cases j
  · exact ⟨r1.x.1, r1.x.2.1⟩
  · exact ⟨r1.y.1.neg, r1.y.2.1⟩
  · exact ⟨r1.z.1, r1.z.2.1⟩
  · exact ⟨r1.w.1.neg, r1.w.2.1⟩
  · exact ⟨r2.x.1.neg, r2.x.2.1⟩
  · exact ⟨r2.y.1, r2.y.2.1⟩
  · exact ⟨r2.z.1.neg, r2.z.2.1⟩
  · exact ⟨r2.w.1, r2.w.2.1⟩
  · exact ⟨r3.x.1, r3.x.2.1⟩
  · exact ⟨r3.y.1.neg, r3.y.2.1⟩
  · exact ⟨r3.z.1, r3.z.2.1⟩
  · exact ⟨r3.w.1.neg, r3.w.2.1⟩
  · exact ⟨r4.x.1.neg, r4.x.2.1⟩
  · exact ⟨r4.y.1, r4.y.2.1⟩
  · exact ⟨r4.z.1.neg, r4.z.2.1⟩
  · exact ⟨r4.w.1, r4.w.2.1⟩

theorem det_lane {a x : F32} {a' W : ℝ} (h : Apx (1 / 2 ^ 20) (1 / 2 ^ 113) W a a' ∧ W ≤ 2 ^ 93 ∧ 0 ≤ W) (hx : x.isFin = true) (x2 : |x.val| ≤ 2 ^ 30) :
    Approx (Fp.mul a x) (a' * x.val) (|x.val| * W) (|x.val| * W * (1 + 5 / 4 / 2 ^ 20) + 1 / 2 ^ 82) ∧ |x.val| * W ≤ 2 ^ 123 ∧ 0 ≤ |x.val| * W := by
  obtain ⟨h, W2, W0⟩ := h
  have c2 : |x.val| * W ≤ 2 ^ 30 * 2 ^ 93 := by gcongr
  have c0 : 0 ≤ |x.val| * W := by positivity
  have E1 : (W * (1 + 1 / 2 ^ 20) + 1 / 2 ^ 113) * |x.val| = |x.val| * W * (1 + 1 / 2 ^ 20) + |x.val| / 2 ^ 113 := by ring
  have m := mul2_approx h (Approx.exact hx) (by
    rw [E1]; generalize |x.val| * W = U at *; generalize |x.val| = V at *; norm_num at c2 x2 ⊢; linarith)
  rw [E1] at m
  refine ⟨(m.congr rfl (_root_.mul_comm _ _)).mono ?_, by norm_num at c2 ⊢; linarith, c0⟩
  generalize |x.val| * W = U at *; generalize |x.val| = V at *; norm_num at c2 x2 ⊢; linarith

theorem det_apx (bk : Backend) {m : M4 F32} (h : ModerateMat m) :
    Apx (1 / 2 ^ 19) (1 / 2 ^ 79) (absExpand 4 (rmat m)) (Simd4x4f.detVec bk m).x (-(rmat m).det) ∧ absExpand 4 (rmat m) ≤ 2 ^ 126 := by
  obtain ⟨hx, hy, hz, hw⟩ := rows_of h
  have r := (rows_apx bk hy hz hw).2 m.x m.z m.w (exactMat m).x (exactMat m).z (exactMat m).w rfl rfl rfl rfl
  rw [← rmat_exactMat, ← detVec_real bk, rmat_exactMat]
  obtain ⟨b0, u0, n0⟩ := det_lane r.x (h 0 0).1 (h 0 0).2
  obtain ⟨b1, u1, n1⟩ := det_lane r.y (h 0 1).1 (h 0 1).2
  obtain ⟨b2, u2, n2⟩ := det_lane r.z (h 0 2).1 (h 0 2).2
  obtain ⟨b3, u3, n3⟩ := det_lane r.w (h 0 3).1 (h 0 3).2
  have e : absExpand 4 (rmat m) = |(mat m 0 0).val| * (mag3v m.y m.z m.w).x + |(mat m 0 2).val| * (mag3v m.y m.z m.w).z +
      (|(mat m 0 1).val| * (mag3v m.y m.z m.w).y + |(mat m 0 3).val| * (mag3v m.y m.z m.w).w) := by
    have q : ∀ j, absExpand 3 ((rmat m).submatrix Fin.succ (Fin.succAbove j)) = mat (magC m) 0 j := fun j => (magC_eq m 0 j).symm
    rw [absExpand_four, q, q, q, q, show mat (magC m) 0 0 = (mag3v m.y m.z m.w).x from rfl, show mat (magC m) 0 1 = (mag3v m.y m.z m.w).y from rfl,
      show mat (magC m) 0 2 = (mag3v m.y m.z m.w).z from rfl, show mat (magC m) 0 3 = (mag3v m.y m.z m.w).w from rfl,
      rmat_val, rmat_val, rmat_val, rmat_val]
    ring
  rw [e]
  generalize |(mat m 0 0).val| * (mag3v m.y m.z m.w).x = U0 at *
  generalize |(mat m 0 1).val| * (mag3v m.y m.z m.w).y = U1 at *
  generalize |(mat m 0 2).val| * (mag3v m.y m.z m.w).z = U2 at *
  generalize |(mat m 0 3).val| * (mag3v m.y m.z m.w).w = U3 at *
  have s1 := sum2_approx b0 b2 (by norm_num at u0 u2 ⊢; linarith)
  have s2 := sum2_approx b1 b3 (by norm_num at u1 u3 ⊢; linarith)
  have s := Approx.sub hp32 s1 s2 (le_trans (by norm_num at u0 u1 u2 u3 ⊢; linarith) le_max32)
  rw [u32] at s
  refine ⟨s.mono ?_, by norm_num at u0 u1 u2 u3 ⊢; linarith⟩
  norm_num; linarith

/-- C125: `graphene_matrix_determinant` in single precision, for every matrix with entries up to 2^30: minus the determinant (see C53) to within a relative
2^-19 of the sum of the magnitudes of its 24 terms. -/
theorem C125_determinant (bk : Backend) (m : M4 F32) (h : ModerateMat m) :
    (GMatrix.determinant bk m).isFin = true ∧
    |(GMatrix.determinant bk m).val - -(rmat m).det| ≤ absExpand 4 (rmat m) / 2 ^ 19 + 1 / 2 ^ 79 := by
  have d := (det_apx bk h).1
  refine ⟨d.fin, d.err.trans (le_of_eq ?_)⟩
  ring

theorem abs_eps {d : F32} (hd : d.isFin = true) : (Scalar.abs d >=. (fltEps : F32)) = true ↔ 1 / 2 ^ 23 ≤ |d.val| := by
  change (fltEps : F32).le (Fp.abs d) = true ↔ _
  rw [le_iff_val (isNaN_of_isFin eps_is.fin) (isNaN_of_isFin (by simpa using hd)), val_abs, eps_is.val]
theorem eps_abs {d : F32} (hd : d.isFin = true) : (Scalar.abs d <=. (fltEps : F32)) = true ↔ |d.val| ≤ 1 / 2 ^ 23 := by
  change (Fp.abs d).le (fltEps : F32) = true ↔ _
  rw [le_iff_val (isNaN_of_isFin (by simpa using hd)) (isNaN_of_isFin eps_is.fin), val_abs, eps_is.val]

/-- C125: `graphene_matrix_is_singular` in single precision answers for the exact determinant unless it is within the rounding error of FLT_EPSILON. -/
theorem C125_singular (bk : Backend) (m : M4 F32) (h : ModerateMat m) :
    let ε := absExpand 4 (rmat m) / 2 ^ 19 + 1 / 2 ^ 79
    (|(rmat m).det| ≤ 1 / 2 ^ 23 - ε → GMatrix.isSingular bk m = true) ∧ (1 / 2 ^ 23 + ε < |(rmat m).det| → GMatrix.isSingular bk m = false) := by
  intro ε
  obtain ⟨df, de⟩ := C125_determinant bk m h
  change |_ - _| ≤ ε at de
  have i := eps_abs df
  change GMatrix.isSingular bk m = true ↔ _ at i
  have t1 := abs_sub_abs_le_abs_sub (GMatrix.determinant bk m).val (-(rmat m).det)
  have t2 := abs_sub_abs_le_abs_sub (-(rmat m).det) (GMatrix.determinant bk m).val
  rw [_root_.abs_sub_comm (-(rmat m).det)] at t2
  rw [_root_.abs_neg] at t1 t2
  refine ⟨fun hd => i.2 (by linarith), fun hd => ?_⟩
  rw [← Bool.not_eq_true, i]
  exact fun c => by linarith

theorem recip_any (bk : Backend) (he : EstAccurate bk) {d : F32} (hd : d.isFin = true) (h1 : 1 / 2 ^ 23 < |d.val|) (h2 : |d.val| ≤ 2 ^ 100) :
    (Simd4f.div1 bk f1 d).isFin = true ∧ |(Simd4f.div1 bk f1 d).val * d.val - 1| ≤ 1 / 2 ^ 20 := by
  by_cases hb : bk = .neon
  · subst hb
    have e : Simd4f.div1 .neon f1 d = Simd4f.recip1 .neon d := one_mul32 _
    rw [e]
    exact Newton.recip1_near .neon he hd (le_trans (by norm_num) h1.le) h2 (by simp)
  · obtain ⟨-, f, e⟩ := div_det_near bk hb hd h1 h2
    refine ⟨f, ?_⟩
    have d0 : 0 < |d.val| := lt_trans (by positivity) h1
    have dne : d.val ≠ 0 := abs_pos.1 d0
    have : (Simd4f.div1 bk f1 d).val * d.val - 1 = ((Simd4f.div1 bk f1 d).val - 1 / d.val) * d.val := by field_simp
    rw [this, _root_.abs_mul]
    calc _ ≤ 1 / 2 ^ 24 * |1 / d.val| * |d.val| := by gcongr
      _ = 1 / 2 ^ 24 := by rw [_root_.mul_assoc, ← _root_.abs_mul, one_div_mul_cancel dne, abs_one]; ring
      _ ≤ _ := by norm_num

theorem inv_entry {c g : F32} {d C D P Q : ℝ} (hc : Apx (1 / 2 ^ 20) (1 / 2 ^ 113) P c C) (P2 : P ≤ 2 ^ 93) (hg : g.isFin = true)
    (ge : |g.val * d - 1| ≤ 1 / 2 ^ 20) (de : |d - D| ≤ Q / 2 ^ 19 + 1 / 2 ^ 79) (hQ : Q / 2 ^ 17 ≤ |D|) (D1 : 1 / 2 ^ 23 ≤ |D|) (DQ : |D| ≤ Q) :
    (Fp.mul c g).isFin = true ∧ |(Fp.mul c g).val - C * (1 / D)| ≤ (P + |C * (1 / D)| * Q) / |D| / 2 ^ 18 + 1 / 2 ^ 80 := by
  have D0 : 0 < |D| := lt_of_lt_of_le (by positivity) D1
  have Dne : D ≠ 0 := abs_pos.1 D0
  have dl : 7 / 10 * |D| ≤ |d| := by
    have := abs_sub_abs_le_abs_sub D d
    rw [_root_.abs_sub_comm] at this
    generalize |d - D| = e at *; generalize |D| = D' at *
    norm_num at de hQ D1 ⊢; linarith
  have gD : |g.val| * |D| ≤ 3 / 2 := by
    have h1 : |g.val * d| ≤ 1 + 1 / 2 ^ 20 := by
      have := abs_add_le (g.val * d - 1) 1
      rw [sub_add_cancel, abs_one] at this; linarith
    rw [_root_.abs_mul] at h1
    have : |g.val| * (7 / 10 * |D|) ≤ |g.val| * |d| := by gcongr
    norm_num at h1 ⊢; linarith
  have P0 : 0 ≤ P := hc.nonneg
  have cb := hc.abs_le
  have ce := hc.err
  have Cb : |C| ≤ P := hc.hx
  obtain ⟨q, hq⟩ : ∃ q, q = P / |D| := ⟨_, rfl⟩
  obtain ⟨I, hI⟩ : ∃ I, I = |C * (1 / D)| := ⟨_, rfl⟩
  obtain ⟨y, hy⟩ : ∃ y, y = I * Q / |D| := ⟨_, rfl⟩
  have I0 : 0 ≤ I := hI ▸ abs_nonneg _
  have hI' : I = |C| / |D| := by rw [hI, _root_.abs_mul, abs_div, abs_one]; ring
  have q0 : 0 ≤ q := by rw [hq]; positivity
  have Q0 : 0 < Q := lt_of_lt_of_le D0 DQ
  have y0 : 0 ≤ y := by rw [hy]; positivity
  have Iq : I ≤ q := by rw [hI', hq]; gcongr
  have Iy : I ≤ y := by
    rw [hy, le_div_iff₀ D0]; gcongr
  have D2 : 1 / |D| ≤ 2 ^ 23 := by
    rw [div_le_iff₀ D0]; generalize |D| = D' at *; norm_num at D1 ⊢; linarith
  have q2 : q ≤ 2 ^ 93 * 2 ^ 23 := by
    rw [hq, div_eq_mul_one_div]; gcongr
  have gb : |g.val| ≤ 3 / 2 / |D| := by rw [le_div_iff₀ D0]; exact gD
  -- the two parts of the error
  have A : |(c.val - C) * g.val| ≤ 3 / 2 * q / 2 ^ 20 + 1 / 2 ^ 89 := by
    rw [_root_.abs_mul]
    have h1 : |c.val - C| ≤ P / 2 ^ 20 + 1 / 2 ^ 113 := by refine ce.trans (le_of_eq ?_); ring
    calc |c.val - C| * |g.val| ≤ (P / 2 ^ 20 + 1 / 2 ^ 113) * (3 / 2 / |D|) := by gcongr
      _ = 3 / 2 * q / 2 ^ 20 + 3 / 2 / 2 ^ 113 * (1 / |D|) := by rw [hq]; ring
      _ ≤ 3 / 2 * q / 2 ^ 20 + 3 / 2 / 2 ^ 113 * 2 ^ 23 := by gcongr
      _ ≤ _ := by norm_num
  have B : |C * (g.val - 1 / D)| ≤ q / 2 ^ 20 + 3 / 2 * y / 2 ^ 19 + 1 / 2 ^ 32 * y := by
    have h1 : |g.val - 1 / D| ≤ (1 / 2 ^ 20 + 3 / 2 / |D| * (Q / 2 ^ 19 + 1 / 2 ^ 79)) / |D| := by
      rw [le_div_iff₀ D0, ← _root_.abs_mul]
      have : (g.val - 1 / D) * D = (g.val * d - 1) - g.val * (d - D) := by field_simp; ring
      rw [this]
      refine (abs_sub _ _).trans ?_
      rw [_root_.abs_mul g.val]
      gcongr
    rw [_root_.abs_mul]
    have q79 : (1 : ℝ) / 2 ^ 79 ≤ Q / 2 ^ 56 := by
      have := D1.trans DQ
      norm_num at this ⊢; linarith
    have Cx : |C| / |D| * (1 / 2 ^ 20) ≤ q * (1 / 2 ^ 20) := by
      rw [← hI']; gcongr
    have z : I * (1 / |D|) * (1 / 2 ^ 79) ≤ I * (1 / |D|) * (Q / 2 ^ 56) := by gcongr
    calc |C| * |g.val - 1 / D| ≤ |C| * ((1 / 2 ^ 20 + 3 / 2 / |D| * (Q / 2 ^ 19 + 1 / 2 ^ 79)) / |D|) := by gcongr
      _ = |C| / |D| * (1 / 2 ^ 20) + 3 / 2 * (|C| / |D| * Q / |D|) / 2 ^ 19 + 3 / 2 * (|C| / |D| * (1 / |D|) * (1 / 2 ^ 79)) := by ring
      _ ≤ q * (1 / 2 ^ 20) + 3 / 2 * y / 2 ^ 19 + 3 / 2 * (I * (1 / |D|) * (Q / 2 ^ 56)) := by
        rw [hy, ← hI']; rw [← hI'] at Cx; gcongr
      _ = q * (1 / 2 ^ 20) + 3 / 2 * y / 2 ^ 19 + 3 / 2 / 2 ^ 56 * y := by rw [hy]; ring
      _ ≤ _ := by norm_num; linarith
  have Y : |c.val * g.val - C * (1 / D)| ≤ 5 / 2 * q / 2 ^ 20 + 3 / 2 * y / 2 ^ 19 + 1 / 2 ^ 32 * y + 1 / 2 ^ 89 := by
    have : c.val * g.val - C * (1 / D) = (c.val - C) * g.val + C * (g.val - 1 / D) := by ring
    rw [this]
    refine (abs_add_le _ _).trans ?_
    linarith
  have V : |c.val * g.val| ≤ 4 * q + 1 := by
    have h1 : |c.val * g.val| ≤ (P * (1 + 1 / 2 ^ 20) + 1 / 2 ^ 113) * (3 / 2 / |D|) := by
      rw [_root_.abs_mul]; gcongr
    have h2 : (P * (1 + 1 / 2 ^ 20) + 1 / 2 ^ 113) * (3 / 2 / |D|) = 3 / 2 * (1 + 1 / 2 ^ 20) * q + 3 / 2 / 2 ^ 113 * (1 / |D|) := by rw [hq]; ring
    have h3 : 3 / 2 / 2 ^ 113 * (1 / |D|) ≤ 3 / 2 / 2 ^ 113 * 2 ^ 23 := by gcongr
    rw [h2] at h1
    generalize 1 / |D| = k at *
    norm_num at h1 h3 ⊢; linarith
  have V' : |c.val * g.val| ≤ I + |c.val * g.val - C * (1 / D)| := by
    have := abs_add_le (c.val * g.val - C * (1 / D)) (C * (1 / D))
    rw [sub_add_cancel, ← hI] at this; linarith
  have r := rnd_mul hc.fin hg
  have f := r.isFin hp32 (V.trans (le_trans (by norm_num at q2 ⊢; linarith) le_max32))
  refine ⟨f, ?_⟩
  have re := r.err_add f
  rw [u32, eta32] at re
  have T := abs_add_le ((Fp.mul c g).val - c.val * g.val) (c.val * g.val - C * (1 / D))
  rw [sub_add_sub_cancel] at T
  refine T.trans ?_
  have e : (P + |C * (1 / D)| * Q) / |D| = q + y := by rw [← hI, hq, hy]; ring
  rw [e]
  generalize |(Fp.mul c g).val - c.val * g.val| = X at *
  generalize |c.val * g.val - C * (1 / D)| = Z at *
  generalize |c.val * g.val| = V at *
  norm_num at Y re V' ⊢; linarith

/-- C125: `graphene_matrix_inverse` in single precision, for every matrix with entries up to 2^30.  With `Q` the sum of the magnitudes of the terms of the
determinant and `P` that of the cofactor: no inverse is reported when the determinant is below FLT_EPSILON by more than the rounding error, and when it is
above FLT_EPSILON by more than `Q / 2^17`, every entry of the result is within `(P + Q |entry|) / (2^18 |det|)` of that of the exact inverse. -/
theorem C125_inverse (bk : Backend) (he : EstAccurate bk) (m : M4 F32) (h : ModerateMat m) :
    let Q := absExpand 4 (rmat m)
    let P := fun i j : Fin 4 => absExpand 3 ((rmat m).submatrix j.succAbove i.succAbove)
    (|(rmat m).det| < 1 / 2 ^ 23 - (Q / 2 ^ 19 + 1 / 2 ^ 79) → GMatrix.inverse bk m = none) ∧
    (1 / 2 ^ 23 + Q / 2 ^ 17 < |(rmat m).det| → Q ≤ 2 ^ 99 → ∃ r, GMatrix.inverse bk m = some r ∧ FinMat r ∧
      ∀ i j, |rmat r i j - (rmat m)⁻¹ i j| ≤ (P i j + |(rmat m)⁻¹ i j| * Q) / |(rmat m).det| / 2 ^ 18 + 1 / 2 ^ 80) := by
  intro Q P
  obtain ⟨da, -⟩ := det_apx bk h
  have de : |(Simd4x4f.detVec bk m).x.val - -(rmat m).det| ≤ Q / 2 ^ 19 + 1 / 2 ^ 79 := (C125_determinant bk m h).2
  have i := abs_eps da.fin
  have t1 := abs_sub_abs_le_abs_sub (Simd4x4f.detVec bk m).x.val (-(rmat m).det)
  have t2 := abs_sub_abs_le_abs_sub (-(rmat m).det) (Simd4x4f.detVec bk m).x.val
  rw [_root_.abs_sub_comm (-(rmat m).det)] at t2
  rw [_root_.abs_neg] at t1 t2
  have DQ : |-(rmat m).det| ≤ Q := da.hx
  refine ⟨fun hd => ?_, fun hd hQ => ?_⟩
  · rw [GMatrix.inverse, Simd4x4f.inverse]
    exact if_neg (fun c => by have := i.1 c; linarith)
  · rw [_root_.abs_neg] at DQ
    have Q0 : 1 / 2 ^ 23 ≤ Q := by
      have : 0 ≤ Q := (abs_nonneg _).trans DQ
      have := hd.le.trans DQ
      norm_num at this ⊢; linarith
    have dl : 1 / 2 ^ 23 < |(Simd4x4f.detVec bk m).x.val| := by
      have t := t2.trans de
      norm_num at t hd Q0 ⊢; linarith
    have du : |(Simd4x4f.detVec bk m).x.val| ≤ 2 ^ 100 := by
      have t := t1.trans de
      norm_num at t hQ ⊢; linarith
    obtain ⟨r, hr, e⟩ := inverse_eq bk m (i.2 dl.le)
    obtain ⟨gf, ge⟩ := recip_any bk he da.fin dl du
    have d1 : 1 / 2 ^ 23 < |(rmat m).det| := by linarith
    have key : ∀ i j, (mat r i j).isFin = true ∧ |(mat r i j).val - (rmat m)⁻¹ i j| ≤ (P i j + |(rmat m)⁻¹ i j| * Q) / |(rmat m).det| / 2 ^ 18 + 1 / 2 ^ 80 := by
      intro i j
      obtain ⟨ca, c2⟩ := cofs_apx bk h j i
      rw [e, inv_cofs bk d1]
      have := inv_entry ca c2 gf ge de (by rw [_root_.abs_neg]; linarith) (by rw [_root_.abs_neg]; exact d1.le) (by rw [_root_.abs_neg]; exact DQ)
      rw [_root_.abs_neg] at this
      exact this
    exact ⟨r, hr, fun i j => (key i j).1, fun i j => (key i j).2⟩

/-- C125: `graphene_matrix_is_backface_visible` in single precision: decided by the zz entry of the exact inverse, unless it is within the error of the
computed one of zero. -/
theorem C125_backface (bk : Backend) (he : EstAccurate bk) (m : M4 F32) (h : ModerateMat m) :
    let Q := absExpand 4 (rmat m)
    let P := absExpand 3 ((rmat m).submatrix (Fin.succAbove 2) (Fin.succAbove 2))
    let ε := (P + |(rmat m)⁻¹ 2 2| * Q) / |(rmat m).det| / 2 ^ 18 + 1 / 2 ^ 80
    (|(rmat m).det| < 1 / 2 ^ 23 - (Q / 2 ^ 19 + 1 / 2 ^ 79) → GMatrix.isBackfaceVisible bk m = false) ∧
    (1 / 2 ^ 23 + Q / 2 ^ 17 < |(rmat m).det| → Q ≤ 2 ^ 99 →
      ((rmat m)⁻¹ 2 2 < -ε → GMatrix.isBackfaceVisible bk m = true) ∧ (ε ≤ (rmat m)⁻¹ 2 2 → GMatrix.isBackfaceVisible bk m = false)) := by
  intro Q P ε
  obtain ⟨h1, h2⟩ := C125_inverse bk he m h
  refine ⟨fun hd => ?_, fun hd hQ => ?_⟩
  · rw [GMatrix.isBackfaceVisible, show Simd4x4f.inverse bk m = none from h1 hd]
  · obtain ⟨r, hr, hf, ha⟩ := h2 hd hQ
    rw [GMatrix.isBackfaceVisible, show Simd4x4f.inverse bk m = some r from hr]
    have z : Is (f0 : F32) 0 := is_f0
    have c : (r.z.z <. (f0 : F32)) = true ↔ rmat r 2 2 < 0 := by
      have zf : r.z.z.isFin = true := hf 2 2
      change r.z.z.lt (f0 : F32) = true ↔ r.z.z.val < 0
      rw [lt_iff_val (isNaN_of_isFin zf) (isNaN_of_isFin z.fin), z.val]
    obtain ⟨l, u⟩ := _root_.abs_le.1 (ha 2 2)
    change -ε ≤ _ at l
    change _ ≤ ε at u
    refine ⟨fun q => c.2 (by linarith), fun q => ?_⟩
    change (r.z.z <. (f0 : F32)) = false
    rw [← Bool.not_eq_true, c]
    exact fun k => by linarith

/-! ### Unprojecting (C124) -/

theorem vec4_apx {a0 a1 a2 a3 p0 p1 p2 p3 : F32} {x0 x1 x2 x3 A0 A1 A2 A3 ρ τ B : ℝ} (h0 : Apx ρ τ A0 a0 x0) (h1 : Apx ρ τ A1 a1 x1) (h2 : Apx ρ τ A2 a2 x2)
    (h3 : Apx ρ τ A3 a3 x3) (q0 : p0.isFin = true ∧ |p0.val| ≤ 2 ^ 20) (q1 : p1.isFin = true ∧ |p1.val| ≤ 2 ^ 20) (q2 : p2.isFin = true ∧ |p2.val| ≤ 2 ^ 20)
    (q3 : p3.isFin = true ∧ |p3.val| ≤ 2 ^ 20) (r0 : 0 ≤ ρ) (r1 : ρ ≤ 1) (t0 : 0 ≤ τ) (t1 : τ ≤ 1) (b0 : A0 ≤ B) (b1 : A1 ≤ B) (b2 : A2 ≤ B) (b3 : A3 ≤ B) (B2 : B ≤ 2 ^ 60)
    {κ ω : ℝ} (hκ : (1 + 1 / 2 ^ 24) ^ 3 * (1 + ρ) ≤ 1 + κ) (hω : 2 ^ 24 * τ + 1 / 2 ^ 147 ≤ ω) :
    let S := |p0.val| * A0 + |p1.val| * A1 + |p2.val| * A2 + |p3.val| * A3
    Apx κ ω S (Fp.add (Fp.add (Fp.mul a0 p0) (Fp.mul a1 p1)) (Fp.add (Fp.mul a2 p2) (Fp.mul a3 p3)))
      (x0 * p0.val + x1 * p1.val + (x2 * p2.val + x3 * p3.val)) ∧ 0 ≤ S ∧ S ≤ 2 ^ 22 * B := by
  intro S
  have lane : ∀ {a p : F32} {x A : ℝ}, Apx ρ τ A a x → p.isFin = true ∧ |p.val| ≤ 2 ^ 20 → A ≤ B →
      Approx (Fp.mul a p) (x * p.val) (|p.val| * A) ((1 + 1 / 2 ^ 24) * (|p.val| * A * (1 + ρ)) + (2 ^ 21 * τ + 1 / 2 ^ 150)) ∧ 0 ≤ |p.val| * A ∧ |p.val| * A ≤ 2 ^ 20 * B ∧
      0 ≤ |p.val| * A * (1 + ρ) ∧ |p.val| * A * (1 + ρ) ≤ 2 ^ 81 := by
    intro a p x A h q b
    have A0' : 0 ≤ A := h.nonneg
    have s1 : |p.val| * A ≤ 2 ^ 20 * B := mul_le_mul q.2 b A0' (by norm_num)
    have s2 : |p.val| * A * (1 + ρ) ≤ 2 ^ 20 * 2 ^ 60 * (1 + 1) := by
      have : |p.val| * A ≤ 2 ^ 20 * 2 ^ 60 := s1.trans (by gcongr)
      gcongr
    have s3 : |p.val| * τ ≤ 2 ^ 20 * τ := by gcongr; exact q.2
    have E1 : (A * (1 + ρ) + τ) * |p.val| = |p.val| * A * (1 + ρ) + |p.val| * τ := by ring
    have m := mul2_approx h (Approx.exact q.1) (by
      rw [E1]; norm_num at s2 s3 t1 ⊢; linarith)
    refine ⟨(m.congr rfl (_root_.mul_comm _ _)).mono ?_, by positivity, s1, by positivity, by norm_num at s2 ⊢; linarith⟩
    rw [E1]
    generalize |p.val| * A * (1 + ρ) = U at *
    norm_num at s3 ⊢; linarith
  obtain ⟨l0, m0, n0, o0, w0⟩ := lane h0 q0 b0
  obtain ⟨l1, m1, n1, o1, w1⟩ := lane h1 q1 b1
  obtain ⟨l2, m2, n2, o2, w2⟩ := lane h2 q2 b2
  obtain ⟨l3, m3, n3, o3, w3⟩ := lane h3 q3 b3
  have hS : S * (1 + ρ) = |p0.val| * A0 * (1 + ρ) + |p1.val| * A1 * (1 + ρ) + |p2.val| * A2 * (1 + ρ) + |p3.val| * A3 * (1 + ρ) := by
    simp only [S]; ring
  have S0 : 0 ≤ S := by simp only [S]; linarith
  have k : (1 + 1 / 2 ^ 24) ^ 3 * (S * (1 + ρ)) ≤ S * (1 + κ) := by
    calc _ = S * ((1 + 1 / 2 ^ 24) ^ 3 * (1 + ρ)) := by ring
      _ ≤ _ := by gcongr
  have s1 := sum2_approx l0 l1 (by
    generalize |p0.val| * A0 * (1 + ρ) = U0 at *; generalize |p1.val| * A1 * (1 + ρ) = U1 at *
    norm_num at w0 w1 t1 ⊢; linarith)
  have s2 := sum2_approx l2 l3 (by
    generalize |p2.val| * A2 * (1 + ρ) = U0 at *; generalize |p3.val| * A3 * (1 + ρ) = U1 at *
    norm_num at w2 w3 t1 ⊢; linarith)
  have s := sum2_approx s1 s2 (by
    generalize |p0.val| * A0 * (1 + ρ) = U0 at *; generalize |p1.val| * A1 * (1 + ρ) = U1 at *
    generalize |p2.val| * A2 * (1 + ρ) = U2 at *; generalize |p3.val| * A3 * (1 + ρ) = U3 at *
    norm_num at w0 w1 w2 w3 t1 ⊢; linarith)
  refine ⟨(s.congr rfl (by simp only [S]; ring)).mono ?_, S0, by simp only [S]; linarith⟩
  refine le_trans ?_ (add_le_add k hω)
  rw [hS]
  generalize |p0.val| * A0 * (1 + ρ) = U0 at *; generalize |p1.val| * A1 * (1 + ρ) = U1 at *
  generalize |p2.val| * A2 * (1 + ρ) = U2 at *; generalize |p3.val| * A3 * (1 + ρ) = U3 at *
  norm_num; linarith

/-- a matrix or point whose entries are finite and at most 2^20 -/
def Spec.Modest (m : M4 F32) : Prop := ∀ i j, (mat m i j).isFin = true ∧ |rmat m i j| ≤ 2 ^ 20

theorem exact_apx {a : F32} (h : a.isFin = true) : Apx 0 0 |a.val| a a.val := by
  have := Approx.exact h
  show Approx a a.val _ (|a.val| * (1 + 0) + 0)
  rw [show |a.val| * (1 + 0) + 0 = |a.val| by ring]
  exact this

/-- one entry of a product of matrices -/
theorem product_apx {t v : M4 F32} (ht : Modest t) (hv : Modest v) (i j : Fin 4) :
    Apx (1 / 2 ^ 22) (1 / 2 ^ 147) (∑ k, |rmat t i k| * |rmat v k j|) (mat (Simd4x4f.matrixMul t v) i j) (∑ k, rmat t i k * rmat v k j) ∧
    0 ≤ ∑ k, |rmat t i k| * |rmat v k j| ∧ ∑ k, |rmat t i k| * |rmat v k j| ≤ 2 ^ 42 := by
  have e : ∀ k, Apx 0 0 |rmat v k j| (mat v k j) (rmat v k j) := fun k => exact_apx (hv k j).1
  have h := vec4_apx (e 0) (e 1) (e 2) (e 3) (ht i 0) (ht i 1) (ht i 2) (ht i 3) le_rfl (by norm_num) le_rfl (by norm_num) (hv 0 j).2 (hv 1 j).2 (hv 2 j).2
    (hv 3 j).2 (by norm_num) (κ := 1 / 2 ^ 22) (ω := 1 / 2 ^ 147) (by norm_num) (by norm_num)
  have me : mat (Simd4x4f.matrixMul t v) i j = Fp.add (Fp.add (Fp.mul (mat v 0 j) (mat t i 0)) (Fp.mul (mat v 1 j) (mat t i 1)))
      (Fp.add (Fp.mul (mat v 2 j) (mat t i 2)) (Fp.mul (mat v 3 j) (mat t i 3))) := by
    fin_cases i <;> fin_cases j <;> rfl
  rw [me, Fin.sum_univ_four, Fin.sum_univ_four]
  obtain ⟨a, b, c⟩ := h
  refine ⟨?_, b, c.trans (by norm_num)⟩
  have q : rmat t i 0 * rmat v 0 j + rmat t i 1 * rmat v 1 j + rmat t i 2 * rmat v 2 j + rmat t i 3 * rmat v 3 j =
    rmat v 0 j * (mat t i 0).val + rmat v 1 j * (mat t i 1).val + (rmat v 2 j * (mat t i 2).val + rmat v 3 j * (mat t i 3).val) := by
    simp only [rmat_val]; ring
  rw [q]
  exact a

/-- the coordinates `x`, `y`, `z`, `1` of a point -/
noncomputable def Spec.homog (p : Point3D F32) : Fin 4 → ℝ := ![p.x.val, p.y.val, p.z.val, 1]

/-- one coordinate of the image of a point by a product of matrices -/
theorem image_apx {t v : M4 F32} (ht : Modest t) (hv : Modest v) (p : Point3D F32) (hx : p.x.isFin = true ∧ |p.x.val| ≤ 2 ^ 20)
    (hy : p.y.isFin = true ∧ |p.y.val| ≤ 2 ^ 20) (hz : p.z.isFin = true ∧ |p.z.val| ≤ 2 ^ 20) (j : Fin 4) :
    let S := ∑ i, |homog p i| * ∑ k, |rmat t i k| * |rmat v k j|
    Apx (1 / 2 ^ 20) (1 / 2 ^ 113) S (vec (Simd4x4f.vec4Mul (Simd4x4f.matrixMul t v) (Simd4f.init p.x p.y p.z f1)) j)
      (∑ i, homog p i * ∑ k, rmat t i k * rmat v k j) ∧ 0 ≤ S ∧ S ≤ 2 ^ 64 := by
  have q := fun i => product_apx ht hv i j
  have o1 : (f1 : F32).isFin = true := is_f1.fin
  have v1 : (f1 : F32).val = 1 := is_f1.val
  have h := vec4_apx (q 0).1 (q 1).1 (q 2).1 (q 3).1 hx hy hz ⟨o1, by rw [v1]; norm_num⟩ (by norm_num) (by norm_num) (by norm_num) (by norm_num)
    (q 0).2.2 (q 1).2.2 (q 2).2.2 (q 3).2.2 (by norm_num) (κ := 1 / 2 ^ 20) (ω := 1 / 2 ^ 113) (by norm_num) (by norm_num)
  rw [v1] at h
  have me : vec (Simd4x4f.vec4Mul (Simd4x4f.matrixMul t v) (Simd4f.init p.x p.y p.z f1)) j = Fp.add (Fp.add (Fp.mul (mat (Simd4x4f.matrixMul t v) 0 j) p.x)
      (Fp.mul (mat (Simd4x4f.matrixMul t v) 1 j) p.y)) (Fp.add (Fp.mul (mat (Simd4x4f.matrixMul t v) 2 j) p.z) (Fp.mul (mat (Simd4x4f.matrixMul t v) 3 j) f1)) := by
    generalize Simd4x4f.matrixMul t v = m
    fin_cases j <;> rfl
  intro S
  have hS : S = |p.x.val| * (∑ k, |rmat t 0 k| * |rmat v k j|) + |p.y.val| * (∑ k, |rmat t 1 k| * |rmat v k j|) +
      |p.z.val| * (∑ k, |rmat t 2 k| * |rmat v k j|) + |1| * (∑ k, |rmat t 3 k| * |rmat v k j|) := by
    simp only [S]; rw [Fin.sum_univ_four]; rfl
  have hV : (∑ i, homog p i * ∑ k, rmat t i k * rmat v k j) = (∑ k, rmat t 0 k * rmat v k j) * p.x.val + (∑ k, rmat t 1 k * rmat v k j) * p.y.val +
      ((∑ k, rmat t 2 k * rmat v k j) * p.z.val + (∑ k, rmat t 3 k * rmat v k j) * 1) := by
    rw [Fin.sum_univ_four]
    have : homog p 0 = p.x.val ∧ homog p 1 = p.y.val ∧ homog p 2 = p.z.val ∧ homog p 3 = 1 := ⟨rfl, rfl, rfl, rfl⟩
    rw [this.1, this.2.1, this.2.2.1, this.2.2.2]; ring
  rw [hS, hV, me]
  exact ⟨h.1, h.2.1, h.2.2.trans (by norm_num)⟩

/-- C124: unprojecting a point multiplies the inverse of the projection by the modelview matrix, applies the result to the point and divides by
the fourth coordinate: when that coordinate is not lost in the rounding of its terms, each coordinate found is the exact one up to the stated
relative rounding of its terms; the result is written exactly when the projection has an inverse. -/
theorem C124_unproject (bk : Backend) (projection modelview : M4 F32) (p : Point3D F32) :
    (GMatrix.inverse bk projection = none → GMatrix.unprojectPoint3D bk projection modelview p = none) ∧
    ∀ r, GMatrix.inverse bk projection = some r → Modest r → Modest modelview → p.x.isFin = true ∧ |p.x.val| ≤ 2 ^ 20 →
      p.y.isFin = true ∧ |p.y.val| ≤ 2 ^ 20 → p.z.isFin = true ∧ |p.z.val| ≤ 2 ^ 20 →
      let V := fun j => ∑ i, homog p i * (rmat r * rmat modelview) i j
      let S := fun j => ∑ i, |homog p i| * ∑ k, |rmat r i k| * |rmat modelview k j|
      1 / 2 ^ 22 ≤ |V 3| → S 3 / 2 ^ 17 ≤ |V 3| →
      let E := fun j => (S j + |V j / V 3| * S 3) / |V 3| / 2 ^ 18 + 1 / 2 ^ 80
      ∃ q, GMatrix.unprojectPoint3D bk projection modelview p = some q ∧ q.x.isFin = true ∧ q.y.isFin = true ∧ q.z.isFin = true ∧
        |q.x.val - V 0 / V 3| ≤ E 0 ∧ |q.y.val - V 1 / V 3| ≤ E 1 ∧ |q.z.val - V 2 / V 3| ≤ E 2 := by
  constructor
  · intro h
    have h' : Simd4x4f.inverse bk projection = none := h
    simp only [GMatrix.unprojectPoint3D, h']
  intro r hi hr hv hx hy hz V S D1 DQ E
  have hi' : Simd4x4f.inverse bk projection = some r := hi
  have I := image_apx hr hv p hx hy hz
  obtain ⟨w, hw⟩ : ∃ w, w = Simd4x4f.vec4Mul (Simd4x4f.matrixMul r modelview) (Simd4f.init p.x p.y p.z f1) := ⟨_, rfl⟩
  rw [← hw] at I
  have hVj : ∀ j, (∑ i, homog p i * ∑ k, rmat r i k * rmat modelview k j) = V j := fun j => rfl
  have hSj : ∀ j, (∑ i, |homog p i| * ∑ k, |rmat r i k| * |rmat modelview k j|) = S j := fun j => rfl
  simp only [hVj, hSj] at I
  obtain ⟨W, S0, S2⟩ := I 3
  have w3 : vec w 3 = w.w := rfl
  rw [w3] at W
  have DS := W.hx
  have We : |w.w.val - V 3| ≤ S 3 / 2 ^ 19 + 1 / 2 ^ 79 := W.err.trans (by
    generalize S 3 = s at *; norm_num; linarith)
  have wl : 7 / 10 * |V 3| ≤ |w.w.val| := by
    have := abs_sub_abs_le_abs_sub (V 3) w.w.val
    rw [_root_.abs_sub_comm] at this
    generalize |w.w.val - V 3| = e at *; generalize |V 3| = D' at *
    norm_num at D1 DQ We ⊢; linarith
  have w0 : 0 < |w.w.val| := lt_of_lt_of_le (by generalize |V 3| = D' at *; norm_num at D1 ⊢; linarith) wl
  have w2 : |w.w.val| ≤ 2 ^ 100 := by
    have := W.abs_le
    norm_num at S2 this ⊢; linarith
  have g := recip_any .gcc trivial W.fin (by
    generalize |V 3| = D' at *; norm_num at D1 ⊢; linarith) w2
  rw [show Simd4f.div1 .gcc f1 w.w = Fp.div f1 w.w from rfl] at g
  have fin := fun j => inv_entry (c := vec w j) (g := Fp.div f1 w.w) (d := w.w.val) (C := V j) (D := V 3) (P := S j) (Q := S 3) (I j).1 ((I j).2.2.trans (by norm_num))
    g.1 g.2 We DQ (le_trans (by norm_num) D1) DS
  simp only [GMatrix.unprojectPoint3D, hi']
  rw [← hw]
  refine ⟨_, rfl, (fin 0).1, (fin 1).1, (fin 2).1, ?_, ?_, ?_⟩
  · have := (fin 0).2; rw [mul_one_div] at this; exact this
  · have := (fin 1).2; rw [mul_one_div] at this; exact this
  · have := (fin 2).2; rw [mul_one_div] at this; exact this

/-! ### The hypotheses are met -/

/-- the matrix with the given entries -/
def matOf (e : Fin 4 → Fin 4 → F32) : M4 F32 :=
  ⟨⟨e 0 0, e 0 1, e 0 2, e 0 3⟩, ⟨e 1 0, e 1 1, e 1 2, e 1 3⟩, ⟨e 2 0, e 2 1, e 2 2, e 2 3⟩, ⟨e 3 0, e 3 1, e 3 2, e 3 3⟩⟩

omit [Libm binary32] in
theorem mat_matOf (e : Fin 4 → Fin 4 → F32) (i j : Fin 4) : mat (matOf e) i j = e i j := by
  fin_cases i <;> fin_cases j <;> rfl

/-- a matrix of single precision integers -/
def intMat (f : Fin 4 → Fin 4 → ℤ) : M4 F32 := matOf fun i j => Scalar.lit (f i j) 1

theorem mat_intMat (f : Fin 4 → Fin 4 → ℤ) (i j : Fin 4) : mat (intMat f) i j = Scalar.lit (f i j) 1 := mat_matOf _ i j

theorem rmat_intMat {f : Fin 4 → Fin 4 → ℤ} (h : ∀ i j, (f i j).natAbs ≤ 2 ^ 24) (i j : Fin 4) :
    (mat (intMat f) i j).isFin = true ∧ rmat (intMat f) i j = f i j := by
  rw [rmat_val, mat_intMat]; exact lit_int _ (h i j)

theorem modest_intMat {f : Fin 4 → Fin 4 → ℤ} (h : ∀ i j, (f i j).natAbs ≤ 2 ^ 20) : Modest (intMat f) := by
  intro i j
  obtain ⟨a, b⟩ := rmat_intMat (fun i j => (h i j).trans (by norm_num)) i j
  refine ⟨a, ?_⟩
  rw [b, ← Int.cast_abs, Int.abs_eq_natAbs]
  exact_mod_cast h i j

/-- a projection-like transformation, for the examples -/
def exTurn : Fin 4 → Fin 4 → ℤ := ![![1, 2, 1, 0], ![-1, 1, 2, 0], ![2, 0, 4, 0], ![10, 20, 0, 1]]

example : ∃ (m : M4 F32) (p : Point F32) (z : ℝ), FinMat m ∧ p.x.isFin = true ∧ p.y.isFin = true ∧ 1 / 2 ^ 30 ≤ |rmat m 2 2| ∧
    (∀ j, |rmat m 2 j| ≤ 2 ^ 30) ∧ (∀ j, linMag m p j ≤ 2 ^ 30) ∧ linMag m p 2 ≤ 2 ^ 15 * |rmat m 2 2| ∧ lin m p z 2 = 0 ∧ lin m p z 0 ≠ p.x.val := by
  have e := rmat_intMat (f := exTurn) (by decide)
  obtain ⟨a3, f3, v3⟩ : ∃ a : F32, a.isFin = true ∧ a.val = 3 := ⟨_, (lit_int 3 (by decide)).1, (lit_int 3 (by decide)).2.trans (by norm_num)⟩
  obtain ⟨a4, f4, v4⟩ : ∃ a : F32, a.isFin = true ∧ a.val = 4 := ⟨_, (lit_int 4 (by decide)).1, (lit_int 4 (by decide)).2.trans (by norm_num)⟩
  refine ⟨intMat exTurn, ⟨a3, a4⟩, -(11 / 4), fun i j => (e i j).1, f3, f4, ?_, ?_, ?_, ?_, ?_, ?_⟩
  · rw [(e 2 2).2]; simp [exTurn]; norm_num
  · intro j; rw [(e 2 j).2]; fin_cases j <;> simp [exTurn] <;> norm_num
  · intro j; simp only [linMag, (e 0 j).2, (e 1 j).2, v3, v4]; fin_cases j <;> simp [exTurn] <;> norm_num
  · simp only [linMag, (e 0 2).2, (e 1 2).2, (e 2 2).2, v3, v4]; simp [exTurn]; norm_num
  · simp only [lin, (e 0 2).2, (e 1 2).2, (e 2 2).2, v3, v4]; simp [exTurn]; norm_num
  · simp only [lin, (e 0 0).2, (e 1 0).2, (e 2 0).2, v3, v4]; simp [exTurn]; norm_num

/-- an affine map of determinant 25 -/
def exAffine : Fin 4 → Fin 4 → ℤ := ![![3, 1, 0, 0], ![-1, 2, 1, 0], ![0, 1, 4, 0], ![100, -7, 30, 1]]

example : ∃ m : M4 F32, ModerateMat m ∧ (rmat m).det = 25 ∧ absExpand 4 (rmat m) = 31 ∧ 1 / 2 ^ 23 + absExpand 4 (rmat m) / 2 ^ 17 < |(rmat m).det| ∧
    absExpand 4 (rmat m) ≤ 2 ^ 99 := by
  have e := rmat_intMat (f := exAffine) (by decide)
  have em : rmat (intMat exAffine) = !![3, 1, 0, 0; -1, 2, 1, 0; 0, 1, 4, 0; 100, -7, 30, 1] := by
    ext i j; rw [(e i j).2]; fin_cases i <;> fin_cases j <;> simp [exAffine]
  have hd : (rmat (intMat exAffine)).det = 25 := by
    rw [em, Matrix.det_succ_row_zero]; simp [Fin.sum_univ_succ, Matrix.det_fin_three, Fin.succAbove]; norm_num
  have ha : absExpand 4 (rmat (intMat exAffine)) = 31 := by
    rw [em]; simp [absExpand, Fin.sum_univ_succ, Fin.succAbove]; norm_num
  refine ⟨intMat exAffine, ?_, hd, ha, ?_, ?_⟩
  · intro i j
    obtain ⟨a, b⟩ := modest_intMat (f := exAffine) (by decide) i j
    exact ⟨a, b.trans (by norm_num)⟩
  · rw [hd, ha]; norm_num
  · rw [ha]; norm_num

/-- a perspective projection with its exact inverse -/
def exPersp : Fin 4 → Fin 4 → ℤ := ![![2, 0, 0, 0], ![0, 2, 0, 0], ![0, 0, 1, 1], ![0, 0, -2, 0]]
def exView : Fin 4 → Fin 4 → ℤ := ![![1, 0, 0, 0], ![0, 0, 1, 0], ![0, -1, 0, 0], ![3, 4, 5, 1]]

theorem exPersp_inverse : ∃ r : M4 F32, GMatrix.inverse .gcc (intMat exPersp) = some r ∧
    (∀ i j, (mat r i j).isFin = true) ∧ rmat r = !![1 / 2, 0, 0, 0; 0, 1 / 2, 0, 0; 0, 0, 0, -(1 / 2); 0, 0, 1, 1 / 2] := by
  have h : (match GMatrix.inverse .gcc (intMat exPersp) with
    | none => false
    | some r => (Fp.isFin r.x.x && Fp.feq r.x.x (Scalar.lit (1) (2 ^ 1))) && (Fp.isFin r.x.y && Fp.feq r.x.y (Scalar.lit (0) (2 ^ 1))) && (Fp.isFin r.x.z && Fp.feq r.x.z (Scalar.lit (0) (2 ^ 1))) && (Fp.isFin r.x.w && Fp.feq r.x.w (Scalar.lit (0) (2 ^ 1))) && (Fp.isFin r.y.x && Fp.feq r.y.x (Scalar.lit (0) (2 ^ 1))) && (Fp.isFin r.y.y && Fp.feq r.y.y (Scalar.lit (1) (2 ^ 1))) && (Fp.isFin r.y.z && Fp.feq r.y.z (Scalar.lit (0) (2 ^ 1))) && (Fp.isFin r.y.w && Fp.feq r.y.w (Scalar.lit (0) (2 ^ 1))) && (Fp.isFin r.z.x && Fp.feq r.z.x (Scalar.lit (0) (2 ^ 1))) && (Fp.isFin r.z.y && Fp.feq r.z.y (Scalar.lit (0) (2 ^ 1))) && (Fp.isFin r.z.z && Fp.feq r.z.z (Scalar.lit (0) (2 ^ 1))) && (Fp.isFin r.z.w && Fp.feq r.z.w (Scalar.lit (-1) (2 ^ 1))) && (Fp.isFin r.w.x && Fp.feq r.w.x (Scalar.lit (0) (2 ^ 1))) && (Fp.isFin r.w.y && Fp.feq r.w.y (Scalar.lit (0) (2 ^ 1))) && (Fp.isFin r.w.z && Fp.feq r.w.z (Scalar.lit (2) (2 ^ 1))) && (Fp.isFin r.w.w && Fp.feq r.w.w (Scalar.lit (1) (2 ^ 1)))) = true := by kdecide
  cases hr : GMatrix.inverse .gcc (intMat exPersp) with
  | none => rw [hr] at h; cases h
  | some r =>
    rw [hr] at h
    simp only [Bool.and_eq_true] at h
    have key : ∀ {a : F32} {n : ℤ}, n.natAbs ≤ 2 ^ 24 → (Fp.isFin a = true ∧ Fp.feq a (Scalar.lit n (2 ^ 1)) = true) → a.isFin = true ∧ a.val = (n : ℝ) / 2 ^ 1 := by
      intro a n hn he
      obtain ⟨lf, lv⟩ := lit_dyadic n 1 hn (by decide)
      rw [← lv]
      exact ⟨he.1, (feq_iff_val (isNaN_of_isFin he.1) (isNaN_of_isFin lf)).1 he.2⟩
    obtain ⟨⟨⟨⟨⟨⟨⟨⟨⟨⟨⟨⟨⟨⟨⟨h00, h01⟩, h02⟩, h03⟩, h10⟩, h11⟩, h12⟩, h13⟩, h20⟩, h21⟩, h22⟩, h23⟩, h30⟩, h31⟩, h32⟩, h33⟩ := h
    have k00 := key (by decide) h00
    have k01 := key (by decide) h01
    have k02 := key (by decide) h02
    have k03 := key (by decide) h03
    have k10 := key (by decide) h10
    have k11 := key (by decide) h11
    have k12 := key (by decide) h12
    have k13 := key (by decide) h13
    have k20 := key (by decide) h20
    have k21 := key (by decide) h21
    have k22 := key (by decide) h22
    have k23 := key (by decide) h23
    have k30 := key (by decide) h30
    have k31 := key (by decide) h31
    have k32 := key (by decide) h32
    have k33 := key (by decide) h33
    refine ⟨r, rfl, ?_, ?_⟩
    · intro i j
      fin_cases i <;> fin_cases j
      · exact k00.1
      · exact k01.1
      · exact k02.1
      · exact k03.1
      · exact k10.1
      · exact k11.1
      · exact k12.1
      · exact k13.1
      · exact k20.1
      · exact k21.1
      · exact k22.1
      · exact k23.1
      · exact k30.1
      · exact k31.1
      · exact k32.1
      · exact k33.1
    · ext i j
      rw [rmat_val]
      fin_cases i <;> fin_cases j
      · exact k00.2.trans (by norm_num)
      · exact k01.2.trans (by norm_num)
      · exact k02.2.trans (by norm_num)
      · exact k03.2.trans (by norm_num)
      · exact k10.2.trans (by norm_num)
      · exact k11.2.trans (by norm_num)
      · exact k12.2.trans (by norm_num)
      · exact k13.2.trans (by norm_num)
      · exact k20.2.trans (by norm_num)
      · exact k21.2.trans (by norm_num)
      · exact k22.2.trans (by norm_num)
      · exact k23.2.trans (by norm_num)
      · exact k30.2.trans (by norm_num)
      · exact k31.2.trans (by norm_num)
      · exact k32.2.trans (by norm_num)
      · exact k33.2.trans (by norm_num)

example : ∃ (P V : M4 F32) (p : Point3D F32) (r : M4 F32), GMatrix.inverse .gcc P = some r ∧ Modest r ∧ Modest V ∧ (p.x.isFin = true ∧ |p.x.val| ≤ 2 ^ 20) ∧
    (p.y.isFin = true ∧ |p.y.val| ≤ 2 ^ 20) ∧ (p.z.isFin = true ∧ |p.z.val| ≤ 2 ^ 20) ∧
    (∑ i, homog p i * (rmat r * rmat V) i 3) = -2 ∧ (∑ i, |homog p i| * ∑ k, |rmat r i k| * |rmat V k 3|) = 3 := by
  obtain ⟨r, hr, rf, re⟩ := exPersp_inverse
  obtain ⟨a3, f3, v3⟩ : ∃ a : F32, a.isFin = true ∧ a.val = 3 := ⟨_, (lit_int 3 (by decide)).1, (lit_int 3 (by decide)).2.trans (by norm_num)⟩
  obtain ⟨a4, f4, v4⟩ : ∃ a : F32, a.isFin = true ∧ a.val = 4 := ⟨_, (lit_int 4 (by decide)).1, (lit_int 4 (by decide)).2.trans (by norm_num)⟩
  obtain ⟨a5, f5, v5⟩ : ∃ a : F32, a.isFin = true ∧ a.val = 5 := ⟨_, (lit_int 5 (by decide)).1, (lit_int 5 (by decide)).2.trans (by norm_num)⟩
  have e := rmat_intMat (f := exView) (by decide)
  have em : rmat (intMat exView) = !![1, 0, 0, 0; 0, 0, 1, 0; 0, -1, 0, 0; 3, 4, 5, 1] := by
    ext i j; rw [(e i j).2]; fin_cases i <;> fin_cases j <;> simp [exView]
  refine ⟨intMat exPersp, intMat exView, ⟨a3, a4, a5⟩, r, hr, ?_, modest_intMat (by decide), ⟨f3, ?_⟩, ⟨f4, ?_⟩, ⟨f5, ?_⟩, ?_, ?_⟩
  · intro i j
    refine ⟨rf i j, ?_⟩
    rw [re]; fin_cases i <;> fin_cases j <;> simp [abs_of_pos] <;> norm_num
  · rw [v3]; norm_num
  · rw [v4]; norm_num
  · rw [v5]; norm_num
  · rw [em, re]
    simp only [Fin.sum_univ_four, Matrix.mul_apply, homog, v3, v4, v5]
    simp; norm_num
  · rw [em, re]
    simp only [Fin.sum_univ_four, homog, v3, v4, v5]
    simp; norm_num

end Graphene

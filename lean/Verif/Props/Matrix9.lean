/-
  C68: decomposition of a matrix into translation, rotation, shear and scale.
-/
import Verif.Model.Decompose
import Verif.Props.Quats4
import Verif.Props.Matrix5
import Verif.Proofs.KDecide

namespace Graphene
open Spec Simd4f Matrix

namespace Spec

/-- scaling by the components of `s` -/
def scaleMat (s : Point3D ℝ) : Matrix (Fin 4) (Fin 4) ℝ := !![s.x, 0, 0, 0; 0, s.y, 0, 0; 0, 0, s.z, 0; 0, 0, 0, 1]

/-- the shear with factors xy, xz, yz (in this order in `h`): y is moved along x, and z along x and y -/
def shearMat (h : Point3D ℝ) : Matrix (Fin 4) (Fin 4) ℝ := !![1, 0, 0, 0; h.x, 1, 0, 0; h.y, h.z, 1, 0; 0, 0, 0, 1]

/-- translation by `t` -/
def translateMat (t : Point3D ℝ) : Matrix (Fin 4) (Fin 4) ℝ := !![1, 0, 0, 0; 0, 1, 0, 0; 0, 0, 1, 0; t.x, t.y, t.z, 1]

/-- scale first, then shear, then rotate, then translate (row vectors) -/
def compose (s h : Point3D ℝ) (R : Matrix (Fin 4) (Fin 4) ℝ) (t : Point3D ℝ) : Matrix (Fin 4) (Fin 4) ℝ :=
  scaleMat s * shearMat h * R * translateMat t

/-- the three scales have the same sign, none is zero -/
def OneSign (s : Point3D ℝ) : Prop := (0 < s.x ∧ 0 < s.y ∧ 0 < s.z) ∨ (s.x < 0 ∧ s.y < 0 ∧ s.z < 0)

/-- the xyz part of a vector -/
noncomputable def pt (v : Vec3 ℝ) : Point3D ℝ := ⟨v.getX, v.getY, v.getZ⟩

end Spec

theorem compose_entries (s h t : Point3D ℝ) (R : M4 ℝ) (hA : Affine R) (hF : R.w = ⟨0, 0, 0, 1⟩) :
    compose s h (mat R) t = mat
      ⟨⟨s.x * R.x.x, s.x * R.x.y, s.x * R.x.z, 0⟩,
       ⟨s.y * (h.x * R.x.x + R.y.x), s.y * (h.x * R.x.y + R.y.y), s.y * (h.x * R.x.z + R.y.z), 0⟩,
       ⟨s.z * (h.y * R.x.x + h.z * R.y.x + R.z.x), s.z * (h.y * R.x.y + h.z * R.y.y + R.z.y), s.z * (h.y * R.x.z + h.z * R.y.z + R.z.z), 0⟩,
       ⟨t.x, t.y, t.z, 1⟩⟩ := by
  obtain ⟨a1, a2, a3, a4⟩ := hA
  ext i j
  fin_cases i <;> fin_cases j <;>
    simp [compose, scaleMat, shearMat, translateMat, mat, vec, Matrix.mul_apply, Fin.sum_univ_succ, a1, a2, a3, hF] <;> ring

theorem compose_det (s h t : Point3D ℝ) (R : Matrix (Fin 4) (Fin 4) ℝ) (hR : R.det = 1) :
    (compose s h R t).det = s.x * s.y * s.z := by
  have h1 : (scaleMat s).det = s.x * s.y * s.z := by
    simp [scaleMat, Matrix.det_succ_row_zero, Fin.sum_univ_succ, Fin.succAbove]; ring
  have h2 : (shearMat h).det = 1 := by
    simp [shearMat, Matrix.det_succ_row_zero, Fin.sum_univ_succ, Fin.succAbove]
  have h3 : (translateMat t).det = 1 := by
    simp [translateMat, Matrix.det_succ_row_zero, Fin.sum_univ_succ, Fin.succAbove]
  rw [compose, Matrix.det_mul, Matrix.det_mul, Matrix.det_mul, h1, h2, h3, hR]; ring

/-- the length of `k` times a unit vector, and the unit vector itself -/
theorem length4_scaled (bk : Backend) {k a b c : ℝ} (h : a ^ 2 + b ^ 2 + c ^ 2 = 1) (hk : k ≠ 0) (hok : rsqrtOk bk (k ^ 2)) :
    (length4 bk (⟨k * a, k * b, k * c, 0⟩ : V4 ℝ)).x = |k| ∧
    normalize4 bk (⟨k * a, k * b, k * c, 0⟩ : V4 ℝ) = ⟨k / |k| * a, k / |k| * b, k / |k| * c, 0⟩ := by
  have hd : k * a * (k * a) + k * b * (k * b) + (k * c * (k * c) + 0 * 0) = k ^ 2 := by
    linear_combination k ^ 2 * h
  have hp : 0 < k ^ 2 := by positivity
  constructor
  · rw [length4_real]; simp only [splat]; rw [hd, Real.sqrt_sq_eq_abs]
  · simp only [normalize4, dot4_real, Simd4f.rsqrt, map1, splat, Simd4f.mul, map2, RealScalar.mul_eq]
    rw [hd, rsqrt1_ok hp hok, Real.sqrt_sq_eq_abs]
    simp only [V4.mk.injEq]
    refine ⟨?_, ?_, ?_, ?_⟩ <;> ring

/-- `matrix_decompose_3d` finds the parts of a composed matrix -/
theorem decompose3d_parts (bk : Backend) (m R : M4 ℝ) (s h t : Point3D ℝ) (hR : Rotation R) (hs : OneSign s)
    (hm : mat m = compose s h (mat R) t) (hd : eps ≤ |s.x * s.y * s.z|)
    (hok : rsqrtOk bk (s.x ^ 2) ∧ rsqrtOk bk (s.y ^ 2) ∧ rsqrtOk bk (s.z ^ 2)) :
    GMatrix.decompose3d bk m = .ok ⟨⟨⟨t.x, t.y, t.z, 0⟩⟩, Vec3.init s.x s.y s.z, Quat.initFromMatrix R, Vec3.init h.x h.y h.z,
      Vec4.init 0 0 0 1⟩ := by
  obtain ⟨⟨n1, n2, n3, n4, n5, n6⟩, k1, k2, k3, k4, k5, k6, k7, k8, k9⟩ := hR.entries
  have hdet := compose_det s h t (mat R) hR.det
  rw [compose_entries s h t R hR.affine hR.fixed] at hm
  have hm := mat_injective hm
  rw [compose_entries s h t R hR.affine hR.fixed, ← hm] at hdet
  have hA := hR.affine
  have hF := hR.fixed
  obtain ⟨⟨r00, r01, r02, r03⟩, ⟨r10, r11, r12, r13⟩, ⟨r20, r21, r22, r23⟩, ⟨r30, r31, r32, r33⟩⟩ := R
  simp only [V4.mk.injEq, Affine] at hA hF
  obtain ⟨rfl, rfl, rfl, rfl⟩ := hF
  obtain ⟨rfl, rfl, rfl, -⟩ := hA
  obtain ⟨sx, sy, sz⟩ := s
  obtain ⟨a, b, c⟩ := h
  dsimp only at *
  -- rows are orthogonal
  have o1 : r00 * r10 + r01 * r11 + r02 * r12 = 0 := by rw [k4, k5, k6]; ring
  have o2 : r00 * r20 + r01 * r21 + r02 * r22 = 0 := by rw [k7, k8, k9]; ring
  have o3 : r10 * r20 + r11 * r21 + r12 * r22 = 0 := by rw [k7, k8, k9]; ring
  have x0 : sx ≠ 0 := by rcases hs with ⟨h, -, -⟩ | ⟨h, -, -⟩; exacts [h.ne', h.ne]
  have y0 : sy ≠ 0 := by rcases hs with ⟨-, h, -⟩ | ⟨-, h, -⟩; exacts [h.ne', h.ne]
  have z0 : sz ≠ 0 := by rcases hs with ⟨-, -, h⟩ | ⟨-, -, h⟩; exacts [h.ne', h.ne]
  obtain ⟨xl, xn⟩ := length4_scaled bk n1 x0 hok.1
  obtain ⟨yl, yn⟩ := length4_scaled bk n6 y0 hok.2.1
  obtain ⟨zl, zn⟩ := length4_scaled bk n4 z0 hok.2.2
  have hw : approxVal (1 : ℝ) f0 = false := by
    rw [← Bool.not_eq_true, approxVal_real]; simp [eps_lt_one.le]
  have hN : GMatrix.normalize m = some m := by
    rw [hm]; simp only [GMatrix.normalize, hw, Bool.false_eq_true, if_false]; simp [Simd4f.mul, map2, splat]
  have hdet' : approxVal (GMatrix.determinant bk m) f0 = false := by
    rw [← Bool.not_eq_true, approxVal_real, GMatrix.determinant,
      show (Simd4x4f.determinant bk m).1.x = -(mat m).det from detVec_real bk m, hdet]
    simp only [RealScalar.f0_eq, sub_zero, abs_neg, not_lt]; exact hd
  obtain ⟨σ, hσ, hσs, hx, hy, hz⟩ : ∃ σ : ℝ, σ * σ = 1 ∧ (σ = 1 ∨ σ = -1) ∧ sx / |sx| = σ ∧ sy / |sy| = σ ∧ sz / |sz| = σ := by
    rcases hs with ⟨h1, h2, h3⟩ | ⟨h1, h2, h3⟩
    · refine ⟨1, by norm_num, Or.inl rfl, ?_, ?_, ?_⟩ <;> rw [abs_of_pos (by assumption)] <;> field_simp
    · refine ⟨-1, by norm_num, Or.inr rfl, ?_, ?_, ?_⟩ <;> rw [abs_of_neg (by assumption)] <;> field_simp
  rw [hx] at xn
  rw [hy] at yn
  rw [hz] at zn
  have hl : (⟨Simd4f.mergeW m.x f0, Simd4f.mergeW m.y f0, Simd4f.mergeW m.z f0, Simd4f.mergeW m.w f1⟩ : M4 ℝ) = m := by
    rw [hm]; simp [mergeW]
  have hww : m.w.w = 1 := by rw [hm]
  simp only [GMatrix.decompose3d, hN, hww, hw, hl, hdet', Bool.false_eq_true, if_false]
  have hz3 : isZero3 (Simd4f.init m.x.w m.y.w m.z.w 1) = true := by
    rw [hm]; simp [isZero3, Simd4f.init, eps_pos.le]
  simp only [hz3, Bool.not_true, Bool.false_eq_true, if_false]
  have e1 : m.x = ⟨sx * r00, sx * r01, sx * r02, 0⟩ := by rw [hm]
  have e2 : m.y = ⟨sy * (a * r00 + r10), sy * (a * r01 + r11), sy * (a * r02 + r12), 0⟩ := by rw [hm]
  have e3 : m.z = ⟨sz * (b * r00 + c * r10 + r20), sz * (b * r01 + c * r11 + r21), sz * (b * r02 + c * r12 + r22), 0⟩ := by rw [hm]
  have e4 : m.w = ⟨t.x, t.y, t.z, 1⟩ := by rw [hm]
  have g1 : mergeW m.x f0 = m.x := by rw [e1]; simp [mergeW]
  have g2 : mergeW m.y f0 = m.y := by rw [e2]; simp [mergeW]
  have g3 : mergeW m.z f0 = m.z := by rw [e3]; simp [mergeW]
  have g4 : mergeW m.w f1 = m.w := by rw [e4]; simp [mergeW]
  simp only [g1, g2, g3, g4]
  simp only [e1, xl, xn]
  have d1 : (dot4 ⟨σ * r00, σ * r01, σ * r02, 0⟩ m.y).x = σ * sy * a := by
    rw [e2, dot4_real]; simp only [splat]; linear_combination σ * sy * a * n1 + σ * sy * o1
  have s1 : Simd4f.sub m.y (Simd4f.mul ⟨σ * r00, σ * r01, σ * r02, 0⟩ (splat (σ * sy * a))) =
      ⟨sy * r10, sy * r11, sy * r12, 0⟩ := by
    rw [e2]; simp only [Simd4f.sub, Simd4f.mul, map2, splat, RealScalar.sub_eq, RealScalar.mul_eq, V4.mk.injEq]
    refine ⟨?_, ?_, ?_, ?_⟩
    · linear_combination -sy * a * r00 * hσ
    · linear_combination -sy * a * r01 * hσ
    · linear_combination -sy * a * r02 * hσ
    · ring
  simp only [d1, s1, yl, yn]
  have d2 : (dot4 ⟨σ * r00, σ * r01, σ * r02, 0⟩ m.z).x = σ * sz * b := by
    rw [e3, dot4_real]; simp only [splat]; linear_combination σ * sz * b * n1 + σ * sz * c * o1 + σ * sz * o2
  have s2 : Simd4f.sub m.z (Simd4f.mul ⟨σ * r00, σ * r01, σ * r02, 0⟩ (splat (σ * sz * b))) =
      ⟨sz * (c * r10 + r20), sz * (c * r11 + r21), sz * (c * r12 + r22), 0⟩ := by
    rw [e3]; simp only [Simd4f.sub, Simd4f.mul, map2, splat, RealScalar.sub_eq, RealScalar.mul_eq, V4.mk.injEq]
    refine ⟨?_, ?_, ?_, ?_⟩
    · linear_combination -sz * b * r00 * hσ
    · linear_combination -sz * b * r01 * hσ
    · linear_combination -sz * b * r02 * hσ
    · ring
  have d3 : (dot4 ⟨σ * r10, σ * r11, σ * r12, 0⟩ ⟨sz * (c * r10 + r20), sz * (c * r11 + r21), sz * (c * r12 + r22), 0⟩).x =
      σ * sz * c := by
    rw [dot4_real]; simp only [splat]; linear_combination σ * sz * c * n6 + σ * sz * o3
  have s3 : Simd4f.sub ⟨sz * (c * r10 + r20), sz * (c * r11 + r21), sz * (c * r12 + r22), 0⟩
      (Simd4f.mul ⟨σ * r10, σ * r11, σ * r12, 0⟩ (splat (σ * sz * c))) = ⟨sz * r20, sz * r21, sz * r22, 0⟩ := by
    simp only [Simd4f.sub, Simd4f.mul, map2, splat, RealScalar.sub_eq, RealScalar.mul_eq, V4.mk.injEq]
    refine ⟨?_, ?_, ?_, ?_⟩
    · linear_combination -sz * c * r10 * hσ
    · linear_combination -sz * c * r11 * hσ
    · linear_combination -sz * c * r12 * hσ
    · ring
  simp only [d2, s2, d3, s3, zl, zn, e4]
  have hdot : (Simd4f.dot3 bk ⟨σ * r00, σ * r01, σ * r02, 0⟩ (Simd4f.cross3 bk ⟨σ * r10, σ * r11, σ * r12, 0⟩ ⟨σ * r20, σ * r21, σ * r22, 0⟩)).x = σ := by
    simp only [Simd4f.dot3, splat, dot3Scalar_real, cross3_real]
    have : r00 * (r11 * r22 - r12 * r21) + r01 * (r12 * r20 - r10 * r22) + r02 * (r10 * r21 - r11 * r20) = 1 := by
      rw [← k1, ← k2, ← k3]; linarith
    linear_combination σ ^ 3 * this + σ * hσ
  have hflip : ((Simd4f.dot3 bk ⟨σ * r00, σ * r01, σ * r02, 0⟩ (Simd4f.cross3 bk ⟨σ * r10, σ * r11, σ * r12, 0⟩ ⟨σ * r20, σ * r21, σ * r22, 0⟩)).x <. f0)
      = decide (σ < 0) := by
    rw [hdot, Bool.eq_iff_iff]; simp
  have ax : |sx| = σ * sx := by rw [← hx, div_mul_eq_mul_div, ← sq, ← sq_abs, sq]; field_simp
  have ay : |sy| = σ * sy := by rw [← hy, div_mul_eq_mul_div, ← sq, ← sq_abs, sq]; field_simp
  have az : |sz| = σ * sz := by rw [← hz, div_mul_eq_mul_div, ← sq, ← sq_abs, sq]; field_simp
  simp only [hflip, ax, ay, az]
  have σ0 : σ ≠ 0 := by rintro rfl; norm_num at hσ
  have q1 : σ * sy * a / (σ * sy) = a := by field_simp
  have q2 : σ * sz * b / (σ * sz) = b := by field_simp
  have q3 : σ * sz * c / (σ * sz) = c := by field_simp
  simp only [RealScalar.div_eq, q1, q2, q3]
  rcases hσs with rfl | rfl
  · simp [Vec3.init, Vec4.init, Simd4f.init, mergeW]
    rw [if_neg (by norm_num : ¬ (1 : ℝ) < 0)]
  · simp [Vec3.init, Vec4.init, Simd4f.init, mergeW, Simd4f.neg, map1]

/-- a nonzero triple is a positive multiple of a unit triple -/
theorem unit_split {a b c : ℝ} (h : ¬ (a = 0 ∧ b = 0 ∧ c = 0)) :
    ∃ n x y z : ℝ, 0 < n ∧ x ^ 2 + y ^ 2 + z ^ 2 = 1 ∧ a = n * x ∧ b = n * y ∧ c = n * z := by
  have hp : 0 < a ^ 2 + b ^ 2 + c ^ 2 := by
    by_contra hc
    apply h
    have ha := sq_nonneg a
    have hb := sq_nonneg b
    have hc' := sq_nonneg c
    refine ⟨?_, ?_, ?_⟩ <;> apply pow_eq_zero_iff two_ne_zero |>.mp <;> linarith
  have hn : 0 < √(a ^ 2 + b ^ 2 + c ^ 2) := Real.sqrt_pos.mpr hp
  refine ⟨√(a ^ 2 + b ^ 2 + c ^ 2), a / √(a ^ 2 + b ^ 2 + c ^ 2), b / √(a ^ 2 + b ^ 2 + c ^ 2), c / √(a ^ 2 + b ^ 2 + c ^ 2), hn, ?_, ?_, ?_, ?_⟩
  · rw [div_pow, div_pow, div_pow, Real.sq_sqrt hp.le]; field_simp
  all_goals field_simp

/-- every affine matrix with a nonzero determinant has parts -/
theorem parts_exist (m : M4 ℝ) (hA : Affine m) (hd : (mat m).det ≠ 0) :
    ∃ (s h t : Point3D ℝ) (R : M4 ℝ), Rotation R ∧ OneSign s ∧ mat m = compose s h (mat R) t := by
  have hdet : (mat m).det = m.x.x * (m.y.y * m.z.z - m.y.z * m.z.y) + m.x.y * (m.y.z * m.z.x - m.y.x * m.z.z) +
      m.x.z * (m.y.x * m.z.y - m.y.y * m.z.x) := by
    obtain ⟨a1, a2, a3, a4⟩ := hA
    rw [Matrix.det_succ_row_zero]
    simp [mat, vec, Fin.sum_univ_succ, Matrix.det_fin_three, Matrix.submatrix, Fin.succAbove, a1, a2, a3, a4]
    ring
  rw [hdet] at hd
  clear hdet
  obtain ⟨⟨u1, u2, u3, m03⟩, ⟨v1, v2, v3, m13⟩, ⟨w1, w2, w3, m23⟩, ⟨t1, t2, t3, m33⟩⟩ := m
  obtain ⟨rfl, rfl, rfl, rfl⟩ := hA
  dsimp only at hd
  obtain ⟨n1, x1, x2, x3, hn1, hx, rfl, rfl, rfl⟩ := unit_split (a := u1) (b := u2) (c := u3) (by
    rintro ⟨rfl, rfl, rfl⟩; apply hd; ring)
  set p := x1 * v1 + x2 * v2 + x3 * v3 with hp
  obtain ⟨n2, y1, y2, y3, hn2, hy, e1, e2, e3⟩ := unit_split (a := v1 - p * x1) (b := v2 - p * x2) (c := v3 - p * x3) (by
    rintro ⟨h1, h2, h3⟩
    apply hd
    rw [sub_eq_zero.mp h1, sub_eq_zero.mp h2, sub_eq_zero.mp h3]; ring)
  have oxy : x1 * y1 + x2 * y2 + x3 * y3 = 0 := by
    apply mul_left_cancel₀ hn2.ne'
    rw [mul_zero]
    linear_combination -x1 * e1 - x2 * e2 - x3 * e3 - p * hx - hp
  set q := x1 * w1 + x2 * w2 + x3 * w3 with hq
  set r := y1 * w1 + y2 * w2 + y3 * w3 with hr
  obtain ⟨n3, z1, z2, z3, hn3, hz, f1', f2', f3'⟩ := unit_split (a := w1 - q * x1 - r * y1) (b := w2 - q * x2 - r * y2)
      (c := w3 - q * x3 - r * y3) (by
    rintro ⟨h1, h2, h3⟩
    apply hd
    have g1 : w1 = q * x1 + r * y1 := by linarith
    have g2 : w2 = q * x2 + r * y2 := by linarith
    have g3 : w3 = q * x3 + r * y3 := by linarith
    have k1 : v1 = p * x1 + n2 * y1 := by linarith
    have k2 : v2 = p * x2 + n2 * y2 := by linarith
    have k3 : v3 = p * x3 + n2 * y3 := by linarith
    clear_value p q r
    subst g1 g2 g3 k1 k2 k3; ring)
  have oxz : x1 * z1 + x2 * z2 + x3 * z3 = 0 := by
    apply mul_left_cancel₀ hn3.ne'
    rw [mul_zero]
    linear_combination -x1 * f1' - x2 * f2' - x3 * f3' - q * hx - r * oxy - hq
  have oyz : y1 * z1 + y2 * z2 + y3 * z3 = 0 := by
    apply mul_left_cancel₀ hn3.ne'
    rw [mul_zero]
    linear_combination -y1 * f1' - y2 * f2' - y3 * f3' - q * oxy - r * hy - hr
  set D := x1 * (y2 * z3 - y3 * z2) + x2 * (y3 * z1 - y1 * z3) + x3 * (y1 * z2 - y2 * z1) with hD
  have hDD : D * D = 1 := by
    have hG : D * D = (x1 ^ 2 + x2 ^ 2 + x3 ^ 2) * ((y1 ^ 2 + y2 ^ 2 + y3 ^ 2) * (z1 ^ 2 + z2 ^ 2 + z3 ^ 2) - (y1 * z1 + y2 * z2 + y3 * z3) ^ 2)
        - (x1 * y1 + x2 * y2 + x3 * y3) * ((x1 * y1 + x2 * y2 + x3 * y3) * (z1 ^ 2 + z2 ^ 2 + z3 ^ 2) - (x1 * z1 + x2 * z2 + x3 * z3) * (y1 * z1 + y2 * z2 + y3 * z3))
        + (x1 * z1 + x2 * z2 + x3 * z3) * ((x1 * y1 + x2 * y2 + x3 * y3) * (y1 * z1 + y2 * z2 + y3 * z3) - (x1 * z1 + x2 * z2 + x3 * z3) * (y1 ^ 2 + y2 ^ 2 + y3 ^ 2)) := by
      rw [hD]; ring
    rw [hG, hx, hy, hz, oxy, oxz, oyz]; ring
  have hDpm : D = 1 ∨ D = -1 := mul_self_eq_one_iff.mp hDD
  refine ⟨⟨D * n1, D * n2, D * n3⟩, ⟨p / n2, q / n3, r / n3⟩, ⟨t1, t2, t3⟩,
    ⟨⟨D * x1, D * x2, D * x3, 0⟩, ⟨D * y1, D * y2, D * y3, 0⟩, ⟨D * z1, D * z2, D * z3, 0⟩, ⟨0, 0, 0, 1⟩⟩, ⟨?_, ?_, ?_, rfl⟩, ?_, ?_⟩
  · clear_value D
    ext i j
    fin_cases i <;> fin_cases j <;> simp [mat, vec, Matrix.mul_apply, Fin.sum_univ_succ] <;>
      first
        | linear_combination D * D * hx + hDD
        | linear_combination D * D * hy + hDD
        | linear_combination D * D * hz + hDD
        | linear_combination D * D * oxy
        | linear_combination D * D * oxz
        | linear_combination D * D * oyz
  · rw [Matrix.det_succ_row_zero]
    simp [mat, vec, Fin.sum_univ_succ, Matrix.det_fin_three, Matrix.submatrix, Fin.succAbove]
    have : D ^ 3 * D = 1 := by linear_combination (D * D + 1) * hDD
    rw [← this]
    conv_rhs => rw [hD]
    ring
  · simp [Affine]
  · rcases hDpm with h | h <;> rw [h]
    · left; simp only [one_mul]; exact ⟨hn1, hn2, hn3⟩
    · right; dsimp only; refine ⟨?_, ?_, ?_⟩ <;> linarith
  · rw [compose_entries _ _ _ _ (by simp [Affine]) rfl]
    dsimp only
    clear_value p q r D
    have c2 : n2 * (p / n2) = p := by field_simp
    have c3 : n3 * (q / n3) = q := by field_simp
    have c4 : n3 * (r / n3) = r := by field_simp
    congr 1
    simp only [M4.mk.injEq, V4.mk.injEq, and_true, true_and]
    refine ⟨⟨?_, ?_, ?_⟩, ⟨?_, ?_, ?_⟩, ?_, ?_, ?_⟩
    · linear_combination -n1 * x1 * hDD
    · linear_combination -n1 * x2 * hDD
    · linear_combination -n1 * x3 * hDD
    · linear_combination e1 - (p * x1 + n2 * y1) * hDD - D * D * x1 * c2
    · linear_combination e2 - (p * x2 + n2 * y2) * hDD - D * D * x2 * c2
    · linear_combination e3 - (p * x3 + n2 * y3) * hDD - D * D * x3 * c2
    · linear_combination f1' - (q * x1 + r * y1 + n3 * z1) * hDD - D * D * x1 * c3 - D * D * y1 * c4
    · linear_combination f2' - (q * x2 + r * y2 + n3 * z2) * hDD - D * D * x2 * c3 - D * D * y2 * c4
    · linear_combination f3' - (q * x3 + r * y3 + n3 * z3) * hDD - D * D * x3 * c3 - D * D * y3 * c4

/-! ## C68 -/

/-- C68: `matrix_decompose` finds the parts: a matrix that scales (three factors of one sign), shears, rotates by a
unit quaternion other than a half turn and translates decomposes into exactly that translation, scale and shear,
and that quaternion up to sign; unless it is a 2D matrix or the identity.  On the scalar backend each squared
scale must exceed `FLT_EPSILON`. -/
theorem C68_parts_partial (bk : Backend) (m : M4 ℝ) (s h t : Point3D ℝ) (q : Quat ℝ) (hq : UnitQuat q) (hw : q.w ≠ 0)
    (hs : OneSign s) (hm : mat m = compose s h (mat q.toMatrix) t) (hd : eps ≤ |s.x * s.y * s.z|)
    (hok : rsqrtOk bk (s.x ^ 2) ∧ rsqrtOk bk (s.y ^ 2) ∧ rsqrtOk bk (s.z ^ 2))
    (hid : GMatrix.isIdentity bk m = false) (h2 : GMatrix.is2d m = false) :
    ∃ d, GMatrix.decompose ℝ bk m = .ok d ∧ pt d.translate = t ∧ pt d.scale = s ∧ pt d.shear = h ∧
      (d.rotate = q ∨ d.rotate = opp q) ∧ d.perspective = Vec4.init 0 0 0 1 := by
  obtain ⟨h1, -, h3, h4, h5⟩ := C71_rotation q hq
  have := decompose3d_parts bk m q.toMatrix s h t ⟨h1, h3, h5, h4⟩ hs hm hd hok
  refine ⟨_, (by rw [GMatrix.decompose, hid, h2]; exact this), ?_, ?_, ?_, ?_, ?_⟩
  · simp [pt, Vec3.getX, Vec3.getY, Vec3.getZ, Simd4f.get]
  · simp [pt, Vec3.init, Simd4f.init, Vec3.getX, Vec3.getY, Vec3.getZ, Simd4f.get]
  · simp [pt, Vec3.init, Simd4f.init, Vec3.getX, Vec3.getY, Vec3.getZ, Simd4f.get]
  · exact (C72_roundtrip_partial q hq).2 (Or.inl hw)
  · rfl

/-- C68: on the SIMD backends an affine matrix that is neither the identity nor 2D is decomposed exactly when its
determinant is at least `FLT_EPSILON` in magnitude, and then scaling, shearing, rotating and translating by the
returned parts gives the matrix again, unless the rotation involved is a half turn.  Missing: 2D matrices
(`C68_2d_false`), half turns (`C68_half_turn_false`) and the scalar backend with small scales. -/
theorem C68_recompose_partial (bk : Backend) (hb : ∀ d, bk ≠ .scalar d) (m : M4 ℝ) (hA : Affine m)
    (hid : GMatrix.isIdentity bk m = false) (h2 : GMatrix.is2d m = false) :
    (eps ≤ |(mat m).det| → ∃ d, GMatrix.decompose ℝ bk m = .ok d ∧ OneSign (pt d.scale) ∧ d.perspective = Vec4.init 0 0 0 1 ∧
      ∃ R, Rotation R ∧ mat m = compose (pt d.scale) (pt d.shear) (mat R) (pt d.translate) ∧
        (0 < trace4 R → UnitQuat d.rotate ∧ mat m = compose (pt d.scale) (pt d.shear) (mat d.rotate.toMatrix) (pt d.translate))) ∧
    (|(mat m).det| < eps → GMatrix.decompose ℝ bk m = .fail) := by
  constructor
  · intro hd
    have h0 : (mat m).det ≠ 0 := by
      intro h; rw [h, abs_zero] at hd; linarith [eps_pos]
    obtain ⟨s, h, t, R, hR, hs, hm⟩ := parts_exist m hA h0
    have hdet := compose_det s h t (mat R) hR.det
    rw [← hm] at hdet
    have := decompose3d_parts bk m R s h t hR hs hm (by rw [← hdet]; exact hd) ⟨Or.inl hb, Or.inl hb, Or.inl hb⟩
    refine ⟨⟨⟨⟨t.x, t.y, t.z, 0⟩⟩, Vec3.init s.x s.y s.z, Quat.initFromMatrix R, Vec3.init h.x h.y h.z, Vec4.init 0 0 0 1⟩, ?_, ?_, rfl, R, hR, ?_, ?_⟩
    · rw [GMatrix.decompose, hid, h2]; exact this
    · simpa [pt, Vec3.init, Simd4f.init, Vec3.getX, Vec3.getY, Vec3.getZ, Simd4f.get] using hs
    · simpa [pt, Vec3.init, Simd4f.init, Vec3.getX, Vec3.getY, Vec3.getZ, Simd4f.get] using hm
    · intro ht
      obtain ⟨g1, -, g3⟩ := C72_from_matrix_partial R hR ht
      refine ⟨g1, ?_⟩
      dsimp only
      rw [g3]
      simpa [pt, Vec3.init, Simd4f.init, Vec3.getX, Vec3.getY, Vec3.getZ, Simd4f.get] using hm
  · intro hd
    rw [GMatrix.decompose, hid, h2]
    simp only [Bool.false_eq_true, if_false]
    obtain ⟨a1, a2, a3, a4⟩ := hA
    have hw : approxVal m.w.w f0 = false := by
      rw [a4, ← Bool.not_eq_true, approxVal_real]; simp [eps_lt_one.le]
    have hN : GMatrix.normalize m = some m := by
      have : (⟨Simd4f.mul m.x (splat (f1 /. m.w.w)), Simd4f.mul m.y (splat (f1 /. m.w.w)), Simd4f.mul m.z (splat (f1 /. m.w.w)),
          Simd4f.mul m.w (splat (f1 /. m.w.w))⟩ : M4 ℝ) = m := by
        rw [a4]; simp [Simd4f.mul, map2, splat]
      simp only [GMatrix.normalize, hw, Bool.false_eq_true, if_false, this]
    have hl : (⟨Simd4f.mergeW m.x f0, Simd4f.mergeW m.y f0, Simd4f.mergeW m.z f0, Simd4f.mergeW m.w f1⟩ : M4 ℝ) = m := by
      obtain ⟨⟨_, _, _, _⟩, ⟨_, _, _, _⟩, ⟨_, _, _, _⟩, ⟨_, _, _, _⟩⟩ := m
      dsimp only at a1 a2 a3 a4
      subst a1 a2 a3 a4
      simp [mergeW]
    have hdet' : approxVal (GMatrix.determinant bk m) f0 = true := by
      rw [approxVal_real, GMatrix.determinant,
        show (Simd4x4f.determinant bk m).1.x = -(mat m).det from detVec_real bk m]
      simpa using hd
    simp only [GMatrix.decompose3d, hN, hw, hl, hdet', Bool.false_eq_true, if_false, if_true]

/-- C68: the identity decomposes into no translation, unit scale, no rotation and no shear (and a zero
perspective vector, where other matrices give (0, 0, 0, 1)). -/
theorem C68_identity (bk : Backend) : ∃ d, GMatrix.decompose ℝ bk GMatrix.initIdentity = .ok d ∧
    pt d.translate = ⟨0, 0, 0⟩ ∧ pt d.scale = ⟨1, 1, 1⟩ ∧ pt d.shear = ⟨0, 0, 0⟩ ∧ d.rotate = Quat.identity ∧
    d.perspective = Vec4.init 0 0 0 0 ∧ mat (GMatrix.initIdentity : M4 ℝ) = compose (pt d.scale) (pt d.shear) (mat d.rotate.toMatrix) (pt d.translate) := by
  have hi : GMatrix.isIdentity bk (GMatrix.initIdentity : M4 ℝ) = true := by
    have h0 : ∀ a : ℝ, approxEqual a a eps = true := by
      intro a; simp only [approxEqual, greal]; simp [eps_pos.le]
    rcases bk with ⟨_ | _, _ | _⟩ | _ | _ | ⟨_ | _⟩ <;>
      simp [GMatrix.isIdentity, Simd4x4f.isIdentity, GMatrix.initIdentity, Simd4f.init, cmpEq, eq1, h0]
  have hq : Quat.initFromAngles (f0 : ℝ) f0 f0 = Quat.identity := by
    simp [Quat.initFromAngles, Quat.initFromRadians, Quat.identity, degToRad]
  refine ⟨_, by rw [GMatrix.decompose, hi]; rfl, ?_, ?_, ?_, hq, ?_, ?_⟩
  · simp [pt, initZero, Vec3.getX, Vec3.getY, Vec3.getZ, Simd4f.get]
  · simp [pt, Simd4f.init, Vec3.getX, Vec3.getY, Vec3.getZ, Simd4f.get]
  · simp [pt, initZero, Vec3.getX, Vec3.getY, Vec3.getZ, Simd4f.get]
  · simp [initZero, Vec4.init, Simd4f.init]
  · rw [initIdentity_real, hq, (C71_product Quat.identity Quat.identity (by simp [UnitQuat, Quat.identity]) (by simp [UnitQuat, Quat.identity])
      GMatrix.initIdentity).2.1, initIdentity_real]
    ext i j
    fin_cases i <;> fin_cases j <;>
      simp [compose, scaleMat, shearMat, translateMat, pt, initZero, Simd4f.init, Vec3.getX, Vec3.getY, Vec3.getZ, Simd4f.get,
        Matrix.mul_apply, Fin.sum_univ_succ]

/-- C68 is false for every 2D matrix other than the identity: the z scale returned is 0, so that the parts compose
to a singular matrix, whatever is taken for the rotation. -/
theorem C68_2d_false (bk : Backend) (m : M4 ℝ) (hid : GMatrix.isIdentity bk m = false) (h2 : GMatrix.is2d m = true)
    (hd : (mat m).det ≠ 0) (d : Decomp3D ℝ) (h : GMatrix.decompose ℝ bk m = .ok d) (R : Matrix (Fin 4) (Fin 4) ℝ) :
    (pt d.scale).z = 0 ∧ mat m ≠ compose (pt d.scale) (pt d.shear) R (pt d.translate) := by
  have hz : (pt d.scale).z = 0 := by
    rw [GMatrix.decompose, hid, h2] at h
    simp only [Bool.false_eq_true, if_false, if_true, GMatrix.decompose2d] at h
    split at h
    · cases h
    · rename_i e
      split at e
      · cases e
      · simp only [Option.some.injEq] at e
        simp only [Res.ok.injEq] at h
        rw [← h, ← e]
        simp [pt, Vec2.init, Simd4f.init, Vec3.getZ, Simd4f.get]
  refine ⟨hz, ?_⟩
  intro e
  apply hd
  rw [e, compose, Matrix.det_mul, Matrix.det_mul, Matrix.det_mul]
  have h1 : (scaleMat (pt d.scale)).det = 0 := by
    have : (scaleMat (pt d.scale)).det = (pt d.scale).x * (pt d.scale).y * (pt d.scale).z := by
      simp [scaleMat, Matrix.det_succ_row_zero, Fin.sum_univ_succ, Fin.succAbove]; ring
    rw [this, hz, mul_zero]
  rw [h1]; ring

/-- C68, what holds for 2D matrices: a positive scale along x and y and a translation are read back, with no
rotation and no shear; but with a z scale of 0 (`C68_2d_false`). -/
theorem C68_2d_scale_partial (bk : Backend) (sx sy tx ty : ℝ) (hx : 0 < sx) (hy : 0 < sy) (hd : eps ≤ sx * sy) :
    let m : M4 ℝ := ⟨⟨sx, 0, 0, 0⟩, ⟨0, sy, 0, 0⟩, ⟨0, 0, 1, 0⟩, ⟨tx, ty, 0, 1⟩⟩
    GMatrix.isIdentity bk m = false →
    ∃ d, GMatrix.decompose ℝ bk m = .ok d ∧ pt d.translate = ⟨tx, ty, 0⟩ ∧ pt d.scale = ⟨sx, sy, 0⟩ ∧
      pt d.shear = ⟨0, 0, 0⟩ ∧ d.rotate = Quat.identity := by
  intro m hid
  have h2 : GMatrix.is2d m = true := by
    apply TwoD.is2d
    simp [TwoD, m]
  have g00 : GMatrix.getValue m 0 0 = sx := rfl
  have g10 : GMatrix.getValue m 1 0 = 0 := rfl
  have g01 : GMatrix.getValue m 0 1 = 0 := rfl
  have g11 : GMatrix.getValue m 1 1 = sy := rfl
  have g30 : GMatrix.getValue m 3 0 = tx := rfl
  have g31 : GMatrix.getValue m 3 1 = ty := rfl
  have ha : ∀ t : ℝ, 0 < t → Complex.arg ⟨t, 0⟩ = 0 := by
    intro t ht
    exact Complex.arg_ofReal_of_nonneg ht.le
  have hxx : √(sx * sx) = sx := Real.sqrt_mul_self hx.le
  have hyy : √(sy * sy) = sy := Real.sqrt_mul_self hy.le
  have hdet : ¬ sx * sy < 0 := not_lt.mpr (by positivity)
  have hab : |sx * sy| = sx * sy := abs_of_pos (by positivity)
  have hd2 : ∃ d : Decomp2D ℝ ℝ, GMatrix.decompose2d m = some d ∧ d.angle = 0 ∧ d.scale = Vec2.init sx sy ∧ d.translate = Vec2.init tx ty := by
    refine ⟨_, by
      simp only [GMatrix.decompose2d, g00, g10, g01, g11, g30, g31]
      rw [if_neg (by simp only [greal]; rw [show sx * sy - 0 * 0 = sx * sy by ring, hab]; exact not_lt.mpr hd)], ?_, ?_, rfl⟩
    · simp [hxx, hyy, hdet]
      split
      · rw [mul_inv_cancel₀ hx.ne']; exact ha _ one_pos
      · exact ha _ hx
    · simp [hxx, hyy, hdet]
  obtain ⟨d, h1, h3, h4, h5⟩ := hd2
  refine ⟨_, by rw [GMatrix.decompose, hid, h2]; simp only [Bool.false_eq_true, if_false, if_true]; rw [h1], ?_, ?_, ?_, ?_⟩
  · simp [h5, pt, Vec2.init, Simd4f.init, Vec3.getX, Vec3.getY, Vec3.getZ, Simd4f.get]
  · simp [h4, pt, Vec2.init, Simd4f.init, Vec3.getX, Vec3.getY, Vec3.getZ, Simd4f.get]
  · simp [pt, Vec3.zero, Vec3.init, Simd4f.init, initZero, Vec3.getX, Vec3.getY, Vec3.getZ, Simd4f.get]
  · simp [h3, Quat.initFromAngles, Quat.initFromRadians, Quat.identity, degToRad]

/-- C68 is false for 2D rotations: a quarter turn about z decomposes into a quarter turn the other way. -/
theorem C68_rotation_false (bk : Backend) : ∃ d, GMatrix.decompose ℝ bk (quarter .Z) = .ok d ∧
    d.rotate.toMatrix = GMatrix.transpose (quarter .Z) ∧ d.rotate.toMatrix ≠ quarter .Z := by
  have hid : GMatrix.isIdentity bk (quarter .Z) = false := by
    have h01 : approxEqual (0 : ℝ) 1 eps = false := by
      simp only [approxEqual, greal]; unfold eps; norm_num
    rcases bk with ⟨_ | _, _ | _⟩ | _ | _ | ⟨_ | _⟩ <;>
      simp [GMatrix.isIdentity, Simd4x4f.isIdentity, quarter, cmpEq, eq1, Simd4f.init, h01]
  have h2 : GMatrix.is2d (quarter .Z) = true := by
    apply TwoD.is2d
    simp [TwoD, quarter]
  obtain ⟨q1, q2, q3⟩ := arg_quarters
  have hd : ∃ d : Decomp2D ℝ ℝ, GMatrix.decompose2d (quarter .Z) = some d ∧ d.angle = -90 := by
    have g00 : GMatrix.getValue (quarter .Z) 0 0 = 0 := rfl
    have g10 : GMatrix.getValue (quarter .Z) 1 0 = -1 := rfl
    have g01 : GMatrix.getValue (quarter .Z) 0 1 = 1 := rfl
    have g11 : GMatrix.getValue (quarter .Z) 1 1 = 0 := rfl
    have n1 : ¬ (1 : ℝ) < eps := not_lt.mpr eps_lt_one.le
    have a10 : approxVal (1 : ℝ) 0 = false := by
      rw [← Bool.not_eq_true, approxVal_real]; simpa using eps_lt_one.le
    have hpi : -(Real.pi / 2) * (180 / Real.pi) = -90 := by
      have := Real.pi_ne_zero
      field_simp; norm_num
    refine ⟨_, by
      simp only [GMatrix.decompose2d, g00, g10, g01, g11]
      rw [if_neg (by simp [n1])], ?_⟩
    have n2 : ¬ (1 : ℝ) < 0 := by norm_num
    simp [a10, q2, hpi, n2]
  obtain ⟨d, hd, ha⟩ := hd
  refine ⟨_, by rw [GMatrix.decompose, hid, h2]; simp only [Bool.false_eq_true, if_false, if_true]; rw [hd], ?_⟩
  dsimp only
  have hq : Quat.initFromAngles f0 f0 (FloatConv.narrow d.angle) = ⟨0, 0, Real.sin (-(Real.pi / 2) / 2), Real.cos (-(Real.pi / 2) / 2)⟩ := by
    rw [ha]
    have e : 90 * (Real.pi / 180) * (2 : ℝ)⁻¹ = Real.pi / 2 / 2 := by ring
    simp only [Quat.initFromAngles, Quat.initFromRadians, degToRad_real, greal]
    simp [e, neg_div, Real.sin_neg, Real.cos_neg]
  have hm : (Quat.initFromAngles f0 f0 (FloatConv.narrow d.angle)).toMatrix = GMatrix.transpose (quarter .Z) := by
    apply mat_injective
    rw [hq, (axisQuat .Z (-(Real.pi / 2))).2]
    ext i j
    fin_cases i <;> fin_cases j <;> simp [axisMat, mat, vec, quarter, GMatrix.transpose, Simd4x4f.transpose]
  refine ⟨hm, ?_⟩
  rw [hm]
  intro h
  have := congrArg (fun m => m.x.y) h
  simp [quarter, GMatrix.transpose, Simd4x4f.transpose] at this
  norm_num at this

/-- C68 is false for half turns: a half turn about the axis (2/3, -2/3, 1/3) decomposes into a half turn about
(2/3, 2/3, 1/3). -/
theorem C68_half_turn_false (bk : Backend) :
    let q : Quat ℝ := ⟨2 / 3, -2 / 3, 1 / 3, 0⟩
    UnitQuat q ∧
    ∃ d, GMatrix.decompose ℝ bk q.toMatrix = .ok d ∧ d.rotate = ⟨2 / 3, 2 / 3, 1 / 3, 0⟩ ∧ d.rotate.toMatrix ≠ q.toMatrix ∧
      pt d.scale = ⟨1, 1, 1⟩ ∧ pt d.shear = ⟨0, 0, 0⟩ ∧ pt d.translate = ⟨0, 0, 0⟩ := by
  intro q
  have hu : UnitQuat q := by simp only [UnitQuat, q]; norm_num
  refine ⟨hu, ?_⟩
  obtain ⟨r1, -, r3, r4, r5⟩ := C71_rotation q hu
  have hM : q.toMatrix = ⟨⟨-1 / 9, -8 / 9, 4 / 9, 0⟩, ⟨-8 / 9, -1 / 9, -4 / 9, 0⟩, ⟨4 / 9, -4 / 9, -7 / 9, 0⟩, ⟨0, 0, 0, 1⟩⟩ := by
    apply mat_injective
    rw [toMatrix_real]
    ext i j
    fin_cases i <;> fin_cases j <;> simp [q, mat, vec] <;> norm_num
  have hid : GMatrix.isIdentity bk q.toMatrix = false := by
    rw [hM]
    have h01 : approxEqual (-1 / 9 : ℝ) 1 eps = false := by
      simp only [approxEqual, greal]; unfold eps; norm_num
    rcases bk with ⟨_ | _, _ | _⟩ | _ | _ | ⟨_ | _⟩ <;>
      simp [GMatrix.isIdentity, Simd4x4f.isIdentity, cmpEq, eq1, Simd4f.init, h01] <;> norm_num
  have h2 : GMatrix.is2d q.toMatrix = false := by
    rw [hM, ← Bool.not_eq_true, (C61_is2d_partial _).1]
    rintro ⟨h, -⟩
    have := h (4 / 9) (by simp)
    rw [abs_of_pos (by norm_num)] at this
    unfold eps at this
    norm_num at this
  have hf : Quat.initFromMatrix q.toMatrix = ⟨2 / 3, 2 / 3, 1 / 3, 0⟩ := by
    rw [fromMatrix_toMatrix q hu]
    simp only [q, zero_mul, lt_irrefl, if_false, abs_zero, Quat.mk.injEq, and_true]
    refine ⟨abs_of_pos (by norm_num), ?_, abs_of_pos (by norm_num)⟩
    rw [abs_of_neg (by norm_num)]; norm_num
  have hc : mat q.toMatrix = compose ⟨1, 1, 1⟩ ⟨0, 0, 0⟩ (mat q.toMatrix) ⟨0, 0, 0⟩ := by
    have e1 : scaleMat ⟨1, 1, 1⟩ = 1 := by
      ext i j; fin_cases i <;> fin_cases j <;> simp [scaleMat]
    have e2 : shearMat ⟨0, 0, 0⟩ = 1 := by
      ext i j; fin_cases i <;> fin_cases j <;> simp [shearMat]
    have e3 : translateMat ⟨0, 0, 0⟩ = 1 := by
      ext i j; fin_cases i <;> fin_cases j <;> simp [translateMat]
    rw [compose, e1, e2, e3]; simp
  have := decompose3d_parts bk q.toMatrix q.toMatrix ⟨1, 1, 1⟩ ⟨0, 0, 0⟩ ⟨0, 0, 0⟩ ⟨r1, r3, r5, r4⟩
    (Or.inl ⟨by norm_num, by norm_num, by norm_num⟩) hc (by norm_num; exact eps_lt_one.le)
    ⟨Or.inr (by norm_num; exact eps_lt_one), Or.inr (by norm_num; exact eps_lt_one), Or.inr (by norm_num; exact eps_lt_one)⟩
  refine ⟨_, by rw [GMatrix.decompose, hid, h2]; exact this, hf, ?_, ?_, ?_, ?_⟩
  · dsimp only
    rw [hf]
    intro hh
    rw [C71_double_cover _ _ (by simp only [UnitQuat]; norm_num) hu] at hh
    simp only [q, opp, Quat.mk.injEq] at hh
    norm_num at hh
  all_goals simp [pt, Vec3.init, Simd4f.init, Vec3.getX, Vec3.getY, Vec3.getZ, Simd4f.get]

/-- `true` on undefined behaviour -/
def Res.isUb {T : Type} : Res T → Bool
  | .ub => true
  | _ => false

theorem Res.eq_ub {T : Type} {r : Res T} (h : r.isUb = true) : r = .ub := by
  cases r <;> simp [Res.isUb] at h ⊢

/-- C68 is false in IEEE arithmetic: for a matrix with a perspective part and a NaN element, `matrix_decompose`
reads an uninitialised matrix. -/
theorem C68_uninitialised_false [Libm binary32] [Libm binary64] (bk : Backend) :
    GMatrix.decompose F64 bk (⟨⟨.nan, f0, f0, f1⟩, ⟨f0, f1, f0, f0⟩, ⟨f0, f0, f1, f0⟩, ⟨f0, f0, f0, f1⟩⟩ : M4 F32) = .ub := by
  apply Res.eq_ub
  rcases bk with ⟨_ | _, _ | _⟩ | _ | _ | ⟨_ | _⟩ <;> kdecide

/-- non-vacuity of `C68_parts_partial`: a scaled, sheared, rotated, translated matrix -/
example (bk : Backend) (hb : ∀ d, bk ≠ .scalar d) :
    let q : Quat ℝ := ⟨0, 3 / 5, 0, 4 / 5⟩
    ∃ m : M4 ℝ, mat m = compose ⟨2, 3, 4⟩ ⟨5, 6, 7⟩ (mat q.toMatrix) ⟨8, 9, 10⟩ ∧
      ∃ d, GMatrix.decompose ℝ bk m = .ok d ∧ pt d.scale = ⟨2, 3, 4⟩ ∧ pt d.shear = ⟨5, 6, 7⟩ := by
  intro q
  have hu : UnitQuat q := by simp only [UnitQuat, q]; norm_num
  obtain ⟨r1, -, r3, r4, r5⟩ := C71_rotation q hu
  refine ⟨_, (compose_entries ⟨2, 3, 4⟩ ⟨5, 6, 7⟩ ⟨8, 9, 10⟩ q.toMatrix r5 r4).symm, ?_⟩
  obtain ⟨d, h1, h2, h3, h4, -⟩ := C68_parts_partial bk _ ⟨2, 3, 4⟩ ⟨5, 6, 7⟩ ⟨8, 9, 10⟩ q hu (by norm_num [q])
    (Or.inl ⟨by norm_num, by norm_num, by norm_num⟩) (compose_entries ⟨2, 3, 4⟩ ⟨5, 6, 7⟩ ⟨8, 9, 10⟩ q.toMatrix r5 r4).symm
    (by norm_num; linarith [eps_lt_one]) ⟨Or.inl hb, Or.inl hb, Or.inl hb⟩
    (by
      rw [← Bool.not_eq_true, C67_identity bk hb]
      intro h
      have := congrFun (congrFun h 3) 0
      simp [mat, vec] at this)
    (by
      rw [← Bool.not_eq_true, (C61_is2d_partial _).1]
      rintro ⟨h, -⟩
      have := h 10 (by simp)
      rw [abs_of_pos (by norm_num)] at this
      linarith [eps_lt_one])
  exact ⟨d, h1, h3, h4⟩

end Graphene

/-
  C69: matrix interpolation.
-/
import Verif.Props.Matrix9
import Verif.Props.Quats3

namespace Graphene
open Spec Simd4f Matrix

namespace Spec

/-- linear interpolation of points -/
noncomputable def lerpP (a b : Point3D ℝ) (f : ℝ) : Point3D ℝ :=
  ⟨(1 - f) * a.x + f * b.x, (1 - f) * a.y + f * b.y, (1 - f) * a.z + f * b.z⟩

/-- zero or not smaller than the tolerance of `graphene_approx_val` -/
def Sharp (x : ℝ) : Prop := x = 0 ∨ eps ≤ |x|

/-- no component of the shear falls under the tolerance without being zero -/
def SharpShear (h : Point3D ℝ) : Prop := Sharp h.x ∧ Sharp h.y ∧ Sharp h.z

/-- the scale is one, or differs from one by more than the tolerance -/
def SharpScale (s : Point3D ℝ) : Prop :=
  s = ⟨1, 1, 1⟩ ∨ eps ≤ |s.x - 1| ∨ eps ≤ |s.y - 1| ∨ eps ≤ |s.z - 1|

end Spec

theorem lerpP_self (a : Point3D ℝ) (f : ℝ) : lerpP a a f = a := by
  obtain ⟨x, y, z⟩ := a
  simp only [lerpP, Point3D.mk.injEq]; refine ⟨?_, ?_, ?_⟩ <;> ring
theorem lerpP_zero (a b : Point3D ℝ) : lerpP a b 0 = a := by
  obtain ⟨x, y, z⟩ := a
  simp only [lerpP, Point3D.mk.injEq]; refine ⟨?_, ?_, ?_⟩ <;> ring
theorem lerpP_one (a b : Point3D ℝ) : lerpP a b 1 = b := by
  obtain ⟨x, y, z⟩ := b
  simp only [lerpP, Point3D.mk.injEq]; refine ⟨?_, ?_, ?_⟩ <;> ring

/-- what `graphene_matrix_interpolate` builds from the interpolated parts -/
theorem recompose3d_real (bk : Backend) (sa ha ta sb hb tb : Point3D ℝ) (qa qb : Quat ℝ) (f : ℝ)
    (hh : SharpShear (lerpP ha hb f)) (hs : SharpScale (lerpP sa sb f)) :
    mat (GMatrix.recompose3d bk ⟨⟨⟨ta.x, ta.y, ta.z, 0⟩⟩, Vec3.init sa.x sa.y sa.z, qa, Vec3.init ha.x ha.y ha.z, Vec4.init 0 0 0 1⟩
      ⟨⟨⟨tb.x, tb.y, tb.z, 0⟩⟩, Vec3.init sb.x sb.y sb.z, qb, Vec3.init hb.x hb.y hb.z, Vec4.init 0 0 0 1⟩ f) =
    shearMat (lerpP ha hb f) * translateMat (lerpP ta tb f) * mat (Quat.slerp qa qb f).toMatrix * scaleMat (lerpP sa sb f) := by
  set Q := (Quat.slerp qa qb f).toMatrix with hQ
  have hskew := fun m k => (C56_append bk m ⟨0, 0, 0⟩ 0 0 0 k 0 (Vec3.init 0 0 0)).2.2.2.2.2.2
  obtain ⟨h1, h2, h3⟩ := hh
  set H := lerpP ha hb f with hH
  set S := lerpP sa sb f with hS
  set T := lerpP ta tb f with hT
  have k1 : ∀ m : M4 ℝ, mat (if !approxVal H.z f0 then GMatrix.skewYZ bk m H.z else m) = !![1, 0, 0, 0; 0, 1, 0, 0; 0, H.z, 1, 0; 0, 0, 0, 1] * mat m := by
    intro m
    split
    · exact (hskew m H.z).2.2
    · rename_i h
      have h0 : H.z = 0 := by
        rcases h3 with h3 | h3
        · exact h3
        · exfalso; apply h
          rw [Bool.not_eq_true', ← Bool.not_eq_true, approxVal_real]; simpa using h3
      rw [h0]; ext i j; fin_cases i <;> fin_cases j <;> simp [Matrix.mul_apply, Fin.sum_univ_succ]
  have k2 : ∀ m : M4 ℝ, mat (if !approxVal H.y f0 then GMatrix.skewXZ bk m H.y else m) = !![1, 0, 0, 0; 0, 1, 0, 0; H.y, 0, 1, 0; 0, 0, 0, 1] * mat m := by
    intro m
    split
    · exact (hskew m H.y).2.1
    · rename_i h
      have h0 : H.y = 0 := by
        rcases h2 with h3 | h3
        · exact h3
        · exfalso; apply h
          rw [Bool.not_eq_true', ← Bool.not_eq_true, approxVal_real]; simpa using h3
      rw [h0]; ext i j; fin_cases i <;> fin_cases j <;> simp [Matrix.mul_apply, Fin.sum_univ_succ]
  have k3 : ∀ m : M4 ℝ, mat (if !approxVal H.x f0 then GMatrix.skewXY bk m H.x else m) = !![1, 0, 0, 0; H.x, 1, 0, 0; 0, 0, 1, 0; 0, 0, 0, 1] * mat m := by
    intro m
    split
    · exact (hskew m H.x).1
    · rename_i h
      have h0 : H.x = 0 := by
        rcases h1 with h3 | h3
        · exact h3
        · exfalso; apply h
          rw [Bool.not_eq_true', ← Bool.not_eq_true, approxVal_real]; simpa using h3
      rw [h0]; ext i j; fin_cases i <;> fin_cases j <;> simp [Matrix.mul_apply, Fin.sum_univ_succ]
  have k4 : ∀ m : M4 ℝ, mat (if !approxVal S.x f1 || !approxVal S.y f1 || !approxVal S.z f1 then GMatrix.scale m S.x S.y S.z else m) = mat m * scaleMat S := by
    intro m
    split
    · rw [GMatrix.scale, matrixMul_real]
      congr 1
      ext i j; fin_cases i <;> fin_cases j <;> simp [mat, vec, scaleMat, Simd4x4f.scale, Simd4x4f.init, Simd4f.init]
    · rename_i h
      have h0 : S = ⟨1, 1, 1⟩ := by
        rcases hs with hs | hs
        · exact hs
        · exfalso; apply h
          have e : ∀ t : ℝ, (!approxVal t f1) = true ↔ eps ≤ |t - 1| := by
            intro t
            rw [Bool.not_eq_true', ← Bool.not_eq_true, approxVal_real]; simp
          simp only [Bool.or_eq_true, e]; tauto
      rw [h0]; ext i j; fin_cases i <;> fin_cases j <;> simp [scaleMat, Matrix.mul_apply, Fin.sum_univ_succ]
  have e1 : Simd4f.interpolate (Vec4.init (0 : ℝ) 0 0 1).value (Vec4.init (0 : ℝ) 0 0 1).value f = ⟨0, 0, 0, 1⟩ := by
    simp [Simd4f.interpolate, Vec4.init, Simd4f.init, Simd4f.add, Simd4f.mul, Simd4f.sub, map2, splat]
  have e2 : Point3D.initFromVec3 (Vec3.interpolate (⟨⟨ta.x, ta.y, ta.z, 0⟩⟩ : Vec3 ℝ) ⟨⟨tb.x, tb.y, tb.z, 0⟩⟩ f) = T := by
    simp [Vec3.interpolate, Simd4f.interpolate, Simd4f.add, Simd4f.mul, Simd4f.sub, map2, splat, Point3D.initFromVec3, Point3D.initFromSimd4f, hT, lerpP, Vec3.getX, Vec3.getY, Vec3.getZ, Simd4f.get]
  have e3 : Point3D.initFromVec3 (Vec3.interpolate (Vec3.init sa.x sa.y sa.z) (Vec3.init sb.x sb.y sb.z) f) = S := by
    simp [Vec3.interpolate, Vec3.init, Simd4f.init, Simd4f.interpolate, Simd4f.add, Simd4f.mul, Simd4f.sub, map2, splat, Point3D.initFromVec3, Point3D.initFromSimd4f, hS, lerpP, Vec3.getX, Vec3.getY, Vec3.getZ, Simd4f.get]
  have e4 : (Vec3.interpolate (Vec3.init ha.x ha.y ha.z) (Vec3.init hb.x hb.y hb.z) f).value = ⟨H.x, H.y, H.z, 0⟩ := by
    simp [Vec3.interpolate, Vec3.init, Simd4f.init, Simd4f.interpolate, Simd4f.add, Simd4f.mul, Simd4f.sub, map2, splat, hH, lerpP]
  simp only [GMatrix.recompose3d, e1, e2, e3, e4, RealScalar.narrow_eq, ← hQ]
  rw [k4, k3, k2, k1]
  simp only [GMatrix.rotateQuaternion, GMatrix.multiply, GMatrix.translate, matrixMul_real]
  have e5 : mat (⟨Simd4f.init f1 f0 f0 0, Simd4f.init f0 f1 f0 0, Simd4f.init f0 f0 f1 0, Simd4f.init f0 f0 f0 1⟩ : M4 ℝ) = 1 := by
    ext i j; fin_cases i <;> fin_cases j <;> simp [mat, vec, Simd4f.init]
  have e6 : mat (Simd4x4f.translation T.x T.y T.z) = translateMat T := by
    ext i j; fin_cases i <;> fin_cases j <;> simp [mat, vec, translateMat, Simd4x4f.translation, Simd4x4f.init, Simd4f.init]
  have e7 : shearMat H = !![1, 0, 0, 0; H.x, 1, 0, 0; 0, 0, 1, 0; 0, 0, 0, 1] * (!![1, 0, 0, 0; 0, 1, 0, 0; H.y, 0, 1, 0; 0, 0, 0, 1] *
      !![1, 0, 0, 0; 0, 1, 0, 0; 0, H.z, 1, 0; 0, 0, 0, 1]) := by
    ext i j; fin_cases i <;> fin_cases j <;> simp [shearMat, Matrix.mul_apply, Fin.sum_univ_succ]
  rw [e5, e6, e7, Matrix.one_mul, hQ]
  simp only [Matrix.mul_assoc]

namespace Spec

/-- `m` scales by `s`, shears by `h`, rotates by the unit quaternion `q` (not a half turn, `w > 0`) and then
translates by `t`; the determinant is not below the tolerance and, with the scalar back end, neither are the scales -/
structure Parts (bk : Backend) (m : M4 ℝ) (s h : Point3D ℝ) (q : Quat ℝ) (t : Point3D ℝ) : Prop where
  unit : UnitQuat q
  notHalf : 0 < q.w
  sign : OneSign s
  eq : mat m = compose s h (mat q.toMatrix) t
  det : eps ≤ |s.x * s.y * s.z|
  ok : rsqrtOk bk (s.x ^ 2) ∧ rsqrtOk bk (s.y ^ 2) ∧ rsqrtOk bk (s.z ^ 2)

/-- either no translation and the same scale for all axes, or no scale and no rotation -/
def OrderFree (s : Point3D ℝ) (q : Quat ℝ) (t : Point3D ℝ) : Prop :=
  (t = ⟨0, 0, 0⟩ ∧ s.x = s.y ∧ s.y = s.z) ∨ (s = ⟨1, 1, 1⟩ ∧ q = Quat.identity)

end Spec

theorem Spec.Parts.decompose {bk : Backend} {m : M4 ℝ} {s h : Point3D ℝ} {q : Quat ℝ} {t : Point3D ℝ} (p : Parts bk m s h q t) :
    GMatrix.decompose3d bk m = .ok ⟨⟨⟨t.x, t.y, t.z, 0⟩⟩, Vec3.init s.x s.y s.z, q, Vec3.init h.x h.y h.z, Vec4.init 0 0 0 1⟩ := by
  obtain ⟨h1, -, h3, h4, h5⟩ := C71_rotation q p.unit
  rw [decompose3d_parts bk m q.toMatrix s h t ⟨h1, h3, h5, h4⟩ p.sign p.eq p.det p.ok, fromMatrix_toMatrix q p.unit]
  have hw := p.notHalf
  have e : ∀ u : ℝ, (if q.w * u < 0 then -|u| else |u|) = u := by
    intro u
    split
    · rename_i h
      have : u < 0 := by by_contra hu; exact absurd h (not_lt.mpr (mul_nonneg hw.le (not_lt.mp hu)))
      rw [abs_of_neg this, neg_neg]
    · rename_i h
      have : 0 ≤ u := by by_contra hu; exact h (mul_neg_of_pos_of_neg hw (not_le.mp hu))
      exact abs_of_nonneg this
  rw [e, e, e, abs_of_pos hw]

/-- reordering is harmless for `OrderFree` parts -/
theorem orderFree_compose {s h t : Point3D ℝ} {q : Quat ℝ} (ho : OrderFree s q t) (hq : UnitQuat q) :
    shearMat h * translateMat t * mat q.toMatrix * scaleMat s = compose s h (mat q.toMatrix) t := by
  obtain ⟨-, -, -, h4, h5⟩ := C71_rotation q hq
  obtain ⟨a1, a2, a3, a4⟩ := h5
  rcases ho with ⟨rfl, h1, h2⟩ | ⟨rfl, rfl⟩
  · obtain ⟨x, y, z⟩ := s
    dsimp only at h1 h2
    subst h1 h2
    ext i j
    fin_cases i <;> fin_cases j <;>
      simp [compose, scaleMat, shearMat, translateMat, mat, vec, Matrix.mul_apply, Fin.sum_univ_succ, a1, a2, a3, h4] <;> ring
  · have : mat (Quat.identity : Quat ℝ).toMatrix = 1 := by
      rw [toMatrix_real]
      ext i j
      fin_cases i <;> fin_cases j <;> simp [Quat.identity]
    rw [this]
    ext i j
    fin_cases i <;> fin_cases j <;>
      simp [compose, scaleMat, shearMat, translateMat, Matrix.mul_apply, Fin.sum_univ_succ]

/-- C69, the general result of a 3D interpolation: each part is interpolated on its own (the rotation by slerp), but the
parts are put together in the order shear, translation, rotation, scale, not in the order in which `decompose` took
them apart (scale, shear, rotation, translation). -/
theorem C69_3d_partial (bk : Backend) (a b : M4 ℝ) (sa ha ta sb hb tb : Point3D ℝ) (qa qb : Quat ℝ) (f : ℝ)
    (pa : Parts bk a sa ha qa ta) (pb : Parts bk b sb hb qb tb) (h2 : (GMatrix.is2d a && GMatrix.is2d b) = false)
    (hh : SharpShear (lerpP ha hb f)) (hs : SharpScale (lerpP sa sb f)) :
    ∃ r, GMatrix.interpolate bk a b f = .ok r ∧
      mat r = shearMat (lerpP ha hb f) * translateMat (lerpP ta tb f) * mat (Quat.slerp qa qb f).toMatrix * scaleMat (lerpP sa sb f) := by
  refine ⟨_, ?_, recompose3d_real bk sa ha ta sb hb tb qa qb f hh hs⟩
  simp only [GMatrix.interpolate, h2, Bool.false_eq_true, if_false, pa.decompose, pb.decompose]

theorem slerp_self_matrix {q : Quat ℝ} (hq : UnitQuat q) (f : ℝ) : Quat.slerp q q f = q := by
  apply (C74_slerp_near q q hq hq _ f).1
  have : inner4 q q = 1 := by simp only [inner4]; unfold UnitQuat at hq; linarith
  simp only [Apart, this, abs_one, not_le]
  linarith [eps_pos]

/-- C69: matrices whose parts may be put together in any order are interpolated with exact end points, and interpolating
such a matrix with itself changes nothing.  (The rotations must be further apart than the tolerance of `slerp`, or equal,
for the end at factor 1.) -/
theorem C69_endpoints_partial (bk : Backend) (a b : M4 ℝ) (sa ha ta sb hb tb : Point3D ℝ) (qa qb : Quat ℝ)
    (pa : Parts bk a sa ha qa ta) (pb : Parts bk b sb hb qb tb) :
    (GMatrix.is2d a && GMatrix.is2d b) = false → 
    (OrderFree sa qa ta → SharpShear ha → SharpScale sa → GMatrix.interpolate bk a b (0 : ℝ) = .ok a) ∧
    (OrderFree sb qb tb → SharpShear hb → SharpScale sb → (Apart qa qb ∨ qa = qb) → GMatrix.interpolate bk a b (1 : ℝ) = .ok b) := by
  intro h2
  constructor
  · intro ho hh hs
    obtain ⟨r, h1, h3⟩ := C69_3d_partial bk a b sa ha ta sb hb tb qa qb 0 pa pb h2 (by rwa [lerpP_zero]) (by rwa [lerpP_zero])
    rw [h1]
    congr 1
    apply mat_injective
    have : (Quat.slerp qa qb 0).toMatrix = qa.toMatrix := by
      by_cases hd : Apart qa qb
      · obtain ⟨u, -, e, -⟩ := C74_slerp qa qb pa.unit pb.unit hd 0 0
        exact (C71_double_cover _ _ u pa.unit).2 e
      · rw [(C74_slerp_near qa qb pa.unit pb.unit hd 0).1]
    rw [h3, lerpP_zero, lerpP_zero, lerpP_zero, this, orderFree_compose ho pa.unit, ← pa.eq]
  · intro ho hh hs hd
    obtain ⟨r, h1, h3⟩ := C69_3d_partial bk a b sa ha ta sb hb tb qa qb 1 pa pb h2 (by rwa [lerpP_one]) (by rwa [lerpP_one])
    rw [h1]
    congr 1
    apply mat_injective
    have : Quat.slerp qa qb 1 = qb := by
      rcases hd with hd | rfl
      · exact (C74_slerp qa qb pa.unit pb.unit hd 0 1).2.2.2
      · exact slerp_self_matrix pa.unit 1
    rw [h3, lerpP_one, lerpP_one, lerpP_one, this, orderFree_compose ho pb.unit, ← pb.eq]

/-- C69: interpolating a matrix with itself changes nothing when its parts may be put together in any order. -/
theorem C69_self_partial (bk : Backend) (a : M4 ℝ) (s h t : Point3D ℝ) (q : Quat ℝ) (f : ℝ) (p : Parts bk a s h q t)
    (h2 : GMatrix.is2d a = false) (ho : OrderFree s q t) (hh : SharpShear h) (hs : SharpScale s) :
    GMatrix.interpolate bk a a f = .ok a := by
  obtain ⟨r, h1, h3⟩ := C69_3d_partial bk a a s h t s h t q q f p p (by rw [h2]; rfl) (by rwa [lerpP_self]) (by rwa [lerpP_self])
  rw [h1]
  congr 1
  apply mat_injective
  rw [h3, lerpP_self, lerpP_self, lerpP_self, slerp_self_matrix p.unit, orderFree_compose ho p.unit, ← p.eq]

/-- C69 is false in 3D once a translation meets a scale: the matrix scaling y by 2 and translating by (0, 5, 3),
interpolated with itself, translates by (0, 10, 3). -/
theorem C69_3d_false (bk : Backend) (f : ℝ) :
    let m : M4 ℝ := ⟨⟨1, 0, 0, 0⟩, ⟨0, 2, 0, 0⟩, ⟨0, 0, 1, 0⟩, ⟨0, 5, 3, 1⟩⟩
    GMatrix.interpolate bk m m f = .ok ⟨⟨1, 0, 0, 0⟩, ⟨0, 2, 0, 0⟩, ⟨0, 0, 1, 0⟩, ⟨0, 10, 3, 1⟩⟩ := by
  intro m
  have hI : mat (Quat.identity : Quat ℝ).toMatrix = 1 := by
    rw [toMatrix_real]
    ext i j
    fin_cases i <;> fin_cases j <;> simp [Quat.identity]
  have p : Parts bk m ⟨1, 2, 1⟩ ⟨0, 0, 0⟩ Quat.identity ⟨0, 5, 3⟩ := by
    refine ⟨?_, ?_, Or.inl (by norm_num), ?_, ?_, ?_, ?_, ?_⟩
    · simp [UnitQuat, Quat.identity]
    · simp [Quat.identity]
    · rw [hI]
      ext i j
      fin_cases i <;> fin_cases j <;> simp [m, mat, vec, compose, scaleMat, shearMat, translateMat, Matrix.mul_apply, Fin.sum_univ_succ]
    · simp only [one_mul, mul_one]; unfold eps; norm_num
    all_goals right; unfold eps; norm_num
  have h2 : GMatrix.is2d m = false := by
    have : ¬ (3 : ℝ) < eps := by unfold eps; norm_num
    simp [GMatrix.is2d, Simd4x4f.is2d, m, this]
  obtain ⟨r, h1, h3⟩ := C69_3d_partial bk m m _ _ _ _ _ _ _ _ f p p (by rw [h2]; rfl)
    (by rw [lerpP_self]; exact ⟨Or.inl rfl, Or.inl rfl, Or.inl rfl⟩)
    (by rw [lerpP_self]; right; right; left; unfold eps; norm_num)
  rw [h1]
  congr 1
  apply mat_injective
  rw [h3, lerpP_self, lerpP_self, lerpP_self, slerp_self_matrix p.unit, hI]
  ext i j
  fin_cases i <;> fin_cases j <;> simp [mat, vec, scaleMat, shearMat, translateMat, Matrix.mul_apply, Fin.sum_univ_succ]; norm_num

/-- non-vacuity: a rotated, sheared and enlarged matrix meets the hypotheses of `C69_endpoints_partial` -/
example (bk : Backend) : ∃ (m : M4 ℝ) (s h t : Point3D ℝ) (q : Quat ℝ), Parts bk m s h q t ∧ OrderFree s q t ∧ SharpShear h ∧ SharpScale s ∧
    q ≠ Quat.identity ∧ s ≠ ⟨1, 1, 1⟩ ∧ h ≠ ⟨0, 0, 0⟩ ∧ GMatrix.is2d m = false := by
  refine ⟨GMatrix.multiply (⟨⟨2, 0, 0, 0⟩, ⟨2, 2, 0, 0⟩, ⟨0, 0, 2, 0⟩, ⟨0, 0, 0, 1⟩⟩ : M4 ℝ) (⟨3 / 5, 0, 0, 4 / 5⟩ : Quat ℝ).toMatrix,
    ⟨2, 2, 2⟩, ⟨1, 0, 0⟩, ⟨0, 0, 0⟩, ⟨3 / 5, 0, 0, 4 / 5⟩, ⟨?_, ?_, ?_, ?_, ?_, ?_, ?_, ?_⟩, Or.inl ⟨rfl, rfl, rfl⟩,
    ⟨Or.inr ?_, Or.inl rfl, Or.inl rfl⟩, Or.inr (Or.inl ?_), ?_, ?_, ?_, ?_⟩
  · simp only [UnitQuat]; norm_num
  · norm_num
  · left; norm_num
  · rw [GMatrix.multiply, matrixMul_real, compose]
    rw [show translateMat ⟨0, 0, 0⟩ = 1 by ext i j; fin_cases i <;> fin_cases j <;> simp [translateMat], Matrix.mul_one]
    congr 1
    ext i j
    fin_cases i <;> fin_cases j <;> simp [mat, vec, scaleMat, shearMat, Matrix.mul_apply, Fin.sum_univ_succ]
  · unfold eps; norm_num
  · right; unfold eps; norm_num
  · right; unfold eps; norm_num
  · right; unfold eps; norm_num
  · unfold eps; norm_num
  · unfold eps; norm_num
  · simp [Quat.identity]
  · simp
  · simp
  · have h : mat (GMatrix.multiply (⟨⟨2, 0, 0, 0⟩, ⟨2, 2, 0, 0⟩, ⟨0, 0, 2, 0⟩, ⟨0, 0, 0, 1⟩⟩ : M4 ℝ) (⟨3 / 5, 0, 0, 4 / 5⟩ : Quat ℝ).toMatrix) =
        mat ⟨⟨2, 0, 0, 0⟩, ⟨2, 14 / 25, 48 / 25, 0⟩, ⟨0, -48 / 25, 14 / 25, 0⟩, ⟨0, 0, 0, 1⟩⟩ := by
      rw [GMatrix.multiply, matrixMul_real, toMatrix_real]
      ext i j
      fin_cases i <;> fin_cases j <;> simp [mat, vec, Matrix.mul_apply, Fin.sum_univ_succ] <;> norm_num
    rw [mat_injective h]
    have : ¬ |(48 / 25 : ℝ)| < eps := by unfold eps; norm_num
    simp only [GMatrix.is2d, Simd4x4f.is2d, greal]
    simp [this]

end Graphene

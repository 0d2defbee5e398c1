/-
  C111: decomposition of matrices with a perspective column.
-/
import Verif.Props.Matrix9

namespace Graphene
open Spec Simd4f Matrix

namespace Spec

/-- `m` divided by its last entry, with the last column replaced by (0, 0, 0, 1) -/
noncomputable def affinePart (m : M4 ℝ) : M4 ℝ :=
  ⟨⟨m.x.x / m.w.w, m.x.y / m.w.w, m.x.z / m.w.w, 0⟩, ⟨m.y.x / m.w.w, m.y.y / m.w.w, m.y.z / m.w.w, 0⟩,
   ⟨m.z.x / m.w.w, m.z.y / m.w.w, m.z.z / m.w.w, 0⟩, ⟨m.w.x / m.w.w, m.w.y / m.w.w, m.w.z / m.w.w, 1⟩⟩

/-- the last column of `m` divided by its last entry -/
noncomputable def perspCol (m : M4 ℝ) : Fin 4 → ℝ := ![m.x.w / m.w.w, m.y.w / m.w.w, m.z.w / m.w.w, 1]

/-- the perspective matrix of a perspective vector -/
def perspMat (p : V4 ℝ) : Matrix (Fin 4) (Fin 4) ℝ := !![1, 0, 0, p.x; 0, 1, 0, p.y; 0, 0, 1, p.z; 0, 0, 0, p.w]

/-- the three perspective entries are at most `FLT_EPSILON` in magnitude -/
def NoPersp (m : M4 ℝ) : Prop := |m.x.w / m.w.w| ≤ eps ∧ |m.y.w / m.w.w| ≤ eps ∧ |m.z.w / m.w.w| ≤ eps

end Spec

theorem affinePart_affine (m : M4 ℝ) : Affine (affinePart m) := by simp [Affine, affinePart]

/-- what `matrix_decompose_3d` does with a perspective column -/
theorem decompose3d_persp (bk : Backend) (m : M4 ℝ) (d : Decomp3D ℝ) (hw : eps ≤ |m.w.w|)
    (hd : GMatrix.decompose3d bk (affinePart m) = .ok d) (hb : ∀ d, bk ≠ .scalar d) (hdet : eps ≤ |(mat (affinePart m)).det|) :
    ∃ p : Vec4 ℝ, GMatrix.decompose3d bk m = .ok { d with perspective := p } ∧
      (NoPersp m → p = Vec4.init 0 0 0 1) ∧ (¬ NoPersp m → vec p.value ᵥ* mat (affinePart m) = perspCol m) := by
  have a1 : approxVal (1 : ℝ) f0 = false := by
    rw [← Bool.not_eq_true, approxVal_real]; simp [eps_lt_one.le]
  have a2 : approxVal m.w.w f0 = false := by
    rw [← Bool.not_eq_true, approxVal_real]; simpa using hw
  have w0 : m.w.w ≠ 0 := by
    intro h; rw [h, abs_zero] at hw; linarith [eps_pos]
  have hA1 : (affinePart m).w.w = 1 := rfl
  have hN1 : GMatrix.normalize (affinePart m) = some (affinePart m) := by
    simp only [GMatrix.normalize, hA1, a1, Bool.false_eq_true, if_false]
    simp [Simd4f.mul, map2, splat, affinePart]
  have g1 : Simd4f.mergeW (affinePart m).x f0 = (affinePart m).x := by simp [mergeW, affinePart]
  have g2 : Simd4f.mergeW (affinePart m).y f0 = (affinePart m).y := by simp [mergeW, affinePart]
  have g3 : Simd4f.mergeW (affinePart m).z f0 = (affinePart m).z := by simp [mergeW, affinePart]
  have g4 : Simd4f.mergeW (affinePart m).w f1 = (affinePart m).w := by simp [mergeW, affinePart]
  have hz1 : isZero3 (Simd4f.init (affinePart m).x.w (affinePart m).y.w (affinePart m).z.w 1) = true := by
    simp [isZero3, Simd4f.init, affinePart, eps_pos.le]
  obtain ⟨N, hN2, hNx, hNy, hNz, hNw, k1, k2, k3, k4⟩ : ∃ N, GMatrix.normalize m = some N ∧ N.x.w = m.x.w / m.w.w ∧ N.y.w = m.y.w / m.w.w ∧
      N.z.w = m.z.w / m.w.w ∧ N.w.w = 1 ∧
      Simd4f.mergeW N.x f0 = (affinePart m).x ∧ Simd4f.mergeW N.y f0 = (affinePart m).y ∧ Simd4f.mergeW N.z f0 = (affinePart m).z ∧
      Simd4f.mergeW N.w f1 = (affinePart m).w := by
    refine ⟨⟨Simd4f.mul m.x (splat (f1 /. m.w.w)), Simd4f.mul m.y (splat (f1 /. m.w.w)), Simd4f.mul m.z (splat (f1 /. m.w.w)),
      Simd4f.mul m.w (splat (f1 /. m.w.w))⟩, by simp only [GMatrix.normalize, a2, Bool.false_eq_true, if_false], ?_, ?_, ?_, ?_, ?_, ?_, ?_, ?_⟩ <;>
      simp [Simd4f.mul, map2, splat, affinePart, mergeW, w0, div_eq_mul_inv]
  have hda : approxVal (GMatrix.determinant bk (affinePart m)) f0 = false := by
    rw [← Bool.not_eq_true, approxVal_real, GMatrix.determinant,
      show (Simd4x4f.determinant bk (affinePart m)).1.x = -(mat (affinePart m)).det from detVec_real bk _]
    simpa using hdet
  simp only [GMatrix.decompose3d, hN1, hA1, a1, g1, g2, g3, g4, hda, hz1, Bool.not_true, Bool.false_eq_true, if_false] at hd
  obtain ⟨I, hI, hmul⟩ := inverse_real bk (affinePart m) hdet (fun _ => hb)
  by_cases hp : NoPersp m
  · have hz2 : isZero3 (Simd4f.init (m.x.w / m.w.w) (m.y.w / m.w.w) (m.z.w / m.w.w) 1) = true := by
      simpa [isZero3, Simd4f.init, NoPersp, and_assoc] using hp
    refine ⟨Vec4.init 0 0 0 1, ?_, fun _ => rfl, fun h => absurd hp h⟩
    simp only [GMatrix.decompose3d, hN2, a2, k1, k2, k3, k4, hda, hNx, hNy, hNz, hNw, hA1, hz2, Bool.not_true, Bool.false_eq_true, if_false]
    injection hd with hd
    rw [← hd]; simp
  · have hz2 : isZero3 (Simd4f.init (m.x.w / m.w.w) (m.y.w / m.w.w) (m.z.w / m.w.w) 1) = false := by
      rw [← Bool.not_eq_true]
      simpa [isZero3, Simd4f.init, NoPersp, and_assoc] using hp
    refine ⟨GMatrix.transformVec4 I ⟨Simd4f.init (m.x.w / m.w.w) (m.y.w / m.w.w) (m.z.w / m.w.w) 1⟩, ?_, fun h => absurd h hp, fun _ => ?_⟩
    · have hI' : Simd4x4f.inverse bk ⟨(affinePart m).x, (affinePart m).y, (affinePart m).z, (affinePart m).w⟩ = some I := hI
      simp only [GMatrix.decompose3d, hN2, a2, k1, k2, k3, k4, hda, hNx, hNy, hNz, hNw, hA1, hz2, Bool.not_false, Bool.false_eq_true, if_false, if_true,
        GMatrix.inverse, hI]
      injection hd with hd
      rw [← hd]
    · rw [GMatrix.transformVec4, vec4Mul_real, Matrix.vecMul_vecMul, mul_eq_one_comm.mp hmul, Matrix.vecMul_one]
      simp [vec, Simd4f.init, perspCol]

/-- `matrix_decompose_3d` fails when the last entry or the determinant of the affine part is too small -/
theorem decompose3d_persp_fail (bk : Backend) (m : M4 ℝ) (h : |m.w.w| < eps ∨ |(mat (affinePart m)).det| < eps) :
    GMatrix.decompose3d bk m = .fail := by
  by_cases hw : |m.w.w| < eps
  · have a2 : approxVal m.w.w f0 = true := by rw [approxVal_real]; simpa using hw
    simp only [GMatrix.decompose3d, a2, if_true]
  · have hdet := h.resolve_left hw
    rw [not_lt] at hw
    have a2 : approxVal m.w.w f0 = false := by
      rw [← Bool.not_eq_true, approxVal_real]; simpa using hw
    have w0 : m.w.w ≠ 0 := by
      intro h; rw [h, abs_zero] at hw; linarith [eps_pos]
    have hL : (⟨mergeW (Simd4f.mul m.x (splat (f1 /. m.w.w))) f0, mergeW (Simd4f.mul m.y (splat (f1 /. m.w.w))) f0,
        mergeW (Simd4f.mul m.z (splat (f1 /. m.w.w))) f0, mergeW (Simd4f.mul m.w (splat (f1 /. m.w.w))) f1⟩ : M4 ℝ) = affinePart m := by
      simp [Simd4f.mul, map2, splat, affinePart, mergeW, div_eq_mul_inv]
    have hda : approxVal (GMatrix.determinant bk (affinePart m)) f0 = true := by
      rw [approxVal_real, GMatrix.determinant,
        show (Simd4x4f.determinant bk (affinePart m)).1.x = -(mat (affinePart m)).det from detVec_real bk _]
      simpa using hdet
    simp only [GMatrix.decompose3d, GMatrix.normalize, a2, hL, hda, Bool.false_eq_true, if_false, if_true]

theorem identity_of_isIdentity (bk : Backend) (hb : ∀ d, bk ≠ .scalar d) (m : M4 ℝ) (h : GMatrix.isIdentity bk m = true) :
    m.x.w = 0 ∧ m.y.w = 0 ∧ m.z.w = 0 := by
  rw [C67_identity bk hb] at h
  exact ⟨by simpa [mat, vec] using congrFun (congrFun h 0) 3, by simpa [mat, vec] using congrFun (congrFun h 1) 3,
    by simpa [mat, vec] using congrFun (congrFun h 2) 3⟩

theorem mul_perspMat (A : Matrix (Fin 4) (Fin 4) ℝ) (p : V4 ℝ) (c : Fin 4 → ℝ) (h : A *ᵥ vec p = c) :
    A * perspMat p = Matrix.of fun i j => if j = 3 then c i else A i j := by
  subst h
  ext i j
  fin_cases j <;> simp [perspMat, Matrix.mul_apply, Matrix.mulVec, dotProduct, Fin.sum_univ_succ, vec]

/-! ## C111 -/

/-- C111: a matrix with a perspective entry of at least `FLT_EPSILON` is neither the identity nor 2D, so that the
theorems below apply to it. -/
theorem C111_class (bk : Backend) (hb : ∀ d, bk ≠ .scalar d) (m : M4 ℝ) (h : eps ≤ |m.x.w| ∨ eps ≤ |m.y.w| ∨ eps ≤ |m.z.w|) :
    GMatrix.isIdentity bk m = false ∧ GMatrix.is2d m = false := by
  constructor
  · rw [← Bool.not_eq_true]
    intro hi
    obtain ⟨h1, h2, h3⟩ := identity_of_isIdentity bk hb m hi
    rw [h1, h2, h3, abs_zero] at h
    rcases h with h | h | h <;> linarith [eps_pos]
  · rw [← Bool.not_eq_true, (C61_is2d_partial m).1]
    rintro ⟨h2, -, -⟩
    rcases h with h | h | h
    · exact absurd (h2 m.x.w (by simp)) (not_lt.mpr h)
    · exact absurd (h2 m.y.w (by simp)) (not_lt.mpr h)
    · exact absurd (h2 m.z.w (by simp)) (not_lt.mpr h)

/-- C111: on the SIMD backends a matrix, with or without perspective, that is neither the identity nor 2D is decomposed
exactly when its last entry, and the determinant of its affine part, are at least `FLT_EPSILON` in magnitude.  The scale,
shear, rotation and translation returned then compose to the affine part (half turns aside), whatever the perspective; and
the perspective vector is (0, 0, 0, 1) if the three perspective entries are at most `FLT_EPSILON` in magnitude, and otherwise
solves `p * L = c` with `L` the affine part and `c` the last column.  Missing: it should solve `L * p = c`
(`C111_false`). -/
theorem C111_partial (bk : Backend) (hb : ∀ d, bk ≠ .scalar d) (m : M4 ℝ)
    (hid : GMatrix.isIdentity bk m = false) (h2 : GMatrix.is2d m = false) :
    (eps ≤ |m.w.w| → eps ≤ |(mat (affinePart m)).det| → ∃ d, GMatrix.decompose ℝ bk m = .ok d ∧ OneSign (pt d.scale) ∧
      (∃ R, Rotation R ∧ mat (affinePart m) = compose (pt d.scale) (pt d.shear) (mat R) (pt d.translate) ∧
        (0 < trace4 R → UnitQuat d.rotate ∧
          mat (affinePart m) = compose (pt d.scale) (pt d.shear) (mat d.rotate.toMatrix) (pt d.translate))) ∧
      (NoPersp m → d.perspective = Vec4.init 0 0 0 1) ∧
      (¬ NoPersp m → vec d.perspective.value ᵥ* mat (affinePart m) = perspCol m)) ∧
    (|m.w.w| < eps ∨ |(mat (affinePart m)).det| < eps → GMatrix.decompose ℝ bk m = .fail) := by
  constructor
  · intro hw hd
    have h0 : (mat (affinePart m)).det ≠ 0 := by
      intro h; rw [h, abs_zero] at hd; linarith [eps_pos]
    obtain ⟨s, h, t, R, hR, hs, hm⟩ := parts_exist _ (affinePart_affine m) h0
    have hdet := compose_det s h t (mat R) hR.det
    rw [← hm] at hdet
    have := decompose3d_parts bk _ R s h t hR hs hm (by rw [← hdet]; exact hd) ⟨Or.inl hb, Or.inl hb, Or.inl hb⟩
    obtain ⟨p, hp, p1, p2⟩ := decompose3d_persp bk m _ hw this hb hd
    refine ⟨_, by rw [GMatrix.decompose, hid, h2]; exact hp, ?_, ⟨R, hR, ?_, ?_⟩, p1, p2⟩
    · simpa [pt, Vec3.init, Simd4f.init, Vec3.getX, Vec3.getY, Vec3.getZ, Simd4f.get] using hs
    · simpa [pt, Vec3.init, Simd4f.init, Vec3.getX, Vec3.getY, Vec3.getZ, Simd4f.get] using hm
    · intro ht
      obtain ⟨g1, -, g3⟩ := C72_from_matrix_partial R hR ht
      refine ⟨g1, ?_⟩
      dsimp only
      rw [g3]
      simpa [pt, Vec3.init, Simd4f.init, Vec3.getX, Vec3.getY, Vec3.getZ, Simd4f.get] using hm
  · intro h
    rw [GMatrix.decompose, hid, h2]
    exact decompose3d_persp_fail bk m h

/-- C111: the parts compose to the matrix (divided by its last entry), perspective included, when its affine part is
symmetric: no translation, and the linear part equal to its transpose.  Missing: other affine parts (`C111_false`), half turns. -/
theorem C111_symmetric_partial (bk : Backend) (hb : ∀ d, bk ≠ .scalar d) (m : M4 ℝ)
    (hp : ¬ NoPersp m) (hid : GMatrix.isIdentity bk m = false) (h2 : GMatrix.is2d m = false)
    (hw : eps ≤ |m.w.w|) (hdet : eps ≤ |(mat (affinePart m)).det|) (hs : (mat (affinePart m))ᵀ = mat (affinePart m)) :
    ∃ d, GMatrix.decompose ℝ bk m = .ok d ∧ ∃ R, Rotation R ∧
      mat m = m.w.w • (compose (pt d.scale) (pt d.shear) (mat R) (pt d.translate) * perspMat d.perspective.value) ∧
      (0 < trace4 R →
        mat m = m.w.w • (compose (pt d.scale) (pt d.shear) (mat d.rotate.toMatrix) (pt d.translate) * perspMat d.perspective.value)) := by
  obtain ⟨d, e, -, ⟨R, hR, hc, hq⟩, -, h4⟩ := (C111_partial bk hb m hid h2).1 hw hdet
  have h4 := h4 hp
  have w0 : m.w.w ≠ 0 := by
    intro h; rw [h, abs_zero] at hw; linarith [eps_pos]
  have key : mat m = m.w.w • (mat (affinePart m) * perspMat d.perspective.value) := by
    rw [← hs, ← Matrix.mulVec_transpose, Matrix.transpose_transpose] at h4
    rw [mul_perspMat _ _ _ h4]
    ext i j
    fin_cases i <;> fin_cases j <;> simp [mat, vec, affinePart, perspCol] <;> field_simp
  refine ⟨d, e, R, hR, ?_, fun ht => ?_⟩
  · rw [← hc]; exact key
  · rw [← (hq ht).2]; exact key

/-- C111 is false: the perspective entry 1/2 along x and the translation by 1 along x decompose into that translation (and a
unit scale, no shear and no rotation) and the perspective vector (-1/2, 0, 0, 1); these compose to another matrix.  The solution
is (1/2, 0, 0, 1/2). -/
theorem C111_false (bk : Backend) (hb : ∀ d, bk ≠ .scalar d) :
    let m : M4 ℝ := ⟨⟨1, 0, 0, 1 / 2⟩, ⟨0, 1, 0, 0⟩, ⟨0, 0, 1, 0⟩, ⟨1, 0, 0, 1⟩⟩
    ∃ d, GMatrix.decompose ℝ bk m = .ok d ∧ pt d.translate = ⟨1, 0, 0⟩ ∧ pt d.scale = ⟨1, 1, 1⟩ ∧ pt d.shear = ⟨0, 0, 0⟩ ∧
      mat d.rotate.toMatrix = 1 ∧ d.perspective = Vec4.init (-1 / 2) 0 0 1 ∧
      mat m ≠ compose (pt d.scale) (pt d.shear) (mat d.rotate.toMatrix) (pt d.translate) * perspMat d.perspective.value ∧
      mat m = compose (pt d.scale) (pt d.shear) (mat d.rotate.toMatrix) (pt d.translate) * perspMat ⟨1 / 2, 0, 0, 1 / 2⟩ := by
  intro m
  have hhalf : eps ≤ 1 / 2 := by unfold eps; norm_num
  have hp : eps ≤ |m.x.w| := by simp only [m]; rw [abs_of_pos (by norm_num)]; exact hhalf
  obtain ⟨hid, h2⟩ := C111_class bk hb m (Or.inl hp)
  have hI : Rotation (GMatrix.initIdentity : M4 ℝ) := by
    refine ⟨?_, ?_, ?_, ?_⟩
    · rw [initIdentity_real]; simp
    · rw [initIdentity_real]; simp
    · simp [Affine, GMatrix.initIdentity, Simd4f.init]
    · simp [GMatrix.initIdentity, Simd4f.init]
  have hLm : mat (affinePart m) = compose ⟨1, 1, 1⟩ ⟨0, 0, 0⟩ (mat GMatrix.initIdentity) ⟨1, 0, 0⟩ := by
    rw [compose_entries _ _ _ _ hI.affine hI.fixed]
    simp [affinePart, m, GMatrix.initIdentity, Simd4f.init]
  have hdet := compose_det ⟨1, 1, 1⟩ ⟨0, 0, 0⟩ ⟨1, 0, 0⟩ _ hI.det
  rw [← hLm] at hdet
  have := decompose3d_parts bk (affinePart m) _ ⟨1, 1, 1⟩ ⟨0, 0, 0⟩ ⟨1, 0, 0⟩ hI (Or.inl (by norm_num)) hLm (by norm_num; exact eps_lt_one.le)
    ⟨Or.inl hb, Or.inl hb, Or.inl hb⟩
  obtain ⟨p, hp, -, p2⟩ := decompose3d_persp bk m _ (by simp only [m]; rw [abs_one]; exact eps_lt_one.le) this hb
    (by rw [hdet]; norm_num; exact eps_lt_one.le)
  have p2 := p2 (by simp only [NoPersp, m]; rintro ⟨h, -⟩; norm_num at h; unfold eps at h; norm_num at h)
  have hpv : p = Vec4.init (-1 / 2) 0 0 1 := by
    obtain ⟨⟨x, y, z, w⟩⟩ := p
    have e0 := congrFun p2 0
    have e1 := congrFun p2 1
    have e2 := congrFun p2 2
    have e3 := congrFun p2 3
    simp [Matrix.vecMul, dotProduct, Fin.sum_univ_succ, mat, vec, affinePart, perspCol, m] at e0 e1 e2 e3
    subst e1 e2 e3
    simp only [Vec4.init, Simd4f.init, Vec4.mk.injEq, V4.mk.injEq, and_true]
    linarith
  have hq : (Quat.initFromMatrix (GMatrix.initIdentity : M4 ℝ)).toMatrix = GMatrix.initIdentity :=
    (C72_from_matrix_partial _ hI (by simp [trace4, GMatrix.initIdentity, Simd4f.init]; norm_num)).2.2
  refine ⟨_, by rw [GMatrix.decompose, hid, h2]; exact hp, ?_, ?_, ?_, ?_, hpv, ?_, ?_⟩
  · simp [pt, Vec3.getX, Vec3.getY, Vec3.getZ, Simd4f.get]
  · simp [pt, Vec3.init, Simd4f.init, Vec3.getX, Vec3.getY, Vec3.getZ, Simd4f.get]
  · simp [pt, Vec3.init, Simd4f.init, Vec3.getX, Vec3.getY, Vec3.getZ, Simd4f.get]
  · rw [hq, initIdentity_real]
  · dsimp only
    rw [hq, hpv, initIdentity_real]
    intro h
    have := congrFun (congrFun h 0) 3
    simp [pt, Vec3.init, Vec4.init, Simd4f.init, Vec3.getX, Vec3.getY, Vec3.getZ, Simd4f.get, compose, scaleMat, shearMat, translateMat,
      perspMat, mat, vec, m, Matrix.mul_apply, Fin.sum_univ_succ] at this
    norm_num at this
  · dsimp only
    rw [hq, initIdentity_real]
    ext i j
    fin_cases i <;> fin_cases j <;>
    simp [pt, Vec3.init, Vec4.init, Simd4f.init, Vec3.getX, Vec3.getY, Vec3.getZ, Simd4f.get, compose, scaleMat, shearMat, translateMat,
      perspMat, mat, vec, m, Matrix.mul_apply, Fin.sum_univ_succ] <;> norm_num

/-- the hypotheses of `C111_partial` and `C111_symmetric_partial` are met: a scale by 2 seen in perspective along z -/
example (bk : Backend) (hb : ∀ d, bk ≠ .scalar d) :
    let m : M4 ℝ := ⟨⟨4, 0, 0, 0⟩, ⟨0, 4, 0, 0⟩, ⟨0, 0, 4, -1⟩, ⟨0, 0, 0, 2⟩⟩
    ¬ NoPersp m ∧ GMatrix.isIdentity bk m = false ∧ GMatrix.is2d m = false ∧ eps ≤ |m.w.w| ∧ eps ≤ |(mat (affinePart m)).det| ∧
      (mat (affinePart m))ᵀ = mat (affinePart m) := by
  intro m
  obtain ⟨h1, h2⟩ := C111_class bk hb m (Or.inr (Or.inr (by simp only [m]; rw [abs_neg, abs_one]; exact eps_lt_one.le)))
  refine ⟨?_, h1, h2, ?_, ?_, ?_⟩
  · rintro ⟨-, -, h⟩
    simp only [m] at h
    norm_num at h
    unfold eps at h; norm_num at h
  · simp only [m]; norm_num; linarith [eps_lt_one]
  · have : (mat (affinePart m)).det = 8 := by
      rw [Matrix.det_succ_row_zero]
      simp [mat, vec, affinePart, m, Fin.sum_univ_succ, Matrix.det_fin_three, Matrix.submatrix, Fin.succAbove]
      norm_num
    rw [this]; norm_num; linarith [eps_lt_one]
  · ext i j
    fin_cases i <;> fin_cases j <;> simp [mat, vec, affinePart, m]

end Graphene

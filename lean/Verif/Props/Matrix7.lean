/-
  C42 and C64–C66: planes under matrices, `look_at`, perspective, projection and its inverse.
-/
import Verif.Props.Matrix5
import Verif.Props.Planes
import Verif.Model.Frustum
import Verif.Proofs.KDecide

namespace Graphene
open Spec Simd4f Matrix

/-! ## C65 -/

/-- the projection that leaves `x, y, z` alone and sets `w' = w - z / depth` -/
noncomputable def Spec.perspectiveMatrix (depth : ℝ) : Matrix (Fin 4) (Fin 4) ℝ :=
  !![1, 0, 0, 0; 0, 1, 0, 0; 0, 0, 1, -1 / depth; 0, 0, 0, 1]

/-- C65, what holds: `matrix_perspective` appends *some* projection to the matrix, the one with
`w' = w + z - w / depth`.  Missing: it is the wrong one (`C65_perspective_false`). -/
theorem C65_perspective_partial (m : M4 ℝ) (depth : ℝ) :
    mat (GMatrix.perspective m depth) =
      mat m * !![1, 0, 0, 0; 0, 1, 0, 0; 0, 0, 1, 1; 0, 0, 0, 1 - 1 / depth] := by
  ext i j
  fin_cases i <;> fin_cases j <;>
    simp [GMatrix.perspective, Simd4x4f.perspective, mat, vec, Matrix.mul_apply, Fin.sum_univ_succ, greal] <;> ring

/-- C65 is false for every depth, already when appending to the identity. -/
theorem C65_perspective_false (depth : ℝ) (h : depth ≠ 0) :
    mat (GMatrix.perspective GMatrix.initIdentity depth) ≠
      mat (GMatrix.initIdentity : M4 ℝ) * perspectiveMatrix depth := by
  rw [C65_perspective_partial, initIdentity_real, one_mul, one_mul]
  intro e
  have h1 := congrFun (congrFun e 3) 3
  simp [perspectiveMatrix] at h1
  exact h h1

/-! ## C66 -/

/-- the same matrix without its translation -/
noncomputable def Spec.linearPart (m : M4 ℝ) : M4 ℝ := { m with w := ⟨0, 0, 0, 1⟩ }

/-- C66, proved part: `project_point` returns the point where the transformed line through `p` along
`z` crosses the plane `z = 0`, for the matrix without its translation.  Missing: the
translation (`C66_translation_false`). -/
theorem C66_point_partial (m : M4 ℝ) (h : m.z.z ≠ 0) (p : Point ℝ) :
    ∃ s, (∀ t, (image (linearPart m) ⟨p.x, p.y, t⟩).z = 0 ↔ t = s) ∧
      GMatrix.projectPoint m p =
        ⟨(image (linearPart m) ⟨p.x, p.y, s⟩).x, (image (linearPart m) ⟨p.x, p.y, s⟩).y⟩ := by
  refine ⟨-(p.x * m.x.z + p.y * m.y.z) / m.z.z, fun t => ?_, ?_⟩
  · simp only [image_eq, linearPart]
    rw [eq_div_iff h]
    constructor
    · intro e; linarith
    · intro e; linarith
  · simp only [GMatrix.projectPoint, image_eq, linearPart, Point.init, greal, Point.mk.injEq]
    constructor <;> ring_nf <;> field_simp

/-- C66 is false for matrices with a translation: `project_point` ignores it.  The matrix moving
everything by 10 along `x` leaves the projection of the origin where it was. -/
theorem C66_translation_false :
    let m : M4 ℝ := GMatrix.initTranslate ⟨10, 0, 0⟩
    GMatrix.projectPoint m ⟨0, 0⟩ = ⟨0, 0⟩ ∧
    ∀ t, image m ⟨0, 0, t⟩ = ⟨10, 0, t⟩ := by
  refine ⟨?_, fun t => ?_⟩
  · simp [GMatrix.projectPoint, GMatrix.initTranslate, Point.init, greal]
  · simp [image_eq, GMatrix.initTranslate, greal]

/-- C66: consequently `untransform_point` with a matrix that is not 2D does not invert
`transform_point`: here the origin is mapped to (10, 0) inside the bounds, and (10, 0) "back" to
itself. -/
theorem C66_untransform_false (bk : Backend) :
    ∃ (m : M4 ℝ) (bounds : Rect ℝ) (q : Point ℝ), Affine m ∧ GMatrix.transformPoint m ⟨0, 0⟩ = q ∧
      (⟨0, 0⟩ : Point ℝ) ∈ area bounds ∧ GMatrix.untransformPoint bk m q bounds = some q ∧ q ≠ ⟨0, 0⟩ := by
  let m : M4 ℝ := ⟨⟨1, 0, 0, 0⟩, ⟨0, 1, 1, 0⟩, ⟨0, 0, 1, 0⟩, ⟨10, 0, 0, 1⟩⟩
  let i : M4 ℝ := ⟨⟨1, 0, 0, 0⟩, ⟨0, 1, -1, 0⟩, ⟨0, 0, 1, 0⟩, ⟨-10, 0, 0, 1⟩⟩
  have hdet : (mat m).det = 1 := by
    rw [Matrix.det_succ_row_zero]
    simp [Fin.sum_univ_succ, Matrix.det_fin_three, Matrix.submatrix, mat, vec, Fin.succAbove, m]
  have he : eps < |(mat m).det| := by rw [hdet, abs_one]; exact eps_lt_one
  obtain ⟨r, hr⟩ := Option.isSome_iff_exists.1 ((C54_inverse bk m).1.2 he.le)
  have hri : r = i := by
    have h1 := ((C54_inverse bk m).2 r hr (fun e => absurd e he.ne')).2
    have h2 : GMatrix.multiply m i = GMatrix.initIdentity := by
      simp [m, i, GMatrix.multiply, GMatrix.initIdentity, greal]
    calc r = GMatrix.multiply r GMatrix.initIdentity := ((C52_product r r r).2.2.2.2).symm
      _ = GMatrix.multiply (GMatrix.multiply r m) i := by rw [← h2, (C52_product r m i).2.2.1]
      _ = i := by rw [h1]; exact (C52_product i i i).2.2.2.1
  have h2d : GMatrix.is2d m = false := by
    rw [← Bool.not_eq_true]
    intro h
    have h0 : ∀ a b c d : Bool, (if !a then false else if !b then false else if !c then false else if !d then false
          else true) = true → b = true := by decide
    have := h0 _ _ _ _ h
    simp [m] at this
    exact absurd this.1 (not_lt.2 eps_lt_one.le)
  refine ⟨m, ⟨⟨0, 0⟩, ⟨1, 1⟩⟩, ⟨10, 0⟩, by simp [Affine, m], ?_, ?_, ?_, by simp⟩
  · simp [GMatrix.transformPoint, m, greal]
  · simp [area, left, right, top, bottom]
  · have hin : (GMatrix.transformBounds bk m ⟨⟨0, 0⟩, ⟨1, 1⟩⟩).containsPoint ⟨10, 0⟩ = true := by
      rw [C21_contains_point]
      have := (C57_bounds bk m ⟨⟨0, 0⟩, ⟨1, 1⟩⟩).2 ⟨0, 0⟩ (by simp [area, left, right, top, bottom])
      simpa [image2, image_eq, m] using this
    rw [GMatrix.untransformPoint, h2d, hin, hr, hri]
    simp [GMatrix.projectPoint, i, Point.init, greal]

/-- C66, proved part: `project_rect` consists of the four projected corners, and `project_rect_bounds` is
the smallest rectangle containing them.  Missing: the corners are not in the order of
`transform_rect` (`C66_rect_false`). -/
theorem C66_rect_partial (bk : Backend) (m : M4 ℝ) (r : Rect ℝ) :
    let c : List (Point ℝ) := [GMatrix.projectPoint m ⟨left r, top r⟩, GMatrix.projectPoint m ⟨right r, top r⟩,
      GMatrix.projectPoint m ⟨left r, bottom r⟩, GMatrix.projectPoint m ⟨right r, bottom r⟩]
    [(GMatrix.projectRect m r).p0, (GMatrix.projectRect m r).p1, (GMatrix.projectRect m r).p2,
      (GMatrix.projectRect m r).p3] = c ∧
    SmallestRect (GMatrix.projectRectBounds bk m r) c := by
  obtain ⟨h1, h2, h3, h4⟩ := corners_normalize r
  simp only [GMatrix.projectRect, GMatrix.projectRectBounds, h1, h2, h3, h4]
  exact ⟨trivial, boundsOf_smallest bk _ _ _ _⟩

/-- C66: `untransform_bounds` with a matrix that is not 2D: a rectangle that shares no interior point with the
transformed bounds gives the empty rectangle at the origin; otherwise nothing is written when the matrix has no
inverse, and else the result is the smallest rectangle containing the projections, by the inverse, of the four
corners of the part of the rectangle inside the transformed bounds. -/
theorem C66_untransform_bounds (bk : Backend) (m : M4 ℝ) (h2 : GMatrix.is2d m = false) (r bounds : Rect ℝ) :
    let tb := GMatrix.transformBounds bk m bounds
    (¬ (interior r ∩ interior tb).Nonempty → GMatrix.untransformBounds bk m r bounds = some ⟨⟨0, 0⟩, ⟨0, 0⟩⟩) ∧
    ((interior r ∩ interior tb).Nonempty → |(mat m).det| < eps → GMatrix.untransformBounds bk m r bounds = none) ∧
    ((interior r ∩ interior tb).Nonempty → eps ≤ |(mat m).det| →
      ∃ inv b i, GMatrix.inverse bk m = some inv ∧ GMatrix.untransformBounds bk m r bounds = some b ∧ area i = area r ∩ area tb ∧
        SmallestRect b [GMatrix.projectPoint inv ⟨left i, top i⟩, GMatrix.projectPoint inv ⟨right i, top i⟩,
          GMatrix.projectPoint inv ⟨left i, bottom i⟩, GMatrix.projectPoint inv ⟨right i, bottom i⟩]) := by
  intro tb
  obtain ⟨c1, c2, c3⟩ := C20_intersection r tb
  have e : GMatrix.untransformBounds bk m r bounds = if !(r.intersection tb).1 then some (Rect.init 0 0 0 0) else
      match GMatrix.inverse bk m with
      | none => none
      | some inv => some (GMatrix.projectRectBounds bk inv (r.intersection tb).2) := by
    simp only [GMatrix.untransformBounds, h2, show GMatrix.transformBounds bk m bounds = tb from rfl]
    rcases hb : (r.intersection tb).1 with _ | _
    · simp
    · simp; cases GMatrix.inverse bk m <;> rfl
  have hdet := (C54_inverse bk m).1
  rw [e]
  refine ⟨fun h => ?_, fun h hd => ?_, fun h hd => ?_⟩
  · have : (r.intersection tb).1 = false := by rw [← Bool.not_eq_true]; exact fun q => h (c1.1 q)
    simp [this, Rect.init, normalize_real, Point.init, Size.init, left, top, right, bottom]
  · have hi : GMatrix.inverse bk m = none := by
      rw [← Option.not_isSome_iff_eq_none, hdet]; exact _root_.not_le.2 hd
    simp [c1.2 h, hi]
  · obtain ⟨inv, hi⟩ := Option.isSome_iff_exists.1 (hdet.2 hd)
    refine ⟨inv, _, (r.intersection tb).2, hi, ?_, c2 (c1.2 h), (C66_rect_partial bk inv _).2⟩
    simp [c1.2 h, hi]

/-- non-vacuity: an invertible matrix that is not 2D -/
example : GMatrix.is2d (⟨⟨1, 0, 0, 0⟩, ⟨0, 1, 1, 0⟩, ⟨0, 0, 1, 0⟩, ⟨10, 0, 0, 1⟩⟩ : M4 ℝ) = false ∧
    eps ≤ |(mat (⟨⟨1, 0, 0, 0⟩, ⟨0, 1, 1, 0⟩, ⟨0, 0, 1, 0⟩, ⟨10, 0, 0, 1⟩⟩ : M4 ℝ)).det| := by
  constructor
  · rw [← Bool.not_eq_true]
    intro h
    have h0 : ∀ a b c d : Bool, (if !a then false else if !b then false else if !c then false else if !d then false
          else true) = true → b = true := by decide
    have := h0 _ _ _ _ h
    simp at this
    exact absurd this.1 (not_lt.2 eps_lt_one.le)
  · rw [Matrix.det_succ_row_zero]
    simp [Fin.sum_univ_succ, Matrix.det_fin_three, Matrix.submatrix, mat, vec, Fin.succAbove]
    exact eps_lt_one.le

/-- C66 is false for the corner order: the quadrilateral of `project_rect` is twisted.  With the identity
matrix and the unit square it does not contain an interior point of the square, while the result of
`transform_rect` does. -/
theorem C66_rect_false [Libm binary32] :
    let r : Rect F32 := ⟨⟨f0, f0⟩, ⟨f1, f1⟩⟩
    let p : Point F32 := ⟨Scalar.lit 1 2, Scalar.lit 1 4⟩
    (GMatrix.transformRect GMatrix.initIdentity r).contains p = true ∧
    (GMatrix.projectRect GMatrix.initIdentity r).contains p = false := by
  constructor <;> kdecide

/-- C66, proved part: `unproject_point3d` inverts the projection after division by `w` when it is given the
*inverse* of the model-view matrix.  Missing: with the model-view matrix itself it does not
(`C66_unproject_false`). -/
theorem C66_unproject_partial (bk : Backend) (projection modelview inv : M4 ℝ)
    (hm : GMatrix.multiply modelview inv = GMatrix.initIdentity) (hd : eps < |(mat projection).det|) (p : Point3D ℝ)
    (hw : (hom p ᵥ* mat (GMatrix.multiply modelview projection)) 3 ≠ 0) :
    GMatrix.unprojectPoint3D bk projection inv (perspectiveImage (GMatrix.multiply modelview projection) p) = some p := by
  obtain ⟨r, hr⟩ := Option.isSome_iff_exists.1 ((C54_inverse bk projection).1.2 hd.le)
  have h1 := ((C54_inverse bk projection).2 r hr (fun e => absurd e hd.ne')).1
  have hm' := congrArg mat hm
  have h1' := congrArg mat h1
  rw [GMatrix.multiply, matrixMul_real, initIdentity_real] at hm' h1'
  have hr' : Simd4x4f.inverse bk projection = some r := hr
  set h := hom p ᵥ* mat (GMatrix.multiply modelview projection) with hh
  have hv : vec (Simd4x4f.vec4Mul (Simd4x4f.matrixMul r inv) (Simd4f.init (h 0 / h 3) (h 1 / h 3) (h 2 / h 3) 1)) =
      (h 3)⁻¹ • hom p := by
    rw [vec4Mul_real, matrixMul_real]
    have e : vec (Simd4f.init (h 0 / h 3) (h 1 / h 3) (h 2 / h 3) 1) = (h 3)⁻¹ • h := by
      funext i
      fin_cases i <;> simp [vec, Simd4f.init, div_eq_inv_mul, inv_mul_cancel₀ hw]
    rw [e, Matrix.smul_vecMul, hh, GMatrix.multiply, matrixMul_real, Matrix.vecMul_vecMul, ← mul_assoc,
      mul_assoc (mat modelview), h1', mul_one, hm', Matrix.vecMul_one]
  have v0 := congrFun hv 0
  have v1 := congrFun hv 1
  have v2 := congrFun hv 2
  have v3 := congrFun hv 3
  simp [vec, hom] at v0 v1 v2 v3
  rw [GMatrix.unprojectPoint3D, hr']
  simp only [perspectiveImage, ← hh, RealScalar.f1_eq]
  generalize Simd4x4f.vec4Mul (Simd4x4f.matrixMul r inv) (Simd4f.init (h 0 / h 3) (h 1 / h 3) (h 2 / h 3) 1) = v at *
  simp only [Point3D.init, greal, v0, v1, v2, v3]
  congr 1
  ext <;> field_simp

/-- C66 is false for `unproject_point3d`: with the identity as projection and a translation by (1, 0, 0) as
model-view matrix, the origin is seen at (1, 0, 0), which is unprojected to (2, 0, 0). -/
theorem C66_unproject_false (bk : Backend) :
    let mv : M4 ℝ := GMatrix.initTranslate ⟨1, 0, 0⟩
    perspectiveImage (GMatrix.multiply mv GMatrix.initIdentity) ⟨0, 0, 0⟩ = ⟨1, 0, 0⟩ ∧
    GMatrix.unprojectPoint3D bk GMatrix.initIdentity mv ⟨1, 0, 0⟩ = some ⟨2, 0, 0⟩ := by
  intro mv
  constructor
  · rw [(C52_product mv mv mv).2.2.2.2]
    simp [mv, perspectiveImage, hom, mat, vec, Matrix.vecMul, dotProduct, Fin.sum_univ_succ, GMatrix.initTranslate, greal]
  · have he : eps < |(mat (GMatrix.initIdentity : M4 ℝ)).det| := by
      rw [initIdentity_real, det_one, abs_one]; exact eps_lt_one
    obtain ⟨r, hr⟩ := Option.isSome_iff_exists.1 ((C54_inverse bk (GMatrix.initIdentity : M4 ℝ)).1.2 he.le)
    have h1 := ((C54_inverse bk (GMatrix.initIdentity : M4 ℝ)).2 r hr (fun e => absurd e he.ne')).1
    rw [(C52_product r r r).2.2.2.1] at h1
    subst h1
    have hr' : Simd4x4f.inverse bk (GMatrix.initIdentity : M4 ℝ) = some GMatrix.initIdentity := hr
    rw [GMatrix.unprojectPoint3D, hr']
    simp [mv, GMatrix.initIdentity, GMatrix.initTranslate, Point3D.init, greal]
    norm_num

/-- non-vacuity of `C66_unproject_partial`: a translation and its inverse, and a projection -/
example : GMatrix.multiply (GMatrix.initTranslate (⟨1, 0, 0⟩ : Point3D ℝ)) (GMatrix.initTranslate ⟨-1, 0, 0⟩) =
      GMatrix.initIdentity ∧
    eps < |(mat (GMatrix.initFrustum (-1 : ℝ) 1 (-1) 1 1 3)).det| := by
  constructor
  · simp [GMatrix.multiply, GMatrix.initTranslate, GMatrix.initIdentity, greal]
  · have : (mat (GMatrix.initFrustum (-1 : ℝ) 1 (-1) 1 1 3)).det = -3 := by
      rw [Matrix.det_succ_row_zero]
      simp [Fin.sum_univ_succ, Matrix.det_fin_three, Matrix.submatrix, mat, vec, Fin.succAbove, GMatrix.initFrustum,
        Simd4x4f.initFrustum, greal]
      norm_num
    rw [this, abs_of_neg (by norm_num)]
    linarith [eps_lt_one]

/-! ## C42 -/

/-- C42, proved part: transforming a plane with a unit normal by an invertible affine matrix gives a plane
with a unit normal that contains exactly the images of the points of the original plane and keeps
them on the same side.  Missing: non-invertible matrices (`C42_singular_false`). -/
theorem C42_transform_partial (bk : Backend) (p : Plane ℝ) (hp : UnitNormal p) (m : M4 ℝ) (hm : Affine m)
    (hd : eps < |(mat m).det|)
    (hn : ∀ r, GMatrix.inverse bk m = some r →
      Normalisable bk (GMatrix.transformVec3 (GMatrix.transpose r) p.normal)) :
    ∃ p' k, Plane.transform bk p m none = some p' ∧ UnitNormal p' ∧ 0 < k ∧
      ∀ q, side p' (image m q) = k * side p q := by
  obtain ⟨r, hr⟩ := Option.isSome_iff_exists.1 ((C54_inverse bk m).1.2 hd.le)
  have h1 := ((C54_inverse bk m).2 r hr (fun e => absurd e hd.ne')).1
  have hn := hn r hr
  have hs := hn.pos
  set n' := GMatrix.transformVec3 (GMatrix.transpose r) p.normal with hn'
  obtain ⟨⟨x, y, z, w⟩⟩ := n'
  set k := (√(x ^ 2 + y ^ 2 + z ^ 2))⁻¹ with hk
  have hkpos : 0 < k := inv_pos.2 (Real.sqrt_pos.2 hs)
  have e := vec3_normalize_eq hn
  refine ⟨Plane.init (some (Vec3.normalize bk ⟨⟨x, y, z, w⟩⟩)) (Scalar.neg (Vec3.dot bk (Vec3.normalize bk ⟨⟨x, y, z, w⟩⟩)
    (Vec4.getXYZ (GMatrix.transformVec4 m (Vec4.initFromVec3 (Vec3.scale p.normal (Scalar.neg p.constant)) f1))))),
    k, ?_, ?_, hkpos, ?_⟩
  · simp only [Plane.transform, hr, Option.map_some, ← hn']
  · rw [e]
    simp only [UnitNormal, Plane.init, Vec3.getX, Vec3.getY, Vec3.getZ, Simd4f.get]
    exact unit_sum hs
  · intro q
    rw [e]
    obtain ⟨⟨⟨a, b, c, cw⟩⟩, d⟩ := p
    obtain ⟨m1, m2, m3, m4⟩ := hm
    obtain ⟨⟨x1, x2, x3, x4⟩, ⟨y1, y2, y3, y4⟩, ⟨z1, z2, z3, z4⟩, ⟨w1, w2, w3, w4⟩⟩ := m
    obtain ⟨⟨i1, i2, i3, i4⟩, ⟨j1, j2, j3, j4⟩, ⟨k1, k2, k3, k4⟩, ⟨l1, l2, l3, l4⟩⟩ := r
    dsimp only at m1 m2 m3 m4
    subst m1 m2 m3 m4
    simp only [GMatrix.multiply, GMatrix.initIdentity, greal, M4.mk.injEq, V4.mk.injEq] at h1
    obtain ⟨⟨a1, a2, a3, -⟩, ⟨b1, b2, b3, -⟩, ⟨c1, c2, c3, -⟩, -⟩ := h1
    simp only [GMatrix.transformVec3, GMatrix.transpose, greal, Vec3.mk.injEq, V4.mk.injEq] at hn'
    obtain ⟨n1, n2, n3, -⟩ := hn'
    simp only [UnitNormal, greal] at hp
    simp only [side, Plane.init, image_eq, GMatrix.transformVec4, greal]
    simp only [← hk]
    rw [n1, n2, n3]
    linear_combination k * (a * q.x * a1 + b * q.x * a2 + c * q.x * a3 + a * q.y * b1 + b * q.y * b2 + c * q.y * b3 +
      a * q.z * c1 + b * q.z * c2 + c * q.z * c3) +
      k * d * (a * a * a1 + a * b * a2 + a * c * a3 + b * a * b1 + b * b * b2 + b * c * b3 + c * a * c1 + c * b * c2 + c * c * c3) +
      k * d * hp

/-- C42: giving the inverse transpose explicitly is the same as leaving it out. -/
theorem C42_normal_matrix (bk : Backend) (p : Plane ℝ) (m r : M4 ℝ) (hr : GMatrix.inverse bk m = some r) :
    Plane.transform bk p m (some (GMatrix.transpose r)) = Plane.transform bk p m none := by
  simp only [Plane.transform, hr, Option.map_some]

/-- C42 is false for every matrix without inverse: the uninitialised inverse is read. -/
theorem C42_singular_false (bk : Backend) (p : Plane ℝ) (m : M4 ℝ) (hd : |(mat m).det| < eps) :
    Plane.transform bk p m none = none := by
  have : GMatrix.inverse bk m = none := by
    have := (C54_inverse bk m).1.not.2 (not_le.2 hd)
    simpa using this
  simp only [Plane.transform, this, Option.map_none]

/-- non-vacuity: a translation -/
example (bk : Backend) : UnitNormal (⟨Vec3.init 0 1 0, 5⟩ : Plane ℝ) ∧
    Affine (GMatrix.initTranslate (⟨1, 2, 3⟩ : Point3D ℝ)) ∧
    eps < |(mat (GMatrix.initTranslate (⟨1, 2, 3⟩ : Point3D ℝ))).det| ∧
    ∀ r, GMatrix.inverse bk (GMatrix.initTranslate (⟨1, 2, 3⟩ : Point3D ℝ)) = some r →
      Normalisable bk (GMatrix.transformVec3 (GMatrix.transpose r) (Vec3.init 0 1 0)) := by
  have hd : (mat (GMatrix.initTranslate (⟨1, 2, 3⟩ : Point3D ℝ))).det = 1 := by
    rw [Matrix.det_succ_row_zero]
    simp [Fin.sum_univ_succ, Matrix.det_fin_three, Matrix.submatrix, mat, vec, Fin.succAbove, GMatrix.initTranslate, greal]
  refine ⟨by simp [UnitNormal, greal], by simp [Affine, GMatrix.initTranslate, greal], ?_, ?_⟩
  · rw [hd, abs_one]; exact eps_lt_one
  · intro r hr
    have h1 := ((C54_inverse bk _).2 r hr (fun e => by rw [hd, abs_one] at e; exact absurd e eps_lt_one.ne')).1
    obtain ⟨⟨i1, i2, i3, i4⟩, ⟨j1, j2, j3, j4⟩, ⟨k1, k2, k3, k4⟩, ⟨l1, l2, l3, l4⟩⟩ := r
    simp [GMatrix.multiply, GMatrix.initIdentity, GMatrix.initTranslate, greal] at h1
    apply Normalisable.of_gt
    simp [GMatrix.transformVec3, GMatrix.transpose, greal, h1]
    exact eps_lt_one

end Graphene

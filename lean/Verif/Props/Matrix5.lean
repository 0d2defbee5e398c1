/-
  C60–C63: 2D transformations and projections.
-/
import Verif.Props.Matrix3
import Verif.Props.Rect1

namespace Graphene
open Spec Simd4f Matrix

/-! ## C60 -/

/-- a 2D affine transformation: `(x, y) ↦ (x·xx + y·xy + x₀, x·yx + y·yy + y₀)`, everything else as in
the identity matrix -/
def Spec.TwoD (m : M4 ℝ) : Prop :=
  m.x.z = 0 ∧ m.x.w = 0 ∧ m.y.z = 0 ∧ m.y.w = 0 ∧ m.z = ⟨0, 0, 1, 0⟩ ∧ m.w.z = 0 ∧ m.w.w = 1

/-- the 2D determinant -/
def Spec.det2 (m : M4 ℝ) : ℝ := m.x.x * m.y.y - m.x.y * m.y.x

theorem Spec.TwoD.det {m : M4 ℝ} (h : TwoD m) : (mat m).det = det2 m := by
  obtain ⟨h1, h2, h3, h4, h5, h6, h7⟩ := h
  rw [Matrix.det_succ_row_zero]
  simp [Fin.sum_univ_succ, Matrix.det_fin_three, Matrix.submatrix, mat, vec, Fin.succAbove, det2, h1, h2, h3,
    h4, h5, h6, h7]
  ring

theorem Spec.TwoD.affine {m : M4 ℝ} (h : TwoD m) : Affine m := by
  obtain ⟨h1, h2, h3, h4, h5, h6, h7⟩ := h
  simp [Affine, h2, h4, h5, h7]

theorem Spec.TwoD.is2d {m : M4 ℝ} (h : TwoD m) : GMatrix.is2d m = true := by
  obtain ⟨h1, h2, h3, h4, h5, h6, h7⟩ := h
  simp [GMatrix.is2d, Simd4x4f.is2d, h1, h2, h3, h4, h5, h6, h7, eps_pos]

theorem transformPoint_image2 (m : M4 ℝ) (p : Point ℝ) : GMatrix.transformPoint m p = image2 m p :=
  (C57_points m p ⟨0, 0, 0⟩ Vec3.zero).2.1

/-- the inverse found by the library undoes a 2D transformation -/
theorem inverse2 {bk : Backend} {m r : M4 ℝ} (h : TwoD m) (hb : |det2 m| = eps → ∀ d, bk ≠ .scalar d)
    (hr : GMatrix.inverse bk m = some r) (p : Point ℝ) :
    image2 r (image2 m p) = p ∧ image2 m (image2 r p) = p := by
  obtain ⟨h1, h2⟩ := (C54_inverse bk m).2 r hr (by rwa [h.det])
  obtain ⟨e1, e2, e3, e4, e5, e6, e7⟩ := h
  obtain ⟨⟨a, b, az, aw⟩, ⟨c, d, cz, cw⟩, mz, ⟨e, f, wz, ww⟩⟩ := m
  dsimp only at e1 e2 e3 e4 e5 e6 e7
  subst e1 e2 e3 e4 e5 e6 e7
  obtain ⟨⟨x1, x2, x3, x4⟩, ⟨y1, y2, y3, y4⟩, ⟨z1, z2, z3, z4⟩, ⟨w1, w2, w3, w4⟩⟩ := r
  simp only [GMatrix.multiply, GMatrix.initIdentity, greal, M4.mk.injEq, V4.mk.injEq] at h1 h2
  obtain ⟨⟨a1, a2, -, -⟩, ⟨a3, a4, -, -⟩, -, ⟨a5, a6, -, -⟩⟩ := h1
  obtain ⟨⟨b1, b2, -, b3⟩, ⟨b4, b5, -, b6⟩, -, ⟨b7, b8, -, b9⟩⟩ := h2
  obtain ⟨p, q⟩ := p
  constructor
  · simp only [image2, image_eq, Point.mk.injEq]
    constructor
    · linear_combination p * a1 + q * a3 + a5
    · linear_combination p * a2 + q * a4 + a6
  · simp only [image2, image_eq, Point.mk.injEq]
    constructor
    · linear_combination p * b1 + q * b4 + b7 - e * (p * b3 + q * b6 + b9)
    · linear_combination p * b2 + q * b5 + b8 - f * (p * b3 + q * b6 + b9)

/-- C60: for an invertible 2D transformation `untransform_point` is the two-sided inverse of
`transform_point`, whatever bounds are given. -/
theorem C60_point (bk : Backend) (m : M4 ℝ) (hm : TwoD m) (hd : eps ≤ |det2 m|)
    (hb : |det2 m| = eps → ∀ d, bk ≠ .scalar d) (p : Point ℝ) (bounds : Rect ℝ) :
    GMatrix.untransformPoint bk m (GMatrix.transformPoint m p) bounds = some p ∧
    ∃ q, GMatrix.untransformPoint bk m p bounds = some q ∧ GMatrix.transformPoint m q = p := by
  obtain ⟨r, hr⟩ := Option.isSome_iff_exists.1 ((C54_inverse bk m).1.2 (by rwa [hm.det]))
  have hi := inverse2 hm hb hr p
  have hu : ∀ p, GMatrix.untransformPoint bk m p bounds = some (image2 r p) := by
    intro p
    simp only [GMatrix.untransformPoint, hm.is2d, if_true, hr, transformPoint_image2]
  refine ⟨?_, image2 r p, hu p, ?_⟩
  · rw [hu, transformPoint_image2, hi.1]
  · rw [transformPoint_image2, hi.2]

/-- C60: for an invertible 2D transformation `untransform_bounds` covers every point that is mapped into
the rectangle, and is the smallest rectangle containing the preimages of its corners. -/
theorem C60_bounds (bk : Backend) (m : M4 ℝ) (hm : TwoD m) (hd : eps ≤ |det2 m|)
    (hb : |det2 m| = eps → ∀ d, bk ≠ .scalar d) (r bounds : Rect ℝ) :
    ∃ b, GMatrix.untransformBounds bk m r bounds = some b ∧
      (∀ p, GMatrix.transformPoint m p ∈ area r → p ∈ area b) ∧
      ∃ c : List (Point ℝ), c.map (GMatrix.transformPoint m) =
          [⟨left r, top r⟩, ⟨right r, top r⟩, ⟨right r, bottom r⟩, ⟨left r, bottom r⟩] ∧
        SmallestRect b c := by
  obtain ⟨i, hi⟩ := Option.isSome_iff_exists.1 ((C54_inverse bk m).1.2 (by rwa [hm.det]))
  refine ⟨GMatrix.transformBounds bk i r, ?_, ?_, ?_⟩
  · simp only [GMatrix.untransformBounds, hm.is2d, if_true, hi]
  · intro p hp
    rw [transformPoint_image2] at hp
    have := (C57_bounds bk i r).2 _ hp
    rwa [(inverse2 hm hb hi p).1] at this
  · refine ⟨_, ?_, (C57_bounds bk i r).1⟩
    simp only [List.map_cons, List.map_nil, transformPoint_image2, (inverse2 hm hb hi _).2]

/-- C60: `untransform_point` reports `false` (and writes nothing) exactly when the matrix is not invertible
or, for a matrix that is not 2D, when the point is outside of the transformed bounds.  -/
theorem C60_failure (bk : Backend) (m : M4 ℝ) (p : Point ℝ) (bounds : Rect ℝ) :
    (GMatrix.untransformPoint bk m p bounds).isSome ↔
      eps ≤ |(mat m).det| ∧ (GMatrix.is2d m = true ∨ p ∈ area (GMatrix.transformBounds bk m bounds)) := by
  have h := (C54_inverse bk m).1
  have hc : ∀ r : Rect ℝ, r.containsPoint p = true ↔ p ∈ area r := fun r => C21_contains_point r p
  rw [← h]
  simp only [GMatrix.untransformPoint]
  by_cases h2 : GMatrix.is2d m = true
  · simp only [h2, if_true, true_or, and_true]
    cases GMatrix.inverse bk m <;> simp
  · simp only [h2]
    by_cases h3 : (GMatrix.transformBounds bk m bounds).containsPoint p = true
    · simp only [h3, (hc _).1 h3]
      cases GMatrix.inverse bk m <;> simp
    · simp [h3, (hc _).not.1 h3]

/-- C60 is false for `untransform_bounds`, which has no way to report failure: with a non-invertible 2D
matrix it returns without writing its result. -/
theorem C60_unwritten_false (bk : Backend) (r bounds : Rect ℝ) :
    ∃ m : M4 ℝ, GMatrix.is2d m = true ∧ GMatrix.untransformBounds bk m r bounds = none := by
  refine ⟨GMatrix.initScale 0 1 1, ?_, ?_⟩
  · simp [GMatrix.is2d, Simd4x4f.is2d, GMatrix.initScale, eps_pos, greal]
  · have h1 : GMatrix.is2d (GMatrix.initScale (0 : ℝ) 1 1) = true := by
      simp [GMatrix.is2d, Simd4x4f.is2d, GMatrix.initScale, eps_pos, greal]
    have h2 : GMatrix.inverse bk (GMatrix.initScale (0 : ℝ) 1 1) = none := by
      have hd : (mat (GMatrix.initScale (0 : ℝ) 1 1)).det = 0 := by
        rw [Matrix.det_succ_row_zero]
        simp [Fin.sum_univ_succ, Matrix.det_fin_three, Matrix.submatrix, mat, vec, Fin.succAbove,
          GMatrix.initScale, greal]
      have := (C54_inverse bk (GMatrix.initScale (0 : ℝ) 1 1)).1.not.2 (by rw [hd, abs_zero]; exact not_le.2 eps_pos)
      simpa using this
    simp only [GMatrix.untransformBounds, h1, if_true, h2]

/-- non-vacuity -/
example : TwoD ⟨⟨1, 2, 0, 0⟩, ⟨3, 4, 0, 0⟩, ⟨0, 0, 1, 0⟩, ⟨5, 6, 0, 1⟩⟩ ∧
    eps ≤ |det2 ⟨⟨1, 2, 0, 0⟩, ⟨3, 4, 0, 0⟩, ⟨0, 0, 1, 0⟩, ⟨5, 6, 0, 1⟩⟩| := by
  refine ⟨by simp [TwoD], ?_⟩
  have := eps_lt_one
  simp only [det2]
  rw [show (1 : ℝ) * 4 - 2 * 3 = -2 by norm_num, abs_of_neg (by norm_num)]
  linarith

/-! ## C62 -/

/-- C62, what holds: `init_ortho` maps the view volume affinely to the clip cube — `left`, `right` to -1, 1,
`-z_near`, `-z_far` to -1, 1 — but `top` to -1 and `bottom` to 1. -/
theorem C62_ortho_partial (l r t b n f : ℝ) (hx : l ≠ r) (hy : t ≠ b) (hz : n ≠ f) (p : Point3D ℝ) :
    GMatrix.transformPoint3D (GMatrix.initOrtho l r t b n f) p =
      ⟨2 * (p.x - l) / (r - l) - 1, 2 * (p.y - t) / (b - t) - 1, 2 * (-p.z - n) / (f - n) - 1⟩ ∧
    Affine (GMatrix.initOrtho l r t b n f) := by
  have h1 : r - l ≠ 0 := sub_ne_zero.2 hx.symm
  have h2 : b - t ≠ 0 := sub_ne_zero.2 hy.symm
  have h3 : f - n ≠ 0 := sub_ne_zero.2 hz.symm
  refine ⟨?_, by simp [Affine, GMatrix.initOrtho, Simd4x4f.initOrtho, greal]⟩
  simp only [GMatrix.transformPoint3D, GMatrix.initOrtho, Simd4x4f.initOrtho, greal, Point3D.mk.injEq]
  refine ⟨?_, ?_, ?_⟩ <;> field_simp <;> push_cast <;> ring

/-- C62: hence, for a proper view volume, exactly the points of the volume are mapped into the clip
cube. -/
theorem C62_volume_partial (l r t b n f : ℝ) (hx : l < r) (hy : t < b) (hz : n < f) (p : Point3D ℝ) :
    GMatrix.transformPoint3D (GMatrix.initOrtho l r t b n f) p ∈ between ⟨-1, -1, -1⟩ ⟨1, 1, 1⟩ ↔
      (l ≤ p.x ∧ p.x ≤ r) ∧ (t ≤ p.y ∧ p.y ≤ b) ∧ (n ≤ -p.z ∧ -p.z ≤ f) := by
  rw [(C62_ortho_partial l r t b n f hx.ne hy.ne hz.ne p).1]
  have key : ∀ a b x : ℝ, a < b → ((-1 ≤ 2 * (x - a) / (b - a) - 1 ↔ a ≤ x) ∧ (2 * (x - a) / (b - a) - 1 ≤ 1 ↔ x ≤ b)) := by
    intro a b x h
    have h' : 0 < b - a := sub_pos.2 h
    constructor
    · constructor
      · intro h1
        have : 0 ≤ 2 * (x - a) / (b - a) := by linarith
        rw [le_div_iff₀ h'] at this
        linarith
      · intro h1
        have : 0 ≤ 2 * (x - a) / (b - a) := div_nonneg (by linarith) h'.le
        linarith
    · constructor
      · intro h1
        have : 2 * (x - a) / (b - a) ≤ 2 := by linarith
        rw [div_le_iff₀ h'] at this
        linarith
      · intro h1
        have : 2 * (x - a) / (b - a) ≤ 2 := by rw [div_le_iff₀ h']; linarith
        linarith
  simp only [between, Set.mem_setOf_eq, (key _ _ _ hx).1, (key _ _ _ hx).2, (key _ _ _ hy).1, (key _ _ _ hy).2,
    (key _ _ _ hz).1, (key _ _ _ hz).2]
  tauto

/-- C62 is false in the vertical direction: `top` is mapped to -1, not to 1, for every view volume. -/
theorem C62_top_false (l r t b n f x z : ℝ) (hx : l ≠ r) (hy : t ≠ b) (hz : n ≠ f) :
    (GMatrix.transformPoint3D (GMatrix.initOrtho l r t b n f) ⟨x, t, z⟩).y = -1 ∧
    (GMatrix.transformPoint3D (GMatrix.initOrtho l r t b n f) ⟨x, b, z⟩).y = 1 := by
  rw [(C62_ortho_partial l r t b n f hx hy hz _).1, (C62_ortho_partial l r t b n f hx hy hz _).1]
  have h2 : b - t ≠ 0 := sub_ne_zero.2 hy.symm
  constructor
  · simp
  · simp only; field_simp; ring

/-- non-vacuity -/
example : (GMatrix.transformPoint3D (GMatrix.initOrtho (0 : ℝ) 4 0 2 1 3) ⟨1, 2, -2⟩) = (⟨-1 / 2, 1, 0⟩ : Point3D ℝ) := by
  rw [(C62_ortho_partial 0 4 0 2 1 3 (by norm_num) (by norm_num) (by norm_num) _).1]
  norm_num

/-! ## C63 -/

/-- the perspective image of a point: its homogeneous image divided by the last coordinate -/
noncomputable def Spec.perspectiveImage (m : M4 ℝ) (p : Point3D ℝ) : Point3D ℝ :=
  let h := hom p ᵥ* mat m
  ⟨h 0 / h 3, h 1 / h 3, h 2 / h 3⟩

/-- C63: `init_frustum` first projects a point in front of the eye onto the near plane (similar
triangles), where `[left, right] × [bottom, top]` is mapped linearly to `[-1, 1]²`; the last
homogeneous coordinate is the distance `-z` from the eye, and `z = -z_near, -z_far` are mapped to -1
and 1. -/
theorem C63_frustum (l r b t n f : ℝ) (hx : l ≠ r) (hy : b ≠ t) (hz : n ≠ f) (p : Point3D ℝ) (hp : p.z ≠ 0) :
    let q := perspectiveImage (GMatrix.initFrustum l r b t n f) p
    (hom p ᵥ* mat (GMatrix.initFrustum l r b t n f)) 3 = -p.z ∧
    q.x = 2 * (p.x * (n / -p.z) - l) / (r - l) - 1 ∧
    q.y = 2 * (p.y * (n / -p.z) - b) / (t - b) - 1 ∧
    (p.z = -n → q.z = -1) ∧ (p.z = -f → q.z = 1) := by
  have h1 : r - l ≠ 0 := sub_ne_zero.2 hx.symm
  have h2 : t - b ≠ 0 := sub_ne_zero.2 hy.symm
  have h3 : f - n ≠ 0 := sub_ne_zero.2 hz.symm
  obtain ⟨x, y, z⟩ := p
  dsimp only at hp
  have e : hom ⟨x, y, z⟩ ᵥ* mat (GMatrix.initFrustum l r b t n f) =
      ![x * (2 * n / (r - l)) + z * ((r + l) / (r - l)), y * (2 * n / (t - b)) + z * ((t + b) / (t - b)),
        z * (-(f + n) / (f - n)) + -2 * f * n / (f - n), -z] := by
    funext i
    fin_cases i <;>
      simp [hom, mat, vec, Matrix.vecMul, dotProduct, Fin.sum_univ_succ, GMatrix.initFrustum, Simd4x4f.initFrustum,
        greal]
  simp only [perspectiveImage, e]
  have e3 : (![x * (2 * n / (r - l)) + z * ((r + l) / (r - l)), y * (2 * n / (t - b)) + z * ((t + b) / (t - b)),
        z * (-(f + n) / (f - n)) + -2 * f * n / (f - n), -z] : Fin 4 → ℝ) 3 = -z := rfl
  refine ⟨rfl, ?_, ?_, ?_, ?_⟩
  · simp; field_simp; ring
  · simp; field_simp; ring
  · rintro rfl
    have := neg_ne_zero.1 hp
    simp; field_simp; ring
  · rintro rfl
    have := neg_ne_zero.1 hp
    simp; field_simp; ring

/-- C63: `init_perspective` is the symmetric frustum whose half height at the near plane is
`z_near · tan (fovy / 2)`. -/
theorem C63_perspective (fovy aspect n f : ℝ) (hn : n ≠ 0) (ha : aspect ≠ 0)
    (ht : Real.tan (fovy * (Real.pi / 180) / 2) ≠ 0) :
    let h := n * Real.tan (fovy * (Real.pi / 180) / 2)
    GMatrix.initPerspective fovy aspect n f = GMatrix.initFrustum (-(aspect * h)) (aspect * h) (-h) h n f := by
  intro h
  have hh : h ≠ 0 := mul_ne_zero hn ht
  simp only [GMatrix.initPerspective, GMatrix.initFrustum, Simd4x4f.initPerspective, Simd4x4f.initFrustum, greal,
    M4.mk.injEq, V4.mk.injEq, and_true, true_and]
  rw [show Real.pi / 2 - fovy * (Real.pi / 180) * (((1 : ℤ) : ℝ) / ((2 : ℕ) : ℝ)) =
    Real.pi / 2 - fovy * (Real.pi / 180) / 2 by push_cast; ring, Real.tan_pi_div_two_sub]
  have hT : Real.tan (fovy * (Real.pi / 180) / 2) = h / n := by simp only [h]; field_simp
  rw [hT]
  push_cast
  refine ⟨by field_simp; ring, by field_simp; ring, ⟨by simp, by simp, by ring⟩, by ring⟩

/-- non-vacuity: the near corners of a 90° frustum -/
example : Real.tan ((90 : ℝ) * (Real.pi / 180) / 2) ≠ 0 ∧
    (perspectiveImage (GMatrix.initFrustum (-1 : ℝ) 1 (-1) 1 1 3) ⟨1, -1, -1⟩) = ⟨1, -1, -1⟩ := by
  constructor
  · rw [show (90 : ℝ) * (Real.pi / 180) / 2 = Real.pi / 4 by ring, Real.tan_pi_div_four]; norm_num
  · obtain ⟨-, h1, h2, h3, -⟩ := C63_frustum (-1) 1 (-1) 1 1 3 (by norm_num) (by norm_num) (by norm_num) ⟨1, -1, -1⟩
      (by norm_num)
    ext
    · rw [h1]; norm_num
    · rw [h2]; norm_num
    · rw [h3 rfl]

end Graphene

/-
  C37 – C39: spheres.
-/
import Verif.Props.Boxes3

namespace Graphene
open Spec Simd4f

/-! ## C37 spheres from points -/

theorem foldl_max_real {β : Type} (f : β → ℝ) (l : List β) (m : ℝ) :
    m ≤ l.foldl (fun m v => fmaxf m (f v)) m ∧
    (∀ v ∈ l, f v ≤ l.foldl (fun m v => fmaxf m (f v)) m) ∧
    (l.foldl (fun m v => fmaxf m (f v)) m = m ∨
      ∃ v ∈ l, l.foldl (fun m v => fmaxf m (f v)) m = f v) := by
  induction l generalizing m with
  | nil => simp
  | cons a l ih =>
    obtain ⟨h1, h2, h3⟩ := ih (fmaxf m (f a))
    simp only [List.foldl_cons]
    rw [fmaxf_real] at h1 ⊢
    rw [fmaxf_real] at h2 h3
    refine ⟨le_trans (le_max_left _ _) h1, ?_, ?_⟩
    · intro v hv
      rcases List.mem_cons.1 hv with rfl | hv
      · exact le_trans (le_max_right _ _) h1
      · exact h2 v hv
    · rcases h3 with h3 | ⟨v, hv, h3⟩
      · rcases max_choice m (f a) with h | h
        · left; rw [h3, h]
        · right; exact ⟨a, by simp, by rw [h3, h]⟩
      · right; exact ⟨v, by simp [hv], h3⟩

theorem distSq_nonneg (p q : Point3D ℝ) : 0 ≤ distSq p q := by unfold distSq; positivity

theorem distanceSq_eq (bk : Backend) (v : Vec3 ℝ) (p : Point3D ℝ) :
    Sphere.distanceSq bk v p.toVec3 = distSq (Point3D.initFromVec3 v) p := by
  rw [distanceSq_real]; rfl
theorem distanceSq_eq' (bk : Backend) (v w : Vec3 ℝ) :
    Sphere.distanceSq bk v w = distSq (Point3D.initFromVec3 v) (Point3D.initFromVec3 w) := by
  rw [distanceSq_real]; rfl

/-- C37 (exact arithmetic): the sphere built from points has the given centre, contains every point
of the list, and no sphere with that centre and a smaller radius does — for lists of any length,
with an explicit centre or without one (whatever centre is chosen).  `C37_rounding_false` shows that
the rounded radius can be too small. -/
theorem C37_points (bk : Backend) (l : List (Point3D ℝ)) (c : Option (Point3D ℝ)) :
    let s := Sphere.initFromPoints bk l c
    (∀ q, c = some q → s.getCenter = q) ∧
    0 ≤ s.getRadius ∧
    (∀ p ∈ l, s.containsPoint bk p = true) ∧
    (∀ r, 0 ≤ r → (∀ p ∈ l, eucl s.getCenter p ≤ r) → s.getRadius ≤ r) := by
  intro s
  set cc : Vec3 ℝ := s.center with hcc
  have hr : s.radius = √(l.foldl (fun m p => fmaxf m (Sphere.distanceSq bk cc p.toVec3)) 0) := by
    rw [← RealScalar.f0_eq]; rfl
  obtain ⟨h1, h2, h3⟩ := foldl_max_real (fun p : Point3D ℝ => Sphere.distanceSq bk cc p.toVec3) l 0
  refine ⟨?_, ?_, ?_, ?_⟩
  · rintro q rfl; rfl
  · show 0 ≤ s.radius; rw [hr]; exact Real.sqrt_nonneg _
  · intro p hp
    rw [Sphere.containsPoint, RealScalar.le_eq, RealScalar.mul_eq, hr, Real.mul_self_sqrt h1]
    exact h2 p hp
  · intro r h0 h
    show s.radius ≤ r
    rw [hr, Real.sqrt_le_left h0]
    rcases h3 with h3 | ⟨p, hp, h3⟩
    · rw [h3]; positivity
    · rw [h3]
      have := h p hp
      simp only [distanceSq_eq]
      rw [eucl, Real.sqrt_le_left h0] at this
      exact this

/-- C37 (exact arithmetic), `sphere_init_from_vectors`. -/
theorem C37_vectors (bk : Backend) (l : List (Vec3 ℝ)) (c : Option (Point3D ℝ)) :
    let s := Sphere.initFromVectors bk l c
    (∀ q, c = some q → s.getCenter = q) ∧
    0 ≤ s.getRadius ∧
    (∀ v ∈ l, s.containsPoint bk (Point3D.initFromVec3 v) = true) ∧
    (∀ r, 0 ≤ r → (∀ v ∈ l, eucl s.getCenter (Point3D.initFromVec3 v) ≤ r) → s.getRadius ≤ r) := by
  intro s
  set cc : Vec3 ℝ := s.center with hcc
  have hr : s.radius = √(l.foldl (fun m v => fmaxf m (Sphere.distanceSq bk cc v)) 0) := by
    rw [← RealScalar.f0_eq]; rfl
  obtain ⟨h1, h2, h3⟩ := foldl_max_real (fun v : Vec3 ℝ => Sphere.distanceSq bk cc v) l 0
  refine ⟨?_, ?_, ?_, ?_⟩
  · rintro q rfl; rfl
  · show 0 ≤ s.radius; rw [hr]; exact Real.sqrt_nonneg _
  · intro p hp
    rw [Sphere.containsPoint, RealScalar.le_eq, RealScalar.mul_eq, hr, Real.mul_self_sqrt h1,
      distanceSq_eq]
    have := h2 p hp
    rwa [distanceSq_eq'] at this
  · intro r h0 h
    show s.radius ≤ r
    rw [hr, Real.sqrt_le_left h0]
    rcases h3 with h3 | ⟨p, hp, h3⟩
    · rw [h3]; positivity
    · rw [h3]
      have := h p hp
      simp only [distanceSq_eq']
      rw [eucl, Real.sqrt_le_left h0] at this
      exact this

/-- C37 (bit-exact): without an explicit centre, the centre is the centre of the bounding box. -/
theorem C37_default_center [Libm binary32] (bk : Backend) (l : List (Point3D F32)) (v : List (Vec3 F32)) :
    (Sphere.initFromPoints bk l none).getCenter = (Box.initFromPoints bk l).getCenter ∧
    (Sphere.initFromVectors bk v none).getCenter = (Box.initFromVectors bk v).getCenter := by
  constructor <;> rfl

/-- C37 is false in floating point: the sphere around the origin built from the single point
(1,1,0) gets the radius `sqrtf (2)`, whose square rounds below 2, and then does not contain the
point it was built from. -/
theorem C37_rounding_false [Libm binary32] :
    let o : Point3D F32 := ⟨f0, f0, f0⟩
    let p : Point3D F32 := ⟨f1, f1, f0⟩
    (Sphere.initFromPoints .gcc [p] (some o)).containsPoint .gcc p = false ∧
    (Sphere.initFromPoints (.sse false false) [p] (some o)).containsPoint (.sse false false) p = false ∧
    (Sphere.initFromPoints (.scalar false) [p] (some o)).containsPoint (.scalar false) p = false := by
  refine ⟨?_, ?_, ?_⟩ <;> kdecide

/-- non-vacuity of C37: the sphere around the origin through (3,4,0) and (1,2,2) has radius 5 -/
example : (Sphere.initFromPoints .gcc [⟨3, 4, 0⟩, ⟨1, 2, 2⟩] (some ⟨0, 0, 0⟩) : Sphere ℝ).radius = 5 := by
  simp [Sphere.initFromPoints, distanceSq_real, Point3D.toVec3, Simd4f.init]
  norm_num
  rw [show (25 : ℝ) = 5 ^ 2 by norm_num]; simp

/-! ## C38 containment, distance, bounding box -/

/-- C38: for a sphere built from a centre and a non-negative radius: containment is
`distance ≤ radius`; `sphere_distance` is the distance to the surface, negative, zero or positive
inside, on or outside; the bounding box contains every contained point and its corners are the
centre moved by the radius on every axis (so its six faces touch the sphere); `is_empty` holds
exactly when the radius is not positive. -/
theorem C38_sphere (bk : Backend) (c : Point3D ℝ) (r : ℝ) (hr : 0 ≤ r) (p : Point3D ℝ) :
    let s := Sphere.init (some c) r
    s.getCenter = c ∧ s.getRadius = r ∧
    (s.containsPoint bk p = true ↔ eucl c p ≤ r) ∧
    s.distance bk p = eucl c p - r ∧
    (s.distance bk p ≤ 0 ↔ s.containsPoint bk p = true) ∧
    (s.containsPoint bk p = true → s.getBoundingBox.containsPoint p = true) ∧
    s.getBoundingBox.getMin = ⟨c.x - r, c.y - r, c.z - r⟩ ∧
    s.getBoundingBox.getMax = ⟨c.x + r, c.y + r, c.z + r⟩ ∧
    (Sphere.isEmpty (some s) = true ↔ r ≤ 0) := by
  have e : (⟨c.toVec3, r⟩ : Sphere ℝ).getBoundingBox.min.value = ⟨c.x - r, c.y - r, c.z - r, -r⟩ := by
    simp [Sphere.getBoundingBox, Box.expandScalar, Point3D.toVec3, greal, sub_eq_add_neg]
  have e' : (⟨c.toVec3, r⟩ : Sphere ℝ).getBoundingBox.max.value = ⟨c.x + r, c.y + r, c.z + r, r⟩ := by
    simp [Sphere.getBoundingBox, Box.expandScalar, Point3D.toVec3, greal]
  have hd : Sphere.distanceSq bk c.toVec3 p.toVec3 = distSq c p := distanceSq_eq bk _ _
  have hc : (Sphere.init (some c) r).containsPoint bk p = true ↔ eucl c p ≤ r := by
    rw [Sphere.containsPoint, RealScalar.le_eq, RealScalar.mul_eq, eucl, Real.sqrt_le_left hr, sq]
    simp only [Sphere.init, hd]
  have hs : (Sphere.init (some c) r).distance bk p = eucl c p - r := by
    simp only [Sphere.distance, Sphere.init, hd, RealScalar.sub_eq, RealScalar.sqrt_eq, eucl]
  refine ⟨rfl, rfl, hc, hs, ?_, ?_, ?_, ?_, ?_⟩
  · rw [hc, hs, sub_nonpos]
  · intro h
    rw [hc, eucl, Real.sqrt_le_left hr, distSq] at h
    have h1 := abs_le_of_sq_le_sq' (a := c.x - p.x) (b := r) (by nlinarith [sq_nonneg (c.y - p.y), sq_nonneg (c.z - p.z)]) hr
    have h2 := abs_le_of_sq_le_sq' (a := c.y - p.y) (b := r) (by nlinarith [sq_nonneg (c.x - p.x), sq_nonneg (c.z - p.z)]) hr
    have h3 := abs_le_of_sq_le_sq' (a := c.z - p.z) (b := r) (by nlinarith [sq_nonneg (c.y - p.y), sq_nonneg (c.x - p.x)]) hr
    show (⟨c.toVec3, r⟩ : Sphere ℝ).getBoundingBox.containsPoint p = true
    simp only [Box.containsPoint, box_isEmpty_real, box_isInfinity_real, Bool.false_eq_true, if_false,
      Simd4f.init, cmpGe, cmpLe, Bool.and_eq_true, RealScalar.le_eq, RealScalar.f0_eq]
    rw [e, e']
    refine ⟨⟨⟨⟨?_, ?_⟩, ?_⟩, ?_⟩, ⟨⟨?_, ?_⟩, ?_⟩, ?_⟩ <;> simp only <;> linarith
  · show Point3D.initFromSimd4f (⟨c.toVec3, r⟩ : Sphere ℝ).getBoundingBox.min.value = _
    rw [e]; rfl
  · show Point3D.initFromSimd4f (⟨c.toVec3, r⟩ : Sphere ℝ).getBoundingBox.max.value = _
    rw [e']; rfl
  · simp [Sphere.isEmpty, Sphere.init]

/-- C38: a `NULL` centre is the origin; `is_empty (NULL)` is false. -/
theorem C38_null (r : ℝ) : (Sphere.init none r).getCenter = ⟨0, 0, 0⟩ ∧
    (Sphere.init none r).getRadius = r ∧ Sphere.isEmpty (none : Option (Sphere ℝ)) = false := by
  simp [Sphere.init, Sphere.getCenter, Sphere.getRadius, Sphere.isEmpty, Point3D.initFromVec3,
    Point3D.initFromSimd4f, Vec3.zero, initZero]

/-- non-vacuity: (1,0,0) is on the unit sphere around the origin -/
example : (Sphere.init (some ⟨0, 0, 0⟩) 1).containsPoint .gcc (⟨1, 0, 0⟩ : Point3D ℝ) = true ∧
    (Sphere.init (some ⟨0, 0, 0⟩) 1).containsPoint .gcc (⟨1, 1, 0⟩ : Point3D ℝ) = false := by
  have h := (C38_sphere .gcc ⟨0, 0, 0⟩ 1 zero_le_one ⟨1, 0, 0⟩).2.2.1
  have h' := (C38_sphere .gcc ⟨0, 0, 0⟩ 1 zero_le_one ⟨1, 1, 0⟩).2.2.1
  rw [← Bool.not_eq_true, h, h', eucl, eucl, Real.sqrt_le_left zero_le_one, Real.sqrt_le_left zero_le_one]
  norm_num [distSq]

/-! ## C39 translation -/

/-- C39 is false: `sphere_translate` does not store the radius, it leaves the previous content of
the result there.  Into a zero-initialised result the unit sphere becomes a sphere of radius 0. -/
theorem C39_radius_false :
    let s : Sphere ℝ := Sphere.init (some ⟨0, 0, 0⟩) 1
    let old : Sphere ℝ := Sphere.init none 0
    (s.translateInto ⟨1, 0, 0⟩ old).getRadius ≠ s.getRadius := by
  simp [Sphere.translateInto, Sphere.init, Sphere.getRadius]

/-- C39: the centre is moved by the offset whatever the result object held before; the radius is
the one the result object held before, so the claim holds for in-place translation (`res == s`)
or whenever that radius equals the one of `s`. -/
theorem C39_translate_partial (s old : Sphere ℝ) (d : Point3D ℝ) :
    (s.translateInto d old).getCenter =
      ⟨s.getCenter.x + d.x, s.getCenter.y + d.y, s.getCenter.z + d.z⟩ ∧
    (s.translateInto d old).getRadius = old.getRadius ∧
    (s.translateInto d s).getRadius = s.getRadius ∧
    (∀ bk p, (s.translateInto d s).containsPoint bk ⟨p.x + d.x, p.y + d.y, p.z + d.z⟩ =
      s.containsPoint bk p) := by
  refine ⟨?_, rfl, rfl, ?_⟩
  · simp [Sphere.translateInto, Sphere.getCenter, Point3D.initFromVec3, Point3D.initFromSimd4f,
      Vec3.add, Simd4f.add, map2, Point3D.toVec3, Simd4f.init]
  · intro bk p
    simp only [Sphere.containsPoint, distanceSq_real, Sphere.translateInto]
    simp [Vec3.add, Simd4f.add, map2, Point3D.toVec3, Simd4f.init]

end Graphene

/-
  C35, C36: box measurements; box2d scale/offset and rectangle conversions.
-/
import Verif.Props.Boxes2
import Verif.Proofs.RectLemmas
import Verif.Proofs.RealLemmas
import Verif.Props.Vectors3
import Verif.Spec.Solid
import Verif.Model.Sphere

namespace Graphene
open Spec Simd4f

theorem box_isEmpty_real (b : Box ℝ) : b.isEmpty = false := by
  simp [Box.isEmpty, Box2d.isPosInf]
theorem box_isInfinity_real (b : Box ℝ) : b.isInfinity = false := by
  simp [Box.isInfinity, Box2d.isNegInf]
theorem box2d_isEmpty_real (b : Box2d ℝ) : b.isEmpty = false := by
  simp [Box2d.isEmpty, Box2d.isPosInf]
theorem box2d_isInfinity_real (b : Box2d ℝ) : b.isInfinity = false := by
  simp [Box2d.isInfinity, Box2d.isNegInf]

theorem distanceSq_real (bk : Backend) (a b : Vec3 ℝ) :
    Sphere.distanceSq bk a b = (a.value.x - b.value.x) ^ 2 + (a.value.y - b.value.y) ^ 2 +
      (a.value.z - b.value.z) ^ 2 := by
  simp [Sphere.distanceSq, Vec3.subtract, Vec3.dot, Simd4f.sub, map2, sq]

theorem box_contains_real (lo hi : Point3D ℝ) (p : Point3D ℝ) :
    (Box.init (some lo) (some hi)).containsPoint p = true ↔ p ∈ between lo hi := by
  simp only [Box.containsPoint, box_isEmpty_real, box_isInfinity_real, Bool.false_eq_true, if_false,
    Box.init, Point3D.toVec3, Simd4f.init, cmpGe, cmpLe, Bool.and_eq_true, RealScalar.le_eq,
    RealScalar.f0_eq, le_refl, and_true, between, Set.mem_setOf_eq]
  tauto

theorem box2d_contains_real (lo hi : Point ℝ) (p : Point ℝ) :
    (Box2d.init (some lo) (some hi)).containsPoint p = true ↔ p ∈ between2 lo hi := by
  simp only [Box2d.containsPoint, box2d_isEmpty_real, box2d_isInfinity_real, Bool.false_eq_true, if_false,
    Box2d.init, Simd4f.init, cmpGe, cmpLe, Bool.and_eq_true, RealScalar.le_eq, Box2d.minV, Box2d.maxV,
    mergeLow, mergeHigh, Simd4f.initZero,
    RealScalar.f0_eq, le_refl, and_true, between2, Set.mem_setOf_eq]
  tauto

/-! ## C35 measurements -/

/-- C35: the measurements of the box spanned by two corners: min, max, width, height, depth, size
and centre are those of the corners; the vertices are exactly the eight points each of whose
coordinates is taken from one of the corners. -/
theorem C35_box (bk : Backend) (lo hi : Point3D ℝ) (h : CornersLe lo hi) :
    let b := Box.init (some lo) (some hi)
    (∀ p, b.containsPoint p = true ↔ p ∈ between lo hi) ∧
    b.getMin = lo ∧ b.getMax = hi ∧
    b.getWidth = hi.x - lo.x ∧ b.getHeight = hi.y - lo.y ∧ b.getDepth = hi.z - lo.z ∧
    b.getSize.getX = hi.x - lo.x ∧ b.getSize.getY = hi.y - lo.y ∧ b.getSize.getZ = hi.z - lo.z ∧
    b.getCenter = ⟨(lo.x + hi.x) / 2, (lo.y + hi.y) / 2, (lo.z + hi.z) / 2⟩ ∧
    (∀ p : Point3D ℝ, p ∈ b.getVertices.map Point3D.initFromVec3 ↔
      (p.x = lo.x ∨ p.x = hi.x) ∧ (p.y = lo.y ∨ p.y = hi.y) ∧ (p.z = lo.z ∨ p.z = hi.z)) ∧
    b.getVertices.length = 8 ∧
    (∀ p ∈ b.getVertices.map Point3D.initFromVec3, b.containsPoint p = true) ∧
    (∀ p, b.containsPoint p = true → (b.getBoundingSphere bk).containsPoint bk p = true) ∧
    (∀ p ∈ b.getVertices.map Point3D.initFromVec3, (b.getBoundingSphere bk).distance bk p = 0) := by
  obtain ⟨hx, hy, hz⟩ := h
  have hc : (Box.init (some lo) (some hi)).getCenter =
      ⟨(lo.x + hi.x) / 2, (lo.y + hi.y) / 2, (lo.z + hi.z) / 2⟩ := by
    simp only [Box.getCenter, box_isEmpty_real, box_isInfinity_real, Bool.or_self, Bool.false_eq_true,
      if_false, Box.init, Point3D.toVec3, greal, Point3D.initFromVec3, Point3D.initFromSimd4f]
    ext <;> simp <;> ring
  have hv : ∀ p : Point3D ℝ, p ∈ (Box.init (some lo) (some hi)).getVertices.map Point3D.initFromVec3 ↔
      (p.x = lo.x ∨ p.x = hi.x) ∧ (p.y = lo.y ∨ p.y = hi.y) ∧ (p.z = lo.z ∨ p.z = hi.z) := by
    rintro ⟨x, y, z⟩
    simp only [Box.getVertices, Box.getMin, Box.getMax, Point3D.initFromVec3, Point3D.initFromSimd4f,
      Box.init, Point3D.toVec3, Simd4f.init, Vec3.init, List.map_cons, List.map_nil, List.mem_cons,
      Point3D.mk.injEq, List.not_mem_nil, or_false]
    tauto
  have hr : ((Box.init (some lo) (some hi)).getBoundingSphere bk).radius ^ 2 =
      ((hi.x - lo.x) ^ 2 + (hi.y - lo.y) ^ 2 + (hi.z - lo.z) ^ 2) / 4 ∧
      0 ≤ ((Box.init (some lo) (some hi)).getBoundingSphere bk).radius := by
    have hn : 0 ≤ (hi.x - lo.x) * (hi.x - lo.x) + (hi.y - lo.y) * (hi.y - lo.y) +
      (hi.z - lo.z) * (hi.z - lo.z) := by
      nlinarith [mul_self_nonneg (hi.x - lo.x), mul_self_nonneg (hi.y - lo.y),
        mul_self_nonneg (hi.z - lo.z)]
    simp only [Box.getBoundingSphere, vec3_length, Box.getSize, box_isEmpty_real, box_isInfinity_real,
      Bool.false_eq_true, if_false, Box.init, Point3D.toVec3, Simd4f.init, Simd4f.sub, map2,
      RealScalar.sub_eq, RealScalar.f0_eq, Vec3.getX, Vec3.getY, Vec3.getZ, Simd4f.get,
      RealScalar.mul_eq, RealScalar.lit_eq]
    constructor
    · rw [mul_pow, Real.sq_sqrt hn]; push_cast; ring
    · positivity
  have hd : ∀ p, Sphere.distanceSq bk ((Box.init (some lo) (some hi)).getBoundingSphere bk).center
      (Point3D.toVec3 p) = ((lo.x + hi.x) / 2 - p.x) ^ 2 + ((lo.y + hi.y) / 2 - p.y) ^ 2 +
        ((lo.z + hi.z) / 2 - p.z) ^ 2 := by
    intro p
    rw [distanceSq_real, Box.getBoundingSphere, hc]
    simp [Point3D.toVec3, Simd4f.init]
  refine ⟨box_contains_real lo hi, rfl, rfl, ?_, ?_, ?_, ?_, ?_, ?_, hc, hv, rfl, ?_, ?_, ?_⟩
  · simp [Box.getWidth, Box.init, Point3D.toVec3, greal, hx]
  · simp [Box.getHeight, Box.init, Point3D.toVec3, greal, hy]
  · simp [Box.getDepth, Box.init, Point3D.toVec3, greal, hz]
  · simp [Box.getSize, box_isEmpty_real, box_isInfinity_real, Box.init, Point3D.toVec3, greal]
  · simp [Box.getSize, box_isEmpty_real, box_isInfinity_real, Box.init, Point3D.toVec3, greal]
  · simp [Box.getSize, box_isEmpty_real, box_isInfinity_real, Box.init, Point3D.toVec3, greal]
  · intro p hp
    rw [hv] at hp
    rw [box_contains_real]
    obtain ⟨h1, h2, h3⟩ := hp
    refine ⟨?_, ?_, ?_, ?_, ?_, ?_⟩
    · rcases h1 with h | h <;> rw [h]; exact hx
    · rcases h1 with h | h <;> rw [h]; exact hx
    · rcases h2 with h | h <;> rw [h]; exact hy
    · rcases h2 with h | h <;> rw [h]; exact hy
    · rcases h3 with h | h <;> rw [h]; exact hz
    · rcases h3 with h | h <;> rw [h]; exact hz
  · intro p hp
    rw [box_contains_real] at hp
    obtain ⟨h1, h2, h3, h4, h5, h6⟩ := hp
    rw [Sphere.containsPoint, RealScalar.le_eq, hd, RealScalar.mul_eq, ← sq, hr.1]
    nlinarith [mul_nonneg (sub_nonneg.2 h1) (sub_nonneg.2 h2), mul_nonneg (sub_nonneg.2 h3) (sub_nonneg.2 h4),
      mul_nonneg (sub_nonneg.2 h5) (sub_nonneg.2 h6)]
  · intro p hp
    rw [hv] at hp
    obtain ⟨h1, h2, h3⟩ := hp
    rw [Sphere.distance, hd, RealScalar.sqrt_eq, RealScalar.sub_eq, sub_eq_zero,
      Real.sqrt_eq_iff_eq_sq (by positivity) hr.2, hr.1]
    rcases h1 with h1 | h1 <;> rcases h2 with h2 | h2 <;> rcases h3 with h3 | h3 <;>
      rw [h1, h2, h3] <;> ring

/-- C35 (2D). -/
theorem C35_box2d (lo hi : Point ℝ) (hx : lo.x ≤ hi.x) (hy : lo.y ≤ hi.y) :
    let b := Box2d.init (some lo) (some hi)
    (∀ p, b.containsPoint p = true ↔ p ∈ between2 lo hi) ∧
    b.getMin = lo ∧ b.getMax = hi ∧
    b.getWidth = hi.x - lo.x ∧ b.getHeight = hi.y - lo.y ∧
    b.getSize.getX = hi.x - lo.x ∧ b.getSize.getY = hi.y - lo.y ∧
    b.getCenter = ⟨(lo.x + hi.x) / 2, (lo.y + hi.y) / 2⟩ ∧
    (∀ p : Point ℝ, p ∈ b.getVertices.map Point.initFromVec2 ↔
      (p.x = lo.x ∨ p.x = hi.x) ∧ (p.y = lo.y ∨ p.y = hi.y)) ∧
    b.getVertices.length = 4 ∧
    (∀ p ∈ b.getVertices.map Point.initFromVec2, b.containsPoint p = true) := by
  have hv : ∀ p : Point ℝ, p ∈ (Box2d.init (some lo) (some hi)).getVertices.map Point.initFromVec2 ↔
      (p.x = lo.x ∨ p.x = hi.x) ∧ (p.y = lo.y ∨ p.y = hi.y) := by
    rintro ⟨x, y⟩
    simp only [Box2d.getVertices, Box2d.getMin, Box2d.getMax, Point.initFromVec2, Box2d.minV, Box2d.maxV,
      mergeLow, mergeHigh, Simd4f.get,
      Box2d.init, Simd4f.init, Vec2.init, List.map_cons, List.map_nil, List.mem_cons,
      Point.mk.injEq, List.not_mem_nil, or_false]
    tauto
  refine ⟨box2d_contains_real lo hi, rfl, rfl, ?_, ?_, ?_, ?_, ?_, hv, rfl, ?_⟩
  · simp [Box2d.getWidth, Box2d.init, Box2d.minV, Box2d.maxV, greal, hx]
  · simp [Box2d.getHeight, Box2d.init, Box2d.minV, Box2d.maxV, greal, hy]
  · simp [Box2d.getSize, box2d_isEmpty_real, box2d_isInfinity_real, Box2d.init, Box2d.minV, Box2d.maxV,
      greal]
  · simp [Box2d.getSize, box2d_isEmpty_real, box2d_isInfinity_real, Box2d.init, Box2d.minV, Box2d.maxV,
      greal]
  · simp only [Box2d.getCenter, box2d_isEmpty_real, box2d_isInfinity_real, Bool.or_self,
      Bool.false_eq_true, if_false, Box2d.init, Box2d.minV, Box2d.maxV, greal]
    ext <;> simp <;> ring
  · intro p hp
    rw [hv] at hp
    rw [box2d_contains_real]
    obtain ⟨h1, h2⟩ := hp
    refine ⟨?_, ?_, ?_, ?_⟩
    · rcases h1 with h | h <;> rw [h]; exact hx
    · rcases h1 with h | h <;> rw [h]; exact hx
    · rcases h2 with h | h <;> rw [h]; exact hy
    · rcases h2 with h | h <;> rw [h]; exact hy

/-- non-vacuity of C35 -/
example : CornersLe ⟨-1, 0, 2⟩ ⟨1, 3, 5 / 2⟩ := by
  refine ⟨?_, ?_, ?_⟩ <;> norm_num

/-- C35 (bit-exact): a `NULL` corner is the origin, the constructors from vectors keep their
corners, and every vertex of an ordered box without NaN coordinates is contained in it. -/
theorem C35_ieee [Libm binary32] (lo hi : Point3D F32) (hn : NoNaN3 lo ∧ NoNaN3 hi)
    (h : lo.x.le hi.x = true ∧ lo.y.le hi.y = true ∧ lo.z.le hi.z = true) :
    (∀ p ∈ (Box.init (some lo) (some hi)).getVertices.map Point3D.initFromVec3,
      (Box.init (some lo) (some hi)).containsPoint p = true) ∧
    (Box.init none (some hi)).getMin = ⟨f0, f0, f0⟩ ∧ (Box.init (some lo) none).getMax = ⟨f0, f0, f0⟩ ∧
    (∀ u v : Vec3 F32, (Box.initFromVec3 (some u) (some v)).min = u ∧
      (Box.initFromVec3 (some u) (some v)).max = v ∧
      (Box.initFromVec3 none (some v)).getMin = ⟨f0, f0, f0⟩ ∧
      (Box.initFromVec3 (some u) none).getMax = ⟨f0, f0, f0⟩) ∧
    (∀ u v : Vec2 F32, (Box2d.initFromVec2 (some u) (some v)).getMin = ⟨u.getX, u.getY⟩ ∧
      (Box2d.initFromVec2 (some u) (some v)).getMax = ⟨v.getX, v.getY⟩ ∧
      (Box2d.initFromVec2 none (some v)).getMin = ⟨f0, f0⟩ ∧
      (Box2d.initFromVec2 (some u) none).getMax = ⟨f0, f0⟩) ∧
    (∀ q : Point F32, (Box2d.init none (some q)).getMin = ⟨f0, f0⟩ ∧
      (Box2d.init (some q) none).getMax = ⟨f0, f0⟩) ∧
    (∀ (b : Box2d F32) (a₀ a₁ a₂ a₃ : F32) (tl : Buf F32), b.toFloat (a₀ :: a₁ :: a₂ :: a₃ :: tl) =
      some (b.getMin.x :: b.getMin.y :: b.getMax.x :: b.getMax.y :: tl)) := by
  refine ⟨?_, rfl, rfl, fun u v => ⟨rfl, rfl, rfl, rfl⟩, fun u v => ⟨rfl, rfl, rfl, rfl⟩,
    fun q => ⟨rfl, rfl⟩, fun b _ _ _ _ tl => rfl⟩
  obtain ⟨⟨n1, n2, n3⟩, n4, n5, n6⟩ := hn
  obtain ⟨hx, hy, hz⟩ := h
  have hu : Usable (Box.init (some lo) (some hi)) := Plain.usable ⟨Fp.f0_eq, Fp.f0_eq⟩
  rintro ⟨x, y, z⟩ hp
  have hp' : (x = lo.x ∨ x = hi.x) ∧ (y = lo.y ∨ y = hi.y) ∧ (z = lo.z ∨ z = hi.z) := by
    simp only [Box.getVertices, Box.getMin, Box.getMax, Point3D.initFromVec3, Point3D.initFromSimd4f,
      Box.init, Point3D.toVec3, Simd4f.init, Vec3.init, List.map_cons, List.map_nil, List.mem_cons,
      Point3D.mk.injEq, List.not_mem_nil, or_false] at hp
    tauto
  have l1 := Fp.le_refl n1
  have l2 := Fp.le_refl n2
  have l3 := Fp.le_refl n3
  have l4 := Fp.le_refl n4
  have l5 := Fp.le_refl n5
  have l6 := Fp.le_refl n6
  obtain ⟨h1, h2, h3⟩ := hp'
  have hq : NoNaN3 (⟨x, y, z⟩ : Point3D F32) := by
    refine ⟨?_, ?_, ?_⟩
    · rcases h1 with rfl | rfl <;> assumption
    · rcases h2 with rfl | rfl <;> assumption
    · rcases h3 with rfl | rfl <;> assumption
  rw [contains_iff hu hq]
  refine ⟨?_, ?_, ?_⟩
  · rcases h1 with rfl | rfl <;> constructor <;> assumption
  · rcases h2 with rfl | rfl <;> constructor <;> assumption
  · rcases h3 with rfl | rfl <;> constructor <;> assumption

/-! ## C36 scale/offset and rectangles -/

/-- C36: `box2d_scale_offset` multiplies both corners by the scale and adds the offset (an absent
scale is 1, an absent offset 0), for scales built from two numbers. -/
theorem C36_scale_offset (bk : Backend) (lo hi : Point ℝ) (sx sy : ℝ) (o : Point ℝ) :
    let b := Box2d.init (some lo) (some hi)
    let s := Vec2.init sx sy
    let img (p : Point ℝ) (kx ky dx dy : ℝ) : Point ℝ := ⟨p.x * kx + dx, p.y * ky + dy⟩
    ((b.scaleOffset bk (some s) (some o)).getMin = img lo sx sy o.x o.y ∧
      (b.scaleOffset bk (some s) (some o)).getMax = img hi sx sy o.x o.y) ∧
    ((b.scaleOffset bk none (some o)).getMin = img lo 1 1 o.x o.y ∧
      (b.scaleOffset bk none (some o)).getMax = img hi 1 1 o.x o.y) ∧
    ((b.scaleOffset bk (some s) none).getMin = img lo sx sy 0 0 ∧
      (b.scaleOffset bk (some s) none).getMax = img hi sx sy 0 0) ∧
    ((b.scaleOffset bk none none).getMin = lo ∧ (b.scaleOffset bk none none).getMax = hi) ∧
    (0 < sx → 0 < sy → ∀ p, b.containsPoint p = true ↔
      (b.scaleOffset bk (some s) (some o)).containsPoint (img p sx sy o.x o.y) = true) := by
  have e : ∀ kx ky dx dy : ℝ, Box2d.init (some (⟨lo.x * kx + dx, lo.y * ky + dy⟩ : Point ℝ))
      (some ⟨hi.x * kx + dx, hi.y * ky + dy⟩) = ⟨⟨lo.x * kx + dx, lo.y * ky + dy, hi.x * kx + dx,
        hi.y * ky + dy⟩⟩ := fun _ _ _ _ => rfl
  have e1 : (Box2d.init (some lo) (some hi)).scaleOffset bk (some (Vec2.init sx sy)) (some o) =
      Box2d.init (some ⟨lo.x * sx + o.x, lo.y * sy + o.y⟩) (some ⟨hi.x * sx + o.x, hi.y * sy + o.y⟩) := by
    rw [e]; simp [Box2d.scaleOffset, Box2d.init, greal]
  have e2 : (Box2d.init (some lo) (some hi)).scaleOffset bk none (some o) =
      Box2d.init (some ⟨lo.x * 1 + o.x, lo.y * 1 + o.y⟩) (some ⟨hi.x * 1 + o.x, hi.y * 1 + o.y⟩) := by
    rw [e]; simp [Box2d.scaleOffset, Box2d.init, greal]
  have e3 : (Box2d.init (some lo) (some hi)).scaleOffset bk (some (Vec2.init sx sy)) none =
      Box2d.init (some ⟨lo.x * sx + 0, lo.y * sy + 0⟩) (some ⟨hi.x * sx + 0, hi.y * sy + 0⟩) := by
    rw [e]; simp [Box2d.scaleOffset, Box2d.init, greal]
  have e4 : (Box2d.init (some lo) (some hi)).scaleOffset bk none none =
      Box2d.init (some lo) (some hi) := by
    simp [Box2d.scaleOffset, Box2d.init, greal]
  simp only [e1, e2, e3, e4]
  refine ⟨⟨rfl, rfl⟩, ⟨rfl, rfl⟩, ⟨rfl, rfl⟩, ⟨rfl, rfl⟩, ?_⟩
  intro hx hy p
  rw [box2d_contains_real, box2d_contains_real]
  simp only [between2, Set.mem_setOf_eq, add_le_add_iff_right, mul_le_mul_iff_left₀ hx,
    mul_le_mul_iff_left₀ hy]

/-- C36: a box2d converted to a rectangle covers the same points. -/
theorem C36_to_rect (lo hi : Point ℝ) (hx : lo.x ≤ hi.x) (hy : lo.y ≤ hi.y) :
    area (Box2d.init (some lo) (some hi)).toRect =
      {p | (Box2d.init (some lo) (some hi)).containsPoint p = true} := by
  ext p
  simp only [Set.mem_setOf_eq, box2d_contains_real]
  simp only [area, between2, left, right, top, bottom, Box2d.toRect, Box2d.getMin, Box2d.getMax, Box2d.init,
    Box2d.minV, Box2d.maxV, mergeLow, mergeHigh, Simd4f.init, RealScalar.sub_eq, Set.mem_setOf_eq,
    add_sub_cancel, min_eq_left hx, max_eq_right hx, min_eq_left hy, max_eq_right hy]

/-- C36: a rectangle of non-negative size (every normalised rectangle) converted to a box2d covers
the same points, and comes back unchanged.  Missing for the full property: negative sizes, see
`C36_from_rect_false`. -/
theorem C36_from_rect_partial (r : Rect ℝ) (hw : 0 ≤ r.size.width) (hh : 0 ≤ r.size.height) :
    {p | (Box2d.initFromRect r).containsPoint p = true} = area r ∧
    (Box2d.initFromRect r).toRect = r := by
  have e : Box2d.initFromRect r = Box2d.init (some r.origin)
    (some ⟨r.origin.x + r.size.width, r.origin.y + r.size.height⟩) := rfl
  have e2 : (Box2d.initFromRect r).toRect = r := by
    rw [e]
    simp [Box2d.toRect, Box2d.getMin, Box2d.getMax, Box2d.init, Box2d.minV, Box2d.maxV, mergeLow, mergeHigh,
      Simd4f.init]
  refine ⟨?_, e2⟩
  rw [e, ← C36_to_rect r.origin ⟨r.origin.x + r.size.width, r.origin.y + r.size.height⟩
    (by simpa using hw) (by simpa using hh), ← e, e2]

/-- C36 is false for rectangles of negative size, which the rest of the API accepts: the
rectangle from (1,1) with width -1 and height -1 covers (1/2,1/2), the box made from it does not. -/
theorem C36_from_rect_false :
    let r : Rect ℝ := ⟨⟨1, 1⟩, ⟨-1, -1⟩⟩
    r.containsPoint ⟨1 / 2, 1 / 2⟩ = true ∧ (⟨1 / 2, 1 / 2⟩ : Point ℝ) ∈ area r ∧
    (Box2d.initFromRect r).containsPoint ⟨1 / 2, 1 / 2⟩ = false := by
  refine ⟨?_, ?_, ?_⟩
  · simp only [Rect.containsPoint, normalize_real, Bool.and_eq_true, RealScalar.le_eq, RealScalar.add_eq]
    norm_num [left, right, top, bottom]
  · norm_num [area, left, right, top, bottom]
  · have e : Box2d.initFromRect (⟨⟨1, 1⟩, ⟨-1, -1⟩⟩ : Rect ℝ) = Box2d.init (some ⟨1, 1⟩) (some ⟨0, 0⟩) := by
      simp [Box2d.initFromRect, Box2d.init]
    rw [e, ← Bool.not_eq_true, box2d_contains_real]
    norm_num [between2]

/-- C35: the order in which the vertices are returned: the last coordinate varies fastest, from the
minimum to the maximum.  Bit for bit, any corners (also NaN, infinities, swapped corners). -/
theorem C35_vertex_order {α : Type} [Scalar α] (lo hi : Point3D α) (l h : Point α) :
    (Box.init (some lo) (some hi)).getVertices.map Point3D.initFromVec3 =
      [⟨lo.x, lo.y, lo.z⟩, ⟨lo.x, lo.y, hi.z⟩, ⟨lo.x, hi.y, lo.z⟩, ⟨lo.x, hi.y, hi.z⟩,
       ⟨hi.x, lo.y, lo.z⟩, ⟨hi.x, lo.y, hi.z⟩, ⟨hi.x, hi.y, lo.z⟩, ⟨hi.x, hi.y, hi.z⟩] ∧
    (Box2d.init (some l) (some h)).getVertices.map Point.initFromVec2 =
      [⟨l.x, l.y⟩, ⟨l.x, h.y⟩, ⟨h.x, l.y⟩, ⟨h.x, h.y⟩] := ⟨rfl, rfl⟩

end Graphene

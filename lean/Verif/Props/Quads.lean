/-
  C27, C28: quadrilaterals.
-/
import Verif.Proofs.RectLemmas
import Verif.Model.Quad
import Mathlib.Tactic.LinearCombination

namespace Graphene
open Spec

/-- twice the signed area of the triangle `a b c` (positive when it turns one way, negative the
other way) -/
def Spec.orient (a b c : Point ℝ) : ℝ := (b.x - a.x) * (c.y - a.y) - (b.y - a.y) * (c.x - a.x)

/-- the corners, in order, form a strictly convex quadrilateral: every three consecutive
corners turn the same way -/
def Spec.Convex4 (q : Quad ℝ) : Prop :=
  (0 < orient q.p0 q.p1 q.p2 ∧ 0 < orient q.p1 q.p2 q.p3 ∧ 0 < orient q.p2 q.p3 q.p0 ∧
    0 < orient q.p3 q.p0 q.p1) ∨
  (orient q.p0 q.p1 q.p2 < 0 ∧ orient q.p1 q.p2 q.p3 < 0 ∧ orient q.p2 q.p3 q.p0 < 0 ∧
    orient q.p3 q.p0 q.p1 < 0)

/-- the convex hull of the four corners -/
def Spec.hull4 (q : Quad ℝ) : Set (Point ℝ) :=
  {p | ∃ a b c d : ℝ, 0 ≤ a ∧ 0 ≤ b ∧ 0 ≤ c ∧ 0 ≤ d ∧ a + b + c + d = 1 ∧
    p.x = a * q.p0.x + b * q.p1.x + c * q.p2.x + d * q.p3.x ∧
    p.y = a * q.p0.y + b * q.p1.y + c * q.p2.y + d * q.p3.y}

theorem sameSide_real (s e a b : Point ℝ) :
    (LineSegment.mk s e).pointsOnSameSide a b = true ↔
      (0 ≤ orient s e a ∧ 0 ≤ orient s e b) ∨ (orient s e a ≤ 0 ∧ orient s e b ≤ 0) := by
  simp only [LineSegment.pointsOnSameSide, Bool.or_eq_true, Bool.and_eq_true, RealScalar.le_eq,
    RealScalar.sub_eq, RealScalar.mul_eq, RealScalar.f0_eq, orient]

theorem hull_of_orient (q : Quad ℝ) (p : Point ℝ) (A : 0 < orient q.p0 q.p1 q.p2)
    (C : 0 < orient q.p2 q.p3 q.p0)
    (h1 : 0 ≤ orient q.p0 q.p1 p) (h2 : 0 ≤ orient q.p1 q.p2 p)
    (h3 : 0 ≤ orient q.p2 q.p3 p) (h4 : 0 ≤ orient q.p3 q.p0 p) : p ∈ hull4 q := by
  rcases le_total (orient q.p0 q.p2 p) 0 with h | h
  · refine ⟨orient q.p1 q.p2 p / orient q.p0 q.p1 q.p2, -orient q.p0 q.p2 p / orient q.p0 q.p1 q.p2,
      orient q.p0 q.p1 p / orient q.p0 q.p1 q.p2, 0, by positivity,
      div_nonneg (by linarith) A.le, by positivity, le_refl _, ?_, ?_, ?_⟩ <;>
    · field_simp
      simp only [orient]; ring
  · refine ⟨orient q.p2 q.p3 p / orient q.p2 q.p3 q.p0, 0, orient q.p3 q.p0 p / orient q.p2 q.p3 q.p0,
      orient q.p0 q.p2 p / orient q.p2 q.p3 q.p0, by positivity, le_refl _, by positivity,
      by positivity, ?_, ?_, ?_⟩ <;>
    · field_simp
      simp only [orient]; ring

theorem orient_of_hull (q : Quad ℝ) (p : Point ℝ) (A : 0 ≤ orient q.p0 q.p1 q.p2)
    (B : 0 ≤ orient q.p1 q.p2 q.p3) (C : 0 ≤ orient q.p2 q.p3 q.p0) (D : 0 ≤ orient q.p3 q.p0 q.p1)
    (h : p ∈ hull4 q) :
    0 ≤ orient q.p0 q.p1 p ∧ 0 ≤ orient q.p1 q.p2 p ∧ 0 ≤ orient q.p2 q.p3 p ∧
      0 ≤ orient q.p3 q.p0 p := by
  obtain ⟨a, b, c, d, ha, hb, hc, hd, hs, hx, hy⟩ := h
  have hs' : a = 1 - b - c - d := by linarith
  have e1 : orient q.p0 q.p1 p = c * orient q.p0 q.p1 q.p2 + d * orient q.p3 q.p0 q.p1 := by
    simp only [orient]; rw [hx, hy, hs']; ring
  have e2 : orient q.p1 q.p2 p = d * orient q.p1 q.p2 q.p3 + a * orient q.p0 q.p1 q.p2 := by
    simp only [orient]; rw [hx, hy, hs']; ring
  have e3 : orient q.p2 q.p3 p = a * orient q.p2 q.p3 q.p0 + b * orient q.p1 q.p2 q.p3 := by
    simp only [orient]; rw [hx, hy, hs']; ring
  have e4 : orient q.p3 q.p0 p = b * orient q.p3 q.p0 q.p1 + c * orient q.p2 q.p3 q.p0 := by
    simp only [orient]; rw [hx, hy, hs']; ring
  rw [e1, e2, e3, e4]
  exact ⟨by positivity, by positivity, by positivity, by positivity⟩

/-- mirror image (exchanges the two orientations) -/
def mirror (p : Point ℝ) : Point ℝ := ⟨-p.x, p.y⟩
def mirrorQ (q : Quad ℝ) : Quad ℝ := ⟨mirror q.p0, mirror q.p1, mirror q.p2, mirror q.p3⟩
theorem orient_mirror (a b c : Point ℝ) : orient (mirror a) (mirror b) (mirror c) = -orient a b c := by
  simp only [orient, mirror]; ring
theorem hull_mirror (q : Quad ℝ) (p : Point ℝ) : mirror p ∈ hull4 (mirrorQ q) ↔ p ∈ hull4 q := by
  simp only [hull4, Set.mem_setOf_eq, mirrorQ, mirror]
  constructor <;> rintro ⟨a, b, c, d, h1, h2, h3, h4, h5, h6, h7⟩ <;>
    exact ⟨a, b, c, d, h1, h2, h3, h4, h5, by linarith, h7⟩

/-- C27: for corners in convex position (either orientation), `quad_contains` is membership in
their convex hull, boundary included. -/
theorem C27_contains (q : Quad ℝ) (hq : Convex4 q) (p : Point ℝ) :
    q.contains p = true ↔ p ∈ hull4 q := by
  simp only [Quad.contains, Bool.and_eq_true, sameSide_real]
  rcases hq with ⟨A, B, C, D⟩ | ⟨A, B, C, D⟩
  · have B' : 0 < orient q.p1 q.p2 q.p3 := B
    rw [and_assoc, and_assoc]
    have f : ∀ s t : ℝ, 0 < t → ((0 ≤ s ∧ 0 ≤ t ∨ s ≤ 0 ∧ t ≤ 0) ↔ 0 ≤ s) := by
      intro s t ht
      constructor
      · rintro (h | h)
        · exact h.1
        · linarith
      · intro h; exact Or.inl ⟨h, ht.le⟩
    rw [f _ _ A, f _ _ B, f _ _ C, f _ _ D]
    constructor
    · rintro ⟨h1, h2, h3, h4⟩; exact hull_of_orient q p A C h1 h2 h3 h4
    · intro h; exact orient_of_hull q p A.le B.le C.le D.le h
  · rw [and_assoc, and_assoc]
    have f : ∀ s t : ℝ, t < 0 → ((0 ≤ s ∧ 0 ≤ t ∨ s ≤ 0 ∧ t ≤ 0) ↔ 0 ≤ -s) := by
      intro s t ht
      constructor
      · rintro (h | h) <;> linarith
      · intro h; exact Or.inr ⟨by linarith, ht.le⟩
    rw [f _ _ A, f _ _ B, f _ _ C, f _ _ D, ← hull_mirror]
    simp only [← orient_mirror]
    have A' : 0 < orient (mirror q.p0) (mirror q.p1) (mirror q.p2) := by rw [orient_mirror]; linarith
    have B' : 0 < orient (mirror q.p1) (mirror q.p2) (mirror q.p3) := by rw [orient_mirror]; linarith
    have C' : 0 < orient (mirror q.p2) (mirror q.p3) (mirror q.p0) := by rw [orient_mirror]; linarith
    have D' : 0 < orient (mirror q.p3) (mirror q.p0) (mirror q.p1) := by rw [orient_mirror]; linarith
    constructor
    · rintro ⟨h1, h2, h3, h4⟩; exact hull_of_orient (mirrorQ q) (mirror p) A' C' h1 h2 h3 h4
    · intro h; exact orient_of_hull (mirrorQ q) (mirror p) A'.le B'.le C'.le D'.le h

/-- the corners of a rectangle, in the order of `graphene_quad_init_from_rect` -/
theorem initFromRect_real (r : Rect ℝ) : Quad.initFromRect r =
    ⟨⟨left r, top r⟩, ⟨right r, top r⟩, ⟨right r, bottom r⟩, ⟨left r, bottom r⟩⟩ := by
  simp only [Quad.initFromRect, Rect.getTopLeft, Rect.getTopRight, Rect.getBottomRight,
    Rect.getBottomLeft, normalize_real, Point.init, RealScalar.add_eq, left_add_width, top_add_height]

/-- C27: the quad of a non-degenerate rectangle is convex, and contains exactly the points of
the rectangle. -/
theorem C27_rect (r : Rect ℝ) (hw : r.size.width ≠ 0) (hh : r.size.height ≠ 0) (p : Point ℝ) :
    Convex4 (Quad.initFromRect r) ∧
    ((Quad.initFromRect r).contains p = r.containsPoint p) ∧
    ((Quad.initFromRect r).contains p = true ↔ p ∈ area r) := by
  have w : 0 < right r - left r := by rw [← width_eq]; exact abs_pos.2 hw
  have h : 0 < bottom r - top r := by rw [← height_eq]; exact abs_pos.2 hh
  have hwh : 0 < (right r - left r) * (bottom r - top r) := mul_pos w h
  have hc : Convex4 (Quad.initFromRect r) := by
    left
    simp only [initFromRect_real, orient]
    refine ⟨?_, ?_, ?_, ?_⟩ <;> ring_nf <;> ring_nf at hwh <;> linarith
  have hm : (Quad.initFromRect r).contains p = true ↔ p ∈ area r := by
    simp only [Quad.contains, Bool.and_eq_true, sameSide_real, initFromRect_real, orient, area,
      Set.mem_setOf_eq, sub_self, zero_mul, sub_zero, zero_sub, mul_zero]
    constructor
    · rintro ⟨⟨⟨h1, h2⟩, h3⟩, h4⟩
      refine ⟨?_, ?_, ?_, ?_⟩ <;> by_contra hcon <;> rw [not_le] at hcon
      · rcases h4 with h4 | h4 <;> nlinarith
      · rcases h2 with h2 | h2 <;> nlinarith
      · rcases h1 with h1 | h1 <;> nlinarith
      · rcases h3 with h3 | h3 <;> nlinarith
    · rintro ⟨h1, h2, h3, h4⟩
      refine ⟨⟨⟨Or.inl ⟨?_, ?_⟩, Or.inl ⟨?_, ?_⟩⟩, Or.inl ⟨?_, ?_⟩⟩, Or.inl ⟨?_, ?_⟩⟩ <;> nlinarith
  refine ⟨hc, ?_, hm⟩
  rw [Bool.eq_iff_iff, hm]
  simp only [Rect.containsPoint, normalize_real, Bool.and_eq_true, RealScalar.le_eq,
    RealScalar.add_eq, left_add_width, top_add_height, area, Set.mem_setOf_eq]
  tauto

/-- non-vacuity: a convex quadrilateral that is not a rectangle, in clockwise and
counter-clockwise order -/
example : Convex4 ⟨⟨0, 0⟩, ⟨4, 1⟩, ⟨5, 5⟩, ⟨-1, 3⟩⟩ ∧ Convex4 ⟨⟨0, 0⟩, ⟨-1, 3⟩, ⟨5, 5⟩, ⟨4, 1⟩⟩ := by
  constructor
  · left; simp only [orient]; norm_num
  · right; simp only [orient]; norm_num

theorem minVal_real (bk : Backend) (v : V4 ℝ) :
    (Simd4f.minVal bk v).x = min (min v.x v.y) (min v.z v.w) := by
  simp [Simd4f.minVal, greal, min_comm, min_left_comm, min_assoc]
theorem maxVal_real (bk : Backend) (v : V4 ℝ) :
    (Simd4f.maxVal bk v).x = max (max v.x v.y) (max v.z v.w) := by
  simp [Simd4f.maxVal, greal, max_comm, max_left_comm, max_assoc]

/-- C28: `quad_bounds` is the smallest rectangle containing the four corners. -/
theorem C28_bounds (bk : Backend) (q : Quad ℝ) :
    (∀ c ∈ [q.p0, q.p1, q.p2, q.p3], c ∈ area (q.bounds bk)) ∧
    (∀ r : Rect ℝ, (∀ c ∈ [q.p0, q.p1, q.p2, q.p3], c ∈ area r) → area (q.bounds bk) ⊆ area r) ∧
    0 ≤ (q.bounds bk).size.width ∧ 0 ≤ (q.bounds bk).size.height := by
  have e : ∀ a b c d : ℝ, min (min a b) (min c d) ≤ max (max a b) (max c d) := fun a b c d =>
    ((min_le_left _ _).trans (min_le_left _ _)).trans ((le_max_left _ _).trans (le_max_left _ _))
  have ha : ∀ p, p ∈ area (q.bounds bk) ↔
      min (min q.p0.x q.p1.x) (min q.p2.x q.p3.x) ≤ p.x ∧
      p.x ≤ max (max q.p0.x q.p1.x) (max q.p2.x q.p3.x) ∧
      min (min q.p0.y q.p1.y) (min q.p2.y q.p3.y) ≤ p.y ∧
      p.y ≤ max (max q.p0.y q.p1.y) (max q.p2.y q.p3.y) := by
    intro p
    simp only [Quad.bounds, minVal_real, maxVal_real, Rect.init, area_normalize, Point.init,
      Size.init, Simd4f.init, RealScalar.sub_eq]
    have ed := edges_mk (min (min q.p0.x q.p1.x) (min q.p2.x q.p3.x))
      (min (min q.p0.y q.p1.y) (min q.p2.y q.p3.y)) _ _
      (sub_nonneg.2 (e q.p0.x q.p1.x q.p2.x q.p3.x)) (sub_nonneg.2 (e q.p0.y q.p1.y q.p2.y q.p3.y))
    simp only [area, Set.mem_setOf_eq, ed.1, ed.2.1, ed.2.2.1, ed.2.2.2, add_sub_cancel]
  refine ⟨?_, ?_, ?_, ?_⟩
  · intro c hc
    rw [ha]
    simp only [List.mem_cons, List.not_mem_nil, or_false] at hc
    rcases hc with rfl | rfl | rfl | rfl <;> simp
  · intro r hr p hp
    rw [ha] at hp
    have h0 := hr q.p0 (by simp)
    have h1 := hr q.p1 (by simp)
    have h2 := hr q.p2 (by simp)
    have h3 := hr q.p3 (by simp)
    exact ⟨(le_min (le_min h0.1 h1.1) (le_min h2.1 h3.1)).trans hp.1,
      hp.2.1.trans (max_le (max_le h0.2.1 h1.2.1) (max_le h2.2.1 h3.2.1)),
      (le_min (le_min h0.2.2.1 h1.2.2.1) (le_min h2.2.2.1 h3.2.2.1)).trans hp.2.2.1,
      hp.2.2.2.trans (max_le (max_le h0.2.2.2 h1.2.2.2) (max_le h2.2.2.2 h3.2.2.2))⟩
  · rw [Quad.bounds, Rect.init, normalize_real]; exact abs_nonneg _
  · rw [Quad.bounds, Rect.init, normalize_real]; exact abs_nonneg _

/-- C28: the constructors store the corners in order, and `get_point` reads them back; an index
above 3 is out of bounds. -/
theorem C28_get_point {α : Type} [Scalar α] (a b c d : Point α) (rest : List (Point α)) (i : Nat) :
    (Quad.init a b c d).getPoint i = [a, b, c, d][i]? ∧
    (Quad.initFromPoints (a :: b :: c :: d :: rest)).map (·.getPoint i) = some [a, b, c, d][i]? ∧
    (∀ l : List (Point α), l.length < 4 → Quad.initFromPoints l = none) ∧
    (∀ (bk : Backend) (r : Rect ℝ), area ((Quad.initFromRect r).bounds bk) = area r) := by
  refine ⟨rfl, rfl, ?_, ?_⟩
  · intro l hl
    match l, hl with
    | [], _ => rfl
    | [_], _ => rfl
    | [_, _], _ => rfl
    | [_, _, _], _ => rfl
  · intro bk r
    obtain ⟨h1, h2, -, -⟩ := C28_bounds bk (Quad.initFromRect r)
    rw [initFromRect_real] at *
    have hl := left_le_right r
    have ht := top_le_bottom r
    apply Set.Subset.antisymm
    · apply h2
      intro c hc
      simp only [List.mem_cons, List.not_mem_nil, or_false] at hc
      rcases hc with rfl | rfl | rfl | rfl <;> simp [area, hl, ht]
    · have a0 := h1 ⟨left r, top r⟩ (by simp)
      have a2 := h1 ⟨right r, bottom r⟩ (by simp)
      intro p hp
      exact ⟨a0.1.trans hp.1, hp.2.1.trans a2.2.1, a0.2.2.1.trans hp.2.2.1, hp.2.2.2.trans a2.2.2.2⟩

/-- non-vacuity: the bounds of a skewed quadrilateral are not degenerate -/
example (bk : Backend) : (⟨2, 2⟩ : Point ℝ) ∈ area (Quad.bounds bk ⟨⟨0, 0⟩, ⟨4, 1⟩, ⟨5, 5⟩, ⟨-1, 3⟩⟩) := by
  have h := (C28_bounds bk ⟨⟨0, 0⟩, ⟨4, 1⟩, ⟨5, 5⟩, ⟨-1, 3⟩⟩).1
  have h0 := h ⟨0, 0⟩ (by simp)
  have h2 := h ⟨5, 5⟩ (by simp)
  exact ⟨h0.1.trans (by norm_num), le_trans (by norm_num) h2.2.1, h0.2.2.1.trans (by norm_num),
    le_trans (by norm_num) h2.2.2.2⟩

end Graphene

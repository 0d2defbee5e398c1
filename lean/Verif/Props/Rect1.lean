/-
  Properties C17–C22: rectangles, over ℝ (and IEEE where stated).
-/
import Verif.Proofs.RectLemmas
import Verif.Proofs.FpLemmas

namespace Graphene
open Spec

/-! ## C17 normalisation -/

/-- C17: sizes become non-negative, the covered points are unchanged, and it is idempotent;
`init` and `init_from_rect` normalise too. -/
theorem C17_normalize (r : Rect ℝ) (x y w h : ℝ) :
    0 ≤ r.normalize.size.width ∧ 0 ≤ r.normalize.size.height ∧
    area r.normalize = area r ∧ r.normalize.normalize = r.normalize ∧
    Rect.init x y w h = Rect.normalize ⟨⟨x, y⟩, ⟨w, h⟩⟩ ∧ Rect.initFromRect r = r.normalize ∧
    (0 ≤ r.size.width → 0 ≤ r.size.height → r.normalize = r) := by
  refine ⟨by rw [normalize_real]; positivity, by rw [normalize_real]; positivity, area_normalize r,
    ?_, rfl, rfl, ?_⟩
  · rw [normalize_eq_iff]; exact area_normalize r
  · intro hw hh
    obtain ⟨⟨x, y⟩, ⟨w, h⟩⟩ := r
    have := edges_mk x y w h hw hh
    rw [normalize_real, this.1, this.2.2.1]
    simp only [abs_of_nonneg hw, abs_of_nonneg hh]

/-- C17 in IEEE arithmetic: normalising is idempotent and leaves no negative size, for all
float inputs (NaN and infinities included). -/
theorem C17_normalize_ieee [Libm binary32] (r : Rect F32) :
    r.normalize.normalize = r.normalize ∧
    r.normalize.size.width.lt (Fp.lit 0 1) = false ∧
    r.normalize.size.height.lt (Fp.lit 0 1) = false := by
  have hz : (f0 : F32) = Fp.zero false := Fp.f0_eq
  have habs : ∀ s : F32, Fp.lt (Fp.abs s) (Fp.zero false) = false := by
    intro s
    rw [← Bool.not_eq_true, Fp.lt_iff, Fp.abs_le_abs_iff, Fp.key_zero]
    rintro ⟨-, -, h⟩
    exact absurd h (not_lt.2 (abs_nonneg _))
  have hax : ∀ o s : F32, Fp.lt (Rect.normAxis o s).2 (Fp.zero false) = false := by
    intro o s
    unfold Rect.normAxis
    rw [hz, Fp.sc_lt]
    cases h : Fp.lt s (Fp.zero false)
    · simpa using h
    · simpa using habs s
  have hid : ∀ o s : F32, Fp.lt s (Fp.zero false) = false → Rect.normAxis o s = (o, s) := by
    intro o s h
    unfold Rect.normAxis
    rw [hz, Fp.sc_lt, h]; rfl
  refine ⟨?_, ?_, ?_⟩
  · have h1 := hax r.origin.x r.size.width
    have h2 := hax r.origin.y r.size.height
    simp only [Rect.normalize]
    rw [hid _ _ h1, hid _ _ h2]
  · rw [Fp.lit_zero]; exact hax _ _
  · rw [Fp.lit_zero]; exact hax _ _

/-! ## C18 accessors -/

/-- C18: every accessor is a function of the covered edges. -/
theorem C18_accessors (r : Rect ℝ) :
    r.getX = left r ∧ r.getY = top r ∧ r.getWidth = right r - left r ∧
    r.getHeight = bottom r - top r ∧ r.getArea = (right r - left r) * (bottom r - top r) ∧
    r.getTopLeft = ⟨left r, top r⟩ ∧ r.getTopRight = ⟨right r, top r⟩ ∧
    r.getBottomRight = ⟨right r, bottom r⟩ ∧ r.getBottomLeft = ⟨left r, bottom r⟩ ∧
    r.getCenter = ⟨(left r + right r) / 2, (top r + bottom r) / 2⟩ ∧
    r.getVertices.map (fun v => (v.getX, v.getY)) =
      [(left r, top r), (right r, top r), (right r, bottom r), (left r, bottom r)] := by
  have hw := width_eq r
  have hh := height_eq r
  simp only [Rect.getX, Rect.getY, Rect.getWidth, Rect.getHeight, Rect.getArea, Rect.getTopLeft,
    Rect.getTopRight, Rect.getBottomRight, Rect.getBottomLeft, Rect.getCenter, Rect.getVertices,
    normalize_real, Point.init, hw, hh, RealScalar.add_eq, RealScalar.mul_eq, RealScalar.div_eq,
    RealScalar.f2_eq, Vec2.init, List.map, Vec2.getX, Vec2.getY, Simd4f.get, Simd4f.init]
  refine ⟨trivial, trivial, trivial, trivial, trivial, trivial, ?_, ?_, ?_, ?_, ?_⟩ <;>
    simp <;> constructor <;> ring

/-- C18: two rectangles that cover the same points are indistinguishable by the accessors. -/
theorem C18_same_area (r s : Rect ℝ) (h : area r = area s) :
    r.getX = s.getX ∧ r.getY = s.getY ∧ r.getWidth = s.getWidth ∧ r.getHeight = s.getHeight ∧
    r.getArea = s.getArea ∧ r.getTopLeft = s.getTopLeft ∧ r.getTopRight = s.getTopRight ∧
    r.getBottomLeft = s.getBottomLeft ∧ r.getBottomRight = s.getBottomRight ∧
    r.getCenter = s.getCenter ∧ r.getVertices = s.getVertices := by
  have e := (normalize_eq_iff r s).2 h
  simp only [Rect.getX, Rect.getY, Rect.getWidth, Rect.getHeight, Rect.getArea, Rect.getTopLeft,
    Rect.getTopRight, Rect.getBottomRight, Rect.getBottomLeft, Rect.getCenter, Rect.getVertices, e,
    and_self]

/-- non-vacuity: two representations of the same area -/
example : area ⟨⟨10, 10⟩, ⟨-4, 6⟩⟩ = area ⟨⟨6, 16⟩, ⟨4, -6⟩⟩ := by
  rw [area_eq_iff]; simp only [left, right, top, bottom]; norm_num

/-! ## C19 union -/

theorem union_edges (a b : Rect ℝ) :
    left (a.union b) = min (left a) (left b) ∧ right (a.union b) = max (right a) (right b) ∧
    top (a.union b) = min (top a) (top b) ∧ bottom (a.union b) = max (bottom a) (bottom b) := by
  have e : a.union b = ⟨⟨min (left a) (left b), min (top a) (top b)⟩,
      ⟨max (right a) (right b) - min (left a) (left b),
       max (bottom a) (bottom b) - min (top a) (top b)⟩⟩ := by
    simp only [Rect.union, normalize_real, cMin_real, cMax_real, RealScalar.add_eq,
      RealScalar.sub_eq, left_add_width, top_add_height]
  have hw : 0 ≤ max (right a) (right b) - min (left a) (left b) := by
    have := left_le_right a
    have := min_le_left (left a) (left b)
    have := le_max_left (right a) (right b)
    linarith
  have hh : 0 ≤ max (bottom a) (bottom b) - min (top a) (top b) := by
    have := top_le_bottom a
    have := min_le_left (top a) (top b)
    have := le_max_left (bottom a) (bottom b)
    linarith
  rw [e]
  have := edges_mk (min (left a) (left b)) (min (top a) (top b)) _ _ hw hh
  simpa using this

/-- C19: the union covers both operands and is covered by every rectangle that covers both. -/
theorem C19_union (a b : Rect ℝ) :
    area a ⊆ area (a.union b) ∧ area b ⊆ area (a.union b) ∧
    ∀ c : Rect ℝ, area a ⊆ area c → area b ⊆ area c → area (a.union b) ⊆ area c := by
  obtain ⟨h1, h2, h3, h4⟩ := union_edges a b
  simp only [area_subset_iff, h1, h2, h3, h4]
  refine ⟨by simp, by simp, ?_⟩
  rintro c ⟨a1, a2, a3, a4⟩ ⟨b1, b2, b3, b4⟩
  exact ⟨le_min a1 b1, max_le a2 b2, le_min a3 b3, max_le a4 b4⟩

/-! ## C20 intersection -/

/-- C20: true exactly when the interiors overlap, and then the result covers exactly the
common points; otherwise the result is the zero rectangle. -/
theorem C20_intersection (a b : Rect ℝ) :
    ((a.intersection b).1 = true ↔ (interior a ∩ interior b).Nonempty) ∧
    ((a.intersection b).1 = true → area (a.intersection b).2 = area a ∩ area b) ∧
    ((a.intersection b).1 = false → (a.intersection b).2 = ⟨⟨0, 0⟩, ⟨0, 0⟩⟩) := by
  have e : a.intersection b =
      if max (left a) (left b) ≥ min (right a) (right b) ∨
        max (top a) (top b) ≥ min (bottom a) (bottom b) then (false, Rect.init 0 0 0 0)
      else (true, Rect.init (max (left a) (left b)) (max (top a) (top b))
        (min (right a) (right b) - max (left a) (left b))
        (min (bottom a) (bottom b) - max (top a) (top b))) := by
    simp only [Rect.intersection, normalize_real, cMin_real, cMax_real, RealScalar.add_eq,
      RealScalar.sub_eq, left_add_width, top_add_height, RealScalar.f0_eq, Bool.or_eq_true,
      RealScalar.le_eq, ge_iff_le]
  have hne : (interior a ∩ interior b).Nonempty ↔
      max (left a) (left b) < min (right a) (right b) ∧ max (top a) (top b) < min (bottom a) (bottom b) := by
    constructor
    · rintro ⟨p, ⟨a1, a2, a3, a4⟩, ⟨b1, b2, b3, b4⟩⟩
      exact ⟨(max_lt a1 b1).trans (lt_min a2 b2), (max_lt a3 b3).trans (lt_min a4 b4)⟩
    · rintro ⟨h1, h2⟩
      obtain ⟨x, hx1, hx2⟩ := exists_between h1
      obtain ⟨y, hy1, hy2⟩ := exists_between h2
      refine ⟨⟨x, y⟩, ⟨?_, ?_, ?_, ?_⟩, ?_, ?_, ?_, ?_⟩ <;>
        simp only [max_lt_iff, lt_min_iff] at hx1 hx2 hy1 hy2 <;> tauto
  rw [e, hne]
  split
  · rename_i h
    refine ⟨?_, by simp, ?_⟩
    · simp only [Bool.false_eq_true, false_iff, not_and_or, not_lt]; exact h
    · intro _; simp [Rect.init, Rect.normalize, Rect.normAxis, Point.init, Size.init]
  · rename_i h
    rw [not_or, ge_iff_le, ge_iff_le, not_le, not_le] at h
    refine ⟨by simpa using h, ?_, by simp⟩
    intro _
    simp only [Rect.init, area_normalize, Point.init, Size.init]
    have ed := edges_mk (max (left a) (left b)) (max (top a) (top b))
      (min (right a) (right b) - max (left a) (left b))
      (min (bottom a) (bottom b) - max (top a) (top b)) (by linarith [h.1]) (by linarith [h.2])
    ext p
    simp only [area, Set.mem_setOf_eq, ed.1, ed.2.1, ed.2.2.1, ed.2.2.2, Set.mem_inter_iff,
      add_sub_cancel, max_le_iff, le_min_iff]
    tauto

/-- non-vacuity: overlapping and disjoint pairs -/
example : (Spec.interior ⟨⟨0, 0⟩, ⟨4, 4⟩⟩ ∩ Spec.interior ⟨⟨5, 5⟩, ⟨-2, -2⟩⟩).Nonempty ∧
    ¬ (Spec.interior ⟨⟨0, 0⟩, ⟨4, 4⟩⟩ ∩ Spec.interior ⟨⟨4, 0⟩, ⟨2, 2⟩⟩).Nonempty := by
  constructor
  · refine ⟨⟨7 / 2, 7 / 2⟩, ?_, ?_⟩ <;> simp [Spec.interior, left, right, top, bottom] <;> norm_num
  · rintro ⟨p, hp, hq⟩
    simp [Spec.interior, left, right, top, bottom] at hp hq
    linarith

/-! ## C21 containment -/

/-- C21: `contains_point` is membership in the closed rectangle. -/
theorem C21_contains_point (r : Rect ℝ) (p : Point ℝ) :
    r.containsPoint p = true ↔ p ∈ area r := by
  simp only [Rect.containsPoint, normalize_real, Bool.and_eq_true, RealScalar.le_eq,
    RealScalar.add_eq, left_add_width, top_add_height, area, Set.mem_setOf_eq]
  tauto

/-- C21: `contains_rect` is implied by inclusion, and implies that no side sticks out by
`FLT_EPSILON` or more. -/
theorem C21_contains_rect (a b : Rect ℝ) :
    (area b ⊆ area a → a.containsRect b = true) ∧
    (a.containsRect b = true → left a - left b < eps ∧ right b - right a < eps ∧
      top a - top b < eps ∧ bottom b - bottom a < eps) := by
  obtain ⟨u1, u2, u3, u4⟩ := union_edges a b
  have key : a.containsRect b = true ↔
      (|left a - min (left a) (left b)| < eps ∧ |top a - min (top a) (top b)| < eps) ∧
      (|(right a - left a) - (max (right a) (right b) - min (left a) (left b))| < eps ∧
       |(bottom a - top a) - (max (bottom a) (bottom b) - min (top a) (top b))| < eps) := by
    simp only [Rect.containsRect, Rect.equalV, normalize_real, width_eq, height_eq, u1, u2, u3, u4,
      Bool.and_eq_true, Point.equalV, Point.near, Point.diff, Size.equalV, approxVal_real]
    simp [greal]
  rw [key, area_subset_iff]
  constructor
  · rintro ⟨h1, h2, h3, h4⟩
    rw [min_eq_left h1, min_eq_left h3, max_eq_left h2, max_eq_left h4]
    simp [eps_pos]
  · rintro ⟨⟨h1, h2⟩, h3, h4⟩
    rw [abs_lt] at h1 h2 h3 h4
    have := min_le_right (left a) (left b)
    have := min_le_left (left a) (left b)
    have := min_le_right (top a) (top b)
    have := min_le_left (top a) (top b)
    have := le_max_right (right a) (right b)
    have := le_max_right (bottom a) (bottom b)
    refine ⟨?_, ?_, ?_, ?_⟩ <;> linarith

/-! ## C22 equality -/

/-- C22: `rect_equal` of two objects is decided by the normalised coordinates: equal exactly
when origin and sizes are within `FLT_EPSILON`. -/
theorem C22_equal (m : Mem (Rect ℝ)) (p q : Nat) :
    (Rect.equal m (some p) (some q) = true ↔
      |(m p).getX - (m q).getX| < eps ∧ |(m p).getY - (m q).getY| < eps ∧
      |(m p).getWidth - (m q).getWidth| < eps ∧ |(m p).getHeight - (m q).getHeight| < eps) ∧
    (area (m p) = area (m q) → Rect.equal m (some p) (some q) = true) := by
  have key : Rect.equal m (some p) (some q) = true ↔
      |(m p).getX - (m q).getX| < eps ∧ |(m p).getY - (m q).getY| < eps ∧
      |(m p).getWidth - (m q).getWidth| < eps ∧ |(m p).getHeight - (m q).getHeight| < eps := by
    by_cases h : p = q
    · subst h; simp [Rect.equal, pointerEqual, eps_pos]
    · simp only [Rect.equal, pointerEqual, Option.some.injEq, h, if_false, Rect.equalV, Rect.getX,
        Rect.getY, Rect.getWidth, Rect.getHeight, Bool.and_eq_true, Point.equalV, Point.near,
        Point.diff, Size.equalV, approxVal_real]
      simp [greal, and_assoc]
  refine ⟨key, fun h => key.2 ?_⟩
  have hs := C18_same_area _ _ h
  rw [hs.1, hs.2.1, hs.2.2.1, hs.2.2.2.1]
  simp [eps_pos]

end Graphene

/-
  C23 – C26: rectangle offset/inset/expand/scale, rounding, aliasing.
-/
import Verif.Proofs.RectLemmas
import Verif.Model.GMatrix
import Mathlib.Algebra.Order.Floor.Ring

namespace Graphene
open Spec

/-! ## C23 offset, inset, expand, scale -/

/-- C23: `offset` translates the covered area. -/
theorem C23_offset (r : Rect ℝ) (dx dy : ℝ) :
    area (r.offset dx dy) = (fun p : Point ℝ => ⟨p.x + dx, p.y + dy⟩) '' area r := by
  have e := edges_mk (left r + dx) (top r + dy) |r.size.width| |r.size.height| (abs_nonneg _)
    (abs_nonneg _)
  have hw := left_add_width r
  have hh := top_add_height r
  ext ⟨x, y⟩
  simp only [Rect.offset, normalize_real, RealScalar.add_eq, area, Set.mem_setOf_eq, e.1, e.2.1,
    e.2.2.1, e.2.2.2, Set.mem_image, Point.mk.injEq]
  constructor
  · rintro ⟨h1, h2, h3, h4⟩
    exact ⟨⟨x - dx, y - dy⟩, ⟨by simp; linarith, by simp; linarith, by simp; linarith,
      by simp; linarith⟩, by simp, by simp⟩
  · rintro ⟨p, ⟨h1, h2, h3, h4⟩, h5, h6⟩
    subst h5; subst h6
    exact ⟨by linarith, by linarith, by linarith, by linarith⟩

theorem insetSize_real (s d : ℝ) : Rect.insetSize s d = max 0 (s - 2 * d) := by
  have h1 : (if (f0 : ℝ) <=. d then s -. (d *. f2) else s +. (d *. Scalar.lit (-2) 1))
      = s - 2 * d := by
    by_cases h : 0 ≤ d <;> simp [h] <;> ring
  unfold Rect.insetSize
  simp only [h1]
  by_cases h : s - 2 * d < 0
  · simp only [RealScalar.lt_eq, RealScalar.f0_eq, h, if_true]; rw [max_eq_left h.le]
  · simp only [RealScalar.lt_eq, RealScalar.f0_eq, h, if_false]; rw [max_eq_right (not_lt.1 h)]

/-- C23: `inset` moves the left and top edges by the inset and the right and bottom edges by
its opposite, on each axis; an edge that would cross its opposite stops there (the size is
clamped to zero). -/
theorem C23_inset (r : Rect ℝ) (dx dy : ℝ) :
    left (r.inset dx dy) = left r + dx ∧
    right (r.inset dx dy) = max (left r + dx) (right r - dx) ∧
    top (r.inset dx dy) = top r + dy ∧
    bottom (r.inset dx dy) = max (top r + dy) (bottom r - dy) ∧
    0 ≤ (r.inset dx dy).size.width ∧ 0 ≤ (r.inset dx dy).size.height := by
  have e := edges_mk (left r + dx) (top r + dy) (max 0 (|r.size.width| - 2 * dx))
    (max 0 (|r.size.height| - 2 * dy)) (le_max_left _ _) (le_max_left _ _)
  simp only [Rect.inset, normalize_real, RealScalar.add_eq, insetSize_real, e.1, e.2.1, e.2.2.1,
    e.2.2.2, le_max_left, and_true, true_and]
  rw [width_eq, height_eq]
  constructor
  · rw [← max_add_add_left]; congr 1 <;> ring
  · rw [← max_add_add_left]; congr 1 <;> ring

/-- C23: an inset of at most half the size (in particular every negative one) covers exactly
the points at least that far inside (outside) the edges. -/
theorem C23_inset_area (r : Rect ℝ) (dx dy : ℝ) (hx : 2 * dx ≤ right r - left r)
    (hy : 2 * dy ≤ bottom r - top r) :
    area (r.inset dx dy) =
      {p | left r + dx ≤ p.x ∧ p.x ≤ right r - dx ∧ top r + dy ≤ p.y ∧ p.y ≤ bottom r - dy} := by
  obtain ⟨h1, h2, h3, h4, -, -⟩ := C23_inset r dx dy
  rw [max_eq_right (by linarith)] at h2 h4
  simp [area, h1, h2, h3, h4]

/-- C23: `expand` gives the smallest rectangle covering the old one and the point. -/
theorem C23_expand (r : Rect ℝ) (p : Point ℝ) :
    area r ⊆ area (r.expand p) ∧ p ∈ area (r.expand p) ∧
    (∀ s : Rect ℝ, area r ⊆ area s → p ∈ area s → area (r.expand p) ⊆ area s) ∧
    0 ≤ (r.expand p).size.width ∧ 0 ≤ (r.expand p).size.height := by
  have hi : Rect.init p.x p.y (f0 : ℝ) f0 = ⟨⟨p.x, p.y⟩, ⟨0, 0⟩⟩ := by
    simp [Rect.init, Rect.normalize, Rect.normAxis, Point.init, Size.init]
  have hu : Rect.union r (Rect.init p.x p.y (f0 : ℝ) f0) =
      ⟨⟨min (left r) p.x, min (top r) p.y⟩,
       ⟨max (right r) p.x - min (left r) p.x, max (bottom r) p.y - min (top r) p.y⟩⟩ := by
    rw [hi]
    simp only [Rect.union, normalize_real, cMin_real, cMax_real, RealScalar.add_eq,
      RealScalar.sub_eq, left_add_width, top_add_height]
    simp [left, right, top, bottom]
  have e := edges_mk (min (left r) p.x) (min (top r) p.y)
    (max (right r) p.x - min (left r) p.x) (max (bottom r) p.y - min (top r) p.y)
    (sub_nonneg.2 ((min_le_right _ _).trans (le_max_right _ _)))
    (sub_nonneg.2 ((min_le_right _ _).trans (le_max_right _ _)))
  rw [add_sub_cancel, add_sub_cancel] at e
  have ha : ∀ q, q ∈ area (r.expand p) ↔ min (left r) p.x ≤ q.x ∧ q.x ≤ max (right r) p.x ∧
      min (top r) p.y ≤ q.y ∧ q.y ≤ max (bottom r) p.y := by
    intro q
    rw [Rect.expand, area_normalize, hu, area, Set.mem_setOf_eq, e.1, e.2.1, e.2.2.1, e.2.2.2]
  have hsub : ∀ s : Rect ℝ, area r ⊆ area s → p ∈ area s → area (r.expand p) ⊆ area s := by
    intro s h1 ⟨p1, p2, p3, p4⟩ q hq
    rw [ha] at hq
    rw [area_subset_iff] at h1
    exact ⟨(le_min h1.1 p1).trans hq.1, hq.2.1.trans (max_le h1.2.1 p2),
      (le_min h1.2.2.1 p3).trans hq.2.2.1, hq.2.2.2.trans (max_le h1.2.2.2 p4)⟩
  refine ⟨?_, ?_, hsub, ?_, ?_⟩
  · intro q hq
    rw [ha]
    exact ⟨(min_le_left _ _).trans hq.1, hq.2.1.trans (le_max_left _ _),
      (min_le_left _ _).trans hq.2.2.1, hq.2.2.2.trans (le_max_left _ _)⟩
  · rw [ha]
    exact ⟨min_le_right _ _, le_max_right _ _, min_le_right _ _, le_max_right _ _⟩
  · rw [Rect.expand, normalize_real]; exact abs_nonneg _
  · rw [Rect.expand, normalize_real]; exact abs_nonneg _

theorem scale_axis (l w s x : ℝ) (hw : 0 ≤ w) :
    (min (l * s) (l * s + w * s) ≤ x ∧ x ≤ max (l * s) (l * s + w * s)) ↔
      ∃ t, l ≤ t ∧ t ≤ l + w ∧ t * s = x := by
  rcases lt_trichotomy s 0 with h | h | h
  · have : w * s ≤ 0 := mul_nonpos_of_nonneg_of_nonpos hw h.le
    rw [min_eq_right (by linarith), max_eq_left (by linarith)]
    constructor
    · rintro ⟨h1, h2⟩
      refine ⟨x / s, ?_, ?_, div_mul_cancel₀ _ h.ne⟩
      · rwa [le_div_iff_of_neg h]
      · rw [div_le_iff_of_neg h]; linarith
    · rintro ⟨t, h1, h2, rfl⟩
      constructor <;> nlinarith
  · subst h
    simp only [mul_zero, add_zero, min_self, max_self]
    constructor
    · rintro ⟨h1, h2⟩; exact ⟨l, le_refl _, by linarith, le_antisymm h1 h2⟩
    · rintro ⟨t, _, _, h⟩; rw [← h]; exact ⟨le_refl _, le_refl _⟩
  · have : 0 ≤ w * s := mul_nonneg hw h.le
    rw [min_eq_left (by linarith), max_eq_right (by linarith)]
    constructor
    · rintro ⟨h1, h2⟩
      refine ⟨x / s, ?_, ?_, div_mul_cancel₀ _ h.ne'⟩
      · rwa [le_div_iff₀ h]
      · rw [div_le_iff₀ h]; linarith
    · rintro ⟨t, h1, h2, rfl⟩
      constructor <;> nlinarith

/-- C23: `scale` multiplies the coordinates of every covered point, for factors of any sign;
the result is normalised. -/
theorem C23_scale (r : Rect ℝ) (sh sv : ℝ) :
    area (r.scale sh sv) = (fun p : Point ℝ => ⟨p.x * sh, p.y * sv⟩) '' area r ∧
    0 ≤ (r.scale sh sv).size.width ∧ 0 ≤ (r.scale sh sv).size.height := by
  refine ⟨?_, ?_, ?_⟩
  · rw [Rect.scale, area_normalize]
    ext ⟨x, y⟩
    have hx := scale_axis (left r) |r.size.width| sh x (abs_nonneg _)
    have hy := scale_axis (top r) |r.size.height| sv y (abs_nonneg _)
    rw [left_add_width] at hx
    rw [top_add_height] at hy
    simp only [normalize_real, RealScalar.mul_eq, area, Set.mem_setOf_eq]
    have h0 : ∀ w h : ℝ, left ⟨⟨left r * sh, top r * sv⟩, ⟨w, h⟩⟩ = min (left r * sh) (left r * sh + w) ∧
      right ⟨⟨left r * sh, top r * sv⟩, ⟨w, h⟩⟩ = max (left r * sh) (left r * sh + w) ∧
      top ⟨⟨left r * sh, top r * sv⟩, ⟨w, h⟩⟩ = min (top r * sv) (top r * sv + h) ∧
      bottom ⟨⟨left r * sh, top r * sv⟩, ⟨w, h⟩⟩ = max (top r * sv) (top r * sv + h) :=
      fun w h => ⟨rfl, rfl, rfl, rfl⟩
    rw [(h0 _ _).1, (h0 _ _).2.1, (h0 _ _).2.2.1, (h0 _ _).2.2.2, ← and_assoc, hx, hy]
    simp only [Set.mem_image, Set.mem_setOf_eq, Point.mk.injEq]
    constructor
    · rintro ⟨⟨t, h1, h2, h3⟩, u, h4, h5, h6⟩
      exact ⟨⟨t, u⟩, ⟨h1, h2, h4, h5⟩, h3, h6⟩
    · rintro ⟨p, ⟨h1, h2, h4, h5⟩, h3, h6⟩
      exact ⟨⟨p.x, h1, h2, h3⟩, p.y, h4, h5, h6⟩
  · rw [Rect.scale, normalize_real]; exact abs_nonneg _
  · rw [Rect.scale, normalize_real]; exact abs_nonneg _

/-- non-vacuity: a rectangle of negative width, an inset of half the width, a mirrored scale -/
example : (2 : ℝ) * 2 ≤ right ⟨⟨5, 0⟩, ⟨-4, 6⟩⟩ - left ⟨⟨5, 0⟩, ⟨-4, 6⟩⟩ ∧
    (⟨-3, 2⟩ : Point ℝ) ∈ area (Rect.scale ⟨⟨5, 0⟩, ⟨-4, 6⟩⟩ (-1) 2) := by
  constructor
  · simp [left, right]; norm_num
  · rw [(C23_scale _ _ _).1]
    refine ⟨⟨3, 1⟩, ?_, by norm_num⟩
    simp [area, left, right, top, bottom]; norm_num

/-! ## C24 round_extents -/

/-- all four edges of the rectangle are integers -/
def Spec.IntegerEdges (r : Rect ℝ) : Prop :=
  (∃ n : ℤ, left r = n) ∧ (∃ n : ℤ, right r = n) ∧ (∃ n : ℤ, top r = n) ∧ (∃ n : ℤ, bottom r = n)

/-- C24: `round_extents` gives the smallest integer-edged rectangle containing the original,
and the result is normalised. -/
theorem C24_round_extents (r : Rect ℝ) :
    IntegerEdges r.roundExtents ∧ area r ⊆ area r.roundExtents ∧
    (∀ s : Rect ℝ, IntegerEdges s → area r ⊆ area s → area r.roundExtents ⊆ area s) ∧
    0 ≤ r.roundExtents.size.width ∧ 0 ≤ r.roundExtents.size.height := by
  have e0 : r.roundExtents = ⟨⟨(⌊left r⌋ : ℝ), (⌊top r⌋ : ℝ)⟩,
      ⟨(⌈right r⌉ : ℝ) - (⌊left r⌋ : ℝ), (⌈bottom r⌉ : ℝ) - (⌊top r⌋ : ℝ)⟩⟩ := by
    simp only [Rect.roundExtents, normalize_real, RealScalar.add_eq, RealScalar.sub_eq,
      RealScalar.floor_eq, RealScalar.ceil_eq, left_add_width, top_add_height]
  have hw : (⌊left r⌋ : ℝ) ≤ (⌈right r⌉ : ℝ) :=
    (Int.floor_le _).trans ((left_le_right r).trans (Int.le_ceil _))
  have hh : (⌊top r⌋ : ℝ) ≤ (⌈bottom r⌉ : ℝ) :=
    (Int.floor_le _).trans ((top_le_bottom r).trans (Int.le_ceil _))
  have e := edges_mk (⌊left r⌋ : ℝ) (⌊top r⌋ : ℝ) _ _ (sub_nonneg.2 hw) (sub_nonneg.2 hh)
  rw [← e0, add_sub_cancel, add_sub_cancel] at e
  obtain ⟨h1, h2, h3, h4⟩ := e
  refine ⟨⟨⟨_, h1⟩, ⟨_, h2⟩, ⟨_, h3⟩, ⟨_, h4⟩⟩, ?_, ?_, ?_, ?_⟩
  · rw [area_subset_iff, h1, h2, h3, h4]
    exact ⟨Int.floor_le _, Int.le_ceil _, Int.floor_le _, Int.le_ceil _⟩
  · rintro s ⟨⟨a, ha⟩, ⟨b, hb⟩, ⟨c, hc⟩, ⟨d, hd⟩⟩ h
    rw [area_subset_iff, ha, hb, hc, hd] at h
    rw [area_subset_iff, h1, h2, h3, h4, ha, hb, hc, hd]
    exact ⟨by exact_mod_cast Int.le_floor.2 h.1, by exact_mod_cast Int.ceil_le.2 h.2.1,
      by exact_mod_cast Int.le_floor.2 h.2.2.1, by exact_mod_cast Int.ceil_le.2 h.2.2.2⟩
  · rw [e0]; exact sub_nonneg.2 hw
  · rw [e0]; exact sub_nonneg.2 hh

/-- non-vacuity: integer-edged rectangles containing a given one exist -/
example : IntegerEdges ⟨⟨0, 0⟩, ⟨2, 3⟩⟩ ∧
    area ⟨⟨1 / 2, 1 / 2⟩, ⟨1, 2⟩⟩ ⊆ area ⟨⟨0, 0⟩, ⟨2, 3⟩⟩ := by
  constructor
  · refine ⟨⟨0, ?_⟩, ⟨2, ?_⟩, ⟨0, ?_⟩, ⟨3, ?_⟩⟩ <;> simp [left, right, top, bottom]
  · rw [area_subset_iff]; simp [left, right, top, bottom]; norm_num

/-! ## C25 rect_round -/

/-- C25 is false: the rounded rectangle need not contain the original (here origin ½, width 1:
the result is [0,1] while the original reaches 1½). -/
theorem C25_round_false : ¬ ∀ r : Rect ℝ, area r ⊆ area r.round := by
  intro h
  have := h ⟨⟨1 / 2, 0⟩, ⟨1, 1⟩⟩
  have hr : (Rect.round (⟨⟨1 / 2, 0⟩, ⟨1, 1⟩⟩ : Rect ℝ)) = ⟨⟨0, 0⟩, ⟨1, 1⟩⟩ := by
    simp only [Rect.round, normalize_real, RealScalar.floor_eq, RealScalar.ceil_eq]
    have : ⌊(2⁻¹ : ℝ)⌋ = 0 := by rw [Int.floor_eq_iff]; norm_num
    simp [left, top, this]
  rw [hr, area_subset_iff] at this
  simp [left, right, top, bottom] at this
  norm_num at this

/-- C25, what holds: the origin is rounded down and the size up, to integers by less than one
unit; the result contains the original when the top-left corner is integral, and always contains the
original moved so that its corner is the rounded one. -/
theorem C25_round_partial (r : Rect ℝ) :
    IntegerEdges r.round ∧
    (left r - 1 < left r.round ∧ left r.round ≤ left r) ∧
    (top r - 1 < top r.round ∧ top r.round ≤ top r) ∧
    (right r - left r ≤ r.round.size.width ∧ r.round.size.width < right r - left r + 1) ∧
    (bottom r - top r ≤ r.round.size.height ∧ r.round.size.height < bottom r - top r + 1) ∧
    ((∃ n : ℤ, left r = n) → (∃ n : ℤ, top r = n) → area r ⊆ area r.round) ∧
    area (r.offset (left r.round - left r) (top r.round - top r)) ⊆ area r.round := by
  have e0 : r.round = ⟨⟨(⌊left r⌋ : ℝ), (⌊top r⌋ : ℝ)⟩,
      ⟨(⌈right r - left r⌉ : ℝ), (⌈bottom r - top r⌉ : ℝ)⟩⟩ := by
    simp only [Rect.round, normalize_real, RealScalar.floor_eq, RealScalar.ceil_eq, width_eq,
      height_eq]
  have hw : (0 : ℝ) ≤ (⌈right r - left r⌉ : ℝ) :=
    (sub_nonneg.2 (left_le_right r)).trans (Int.le_ceil _)
  have hh : (0 : ℝ) ≤ (⌈bottom r - top r⌉ : ℝ) :=
    (sub_nonneg.2 (top_le_bottom r)).trans (Int.le_ceil _)
  have e := edges_mk (⌊left r⌋ : ℝ) (⌊top r⌋ : ℝ) _ _ hw hh
  rw [← e0] at e
  obtain ⟨h1, h2, h3, h4⟩ := e
  refine ⟨⟨⟨_, h1⟩, ⟨⌊left r⌋ + ⌈right r - left r⌉, by rw [h2]; push_cast; rfl⟩, ⟨_, h3⟩,
    ⟨⌊top r⌋ + ⌈bottom r - top r⌉, by rw [h4]; push_cast; rfl⟩⟩,
    ⟨?_, ?_⟩, ⟨?_, ?_⟩, ⟨?_, ?_⟩, ⟨?_, ?_⟩, ?_, ?_⟩
  · rw [h1]; exact Int.sub_one_lt_floor _
  · rw [h1]; exact Int.floor_le _
  · rw [h3]; exact Int.sub_one_lt_floor _
  · rw [h3]; exact Int.floor_le _
  · rw [e0]; exact Int.le_ceil _
  · rw [e0]; exact Int.ceil_lt_add_one _
  · rw [e0]; exact Int.le_ceil _
  · rw [e0]; exact Int.ceil_lt_add_one _
  · rintro ⟨n, hn⟩ ⟨k, hk⟩
    have f1 : (⌊left r⌋ : ℝ) = left r := by rw [hn]; simp
    have f2 : (⌊top r⌋ : ℝ) = top r := by rw [hk]; simp
    rw [area_subset_iff, h1, h2, h3, h4, f1, f2]
    have := Int.le_ceil (right r - left r)
    have := Int.le_ceil (bottom r - top r)
    exact ⟨le_refl _, by linarith, le_refl _, by linarith⟩
  · rw [C23_offset]
    rintro _ ⟨p, ⟨p1, p2, p3, p4⟩, rfl⟩
    have := Int.le_ceil (right r - left r)
    have := Int.le_ceil (bottom r - top r)
    refine ⟨?_, ?_, ?_, ?_⟩ <;> simp only [h1, h2, h3, h4] <;> linarith

/-- non-vacuity: an integral corner with fractional size -/
example : ∃ n : ℤ, left ⟨⟨3, 0⟩, ⟨5 / 2, 1⟩⟩ = n := ⟨3, by simp [left]; norm_num⟩

/-! ## C26 aliasing -/

/-- the memory after storing `v` at `res`: `res` holds `v`, everything else is unchanged -/
def Spec.StoresOnly {T : Type} (before : Mem T) (res : Nat) (v : T) (after : Mem T) : Prop :=
  after res = v ∧ ∀ a, a ≠ res → after a = before a

section
variable {α : Type} [Scalar α]

theorem upd_same {T : Type} (m : Mem T) (a : Nat) (v : T) : m.upd a v a = v := by simp [Mem.upd]
theorem upd_ne {T : Type} (m : Mem T) (a b : Nat) (v : T) (h : b ≠ a) : m.upd a v b = m b := by
  simp [Mem.upd, h]
theorem upd_upd {T : Type} (m : Mem T) (a : Nat) (v w : T) : (m.upd a v).upd a w = m.upd a w := by
  funext i; by_cases h : i = a <;> simp [Mem.upd, h]
theorem storesOnly_upd {T : Type} (m : Mem T) (a : Nat) (v : T) : Spec.StoresOnly m a v (m.upd a v) :=
  ⟨upd_same m a v, fun b h => upd_ne m a b v h⟩

theorem normalizeRP_eq (m : Mem (Rect α)) (r res : Nat) :
    Rect.normalizeRP m r res = m.upd res (m r).normalize := by
  unfold Rect.normalizeRP
  by_cases h : res = r
  · subst h; simp
  · simp only [ne_eq, h, not_false_eq_true, if_true, upd_same, upd_upd]

/-- C26: for every memory and every choice of addresses (aliased or not), each function
stores its value-level result in `*res` and changes nothing else. -/
theorem C26_rect (m : Mem (Rect α)) (r res : Nat) (dx dy : α) :
    StoresOnly m res (m r).normalize (Rect.normalizeRP m r res) ∧
    StoresOnly m res ((m r).offset dx dy) (Rect.offsetRP m r dx dy res) ∧
    StoresOnly m res ((m r).inset dx dy) (Rect.insetRP m r dx dy res) ∧
    StoresOnly m res (m r).round (Rect.roundP m r res) ∧
    StoresOnly m res (m r).roundExtents (Rect.roundExtentsP m r res) ∧
    StoresOnly m res ((m r).scale dx dy) (Rect.scaleP m r dx dy res) := by
  refine ⟨?_, ?_, ?_, ?_, ?_, ?_⟩
  · rw [normalizeRP_eq]; exact storesOnly_upd _ _ _
  · simp only [Rect.offsetRP, normalizeRP_eq, upd_same, upd_upd]; exact storesOnly_upd _ _ _
  · simp only [Rect.insetRP, normalizeRP_eq, upd_same, upd_upd]
    have : ∀ (m : Mem (Rect α)) (v : Rect α),
        StoresOnly m res
          (⟨v.origin, ⟨if v.size.width <. f0 then f0 else v.size.width,
            if v.size.height <. f0 then f0 else v.size.height⟩⟩)
          (let m' := if v.size.width <. f0 then
              (m.upd res v).upd res { v with size := { v.size with width := f0 } } else m.upd res v
           if (m' res).size.height <. f0 then
              m'.upd res { m' res with size := { (m' res).size with height := f0 } } else m') := by
      intro m v
      by_cases h1 : (v.size.width <. f0) = true <;> by_cases h2 : (v.size.height <. f0) = true <;>
        simp [h1, h2, upd_same, upd_upd, storesOnly_upd]
    simpa only [upd_upd, Rect.inset, Rect.insetSize] using this m ⟨⟨_, _⟩, ⟨_, _⟩⟩
  · simp only [Rect.roundP, normalizeRP_eq, upd_same, upd_upd]; exact storesOnly_upd _ _ _
  · simp only [Rect.roundExtentsP, normalizeRP_eq, upd_same, upd_upd]; exact storesOnly_upd _ _ _
  · simp only [Rect.scaleP, normalizeRP_eq, upd_same, upd_upd]; exact storesOnly_upd _ _ _

/-- C26 for the two-argument `union`. -/
theorem C26_union (m : Mem (Rect α)) (a b res : Nat) :
    StoresOnly m res ((m a).union (m b)) (Rect.unionP m a b res) := by
  simp only [Rect.unionP, upd_same, upd_upd]; exact storesOnly_upd _ _ _

/-- C26 for the matrix product. -/
theorem C26_multiply (m : Mem (M4 α)) (a b res : Nat) :
    StoresOnly m res (GMatrix.multiply (m a) (m b)) (GMatrix.multiplyP m a b res) :=
  storesOnly_upd _ _ _

/-- non-vacuity: with the result aliased to the argument, the store really changes the memory
(offset by (1,2) of the rectangle at address 7). -/
example : (Rect.offsetRP (fun _ => ⟨⟨0, 0⟩, ⟨-3, 4⟩⟩ : Mem (Rect ℝ)) 7 1 2 7) 7 = ⟨⟨-2, 2⟩, ⟨3, 4⟩⟩ := by
  rw [(C26_rect _ 7 7 1 2).2.1.1]
  simp [Rect.offset, Rect.normalize, Rect.normAxis]; norm_num

end
end Graphene

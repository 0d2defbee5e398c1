/- Helper lemmas about rectangles over ℝ. -/
import Verif.Spec.Rect
import Verif.Proofs.RealLemmas

namespace Graphene
open Spec

theorem normAxis_real (o s : ℝ) : Rect.normAxis o s = (min o (o + s), |s|) := by
  unfold Rect.normAxis
  by_cases h : s < 0
  · simp [h, abs_of_neg h, min_eq_right (show o + s ≤ o by linarith)]
  · have h' := not_lt.1 h
    simp [h, abs_of_nonneg h', min_eq_left (show o ≤ o + s by linarith)]

theorem normalize_real (r : Rect ℝ) :
    r.normalize = ⟨⟨left r, top r⟩, ⟨|r.size.width|, |r.size.height|⟩⟩ := by
  simp [Rect.normalize, normAxis_real, left, top]

theorem left_add_width (r : Rect ℝ) : left r + |r.size.width| = right r := by
  unfold left right
  rcases le_total 0 r.size.width with h | h
  · rw [abs_of_nonneg h, min_eq_left (by linarith), max_eq_right (by linarith)]
  · rw [abs_of_nonpos h, min_eq_right (by linarith), max_eq_left (by linarith)]; ring
theorem top_add_height (r : Rect ℝ) : top r + |r.size.height| = bottom r := by
  unfold top bottom
  rcases le_total 0 r.size.height with h | h
  · rw [abs_of_nonneg h, min_eq_left (by linarith), max_eq_right (by linarith)]
  · rw [abs_of_nonpos h, min_eq_right (by linarith), max_eq_left (by linarith)]; ring
theorem left_le_right (r : Rect ℝ) : left r ≤ right r :=
  (min_le_left _ _).trans (le_max_left _ _)
theorem top_le_bottom (r : Rect ℝ) : top r ≤ bottom r :=
  (min_le_left _ _).trans (le_max_left _ _)

theorem width_eq (r : Rect ℝ) : |r.size.width| = right r - left r := by
  have := left_add_width r; linarith
theorem height_eq (r : Rect ℝ) : |r.size.height| = bottom r - top r := by
  have := top_add_height r; linarith

/-- a rectangle given by origin and non-negative sizes -/
theorem edges_mk (x y w h : ℝ) (hw : 0 ≤ w) (hh : 0 ≤ h) :
    left ⟨⟨x, y⟩, ⟨w, h⟩⟩ = x ∧ right ⟨⟨x, y⟩, ⟨w, h⟩⟩ = x + w ∧
    top ⟨⟨x, y⟩, ⟨w, h⟩⟩ = y ∧ bottom ⟨⟨x, y⟩, ⟨w, h⟩⟩ = y + h := by
  unfold left right top bottom
  exact ⟨min_eq_left (by simpa using hw), max_eq_right (by simpa using hw),
    min_eq_left (by simpa using hh), max_eq_right (by simpa using hh)⟩

theorem edges_normalize (r : Rect ℝ) :
    left r.normalize = left r ∧ right r.normalize = right r ∧
    top r.normalize = top r ∧ bottom r.normalize = bottom r := by
  rw [normalize_real]
  have h := edges_mk (left r) (top r) |r.size.width| |r.size.height| (abs_nonneg _) (abs_nonneg _)
  rw [left_add_width, top_add_height] at h
  exact h

theorem area_subset_iff (a b : Rect ℝ) :
    area a ⊆ area b ↔ left b ≤ left a ∧ right a ≤ right b ∧ top b ≤ top a ∧ bottom a ≤ bottom b := by
  constructor
  · intro h
    have h1 : (⟨left a, top a⟩ : Point ℝ) ∈ area a :=
      ⟨le_refl _, left_le_right a, le_refl _, top_le_bottom a⟩
    have h2 : (⟨right a, bottom a⟩ : Point ℝ) ∈ area a :=
      ⟨left_le_right a, le_refl _, top_le_bottom a, le_refl _⟩
    exact ⟨(h h1).1, (h h2).2.1, (h h1).2.2.1, (h h2).2.2.2⟩
  · rintro ⟨h1, h2, h3, h4⟩ p ⟨p1, p2, p3, p4⟩
    exact ⟨h1.trans p1, p2.trans h2, h3.trans p3, p4.trans h4⟩

theorem area_eq_iff (a b : Rect ℝ) :
    area a = area b ↔ left a = left b ∧ right a = right b ∧ top a = top b ∧ bottom a = bottom b := by
  constructor
  · intro h
    have h1 := (area_subset_iff a b).1 h.le
    have h2 := (area_subset_iff b a).1 h.ge
    exact ⟨le_antisymm h2.1 h1.1, le_antisymm h1.2.1 h2.2.1, le_antisymm h2.2.2.1 h1.2.2.1,
      le_antisymm h1.2.2.2 h2.2.2.2⟩
  · rintro ⟨h1, h2, h3, h4⟩
    apply Set.Subset.antisymm <;> rw [area_subset_iff] <;> simp [h1, h2, h3, h4]

theorem area_normalize (r : Rect ℝ) : area r.normalize = area r := by
  rw [area_eq_iff]; exact edges_normalize r

/-- the normal form is determined by the covered area -/
theorem normalize_eq_iff (a b : Rect ℝ) : a.normalize = b.normalize ↔ area a = area b := by
  constructor
  · intro h; rw [← area_normalize a, h, area_normalize]
  · intro h
    rw [area_eq_iff] at h
    obtain ⟨h1, h2, h3, h4⟩ := h
    rw [normalize_real, normalize_real, width_eq, width_eq, height_eq, height_eq, h1, h2, h3, h4]

end Graphene

/-
  C90: rectangles on a (sub)pixel grid are handled exactly in floating point (IEEE binary32).
-/
import Verif.Proofs.GridRect
import Verif.Props.Rect1
import Verif.Props.Rect2
import Verif.Proofs.KDecide

set_option exponentiation.threshold 3000

namespace Graphene
open Fp

/-- `x` is a finite float and a multiple of `2^-k` of magnitude at most `N · 2^-k` -/
def Spec.Grid (k N : Nat) (x : F32) : Prop :=
  x.isFin = true ∧ ∃ n : ℤ, n.natAbs ≤ N ∧ x.val = n / 2 ^ k
/-- all four numbers of the rectangle are on the grid -/
def Spec.GridRect (k N : Nat) (r : Rect F32) : Prop :=
  Grid k N r.origin.x ∧ Grid k N r.origin.y ∧ Grid k N r.size.width ∧ Grid k N r.size.height
/-- no number of the rectangle is an infinity or a NaN -/
def Spec.FiniteRect (r : Rect F32) : Prop :=
  r.origin.x.isFin = true ∧ r.origin.y.isFin = true ∧ r.size.width.isFin = true ∧ r.size.height.isFin = true
/-- the real rectangle that a rectangle of finite floats stands for -/
noncomputable def Spec.exact (r : Rect F32) : Rect ℝ :=
  ⟨⟨r.origin.x.val, r.origin.y.val⟩, ⟨r.size.width.val, r.size.height.val⟩⟩
/-- the real point that a point of finite floats stands for -/
noncomputable def Spec.exactPoint (p : Point F32) : Point ℝ := ⟨p.x.val, p.y.val⟩

open Spec

theorem Spec.Grid.on {k N : Nat} {x : F32} (h : Grid k N x) : OnGrid k N x x.val := ⟨⟨h.1, rfl⟩, h.2⟩
theorem Spec.GridRect.gr {k N : Nat} {r : Rect F32} (h : GridRect k N r) : GR k N N r (exact r) :=
  ⟨h.1.on, h.2.1.on, h.2.2.1.on, h.2.2.2.on⟩
theorem GR.fin {k B C : Nat} {r : Rect F32} {s : Rect ℝ} (h : GR k B C r s) : FiniteRect r :=
  ⟨h.x.is.fin, h.y.is.fin, h.w.is.fin, h.h.is.fin⟩
theorem GR.exact {k B C : Nat} {r : Rect F32} {s : Rect ℝ} (h : GR k B C r s) : exact r = s := by
  obtain ⟨⟨sx, sy⟩, ⟨sw, sh⟩⟩ := s
  simp only [Spec.exact, h.x.is.val, h.y.is.val, h.w.is.val, h.h.is.val]

variable [Libm binary32] {k : Nat} {r a b : Rect F32}

/-- C90: normalising keeps the covered area exactly. -/
theorem C90_normalize (hk : k ≤ 149) (h : GridRect k (2 ^ 20) r) :
    FiniteRect r.normalize ∧ area (exact r.normalize) = area (exact r) ∧
    0 ≤ (exact r.normalize).size.width ∧ 0 ≤ (exact r.normalize).size.height := by
  have g := h.gr.normalize hk (D := 2 ^ 21) (by decide) (by decide)
  have c := C17_normalize (exact r) 0 0 0 0
  rw [g.exact]
  exact ⟨g.fin, c.2.2.1, c.1, c.2.1⟩

/-- C90: the accessors report the exact edges, corners and centre. -/
theorem C90_accessors (hk : k ≤ 148) (h : GridRect k (2 ^ 20) r) :
    r.getX.val = left (exact r) ∧ r.getY.val = top (exact r) ∧
    r.getWidth.val = right (exact r) - left (exact r) ∧ r.getHeight.val = bottom (exact r) - top (exact r) ∧
    exactPoint r.getTopLeft = ⟨left (exact r), top (exact r)⟩ ∧
    exactPoint r.getTopRight = ⟨right (exact r), top (exact r)⟩ ∧
    exactPoint r.getBottomRight = ⟨right (exact r), bottom (exact r)⟩ ∧
    exactPoint r.getBottomLeft = ⟨left (exact r), bottom (exact r)⟩ ∧
    exactPoint r.getCenter =
      ⟨(left (exact r) + right (exact r)) / 2, (top (exact r) + bottom (exact r)) / 2⟩ ∧
    r.getVertices.map (fun v => (v.getX.val, v.getY.val)) =
      [(left (exact r), top (exact r)), (right (exact r), top (exact r)),
       (right (exact r), bottom (exact r)), (left (exact r), bottom (exact r))] := by
  have g := h.gr.normalize (by omega) (D := 2 ^ 21) (by decide) (by decide)
  have ax := (g.x.add (by omega) g.w (D := 2 ^ 22) (by decide) (by decide)).is.val
  have ay := (g.y.add (by omega) g.h (D := 2 ^ 22) (by decide) (by decide)).is.val
  obtain ⟨c1, c2⟩ := h.gr.center (by omega) (by decide)
  obtain ⟨e1, e2, e3, e4, -, -, -, -, -, e5, -⟩ := C18_accessors (exact r)
  have x := g.x.is.val
  have y := g.y.is.val
  have w := g.w.is.val
  have hh := g.h.is.val
  have n := normalize_real (exact r)
  rw [n] at x y w hh ax ay
  simp only [width_eq, height_eq] at w hh
  simp only [left_add_width, top_add_height] at ax ay
  refine ⟨x, y, w, hh, ?_, ?_, ?_, ?_, ?_, ?_⟩
  · simp only [exactPoint, Rect.getTopLeft, x, y]
  · simp only [exactPoint, Rect.getTopRight, Point.init, sc_add, y, ax]
  · simp only [exactPoint, Rect.getBottomRight, Point.init, sc_add, ax, ay]
  · simp only [exactPoint, Rect.getBottomLeft, Point.init, sc_add, x, ay]
  · simp only [exactPoint, c1.val, c2.val, e5]
  · simp [Rect.getVertices, Vec2.init, Vec2.getX, Vec2.getY, Simd4f.init, Simd4f.get, x, y, ax, ay]

/-- C90: the union is exactly the smallest rectangle covering both. -/
theorem C90_union (hk : k ≤ 149) (ha : GridRect k (2 ^ 20) a) (hb : GridRect k (2 ^ 20) b) :
    FiniteRect (a.union b) ∧ area (exact a) ⊆ area (exact (a.union b)) ∧
    area (exact b) ⊆ area (exact (a.union b)) ∧
    ∀ c : Rect ℝ, area (exact a) ⊆ area c → area (exact b) ⊆ area c → area (exact (a.union b)) ⊆ area c := by
  have g := ha.gr.union hk hb.gr (by decide)
  rw [g.exact]
  exact ⟨g.fin, C19_union _ _⟩

/-- C90: the intersection is reported exactly when the interiors overlap, and covers exactly the common
points. -/
theorem C90_intersection (hk : k ≤ 149) (ha : GridRect k (2 ^ 20) a) (hb : GridRect k (2 ^ 20) b) :
    FiniteRect (a.intersection b).2 ∧
    ((a.intersection b).1 = true ↔ (interior (exact a) ∩ interior (exact b)).Nonempty) ∧
    ((a.intersection b).1 = true → area (exact (a.intersection b).2) = area (exact a) ∩ area (exact b)) ∧
    ((a.intersection b).1 = false → exact (a.intersection b).2 = ⟨⟨0, 0⟩, ⟨0, 0⟩⟩) := by
  obtain ⟨e, g⟩ := ha.gr.intersection hk hb.gr (by decide)
  rw [g.exact, e]
  exact ⟨g.fin, C20_intersection _ _⟩

omit [Libm binary32] in
/-- the exact edges of a rectangle on the grid are on the grid -/
theorem edges_grid (hk : k ≤ 149) (h : GridRect k (2 ^ 20) r) :
    (∃ n : ℤ, left (exact r) = n / 2 ^ k) ∧ (∃ n : ℤ, right (exact r) = n / 2 ^ k) ∧
    (∃ n : ℤ, top (exact r) = n / 2 ^ k) ∧ (∃ n : ℤ, bottom (exact r) = n / 2 ^ k) := by
  obtain ⟨⟨-, x, -, hx⟩, ⟨-, y, -, hy⟩, ⟨-, w, -, hw⟩, ⟨-, z, -, hz⟩⟩ := h
  have e : ∀ a b : ℤ, (a : ℝ) / 2 ^ k + b / 2 ^ k = ((a + b : ℤ) : ℝ) / 2 ^ k := by
    intro a b; push_cast; ring
  have d : (0 : ℝ) ≤ 2 ^ k := by positivity
  simp only [left, right, top, bottom, exact, hx, hy, hw, hz, e]
  refine ⟨⟨min x (x + w), ?_⟩, ⟨max x (x + w), ?_⟩, ⟨min y (y + z), ?_⟩, ⟨max y (y + z), ?_⟩⟩
  · rw [Int.cast_min, min_div_div_right d]
  · rw [Int.cast_max, max_div_div_right d]
  · rw [Int.cast_min, min_div_div_right d]
  · rw [Int.cast_max, max_div_div_right d]

omit [Libm binary32] in
/-- grid numbers less than `FLT_EPSILON` apart are in order -/
theorem grid_le (hk : k ≤ 23) {v w : ℝ} (hv : ∃ n : ℤ, v = n / 2 ^ k) (hw : ∃ n : ℤ, w = n / 2 ^ k)
    (h : v - w < eps) : v ≤ w := by
  obtain ⟨n, rfl⟩ := hv
  obtain ⟨m, rfl⟩ := hw
  have d : (0 : ℝ) < 2 ^ k := by positivity
  have hp : (2 : ℝ) ^ k ≤ 2 ^ 23 := pow_le_pow_right₀ (by norm_num) hk
  have h2 : ((n - m : ℤ) : ℝ) < 1 := by
    rw [← sub_div, div_lt_iff₀ d] at h
    have : eps * 2 ^ k ≤ 1 := by
      have e : eps = 1 / 2 ^ 23 := by norm_num [eps]
      rw [e, div_mul_eq_mul_div, _root_.one_mul, div_le_one (by positivity)]; exact hp
    push_cast; linarith
  have h3 : n - m < 1 := by exact_mod_cast h2
  refine div_le_div_of_nonneg_right ?_ d.le
  exact_mod_cast (by omega : n ≤ m)

/-- C90: containment of points and of rectangles, and equality, are decided on the exact areas: the
comparison tolerance does not confuse different rectangles whose grid is no finer than `2^-23`. -/
theorem C90_contains (hk : k ≤ 149) (ha : GridRect k (2 ^ 20) a) (hb : GridRect k (2 ^ 20) b) (p : Point F32)
    (hp : p.x.isFin = true ∧ p.y.isFin = true) :
    (a.containsPoint p = true ↔ exactPoint p ∈ area (exact a)) ∧
    (area (exact b) ⊆ area (exact a) → a.containsRect b = true) ∧
    (k ≤ 23 → a.containsRect b = true → area (exact b) ⊆ area (exact a)) := by
  rw [ha.gr.containsPoint hk (q := exactPoint p) ⟨hp.1, rfl⟩ ⟨hp.2, rfl⟩ (by decide),
    ha.gr.containsRect hk hb.gr (by decide)]
  obtain ⟨c1, c2⟩ := C21_contains_rect (exact a) (exact b)
  refine ⟨C21_contains_point _ _, c1, fun hk2 h => ?_⟩
  obtain ⟨d1, d2, d3, d4⟩ := c2 h
  obtain ⟨a1, a2, a3, a4⟩ := edges_grid hk ha
  obtain ⟨b1, b2, b3, b4⟩ := edges_grid hk hb
  rw [area_subset_iff]
  exact ⟨grid_le hk2 a1 b1 d1, grid_le hk2 b2 a2 d2, grid_le hk2 a3 b3 d3, grid_le hk2 b4 a4 d4⟩

/-- C90: on a grid no finer than `2^-23`, `rect_equal` is equality of the covered areas. -/
theorem C90_equal (hk : k ≤ 23) (m : Mem (Rect F32)) (p q : Nat) (ha : GridRect k (2 ^ 20) (m p))
    (hb : GridRect k (2 ^ 20) (m q)) :
    Rect.equal m (some p) (some q) = true ↔ area (exact (m p)) = area (exact (m q)) := by
  by_cases e : p = q
  · subst e; simp [Rect.equal, pointerEqual]
  · have h1 : Rect.equal m (some p) (some q) = Rect.equal (fun i => exact (m i)) (some p) (some q) := by
      simp only [Rect.equal, pointerEqual, Option.some.injEq, e, if_false]
      exact ha.gr.equalV (by omega) hb.gr (by decide)
    obtain ⟨c1, c2⟩ := C22_equal (fun i => exact (m i)) p q
    rw [h1]
    refine ⟨fun h => ?_, c2⟩
    obtain ⟨d1, d2, d3, d4⟩ := c1.1 h
    obtain ⟨a1, a2, a3, a4⟩ := edges_grid (by omega) ha
    obtain ⟨b1, b2, b3, b4⟩ := edges_grid (by omega) hb
    obtain ⟨e1, e2, e3, e4, -⟩ := C18_accessors (exact (m p))
    obtain ⟨f1, f2, f3, f4, -⟩ := C18_accessors (exact (m q))
    rw [e1, f1] at d1
    rw [e2, f2] at d2
    rw [e3, f3] at d3
    rw [e4, f4] at d4
    have tri : ∀ {v w : ℝ}, (∃ n : ℤ, v = n / 2 ^ k) → (∃ n : ℤ, w = n / 2 ^ k) → |v - w| < eps → v = w := by
      intro v w hv hw h
      have := _root_.abs_lt.1 h
      exact _root_.le_antisymm (grid_le hk hv hw this.2) (grid_le hk hw hv (by linarith))
    have l := tri a1 b1 d1
    have t := tri a3 b3 d2
    rw [l] at d3
    rw [t] at d4
    have r := tri a2 b2 (by simpa using d3)
    have b := tri a4 b4 (by simpa using d4)
    rw [area_eq_iff]
    exact ⟨l, r, t, b⟩

/-- C90: `offset` translates the area exactly. -/
theorem C90_offset (hk : k ≤ 149) (h : GridRect k (2 ^ 20) r) (dx dy : F32) (hx : Grid k (2 ^ 20) dx)
    (hy : Grid k (2 ^ 20) dy) :
    FiniteRect (r.offset dx dy) ∧
    area (exact (r.offset dx dy)) = (fun p : Point ℝ => ⟨p.x + dx.val, p.y + dy.val⟩) '' area (exact r) := by
  have g := h.gr.offset hk hx.on hy.on (by decide)
  rw [g.exact]
  exact ⟨g.fin, C23_offset _ _ _⟩

/-- C90: `inset` moves each edge by exactly the given amount, an axis that would become negative being
collapsed to nothing. -/
theorem C90_inset (hk : k ≤ 149) (h : GridRect k (2 ^ 20) r) (dx dy : F32) (hx : Grid k (2 ^ 20) dx)
    (hy : Grid k (2 ^ 20) dy) :
    FiniteRect (r.inset dx dy) ∧
    left (exact (r.inset dx dy)) = left (exact r) + dx.val ∧
    right (exact (r.inset dx dy)) = Max.max (left (exact r) + dx.val) (right (exact r) - dx.val) ∧
    top (exact (r.inset dx dy)) = top (exact r) + dy.val ∧
    bottom (exact (r.inset dx dy)) = Max.max (top (exact r) + dy.val) (bottom (exact r) - dy.val) := by
  have g := h.gr.inset hk hx.on hy.on (by decide)
  rw [g.exact]
  obtain ⟨h1, h2, h3, h4, -⟩ := C23_inset (exact r) dx.val dy.val
  exact ⟨g.fin, h1, h2, h3, h4⟩

/-- C90: `expand` gives exactly the smallest rectangle covering the old one and the point. -/
theorem C90_expand (hk : k ≤ 149) (h : GridRect k (2 ^ 20) r) (p : Point F32) (hx : Grid k (2 ^ 20) p.x)
    (hy : Grid k (2 ^ 20) p.y) :
    FiniteRect (r.expand p) ∧ area (exact r) ⊆ area (exact (r.expand p)) ∧
    exactPoint p ∈ area (exact (r.expand p)) ∧
    (∀ s : Rect ℝ, area (exact r) ⊆ area s → exactPoint p ∈ area s → area (exact (r.expand p)) ⊆ area s) := by
  have g := h.gr.expand hk (q := exactPoint p) hx.on hy.on (by decide)
  rw [g.exact]
  obtain ⟨h1, h2, h3, -⟩ := C23_expand (exact r) (exactPoint p)
  exact ⟨g.fin, h1, h2, h3⟩

/-- C90: `round_extents` gives exactly the smallest rectangle with integer edges that contains the
original, which is then itself found inside by `contains_rect`. -/
theorem C90_round_extents (hk : k ≤ 20) (h : GridRect k (2 ^ 20) r) :
    FiniteRect r.roundExtents ∧ IntegerEdges (exact r.roundExtents) ∧
    area (exact r) ⊆ area (exact r.roundExtents) ∧
    (∀ s : Rect ℝ, IntegerEdges s → area (exact r) ⊆ area s → area (exact r.roundExtents) ⊆ area s) := by
  have hp : (2 : Nat) ^ k ≤ 2 ^ 20 := Nat.pow_le_pow_right (by decide) hk
  have g := h.gr.roundExtents (by omega) (by omega)
  rw [g.exact]
  obtain ⟨h1, h2, h3, -⟩ := C24_round_extents (exact r)
  exact ⟨g.fin, h1, h2, h3⟩

/-- C90: `scale` by factors on a grid scales the area exactly, as long as the products fit the
significand. -/
theorem C90_scale {j : Nat} (hk : k + j ≤ 149) (h : GridRect k (2 ^ 12) r) (sh sv : F32)
    (hx : Grid j (2 ^ 10) sh) (hy : Grid j (2 ^ 10) sv) :
    FiniteRect (r.scale sh sv) ∧
    area (exact (r.scale sh sv)) = (fun p : Point ℝ => ⟨p.x * sh.val, p.y * sv.val⟩) '' area (exact r) := by
  have g := h.gr.scale hk hx.on hy.on (by decide) (by decide)
  rw [g.exact]
  exact ⟨g.fin, (C23_scale _ _ _).1⟩

/-- The grid hypothesis matters: for arbitrary floats the union can lose points.  The rectangle
`[2^-30, 2^-30]` united with `[-1, 0]` stops at `0`, because `2^-30 + 1` rounds to `1`. -/
theorem C90_union_needs_grid :
    ∃ a b : Rect F32, FiniteRect a ∧ FiniteRect b ∧ ∃ p : Point F32,
      a.containsPoint p = true ∧ (a.union b).containsPoint p = false :=
  ⟨⟨⟨lit 1 (2 ^ 30), lit 0 1⟩, ⟨lit 0 1, lit 0 1⟩⟩, ⟨⟨lit (-1) 1, lit 0 1⟩, ⟨lit 1 1, lit 0 1⟩⟩,
    by unfold FiniteRect; kdecide, by unfold FiniteRect; kdecide, ⟨lit 1 (2 ^ 30), lit 0 1⟩, by kdecide, by kdecide⟩

omit [Libm binary32] in
theorem Spec.grid_lit {k N : Nat} (hk : k ≤ 149) (hN : N ≤ 2 ^ 24) (n : ℤ) (hn : n.natAbs ≤ N) :
    Grid k N (lit n (2 ^ k)) := by
  have := lit_dyadic n k (hn.trans hN) hk
  exact ⟨this.1, n, hn, this.2⟩

/-- non-vacuity: rectangles with coordinates in 1/256 of a pixel up to 4096 pixels, with a negative size -/
example : ∃ r : Rect F32, GridRect 8 (2 ^ 20) r ∧ r.size.width.val < 0 :=
  ⟨⟨⟨lit 1048575 (2 ^ 8), lit (-77) (2 ^ 8)⟩, ⟨lit (-513) (2 ^ 8), lit 1001 (2 ^ 8)⟩⟩,
    ⟨grid_lit (by decide) (by decide) _ (by decide), grid_lit (by decide) (by decide) _ (by decide),
     grid_lit (by decide) (by decide) _ (by decide), grid_lit (by decide) (by decide) _ (by decide)⟩, by
    show (lit (-513) (2 ^ 8) : F32).val < 0
    rw [(lit_dyadic (-513) 8 (by decide) (by decide)).2]; norm_num⟩

end Graphene

/-
  C106: hit-testing of quadrilaterals in single precision (IEEE binary32).
-/
import Verif.Props.Float14
import Verif.Props.Quads

set_option exponentiation.threshold 3000

namespace Graphene
open Fp Spec

/-- both coordinates are multiples of `2^-k` of magnitude at most `N · 2^-k` -/
def Spec.GridPoint (k N : Nat) (p : Point F32) : Prop := Grid k N p.x ∧ Grid k N p.y
/-- the four corners are on the grid -/
def Spec.GridQuad (k N : Nat) (q : Quad F32) : Prop :=
  GridPoint k N q.p0 ∧ GridPoint k N q.p1 ∧ GridPoint k N q.p2 ∧ GridPoint k N q.p3
/-- the real quadrilateral that a quadrilateral of finite floats stands for -/
noncomputable def Spec.exactQuad (q : Quad F32) : Quad ℝ :=
  ⟨exactPoint q.p0, exactPoint q.p1, exactPoint q.p2, exactPoint q.p3⟩
/-- both coordinates are finite and of magnitude at most `M` -/
def Spec.PointWithin (M : ℝ) (p : Point F32) : Prop :=
  (p.x.isFin = true ∧ |p.x.val| ≤ M) ∧ (p.y.isFin = true ∧ |p.y.val| ≤ M)
/-- the four corners are finite and within `M` of the axes -/
def Spec.QuadWithin (M : ℝ) (q : Quad F32) : Prop :=
  PointWithin M q.p0 ∧ PointWithin M q.p1 ∧ PointWithin M q.p2 ∧ PointWithin M q.p3
/-- `c` is clearly off the line through `a` and `b`: the triangle `a b c` has an area above `2^-19 M²` -/
def Spec.Clear (M : ℝ) (a b c : Point ℝ) : Prop := M ^ 2 / 2 ^ 18 < |orient a b c|
/-- the edges of a quadrilateral, each with the corner after it -/
def Spec.edges (q : Quad ℝ) : List (Point ℝ × Point ℝ × Point ℝ) :=
  [(q.p0, q.p1, q.p2), (q.p1, q.p2, q.p3), (q.p2, q.p3, q.p0), (q.p3, q.p0, q.p1)]

variable [Libm binary32] {k N : Nat}

theorem Spec.GridPoint.on {p : Point F32} (h : GridPoint k N p) : OnGridP k N p (exactPoint p) := ⟨h.1.on, h.2.on⟩

/-- the expression whose sign is tested -/
def sideOf (s e a : Point F32) : F32 :=
  Fp.sub (Fp.mul (Fp.sub e.x s.x) (Fp.sub a.y s.y)) (Fp.mul (Fp.sub e.y s.y) (Fp.sub a.x s.x))

theorem sameSide_eq (s e a b : Point F32) : (LineSegment.mk s e).pointsOnSameSide a b =
    ((f0 <=. sideOf s e a && f0 <=. sideOf s e b) || (sideOf s e a <=. f0 && sideOf s e b <=. f0)) := rfl

theorem side_sign (hk : k ≤ 149) (hN : N ≤ 2 ^ 23) {s e a : Point F32} (hs : GridPoint k N s) (he : GridPoint k N e)
    (ha : GridPoint k N a) :
    (0 ≤ orient (exactPoint s) (exactPoint e) (exactPoint a) → (f0 <=. sideOf s e a) = true) ∧
    (orient (exactPoint s) (exactPoint e) (exactPoint a) ≤ 0 → (sideOf s e a <=. f0) = true) := by
  have d1 := he.1.on.sub hk hs.1.on (D := 2 ^ 24) (by omega) le_rfl
  have d2 := ha.2.on.sub hk hs.2.on (D := 2 ^ 24) (by omega) le_rfl
  have d3 := he.2.on.sub hk hs.2.on (D := 2 ^ 24) (by omega) le_rfl
  have d4 := ha.1.on.sub hk hs.1.on (D := 2 ^ 24) (by omega) le_rfl
  have bd : ∀ {x : F32} {v : ℝ}, OnGrid k (2 ^ 24) x v → |v| ≤ 2 ^ 24 := by
    intro x v h
    refine h.abs_val_le.trans ?_
    have : (1 : ℝ) ≤ 2 ^ k := one_le_pow₀ (by norm_num)
    rw [div_le_iff₀ (by positivity)]
    push_cast
    nlinarith
  have pf : ∀ {x y : F32} {v w : ℝ}, OnGrid k (2 ^ 24) x v → OnGrid k (2 ^ 24) y w → (Fp.mul x y).isFin = true ∧ Rnd (v * w) (Fp.mul x y) := by
    intro x y v w hx hy
    have r := rnd_mul hx.is.fin hy.is.fin
    rw [hx.is.val, hy.is.val] at r
    refine ⟨r.isFin hp32 (_root_.le_trans ?_ le_max32), r⟩
    rw [abs_mul]
    have := mul_le_mul (bd hx) (bd hy) (abs_nonneg _) (by norm_num)
    refine this.trans (by norm_num)
  obtain ⟨f1, r1⟩ := pf d1 d2
  obtain ⟨f2, r2⟩ := pf d3 d4
  have r := rnd_sub f1 f2
  have n1 := isNaN_of_isFin f1
  have n2 := isNaN_of_isFin f2
  have z : (f0 : F32).isFin = true := by rw [f0_eq]; rfl
  have zv : (f0 : F32).val = 0 := by rw [f0_eq]; exact val_zero false
  constructor
  · intro h
    have : (Fp.mul (Fp.sub e.y s.y) (Fp.sub a.x s.x)).val ≤ (Fp.mul (Fp.sub e.x s.x) (Fp.sub a.y s.y)).val := by
      rw [← le_iff_val n2 n1]
      refine r2.mono r1 ?_
      simp only [orient, exactPoint] at h
      linarith
    exact r.ge_of z (by rw [zv]; linarith)
  · intro h
    have : (Fp.mul (Fp.sub e.x s.x) (Fp.sub a.y s.y)).val ≤ (Fp.mul (Fp.sub e.y s.y) (Fp.sub a.x s.x)).val := by
      rw [← le_iff_val n1 n2]
      refine r1.mono r2 ?_
      simp only [orient, exactPoint] at h
      linarith
    exact r.le_of z (by rw [zv]; linarith)

theorem sameSide_no_miss (hk : k ≤ 149) (hN : N ≤ 2 ^ 23) {s e a b : Point F32} (hs : GridPoint k N s) (he : GridPoint k N e)
    (ha : GridPoint k N a) (hb : GridPoint k N b)
    (h : (LineSegment.mk (exactPoint s) (exactPoint e)).pointsOnSameSide (exactPoint a) (exactPoint b) = true) :
    (LineSegment.mk s e).pointsOnSameSide a b = true := by
  rw [sameSide_real] at h
  obtain ⟨p1, m1⟩ := side_sign hk hN hs he ha
  obtain ⟨p2, m2⟩ := side_sign hk hN hs he hb
  rw [sameSide_eq]
  rcases h with ⟨h1, h2⟩ | ⟨h1, h2⟩
  · rw [p1 h1, p2 h2]; rfl
  · rw [m1 h1, m2 h2]; simp

/-- C106: on a pixel grid (coordinates that are multiples of `2^-k`, at most `2^23` steps from the origin) no hit is
missed: `quad_contains` accepts every point that the exact test accepts, for every quadrilateral, convex or not. -/
theorem C106_no_miss (hk : k ≤ 149) (q : Quad F32) (hq : GridQuad k (2 ^ 23) q) (p : Point F32) (hp : GridPoint k (2 ^ 23) p) :
    ((exactQuad q).contains (exactPoint p) = true → q.contains p = true) ∧
    (Convex4 (exactQuad q) → exactPoint p ∈ hull4 (exactQuad q) → q.contains p = true) := by
  obtain ⟨h0, h1, h2, h3⟩ := hq
  have key : (exactQuad q).contains (exactPoint p) = true → q.contains p = true := by
    simp only [Quad.contains, exactQuad, Bool.and_eq_true]
    rintro ⟨⟨⟨a, b⟩, c⟩, d⟩
    exact ⟨⟨⟨sameSide_no_miss hk le_rfl h0 h1 hp h2 a, sameSide_no_miss hk le_rfl h1 h2 hp h3 b⟩,
      sameSide_no_miss hk le_rfl h2 h3 hp h0 c⟩, sameSide_no_miss hk le_rfl h3 h0 hp h1 d⟩
  exact ⟨key, fun hc h => key ((C27_contains _ hc _).2 h)⟩

theorem side_grid (hk : 2 * k ≤ 149) (hN : 8 * N ^ 2 ≤ 2 ^ 24) {s e a : Point F32} (hs : GridPoint k N s)
    (he : GridPoint k N e) (ha : GridPoint k N a) :
    Is (sideOf s e a) (orient (exactPoint s) (exactPoint e) (exactPoint a)) := by
  have n1 : N + N ≤ 2 ^ 24 := by nlinarith
  have d1 := he.1.on.sub (by omega) hs.1.on (D := N + N) le_rfl n1
  have d2 := ha.2.on.sub (by omega) hs.2.on (D := N + N) le_rfl n1
  have d3 := he.2.on.sub (by omega) hs.2.on (D := N + N) le_rfl n1
  have d4 := ha.1.on.sub (by omega) hs.1.on (D := N + N) le_rfl n1
  have e1 := d1.mul (by omega) d2 (D := 4 * N ^ 2) (by nlinarith) (by omega)
  have e2 := d3.mul (by omega) d4 (D := 4 * N ^ 2) (by nlinarith) (by omega)
  exact (e1.sub (by omega) e2 (D := 8 * N ^ 2) (by omega) hN).is

theorem sameSide_grid (hk : 2 * k ≤ 149) (hN : 8 * N ^ 2 ≤ 2 ^ 24) {s e a b : Point F32} (hs : GridPoint k N s)
    (he : GridPoint k N e) (ha : GridPoint k N a) (hb : GridPoint k N b) :
    (LineSegment.mk s e).pointsOnSameSide a b =
    (LineSegment.mk (exactPoint s) (exactPoint e)).pointsOnSameSide (exactPoint a) (exactPoint b) := by
  have i1 := side_grid hk hN hs he ha
  have i2 := side_grid hk hN hs he hb
  have z : Is (f0 : F32) (f0 : ℝ) := (OnGrid.zero' (k := 0) (B := 0)).is
  rw [sameSide_eq, z.le_eq i1, z.le_eq i2, i1.le_eq z, i2.le_eq z]
  rfl

/-- C106: on a grid of at most 1448 steps in every direction the test is exact, so for corners in convex position it is
membership in the quadrilateral, boundary included. -/
theorem C106_exact (hk : 2 * k ≤ 149) (hN : N ≤ 1448) (q : Quad F32) (hq : GridQuad k N q) (p : Point F32)
    (hp : GridPoint k N p) :
    q.contains p = (exactQuad q).contains (exactPoint p) ∧
    (Convex4 (exactQuad q) → (q.contains p = true ↔ exactPoint p ∈ hull4 (exactQuad q))) := by
  obtain ⟨h0, h1, h2, h3⟩ := hq
  have n : 8 * N ^ 2 ≤ 2 ^ 24 := by nlinarith
  have key : q.contains p = (exactQuad q).contains (exactPoint p) := by
    simp only [Quad.contains, exactQuad]
    rw [sameSide_grid hk n h0 h1 hp h2, sameSide_grid hk n h1 h2 hp h3, sameSide_grid hk n h2 h3 hp h0,
      sameSide_grid hk n h3 h0 hp h1]
  exact ⟨key, fun hc => by rw [key]; exact C27_contains _ hc _⟩

theorem side_approx {M : ℝ} (m1 : 1 / 2 ^ 40 ≤ M) (m2 : M ≤ 2 ^ 40) {s e a : Point F32} (hs : PointWithin M s)
    (he : PointWithin M e) (ha : PointWithin M a) :
    (sideOf s e a).isFin = true ∧
    |(sideOf s e a).val - orient (exactPoint s) (exactPoint e) (exactPoint a)| ≤ M ^ 2 / 2 ^ 18 := by
  have M0 : 0 ≤ M := by have : (0 : ℝ) < 1 / 2 ^ 40 := by positivity
                        linarith
  have ex : ∀ {x : F32}, x.isFin = true ∧ |x.val| ≤ M → Approx x x.val M M := fun h => ⟨h.1, h.2, by simp⟩
  have mx := le_max32
  have big : ∀ t : ℝ, t ≤ 2 ^ 127 → t ≤ binary32.maxVal := fun t h => h.trans mx
  have ds : ∀ {x y : F32}, (x.isFin = true ∧ |x.val| ≤ M) → (y.isFin = true ∧ |y.val| ≤ M) →
      Approx (Fp.sub x y) (x.val - y.val) (M + M) ((1 + binary32.u) * (M + M)) :=
    fun h g => (ex h).sub hp32 (ex g) (big _ (by linarith [show (2:ℝ)^40 + 2^40 ≤ 2^127 by norm_num]))
  have M2 : M * M ≤ 2 ^ 80 := by
    have := mul_le_mul m2 m2 M0 (by norm_num)
    refine this.trans (by norm_num)
  have M3 : 1 / 2 ^ 80 ≤ M * M := by
    have := mul_le_mul m1 m1 (by positivity) M0
    refine _root_.le_trans (by norm_num) this
  have bm : (1 + binary32.u) * (M + M) * ((1 + binary32.u) * (M + M)) ≤ 2 ^ 127 := by
    rw [u32]
    have : (1 + 1 / 16777216) * (M + M) * ((1 + 1 / 16777216) * (M + M)) = (4 * (1 + 1 / 16777216) ^ 2) * (M * M) := by ring
    rw [this]
    nlinarith
  have q1 := (ds he.1 hs.1).mul hp32 (ds ha.2 hs.2) (big _ bm)
  have q2 := (ds he.2 hs.2).mul hp32 (ds ha.1 hs.1) (big _ bm)
  have q := q1.sub hp32 q2 (big _ (by
    rw [u32, eta32]
    have : (1 + 1 / 16777216) * (M + M) * ((1 + 1 / 16777216) * (M + M)) = (4 * (1 + 1 / 16777216) ^ 2) * (M * M) := by ring
    rw [this]
    nlinarith))
  refine ⟨q.fin, ?_⟩
  have er := q.err
  refine er.trans ?_
  rw [u32, eta32]
  have : (1 + 1 / 16777216) * (M + M) * ((1 + 1 / 16777216) * (M + M)) = (4 * (1 + 1 / 16777216) ^ 2) * (M * M) := by ring
  rw [this, pow_two, show (M + M) * (M + M) = 4 * (M * M) by ring]
  norm_num at M3 ⊢
  linarith

/-- the sign that is computed for a point that is clear of the line -/
theorem side_clear {M : ℝ} (m1 : 1 / 2 ^ 40 ≤ M) (m2 : M ≤ 2 ^ 40) {s e a : Point F32} (hs : PointWithin M s)
    (he : PointWithin M e) (ha : PointWithin M a) (hc : Clear M (exactPoint s) (exactPoint e) (exactPoint a)) :
    (f0 <=. sideOf s e a) = decide (0 ≤ orient (exactPoint s) (exactPoint e) (exactPoint a)) ∧
    (sideOf s e a <=. f0) = decide (orient (exactPoint s) (exactPoint e) (exactPoint a) ≤ 0) := by
  obtain ⟨f, er⟩ := side_approx m1 m2 hs he ha
  have z : (f0 : F32).isFin = true := by rw [f0_eq]; rfl
  have zv : (f0 : F32).val = 0 := by rw [f0_eq]; exact val_zero false
  have n := isNaN_of_isFin f
  have nz := isNaN_of_isFin z
  unfold Clear at hc
  rw [_root_.abs_le] at er
  have l1 : ((f0 <=. sideOf s e a) = true) ↔ 0 ≤ (sideOf s e a).val := by rw [← zv]; exact le_iff_val nz n
  have l2 : ((sideOf s e a <=. f0) = true) ↔ (sideOf s e a).val ≤ 0 := by rw [← zv]; exact le_iff_val n nz
  rw [show ∀ a b c d : Bool, (a = b ∧ c = d) ↔ ((a = true ↔ b = true) ∧ (c = true ↔ d = true)) by decide,
    l1, l2, decide_eq_true_iff, decide_eq_true_iff]
  rcases le_abs.1 hc.le with h | h
  · rw [abs_of_nonneg (by have : 0 ≤ M ^ 2 / 2 ^ 18 := by positivity
                          linarith)] at hc
    constructor <;> constructor <;> intro <;> linarith [er.1, er.2]
  · have : 0 ≤ M ^ 2 / 2 ^ 18 := by positivity
    rw [abs_of_nonpos (by linarith)] at hc
    constructor <;> constructor <;> intro <;> linarith [er.1, er.2]

theorem sameSide_clear {M : ℝ} (m1 : 1 / 2 ^ 40 ≤ M) (m2 : M ≤ 2 ^ 40) {s e a b : Point F32} (hs : PointWithin M s)
    (he : PointWithin M e) (ha : PointWithin M a) (hb : PointWithin M b)
    (ca : Clear M (exactPoint s) (exactPoint e) (exactPoint a)) (cb : Clear M (exactPoint s) (exactPoint e) (exactPoint b)) :
    (LineSegment.mk s e).pointsOnSameSide a b = true ↔
      0 < orient (exactPoint s) (exactPoint e) (exactPoint a) * orient (exactPoint s) (exactPoint e) (exactPoint b) := by
  obtain ⟨p1, p2⟩ := side_clear m1 m2 hs he ha ca
  obtain ⟨p3, p4⟩ := side_clear m1 m2 hs he hb cb
  rw [sameSide_eq, p1, p2, p3, p4]
  have x : orient (exactPoint s) (exactPoint e) (exactPoint a) ≠ 0 := by
    intro h; rw [Clear, h, abs_zero] at ca; have : 0 ≤ M ^ 2 / 2 ^ 18 := by positivity
    linarith
  have y : orient (exactPoint s) (exactPoint e) (exactPoint b) ≠ 0 := by
    intro h; rw [Clear, h, abs_zero] at cb; have : 0 ≤ M ^ 2 / 2 ^ 18 := by positivity
    linarith
  simp only [Bool.or_eq_true, Bool.and_eq_true, decide_eq_true_iff]
  rw [mul_pos_iff]
  constructor
  · rintro (⟨a, b⟩ | ⟨a, b⟩)
    · exact Or.inl ⟨lt_of_le_of_ne a x.symm, lt_of_le_of_ne b y.symm⟩
    · exact Or.inr ⟨lt_of_le_of_ne a x, lt_of_le_of_ne b y⟩
  · rintro (⟨a, b⟩ | ⟨a, b⟩)
    · exact Or.inl ⟨a.le, b.le⟩
    · exact Or.inr ⟨a.le, b.le⟩

/-- C106, all finite coordinates up to `M`, on or off any grid: a point of the quadrilateral that is clear of the four
edges is accepted, and a point that is clearly beyond one edge (on the other side of it than the next corner) is
rejected. -/
theorem C106_margin {M : ℝ} (m1 : 1 / 2 ^ 40 ≤ M) (m2 : M ≤ 2 ^ 40) (q : Quad F32) (hq : QuadWithin M q) (p : Point F32)
    (hp : PointWithin M p) :
    (Convex4 (exactQuad q) → exactPoint p ∈ hull4 (exactQuad q) →
      (∀ e ∈ edges (exactQuad q), Clear M e.1 e.2.1 e.2.2 ∧ Clear M e.1 e.2.1 (exactPoint p)) → q.contains p = true) ∧
    (∀ e ∈ edges (exactQuad q), Clear M e.1 e.2.1 e.2.2 → Clear M e.1 e.2.1 (exactPoint p) →
      orient e.1 e.2.1 e.2.2 * orient e.1 e.2.1 (exactPoint p) < 0 → q.contains p = false) := by
  obtain ⟨h0, h1, h2, h3⟩ := hq
  constructor
  · intro hc hh he
    simp only [edges, exactQuad, List.mem_cons, List.not_mem_nil, or_false, forall_eq_or_imp, forall_eq] at he
    obtain ⟨⟨c1, d1⟩, ⟨c2, d2⟩, ⟨c3, d3⟩, c4, d4⟩ := he
    have h := (C27_contains _ hc _).2 hh
    simp only [Quad.contains, Bool.and_eq_true, sameSide_real] at h ⊢
    have key : ∀ {s e a b : Point F32}, PointWithin M s → PointWithin M e → PointWithin M a → PointWithin M b →
        Clear M (exactPoint s) (exactPoint e) (exactPoint a) → Clear M (exactPoint s) (exactPoint e) (exactPoint b) →
        (0 ≤ orient (exactPoint s) (exactPoint e) (exactPoint a) ∧ 0 ≤ orient (exactPoint s) (exactPoint e) (exactPoint b) ∨
          orient (exactPoint s) (exactPoint e) (exactPoint a) ≤ 0 ∧ orient (exactPoint s) (exactPoint e) (exactPoint b) ≤ 0) →
        (LineSegment.mk s e).pointsOnSameSide a b = true := by
      intro s e a b hs he ha hb ca cb h
      rw [sameSide_clear m1 m2 hs he ha hb ca cb]
      have t : 0 ≤ M ^ 2 / 2 ^ 18 := by positivity
      have x := abs_pos.1 (t.trans_lt ca)
      have y := abs_pos.1 (t.trans_lt cb)
      rw [mul_pos_iff]
      rcases h with ⟨a, b⟩ | ⟨a, b⟩
      · exact Or.inl ⟨lt_of_le_of_ne a x.symm, lt_of_le_of_ne b y.symm⟩
      · exact Or.inr ⟨lt_of_le_of_ne a x, lt_of_le_of_ne b y⟩
    obtain ⟨⟨⟨a, b⟩, c⟩, d⟩ := h
    exact ⟨⟨⟨key h0 h1 hp h2 d1 c1 a, key h1 h2 hp h3 d2 c2 b⟩, key h2 h3 hp h0 d3 c3 c⟩, key h3 h0 hp h1 d4 c4 d⟩
  · have key : ∀ {s e a b : Point F32}, PointWithin M s → PointWithin M e → PointWithin M a → PointWithin M b →
        Clear M (exactPoint s) (exactPoint e) (exactPoint b) → Clear M (exactPoint s) (exactPoint e) (exactPoint a) →
        orient (exactPoint s) (exactPoint e) (exactPoint b) * orient (exactPoint s) (exactPoint e) (exactPoint a) < 0 →
        (LineSegment.mk s e).pointsOnSameSide a b = false := by
      intro s e a b hs he ha hb cb ca h
      rw [← Bool.not_eq_true, sameSide_clear m1 m2 hs he ha hb ca cb, _root_.not_lt, _root_.mul_comm]
      exact h.le
    intro e he
    simp only [edges, exactQuad, List.mem_cons, List.not_mem_nil, or_false] at he
    rcases he with rfl | rfl | rfl | rfl <;> intro c d h <;> simp only [Quad.contains]
    · rw [key h0 h1 hp h2 c d h]; rfl
    · rw [key h1 h2 hp h3 c d h]; simp
    · rw [key h2 h3 hp h0 c d h]; simp
    · rw [key h3 h0 hp h1 c d h]; simp

/-- C106: on a pixel grid `quad_bounds` is exactly the smallest rectangle around the four corners, and contains them. -/
theorem C106_bounds (bk : Backend) (hk : k ≤ 149) (q : Quad F32) (hq : GridQuad k (2 ^ 20) q) :
    FiniteRect (q.bounds bk) ∧
    SmallestRect (Spec.exact (q.bounds bk)) [exactPoint q.p0, exactPoint q.p1, exactPoint q.p2, exactPoint q.p3] ∧
    ∀ c ∈ [q.p0, q.p1, q.p2, q.p3], (q.bounds bk).containsPoint c = true := by
  obtain ⟨h0, h1, h2, h3⟩ := hq
  have g := boundsOf_grid bk hk h0.on h1.on h2.on h3.on (by norm_num)
  have e : Spec.exact (q.bounds bk) = (exactQuad q).bounds bk := g.exact
  obtain ⟨b1, b2, b3, b4⟩ := C28_bounds bk (exactQuad q)
  refine ⟨g.fin, ?_, ?_⟩
  · rw [e]; exact ⟨b1, b2⟩
  · intro c hc
    have : ∀ c : Point F32, GridPoint k (2 ^ 20) c → (q.bounds bk).containsPoint c = ((exactQuad q).bounds bk).containsPoint (exactPoint c) :=
      fun c h => g.containsPoint hk h.1.on.is h.2.on.is (by norm_num)
    simp only [List.mem_cons, List.not_mem_nil, or_false] at hc
    have ct : ∀ p ∈ [(exactQuad q).p0, (exactQuad q).p1, (exactQuad q).p2, (exactQuad q).p3],
        ((exactQuad q).bounds bk).containsPoint p = true := fun p hp => (C21_contains_point _ _).2 (b1 p hp)
    rcases hc with rfl | rfl | rfl | rfl
    · rw [this _ h0]; exact ct _ (by simp [exactQuad])
    · rw [this _ h1]; exact ct _ (by simp [exactQuad])
    · rw [this _ h2]; exact ct _ (by simp [exactQuad])
    · rw [this _ h3]; exact ct _ (by simp [exactQuad])

/-- C106: a quadrilateral made from a rectangle on the grid misses no point of the rectangle. -/
theorem C106_from_rect (hk : k ≤ 149) (r : Rect F32) (hr : GridRect k (2 ^ 20) r) (p : Point F32)
    (hp : GridPoint k (2 ^ 23) p) (h : r.containsPoint p = true) : (Quad.initFromRect r).contains p = true := by
  have g := hr.gr.normalize hk (D := 2 ^ 21) (by decide) (by decide)
  have x := g.x.mono (C := 2 ^ 23) (by decide)
  have y := g.y.mono (C := 2 ^ 23) (by decide)
  have ax := g.x.add hk g.w (D := 2 ^ 23) (by decide) (by decide)
  have ay := g.y.add hk g.h (D := 2 ^ 23) (by decide) (by decide)
  have gp : ∀ {a b : F32} {u v : ℝ}, OnGrid k (2 ^ 23) a u → OnGrid k (2 ^ 23) b v →
      GridPoint k (2 ^ 23) ⟨a, b⟩ ∧ exactPoint ⟨a, b⟩ = ⟨u, v⟩ := by
    intro a b u v ha hb
    refine ⟨⟨⟨ha.is.fin, ?_⟩, ⟨hb.is.fin, ?_⟩⟩, ?_⟩
    · rw [ha.is.val]; exact ha.grid
    · rw [hb.is.val]; exact hb.grid
    · simp only [exactPoint, ha.is.val, hb.is.val]
  obtain ⟨g1, e1⟩ := gp x y
  obtain ⟨g2, e2⟩ := gp ax y
  obtain ⟨g3, e3⟩ := gp ax ay
  obtain ⟨g4, e4⟩ := gp x ay
  refine (C106_no_miss hk (Quad.initFromRect r) ⟨g1, g2, g3, g4⟩ p hp).1 ?_
  have e : exactQuad (Quad.initFromRect r) = Quad.initFromRect (Spec.exact r) := by
    unfold exactQuad
    exact congr (congr (congr (congrArg Quad.mk e1) e2) e3) e4
  rw [hr.gr.containsPoint hk (q := exactPoint p) hp.1.on.is hp.2.on.is (by decide), C21_contains_point] at h
  rw [e]
  simp only [Quad.contains, Bool.and_eq_true, sameSide_real, initFromRect_real, orient]
  obtain ⟨a1, a2, a3, a4⟩ := h
  have l := left_le_right (Spec.exact r)
  have t := top_le_bottom (Spec.exact r)
  refine ⟨⟨⟨Or.inl ⟨?_, ?_⟩, Or.inl ⟨?_, ?_⟩⟩, Or.inl ⟨?_, ?_⟩⟩, Or.inl ⟨?_, ?_⟩⟩ <;> nlinarith

/-- what the bound 1448 is for: further out, a point just outside can be accepted.  The point lies half a square
pixel (as a triangle area) outside the first edge. -/
theorem C106_outside_accepted : ∃ (q : Quad F32) (p : Point F32), GridQuad 0 (2 ^ 23) q ∧ GridPoint 0 (2 ^ 23) p ∧
    Convex4 (exactQuad q) ∧ q.contains p = true ∧ exactPoint p ∉ hull4 (exactQuad q) := by
  have g : ∀ n : ℤ, n.natAbs ≤ 2 ^ 23 → Grid 0 (2 ^ 23) (lit n 1 : F32) ∧ (lit n 1 : F32).val = n := by
    intro n hn
    have l := lit_int n (by omega)
    exact ⟨⟨l.1, n, hn, by rw [l.2]; simp⟩, l.2⟩
  have c0 := g 0 (by decide)
  have c2 := g 2 (by decide)
  have c5 := g 8388605 (by decide)
  have c6 := g 8388606 (by decide)
  have c7 := g 8388607 (by decide)
  refine ⟨⟨⟨lit 0 1, lit 0 1⟩, ⟨lit 8388607 1, lit 8388606 1⟩, ⟨lit 8388606 1, lit 8388607 1⟩, ⟨lit 0 1, lit 2 1⟩⟩,
    ⟨lit 8388606 1, lit 8388605 1⟩, ⟨⟨c0.1, c0.1⟩, ⟨c7.1, c6.1⟩, ⟨c6.1, c7.1⟩, ⟨c0.1, c2.1⟩⟩, ⟨c6.1, c5.1⟩, ?_, by kdecide, ?_⟩
  · left
    simp only [exactQuad, exactPoint, orient, c0.2, c2.2, c6.2, c7.2]
    norm_num
  · intro h
    have := (orient_of_hull _ _ (by simp only [exactQuad, exactPoint, orient, c0.2, c2.2, c6.2, c7.2]; norm_num)
      (by simp only [exactQuad, exactPoint, orient, c0.2, c2.2, c6.2, c7.2]; norm_num)
      (by simp only [exactQuad, exactPoint, orient, c0.2, c2.2, c6.2, c7.2]; norm_num)
      (by simp only [exactQuad, exactPoint, orient, c0.2, c2.2, c6.2, c7.2]; norm_num) h).1
    simp only [exactQuad, exactPoint, orient, c0.2, c5.2, c6.2, c7.2] at this
    norm_num at this

/-- non-vacuity: a tilted square and a point inside it satisfy the hypotheses of `C106_exact` and, with `M = 4`, of
`C106_margin` -/
example : ∃ (q : Quad F32) (p : Point F32), GridQuad 0 1448 q ∧ GridPoint 0 1448 p ∧ Convex4 (exactQuad q) ∧
    exactPoint p ∈ hull4 (exactQuad q) ∧ QuadWithin 4 q ∧ PointWithin 4 p ∧
    (∀ e ∈ edges (exactQuad q), Clear 4 e.1 e.2.1 e.2.2 ∧ Clear 4 e.1 e.2.1 (exactPoint p)) := by
  have g : ∀ n : ℤ, n.natAbs ≤ 4 → Grid 0 1448 (lit n 1 : F32) ∧ (lit n 1 : F32).val = n := by
    intro n hn
    have l := lit_int n (by omega)
    exact ⟨⟨l.1, n, by omega, by rw [l.2]; simp⟩, l.2⟩
  have c0 := g 0 (by decide)
  have c1 := g 1 (by decide)
  have c3 := g 3 (by decide)
  have c4 := g 4 (by decide)
  refine ⟨⟨⟨lit 1 1, lit 0 1⟩, ⟨lit 4 1, lit 1 1⟩, ⟨lit 3 1, lit 4 1⟩, ⟨lit 0 1, lit 3 1⟩⟩, ⟨lit 1 1, lit 1 1⟩,
    ⟨⟨c1.1, c0.1⟩, ⟨c4.1, c1.1⟩, ⟨c3.1, c4.1⟩, ⟨c0.1, c3.1⟩⟩, ⟨c1.1, c1.1⟩, ?_, ?_, ?_, ?_, ?_⟩
  · left
    simp only [exactQuad, exactPoint, orient, c0.2, c1.2, c3.2, c4.2]
    norm_num
  · refine hull_of_orient _ _ ?_ ?_ ?_ ?_ ?_ ?_ <;>
      simp only [exactQuad, exactPoint, orient, c0.2, c1.2, c3.2, c4.2] <;> norm_num
  · refine ⟨⟨⟨c1.1.1, ?_⟩, ⟨c0.1.1, ?_⟩⟩, ⟨⟨c4.1.1, ?_⟩, ⟨c1.1.1, ?_⟩⟩, ⟨⟨c3.1.1, ?_⟩, ⟨c4.1.1, ?_⟩⟩, ⟨⟨c0.1.1, ?_⟩, ⟨c3.1.1, ?_⟩⟩⟩ <;>
      simp only [c0.2, c1.2, c3.2, c4.2] <;> norm_num
  · refine ⟨⟨c1.1.1, ?_⟩, ⟨c1.1.1, ?_⟩⟩ <;> simp only [c1.2] <;> norm_num
  · simp only [edges, exactQuad, List.mem_cons, List.not_mem_nil, or_false, forall_eq_or_imp, forall_eq, Clear,
      exactPoint, orient, c0.2, c1.2, c3.2, c4.2]
    norm_num

end Graphene

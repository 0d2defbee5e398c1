/-
  C93: measurements of boxes and rectangles in floating point.
-/
import Verif.Props.Float6
import Verif.Props.Boxes2
import Verif.Proofs.Round3
import Verif.Proofs.KDecide

set_option exponentiation.threshold 3000

namespace Graphene
open Fp Spec

/-- `r` is a float nearest to the real number `x` -/
def Spec.Nearest (r : F32) (x : ℝ) : Prop :=
  r.isFin = true ∧ ∀ c : F32, c.isFin = true → |r.val - x| ≤ |c.val - x|

/-- doubling is exact unless it overflows -/
theorem double_is {f : Fmt} (hp : f.prec ≤ f.top) {a : Fp f} (ha : a.isFin = true) (h : |2 * a.val| ≤ f.maxVal) :
    ∃ b : Fp f, Is b (2 * a.val) := by
  cases a with
  | nan => simp [Fp.isFin] at ha
  | inf s => simp [Fp.isFin] at ha
  | fin s m hm =>
    have g : f.Grid (2 * m) := by
      obtain ⟨q, hq⟩ := hm.2
      have up := f.ulp_upper m
      have : q < 2 ^ f.prec := by
        rw [pow_add] at up
        refine Nat.lt_of_mul_lt_mul_right (a := 2 ^ f.ulpExp m) ?_
        rw [_root_.mul_comm q, ← hq]; exact up
      have e : 2 * m = q * 2 ^ (f.ulpExp m + 1) := by
        rw [pow_succ]; nth_rewrite 1 [hq]; ring
      rw [e]; exact f.grid_pow_mul this.le
    have lt : 2 * m < 2 ^ f.top := by
      rw [val_fin, sgn_real] at h
      have e : |2 * ((if s = true then (-1 : ℝ) else 1) * m / 2 ^ f.ubit)| = 2 * m / 2 ^ f.ubit := by
        rw [abs_mul, abs_div, abs_mul, abs_of_pos (unit_pos f)]
        cases s <;> simp <;> ring
      rw [e] at h
      unfold Fmt.maxVal at h
      rw [div_le_div_iff_of_pos_right (unit_pos f)] at h
      have h2 : (2 ^ f.prec - 1 : ℝ) * 2 ^ (f.top - f.prec) < 2 ^ f.top := by
        have : (2 : ℝ) ^ f.top = 2 ^ f.prec * 2 ^ (f.top - f.prec) := by rw [← pow_add]; congr 1; omega
        rw [this]
        exact mul_lt_mul_of_pos_right (by linarith) (by positivity)
      have := h.trans_lt h2
      exact_mod_cast this
    have g' : f.Rep (2 * m) := ⟨lt, g⟩
    refine ⟨.fin s (2 * m) g', rfl, ?_⟩
    rw [val_fin, val_fin, sgn_real, sgn_real]; push_cast; ring

theorem half_is : Is (Fp.lit 1 2 : F32) (1 / 2) := by
  have := lit_dyadic 1 1 (by decide) (by decide)
  norm_num at this
  exact ⟨this.1, by rw [this.2]⟩

/-- the midpoint of two floats, as computed, lies between them -/
theorem mid_between {a b : F32} (ha : a.isFin = true) (hb : b.isFin = true) (hab : a.val ≤ b.val)
    (ba : |a.val| ≤ 2 ^ 126) (bb : |b.val| ≤ 2 ^ 126) :
    let c := Fp.mul (Fp.add a b) (Fp.lit 1 2)
    c.isFin = true ∧ a.le c = true ∧ c.le b = true ∧
      |c.val - (a.val + b.val) / 2| ≤ 2⁻¹ ^ 23 * |a.val + b.val| + 2⁻¹ ^ 150 := by
  intro c
  have m32 := le_max32
  have two : ∀ x : ℝ, |x| ≤ 2 ^ 126 → |2 * x| ≤ binary32.maxVal := fun x hx => by
    rw [abs_mul, abs_two]; refine _root_.le_trans ?_ m32
    have : (2 : ℝ) ^ 127 = 2 * 2 ^ 126 := by norm_num
    rw [this]; linarith
  obtain ⟨a2, A⟩ := double_is hp32 ha (two _ ba)
  obtain ⟨b2, B⟩ := double_is hp32 hb (two _ bb)
  have r := rnd_add ha hb
  have lo := r.ge_of A.fin (by rw [A.val]; linarith)
  have hi := r.le_of B.fin (by rw [B.val]; linarith)
  have sf := isFin_of_between A.fin B.fin lo hi
  rw [le_iff_val (isNaN_of_isFin A.fin) (isNaN_of_isFin sf), A.val] at lo
  rw [le_iff_val (isNaN_of_isFin sf) (isNaN_of_isFin B.fin), B.val] at hi
  have q := rnd_mul sf half_is.fin
  rw [half_is.val] at q
  have l := q.ge_of ha (by linarith)
  have u := q.le_of hb (by linarith)
  have cf := isFin_of_between ha hb l u
  refine ⟨cf, l, u, ?_⟩
  have e1 := add_err ha hb sf
  have e2 := q.err_add cf
  rw [u32] at e1
  rw [u32, eta32] at e2
  set s := Fp.add a b
  have h1 := abs_add_le (c.val - s.val * (1 / 2)) ((s.val - (a.val + b.val)) * (1 / 2))
  have e3 : c.val - s.val * (1 / 2) + (s.val - (a.val + b.val)) * (1 / 2) = c.val - (a.val + b.val) / 2 := by ring
  rw [e3, abs_mul (s.val - (a.val + b.val))] at h1
  have h2 := abs_add_le (s.val - (a.val + b.val)) (a.val + b.val)
  rw [sub_add_cancel] at h2
  rw [abs_mul s.val] at e2
  have h3 : |(1 / 2 : ℝ)| = 1 / 2 := by norm_num
  rw [h3] at h1 e2
  have n := abs_nonneg (a.val + b.val)
  change |c.val - s.val * (1 / 2)| ≤ _ at e2
  generalize |c.val - s.val * (1 / 2)| = q1 at *
  generalize |s.val - (a.val + b.val)| = q2 at *
  generalize |c.val - (a.val + b.val) / 2| = q3 at *
  generalize |s.val| = q4 at *
  generalize |a.val + b.val| = q5 at *
  norm_num at e1 e2 ⊢
  linarith

/-- the extent of a box along one axis -/
theorem extent {a b : F32} (ha : a.isFin = true) (hb : b.isFin = true)
    (ba : |a.val| ≤ 2 ^ 126) (bb : |b.val| ≤ 2 ^ 126) :
    (Fp.sub b a).isFin = true ∧
    Nearest (Fp.sub b a) (b.val - a.val) ∧ Nearest (Fp.abs (Fp.sub b a)) |b.val - a.val| ∧
    0 ≤ (Fp.abs (Fp.sub b a)).val ∧ (a.val ≤ b.val → 0 ≤ (Fp.sub b a).val) ∧
    ((Fp.sub b a).val = 0 ↔ a.val = b.val) := by
  have r := rnd_sub hb ha
  have m32 := le_max32
  have f := r.isFin hp32 ((abs_sub _ _).trans (_root_.le_trans (by
    have : (2 : ℝ) ^ 127 = 2 * 2 ^ 126 := by norm_num
    rw [this]; linarith) m32))
  refine ⟨f, ⟨f, fun c hc => r.nearest f hc⟩, ⟨by simpa using f, fun c hc => ?_⟩, by simp, fun h => ?_, ?_⟩
  · rw [val_abs]
    rcases _root_.le_total 0 (b.val - a.val) with g | g
    · have n := r.ge_of (a := zero false) rfl (by rw [val_zero]; exact g)
      rw [le_iff_val rfl (isNaN_of_isFin f), val_zero] at n
      rw [abs_of_nonneg n, abs_of_nonneg g]; exact r.nearest f hc
    · have n := r.le_of (a := zero false) rfl (by rw [val_zero]; exact g)
      rw [le_iff_val (isNaN_of_isFin f) rfl, val_zero] at n
      rw [abs_of_nonpos n, abs_of_nonpos g]
      have := r.nearest f (c := Fp.neg c) (by simpa using hc)
      rw [val_neg] at this
      rw [← _root_.abs_neg, ← _root_.abs_neg (c.val - _)]
      convert this using 2 <;> ring
  · have n := r.ge_of (a := zero false) rfl (by rw [val_zero]; linarith)
    rwa [le_iff_val rfl (isNaN_of_isFin f), val_zero] at n
  · constructor
    · intro h0
      have e := sub_err hb ha f
      rw [h0, u32, zero_sub, _root_.abs_neg] at e
      have n := abs_nonneg (b.val - a.val)
      have : |b.val - a.val| = 0 := by linarith
      rw [abs_eq_zero] at this; linarith
    · intro h
      rw [r.exact (a := zero false) rfl (by rw [val_zero]; linarith), val_zero]

variable [Libm binary32]

/-- finite corners in order, no coordinate beyond 2^126 -/
def Spec.SaneAxis (lo hi : F32) : Prop :=
  lo.isFin = true ∧ hi.isFin = true ∧ lo.val ≤ hi.val ∧ |lo.val| ≤ 2 ^ 126 ∧ |hi.val| ≤ 2 ^ 126

/-- `c` is the midpoint of `lo` and `hi` up to rounding -/
def Spec.Midpoint (c lo hi : F32) : Prop :=
  |c.val - (lo.val + hi.val) / 2| ≤ 2⁻¹ ^ 23 * |lo.val + hi.val| + 2⁻¹ ^ 150

/-- C93: the centre of a box is inside it, and is the midpoint of its corners up to rounding; width, height
and depth are the floats nearest to the exact ones, are not negative, and vanish only for equal corners. -/
theorem C93_box (lo hi : Point3D F32) (hx : SaneAxis lo.x hi.x) (hy : SaneAxis lo.y hi.y) (hz : SaneAxis lo.z hi.z) :
    let b := Box.init (some lo) (some hi)
    b.containsPoint b.getCenter = true ∧
    Midpoint b.getCenter.x lo.x hi.x ∧ Midpoint b.getCenter.y lo.y hi.y ∧ Midpoint b.getCenter.z lo.z hi.z ∧
    Nearest b.getWidth (hi.x.val - lo.x.val) ∧ Nearest b.getHeight (hi.y.val - lo.y.val) ∧
    Nearest b.getDepth (hi.z.val - lo.z.val) ∧
    Nearest b.getSize.getX (hi.x.val - lo.x.val) ∧ Nearest b.getSize.getY (hi.y.val - lo.y.val) ∧
    Nearest b.getSize.getZ (hi.z.val - lo.z.val) ∧
    0 ≤ b.getWidth.val ∧ 0 ≤ b.getHeight.val ∧ 0 ≤ b.getDepth.val ∧
    (b.getWidth.val = 0 ↔ lo.x.val = hi.x.val) ∧ (b.getHeight.val = 0 ↔ lo.y.val = hi.y.val) ∧
    (b.getDepth.val = 0 ↔ lo.z.val = hi.z.val) := by
  intro b
  obtain ⟨x1, x2, x3, x4, x5⟩ := hx
  obtain ⟨y1, y2, y3, y4, y5⟩ := hy
  obtain ⟨z1, z2, z3, z4, z5⟩ := hz
  obtain ⟨cx1, cx2, cx3, cx4⟩ := mid_between x1 x2 x3 x4 x5
  obtain ⟨cy1, cy2, cy3, cy4⟩ := mid_between y1 y2 y3 y4 y5
  obtain ⟨cz1, cz2, cz3, cz4⟩ := mid_between z1 z2 z3 z4 z5
  obtain ⟨ex1, ex2, ex3, ex4, ex5, ex6⟩ := extent x1 x2 x4 x5
  obtain ⟨ey1, ey2, ey3, ey4, ey5, ey6⟩ := extent y1 y2 y4 y5
  obtain ⟨ez1, ez2, ez3, ez4, ez5, ez6⟩ := extent z1 z2 z4 z5
  have ne : b.isEmpty = false := by
    rw [← Bool.not_eq_true, isEmpty_iff]
    rintro ⟨h, -⟩
    change lo.x = _ at h
    rw [h] at x1; cases x1
  have ni : b.isInfinity = false := by
    rw [← Bool.not_eq_true, isInfinity_iff]
    rintro ⟨h, -⟩
    change lo.x = _ at h
    rw [h] at x1; cases x1
  have cen : b.getCenter = ⟨Fp.mul (Fp.add lo.x hi.x) (Fp.lit 1 2), Fp.mul (Fp.add lo.y hi.y) (Fp.lit 1 2),
      Fp.mul (Fp.add lo.z hi.z) (Fp.lit 1 2)⟩ := by
    unfold Box.getCenter; rw [ne, ni]; rfl
  have siz : b.getSize = ⟨Simd4f.sub b.max.value b.min.value⟩ := by
    unfold Box.getSize; rw [ne, ni]; rfl
  have az : ∀ x : F32, (Fp.abs x).val = 0 ↔ x.val = 0 := fun x => by rw [val_abs, abs_eq_zero]
  have ab : ∀ {x y : F32}, x.val ≤ y.val → |y.val - x.val| = y.val - x.val := fun h => abs_of_nonneg (by linarith)
  have w : b.getWidth = Fp.abs (Fp.sub hi.x lo.x) := rfl
  have h : b.getHeight = Fp.abs (Fp.sub hi.y lo.y) := rfl
  have d : b.getDepth = Fp.abs (Fp.sub hi.z lo.z) := rfl
  rw [ab x3] at ex3; rw [ab y3] at ey3; rw [ab z3] at ez3
  rw [w, h, d, cen, siz, az, az, az]
  refine ⟨?_, cx4, cy4, cz4, ex3, ey3, ez3, ex2, ey2, ez2, ex4, ey4, ez4, ex6, ey6, ez6⟩
  refine (contains_iff (Plain.usable (b := b) ⟨?_, ?_⟩) ⟨isNaN_of_isFin cx1, isNaN_of_isFin cy1, isNaN_of_isFin cz1⟩).2
    ⟨⟨cx2, cx3⟩, ⟨cy2, cy3⟩, cz2, cz3⟩
  · exact f0_eq
  · exact f0_eq

/-- C93, 2D boxes -/
theorem C93_box2d (lo hi : Point F32) (hx : SaneAxis lo.x hi.x) (hy : SaneAxis lo.y hi.y) :
    let b := Box2d.init (some lo) (some hi)
    b.containsPoint b.getCenter = true ∧
    Midpoint b.getCenter.x lo.x hi.x ∧ Midpoint b.getCenter.y lo.y hi.y ∧
    Nearest b.getWidth (hi.x.val - lo.x.val) ∧ Nearest b.getHeight (hi.y.val - lo.y.val) ∧
    Nearest b.getSize.getX (hi.x.val - lo.x.val) ∧ Nearest b.getSize.getY (hi.y.val - lo.y.val) ∧
    0 ≤ b.getWidth.val ∧ 0 ≤ b.getHeight.val ∧
    (b.getWidth.val = 0 ↔ lo.x.val = hi.x.val) ∧ (b.getHeight.val = 0 ↔ lo.y.val = hi.y.val) := by
  intro b
  obtain ⟨x1, x2, x3, x4, x5⟩ := hx
  obtain ⟨y1, y2, y3, y4, y5⟩ := hy
  obtain ⟨cx1, cx2, cx3, cx4⟩ := mid_between x1 x2 x3 x4 x5
  obtain ⟨cy1, cy2, cy3, cy4⟩ := mid_between y1 y2 y3 y4 y5
  obtain ⟨ex1, ex2, ex3, ex4, ex5, ex6⟩ := extent x1 x2 x4 x5
  obtain ⟨ey1, ey2, ey3, ey4, ey5, ey6⟩ := extent y1 y2 y4 y5
  have ne : b.isEmpty = false := by
    rw [← Bool.not_eq_true, isEmpty2_iff]
    rintro ⟨h, -⟩
    change lo.x = _ at h
    rw [h] at x1; cases x1
  have ni : b.isInfinity = false := by
    rw [← Bool.not_eq_true, isInfinity2_iff]
    rintro ⟨h, -⟩
    change lo.x = _ at h
    rw [h] at x1; cases x1
  have cen : b.getCenter = ⟨Fp.mul (Fp.add lo.x hi.x) (Fp.lit 1 2), Fp.mul (Fp.add lo.y hi.y) (Fp.lit 1 2)⟩ := by
    unfold Box2d.getCenter; rw [ne, ni]; rfl
  have siz : b.getSize = ⟨Simd4f.sub b.maxV b.minV⟩ := by
    unfold Box2d.getSize; rw [ne, ni]; rfl
  have az : ∀ x : F32, (Fp.abs x).val = 0 ↔ x.val = 0 := fun x => by rw [val_abs, abs_eq_zero]
  have ab : ∀ {x y : F32}, x.val ≤ y.val → |y.val - x.val| = y.val - x.val := fun h => abs_of_nonneg (by linarith)
  have w : b.getWidth = Fp.abs (Fp.sub hi.x lo.x) := rfl
  have h : b.getHeight = Fp.abs (Fp.sub hi.y lo.y) := rfl
  rw [ab x3] at ex3; rw [ab y3] at ey3
  rw [w, h, cen, siz, az, az]
  refine ⟨?_, cx4, cy4, ex3, ey3, ex2, ey2, ex4, ey4, ex6, ey6⟩
  exact (contains2_iff b ⟨isNaN_of_isFin cx1, isNaN_of_isFin cy1⟩).2 ⟨⟨cx2, cx3⟩, cy2, cy3⟩

/-- C93: growing a box by `s ≥ 0` keeps every point of the box and takes in every float point within `s` of
it along each axis, whatever the roundings. -/
theorem C93_expand (lo hi : Point3D F32) (hx : SaneAxis lo.x hi.x) (hy : SaneAxis lo.y hi.y)
    (hz : SaneAxis lo.z hi.z) (s : F32) (hs : s.isFin = true) (s0 : 0 ≤ s.val) (p : Point3D F32)
    (px : p.x.isFin = true) (py : p.y.isFin = true) (pz : p.z.isFin = true)
    (h : (lo.x.val - s.val ≤ p.x.val ∧ p.x.val ≤ hi.x.val + s.val) ∧
      (lo.y.val - s.val ≤ p.y.val ∧ p.y.val ≤ hi.y.val + s.val) ∧
      (lo.z.val - s.val ≤ p.z.val ∧ p.z.val ≤ hi.z.val + s.val)) :
    ((Box.init (some lo) (some hi)).expandScalar s).containsPoint p = true := by
  refine (C34_box_partial _ ⟨f0_eq, f0_eq⟩ s ?_ p
    ⟨isNaN_of_isFin px, isNaN_of_isFin py, isNaN_of_isFin pz⟩).2 ?_
  · rw [le_iff_val rfl (isNaN_of_isFin hs), val_zero]; exact s0
  · exact ⟨⟨(rnd_sub hx.1 hs).le_of px h.1.1, (rnd_add hx.2.1 hs).ge_of px h.1.2⟩,
      ⟨(rnd_sub hy.1 hs).le_of py h.2.1.1, (rnd_add hy.2.1 hs).ge_of py h.2.1.2⟩,
      ⟨(rnd_sub hz.1 hs).le_of pz h.2.2.1, (rnd_add hz.2.1 hs).ge_of pz h.2.2.2⟩⟩

/-- C93, 2D boxes -/
theorem C93_expand2d (lo hi : Point F32) (hx : SaneAxis lo.x hi.x) (hy : SaneAxis lo.y hi.y)
    (s : F32) (hs : s.isFin = true) (p : Point F32) (px : p.x.isFin = true) (py : p.y.isFin = true)
    (h : (lo.x.val - s.val ≤ p.x.val ∧ p.x.val ≤ hi.x.val + s.val) ∧
      (lo.y.val - s.val ≤ p.y.val ∧ p.y.val ≤ hi.y.val + s.val)) :
    ((Box2d.init (some lo) (some hi)).expandScalar s).containsPoint p = true := by
  refine (C34_box2d _ s p ⟨isNaN_of_isFin px, isNaN_of_isFin py⟩).2 ?_
  exact ⟨⟨(rnd_sub hx.1 hs).le_of px h.1.1, (rnd_add hx.2.1 hs).ge_of px h.1.2⟩,
      ⟨(rnd_sub hy.1 hs).le_of py h.2.1, (rnd_add hy.2.1 hs).ge_of py h.2.2⟩⟩

omit [Libm binary32] in
theorem centre_axis {o w : F32} (ho : o.isFin = true) (hw : w.isFin = true) (w0 : 0 ≤ w.val) :
    let c := Fp.add o (Fp.div w (Fp.lit 2 1))
    o.le c = true ∧ c.le (Fp.add o w) = true := by
  intro c
  have two := lit_int 2 (by decide)
  have t2 : (Fp.lit 2 1 : F32).val = 2 := by rw [two.2]; norm_num
  have r := rnd_div hw two.1 (by rw [t2]; norm_num)
  rw [t2] at r
  have lo := r.ge_of (a := zero false) rfl (by rw [val_zero]; positivity)
  have hi := r.le_of hw (by linarith)
  have hf := isFin_of_between rfl hw lo hi
  rw [le_iff_val rfl (isNaN_of_isFin hf), val_zero] at lo
  rw [le_iff_val (isNaN_of_isFin hf) (isNaN_of_isFin hw)] at hi
  have q := rnd_add ho hf
  exact ⟨q.ge_of ho (by linarith), q.mono (rnd_add ho hw) (by linarith)⟩

/-- C93: a rectangle contains its centre and its four corners, for all finite floats (even when an edge
overflows). -/
theorem C93_rect {r : Rect F32} (h : NormalRect r) :
    r.containsPoint r.getCenter = true ∧ r.containsPoint r.getTopLeft = true ∧
    r.containsPoint r.getTopRight = true ∧ r.containsPoint r.getBottomLeft = true ∧
    r.containsPoint r.getBottomRight = true := by
  have n := normalize_id h
  obtain ⟨⟨x, y, w, g⟩, w0, g0⟩ := h
  obtain ⟨c1, c2⟩ := centre_axis x w w0
  obtain ⟨d1, d2⟩ := centre_axis y g g0
  have rx := rnd_add x w
  have ry := rnd_add y g
  have lx := rx.ge_of x (by linarith)
  have ly := ry.ge_of y (by linarith)
  have rf := Fp.le_refl rx.not_nan
  have rg := Fp.le_refl ry.not_nan
  have ox := Fp.le_refl (isNaN_of_isFin x)
  have oy := Fp.le_refl (isNaN_of_isFin y)
  simp only [Rect.containsPoint, Rect.getCenter, Rect.getTopLeft, Rect.getTopRight, Rect.getBottomLeft,
    Rect.getBottomRight, n, Point.init, sc_le, sc_add, sc_div, f2, sc_lit, Bool.and_eq_true]
  exact ⟨⟨⟨⟨c1, d1⟩, c2⟩, d2⟩, ⟨⟨⟨ox, oy⟩, lx⟩, ly⟩, ⟨⟨⟨lx, oy⟩, rf⟩, ly⟩, ⟨⟨⟨ox, ly⟩, lx⟩, rg⟩, ⟨⟨⟨lx, ly⟩, rf⟩, rg⟩⟩

/-- C93, limits: near the largest float the centre overflows and leaves the box. -/
theorem C93_overflow : ∃ lo hi : Point F32, (lo.x.isFin = true ∧ lo.y.isFin = true ∧ hi.x.isFin = true ∧ hi.y.isFin = true) ∧
    (Box2d.init (some lo) (some hi)).containsPoint lo = true ∧
    (Box2d.init (some lo) (some hi)).containsPoint (Box2d.init (some lo) (some hi)).getCenter = false :=
  ⟨⟨lit (2 ^ 127) 1, lit 0 1⟩, ⟨lit (2 ^ 127) 1, lit 0 1⟩, by kdecide, by kdecide, by kdecide⟩

/-- non-vacuity -/
example : SaneAxis (lit (-1) 1) (lit 3 1) := by
  have a := lit_int (-1) (by decide)
  have b := lit_int 3 (by decide)
  refine ⟨a.1, b.1, ?_, ?_, ?_⟩ <;> simp only [a.2, b.2] <;> norm_num

end Graphene

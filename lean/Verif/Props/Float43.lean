/-
  C136: the area of a rectangle and the conversions between rectangles and 2D boxes in floating point (IEEE binary32).
-/
import Verif.Props.Float8
import Verif.Props.Float4
import Verif.Props.Boxes3

set_option exponentiation.threshold 3000

namespace Graphene
open Fp Spec
variable [Libm binary32]

/-- the size of a normalised axis is the absolute value -/
theorem normAxis_size {o s : F32} (hs : s.isFin = true) :
    (Rect.normAxis o s).2.isFin = true ∧ (Rect.normAxis o s).2.val = |s.val| := by
  unfold Rect.normAxis
  by_cases h : (s <. (f0 : F32)) = true
  · rw [if_pos h]
    exact ⟨by simpa using hs, val_abs s⟩
  · rw [if_neg h]
    have h0 : ¬ s.val < 0 := by
      intro g; apply h
      have : (s <. (f0 : F32)) = s.lt (zero false) := by rw [f0_eq]; rfl
      rw [this, lt_iff_val (isNaN_of_isFin hs) rfl]; simpa using g
    exact ⟨hs, (abs_of_nonneg (not_lt.1 h0)).symm⟩

/-- the rounded product of the sizes -/
theorem area_rnd {r : Rect F32} (h : FiniteRect r) : Rnd (|r.size.width.val| * |r.size.height.val|) r.getArea := by
  obtain ⟨f1, v1⟩ := normAxis_size (o := r.origin.x) h.2.2.1
  obtain ⟨f2, v2⟩ := normAxis_size (o := r.origin.y) h.2.2.2
  have := rnd_mul f1 f2
  rw [v1, v2] at this
  exact this

/-- C136: the area of a rectangle, whatever the signs of its sizes, is not negative, off by one rounding, and never
shrinks when the sizes grow. -/
theorem C136_area (r s : Rect F32) (hr : FiniteRect r) (hs : FiniteRect s) :
    r.getArea.isNaN = false ∧ 0 ≤ r.getArea.val ∧
    (|r.size.width.val * r.size.height.val| ≤ 2 ^ 127 → r.getArea.isFin = true ∧
      abs (r.getArea.val - |r.size.width.val * r.size.height.val|) ≤ |r.size.width.val * r.size.height.val| / 2 ^ 24 + 1 / 2 ^ 150) ∧
    (|r.size.width.val| ≤ |s.size.width.val| → |r.size.height.val| ≤ |s.size.height.val| → r.getArea.le s.getArea = true) := by
  have R := area_rnd hr
  have S := area_rnd hs
  refine ⟨R.not_nan, nonneg_of_rnd R (by positivity), fun h => ?_, fun h1 h2 => R.mono S ?_⟩
  · have hf := R.isFin hp32 (by rw [abs_mul, abs_abs, abs_abs, ← abs_mul]; exact h.trans le_max32)
    refine ⟨hf, ?_⟩
    have := R.err_add hf
    rw [u32, eta32, ← abs_mul, abs_abs] at this
    refine this.trans (le_of_eq ?_)
    ring
  · exact mul_le_mul h1 h2 (abs_nonneg _) (abs_nonneg _)

omit [Libm binary32] in
theorem fin_ne_inf {x : F32} (h : x.isFin = true) (s : Bool) : x ≠ .inf s := by
  rintro rfl; simp [Fp.isFin] at h

/-- C136: a rectangle and the box made of it contain the same points (any two floats, infinities and NaN included). -/
theorem C136_same_points (r : Rect F32) (h : NormalRect r) (p : Point F32) :
    (Box2d.initFromRect r).containsPoint p = r.containsPoint p := by
  have e1 : (Box2d.initFromRect r).isEmpty = false := by
    rw [Bool.eq_false_iff, Ne, isEmpty2d_iff]
    intro e
    have := congrArg V4.x e
    exact fin_ne_inf h.1.1 false this
  have e2 : (Box2d.initFromRect r).isInfinity = false := by
    rw [Bool.eq_false_iff, Ne, isInfinity2d_iff]
    intro e
    have := congrArg V4.x e
    exact fin_ne_inf h.1.1 true this
  have z : (f0 : F32).le (f0 : F32) = true := by rw [f0_eq]; decide +kernel
  have c : (Box2d.initFromRect r).containsPoint p =
      ((r.origin.x.le p.x && r.origin.y.le p.y && (f0 : F32).le (f0 : F32) && (f0 : F32).le (f0 : F32)) &&
       (p.x.le (Fp.add r.origin.x r.size.width) && p.y.le (Fp.add r.origin.y r.size.height) &&
        (f0 : F32).le (f0 : F32) && (f0 : F32).le (f0 : F32))) := by
    unfold Box2d.containsPoint
    rw [e1, e2]; rfl
  have d : r.containsPoint p = (r.origin.x.le p.x && r.origin.y.le p.y &&
       p.x.le (Fp.add r.origin.x r.size.width) && p.y.le (Fp.add r.origin.y r.size.height)) := by
    unfold Rect.containsPoint
    rw [normalize_id h]; rfl
  rw [c, d, z]
  simp [Bool.and_assoc]

/-- C136: the rectangle of a box has the box's minimum as its origin, and sizes that are the exact ones up to one rounding,
never negative. -/
theorem C136_to_rect (lo hi : Point F32) (hx : SaneAxis lo.x hi.x) (hy : SaneAxis lo.y hi.y) :
    let r := (Box2d.init (some lo) (some hi)).toRect
    NormalRect r ∧ r.origin = lo ∧
    Nearest r.size.width (hi.x.val - lo.x.val) ∧ Nearest r.size.height (hi.y.val - lo.y.val) ∧
    |right (exact r) - hi.x.val| ≤ (hi.x.val - lo.x.val) / 2 ^ 24 ∧
    |bottom (exact r) - hi.y.val| ≤ (hi.y.val - lo.y.val) / 2 ^ 24 := by
  intro r
  obtain ⟨fx, nx, -, -, px, -⟩ := extent hx.1 hx.2.1 hx.2.2.2.1 hx.2.2.2.2
  obtain ⟨fy, ny, -, -, py, -⟩ := extent hy.1 hy.2.1 hy.2.2.2.1 hy.2.2.2.2
  have hN : NormalRect r := ⟨⟨hx.1, hy.1, fx, fy⟩, px hx.2.2.1, py hy.2.2.1⟩
  obtain ⟨-, e2, -, e4⟩ := edges_normal hN
  refine ⟨hN, rfl, nx, ny, ?_, ?_⟩
  · have e := sub_err hx.2.1 hx.1 fx
    rw [u32, abs_of_nonneg (sub_nonneg.2 hx.2.2.1)] at e
    rw [e2]
    have : r.origin.x.val + r.size.width.val - hi.x.val = (Fp.sub hi.x lo.x).val - (hi.x.val - lo.x.val) := by
      change lo.x.val + (Fp.sub hi.x lo.x).val - hi.x.val = _; ring
    rw [this]
    norm_num at e ⊢; linarith
  · have e := sub_err hy.2.1 hy.1 fy
    rw [u32, abs_of_nonneg (sub_nonneg.2 hy.2.2.1)] at e
    rw [e4]
    have : r.origin.y.val + r.size.height.val - hi.y.val = (Fp.sub hi.y lo.y).val - (hi.y.val - lo.y.val) := by
      change lo.y.val + (Fp.sub hi.y lo.y).val - hi.y.val = _; ring
    rw [this]
    norm_num at e ⊢; linarith

/-- one axis of the conversion to a box and back -/
theorem axis_back {o w : F32} (ho : o.isFin = true) (hw : w.isFin = true) (bo : |o.val| ≤ 2 ^ 125) (bw : |w.val| ≤ 2 ^ 125) :
    (Fp.sub (Fp.add o w) o).isFin = true ∧
    |(Fp.sub (Fp.add o w) o).val - w.val| ≤ (|o.val| + |w.val|) / 2 ^ 22 := by
  have n1 := abs_nonneg o.val
  have n2 := abs_nonneg w.val
  have t := abs_add_le o.val w.val
  have fa : (Fp.add o w).isFin = true := (rnd_add ho hw).isFin hp32 (by
    refine _root_.le_trans (_root_.le_trans t ?_) le_max32; norm_num at *; linarith)
  have ea := add_err ho hw fa
  rw [u32] at ea
  have t2 : |(Fp.add o w).val - o.val| ≤ |(Fp.add o w).val - (o.val + w.val)| + |w.val| := by
    have := abs_add_le ((Fp.add o w).val - (o.val + w.val)) w.val
    rwa [show (Fp.add o w).val - (o.val + w.val) + w.val = (Fp.add o w).val - o.val by ring] at this
  have fs : (Fp.sub (Fp.add o w) o).isFin = true := (rnd_sub fa ho).isFin hp32 (by
    refine _root_.le_trans (_root_.le_trans t2 ?_) le_max32
    norm_num at *; linarith)
  have es := sub_err fa ho fs
  rw [u32] at es
  refine ⟨fs, ?_⟩
  have t3 : |(Fp.sub (Fp.add o w) o).val - w.val| ≤
      |(Fp.sub (Fp.add o w) o).val - ((Fp.add o w).val - o.val)| + |(Fp.add o w).val - (o.val + w.val)| := by
    have := abs_add_le ((Fp.sub (Fp.add o w) o).val - ((Fp.add o w).val - o.val)) ((Fp.add o w).val - (o.val + w.val))
    rwa [show (Fp.sub (Fp.add o w) o).val - ((Fp.add o w).val - o.val) + ((Fp.add o w).val - (o.val + w.val)) =
      (Fp.sub (Fp.add o w) o).val - w.val by ring] at this
  norm_num at ea es ⊢
  linarith

/-- C136: converting a rectangle to a box and back keeps the origin, and the sizes up to a rounding of the far edge: the
error is small compared with the coordinates, not with the size. -/
theorem C136_round_trip (r : Rect F32) (h : NormalRect r) (b : |r.origin.x.val| ≤ 2 ^ 125 ∧ |r.origin.y.val| ≤ 2 ^ 125 ∧
      r.size.width.val ≤ 2 ^ 125 ∧ r.size.height.val ≤ 2 ^ 125) :
    let s := (Box2d.initFromRect r).toRect
    NormalRect s ∧ s.origin = r.origin ∧
    |s.size.width.val - r.size.width.val| ≤ (|r.origin.x.val| + r.size.width.val) / 2 ^ 22 ∧
    |s.size.height.val - r.size.height.val| ≤ (|r.origin.y.val| + r.size.height.val) / 2 ^ 22 := by
  intro s
  have aw := abs_of_nonneg h.2.1
  have ah := abs_of_nonneg h.2.2
  obtain ⟨fx, ex⟩ := axis_back h.1.1 h.1.2.2.1 b.1 (by rw [aw]; exact b.2.2.1)
  obtain ⟨fy, ey⟩ := axis_back h.1.2.1 h.1.2.2.2 b.2.1 (by rw [ah]; exact b.2.2.2)
  rw [aw] at ex
  rw [ah] at ey
  have pos : ∀ {o w : F32}, o.isFin = true → w.isFin = true → (Fp.sub (Fp.add o w) o).isFin = true → 0 ≤ w.val →
      0 ≤ (Fp.sub (Fp.add o w) o).val := by
    intro o w ho hw hf h0
    cases fa : (Fp.add o w).isFin
    · cases e : Fp.add o w with
      | nan => rw [e] at hf; cases o <;> simp [Fp.sub, Fp.isFin, Fp.neg, Fp.add] at hf
      | inf t => rw [e] at hf; cases o <;> simp [Fp.sub, Fp.isFin, Fp.neg, Fp.add] at hf ho
      | fin => rw [e] at fa; simp [Fp.isFin] at fa
    · have := (rnd_add ho hw).ge_of ho (by linarith)
      rw [le_iff_val (isNaN_of_isFin ho) (isNaN_of_isFin fa)] at this
      exact nonneg_of_rnd (rnd_sub fa ho) (by linarith)
  exact ⟨⟨⟨h.1.1, h.1.2.1, fx, fy⟩, pos h.1.1 h.1.2.2.1 fx h.2.1, pos h.1.2.1 h.1.2.2.2 fy h.2.2⟩, rfl, ex, ey⟩

/-- C136: on a grid of pixels (or sub-pixels) the conversion and its way back are exact. -/
theorem C136_grid {k : Nat} (hk : k ≤ 149) (r : Rect F32) (h : GridRect k (2 ^ 20) r) :
    exact (Box2d.initFromRect r).toRect = exact r ∧
    (Box2d.initFromRect r).getMax.x.val = r.origin.x.val + r.size.width.val ∧
    (Box2d.initFromRect r).getMax.y.val = r.origin.y.val + r.size.height.val := by
  obtain ⟨hx, hy, hw, hh⟩ := h
  have ax := hx.on.add hk hw.on (D := 2 ^ 21) (by decide) (by decide)
  have ay := hy.on.add hk hh.on (D := 2 ^ 21) (by decide) (by decide)
  have bx := ax.sub hk hx.on (D := 2 ^ 22) (by decide) (by decide)
  have b_y := ay.sub hk hy.on (D := 2 ^ 22) (by decide) (by decide)
  refine ⟨?_, ax.is.val, ay.is.val⟩
  have e1 : (Fp.sub (Fp.add r.origin.x r.size.width) r.origin.x).val = r.size.width.val := by rw [bx.is.val]; ring
  have e2 : (Fp.sub (Fp.add r.origin.y r.size.height) r.origin.y).val = r.size.height.val := by rw [b_y.is.val]; ring
  have : exact (Box2d.initFromRect r).toRect = ⟨⟨r.origin.x.val, r.origin.y.val⟩,
      ⟨(Fp.sub (Fp.add r.origin.x r.size.width) r.origin.x).val, (Fp.sub (Fp.add r.origin.y r.size.height) r.origin.y).val⟩⟩ := rfl
  rw [this, e1, e2]; rfl

/-- Off the grid something is lost: a rectangle of width 1 at 2^24 becomes a box, and a rectangle, of width zero; and the
rectangle of the box from -1 to 2^-26 misses the corner the box contains. -/
theorem C136_loses :
    (∃ r : Rect F32, NormalRect r ∧ r.size.width.val = 1 ∧ (Box2d.initFromRect r).toRect.size.width = f0) ∧
    (∃ lo hi : Point F32, SaneAxis lo.x hi.x ∧ SaneAxis lo.y hi.y ∧
      (Box2d.init (some lo) (some hi)).containsPoint hi = true ∧
      (Box2d.init (some lo) (some hi)).toRect.containsPoint hi = false) := by
  constructor
  · have a := lit_int (2 ^ 24) (by decide)
    have b := lit_int 1 (by decide)
    refine ⟨⟨⟨Fp.lit (2 ^ 24) 1, Fp.lit (2 ^ 24) 1⟩, ⟨Fp.lit 1 1, Fp.lit 1 1⟩⟩, ⟨⟨a.1, a.1, b.1, b.1⟩, ?_, ?_⟩, ?_, ?_⟩
    · rw [b.2]; norm_num
    · rw [b.2]; norm_num
    · rw [b.2]; norm_num
    · kdecide
  · have a := lit_int (-1) (by decide)
    have b := lit_dyadic 1 26 (by decide) (by decide)
    have s : SaneAxis (Fp.lit (-1) 1) (Fp.lit 1 (2 ^ 26)) := by
      refine ⟨a.1, b.1, ?_, ?_, ?_⟩ <;> simp only [a.2, b.2] <;> norm_num
    refine ⟨⟨Fp.lit (-1) 1, Fp.lit (-1) 1⟩, ⟨Fp.lit 1 (2 ^ 26), Fp.lit 1 (2 ^ 26)⟩, s, s, ?_, ?_⟩ <;> kdecide

/-- the hypotheses are met: the rectangle (10, 20) 30 × 40 of whole pixels -/
example : NormalRect ⟨⟨Fp.lit 10 1, Fp.lit 20 1⟩, ⟨Fp.lit 30 1, Fp.lit 40 1⟩⟩ ∧
    GridRect 0 (2 ^ 20) ⟨⟨Fp.lit 10 1, Fp.lit 20 1⟩, ⟨Fp.lit 30 1, Fp.lit 40 1⟩⟩ ∧
    (⟨⟨Fp.lit 10 1, Fp.lit 20 1⟩, ⟨Fp.lit (-30) 1, Fp.lit 40 1⟩⟩ : Rect F32).getArea = Fp.lit 1200 1 := by
  have h : ∀ n : Int, n.natAbs ≤ 2 ^ 20 → Grid 0 (2 ^ 20) (Fp.lit n 1) := by
    intro n hn
    have := lit_int n (hn.trans (by decide))
    exact ⟨this.1, n, hn, by rw [this.2]; simp⟩
  have w := lit_int 30 (by decide)
  have g := lit_int 40 (by decide)
  refine ⟨⟨⟨(h 10 (by decide)).1, (h 20 (by decide)).1, w.1, g.1⟩, ?_, ?_⟩,
    ⟨h 10 (by decide), h 20 (by decide), h 30 (by decide), h 40 (by decide)⟩, ?_⟩
  · change 0 ≤ (Fp.lit 30 1 : F32).val; rw [w.2]; norm_num
  · change 0 ≤ (Fp.lit 40 1 : F32).val; rw [g.2]; norm_num
  · kdecide
end Graphene

/- Rectangles whose coordinates lie on a grid: every operation is exact.  Helper lemmas for C90. -/
import Verif.Model.Rect
import Verif.Proofs.Grid
import Verif.Proofs.RectLemmas

set_option exponentiation.threshold 3000

namespace Graphene
open Fp

namespace Fp
variable [Libm binary32] {k B C D : Nat} {x y : F32} {v w : ℝ}

theorem Is.lt_eq {x y : F32} (hx : Is x v) (hy : Is y w) : (x <. y) = (v <. w) := by
  rw [Bool.eq_iff_iff, sc_lt, lt_iff_val (isNaN_of_isFin hx.fin) (isNaN_of_isFin hy.fin), hx.val, hy.val,
    RealScalar.lt_eq]
theorem Is.le_eq {x y : F32} (hx : Is x v) (hy : Is y w) : (x <=. y) = (v <=. w) := by
  rw [Bool.eq_iff_iff, sc_le, le_iff_val (isNaN_of_isFin hx.fin) (isNaN_of_isFin hy.fin), hx.val, hy.val,
    RealScalar.le_eq]

namespace OnGrid
omit [Libm binary32] in
theorem abs_val_le (h : OnGrid k B x v) : |v| ≤ B / 2 ^ k := by
  obtain ⟨n, hn, hv⟩ := h.grid
  rw [hv, abs_div, abs_of_pos (show (0 : ℝ) < 2 ^ k by positivity)]
  refine div_le_div_of_nonneg_right ?_ (by positivity)
  rw [← Int.cast_abs, Int.abs_eq_natAbs]; exact_mod_cast hn

theorem _root_.Graphene.Fp.Is.zero_of_feq (hx : Is x v) (h : Scalar.feq x (f0 : F32) = true) : v = 0 := by
  rw [Fp.f0_eq, Fp.sc_feq, feq_iff_val (isNaN_of_isFin hx.fin) rfl, hx.val, val_zero] at h
  exact h
theorem cMin (hx : OnGrid k B x v) (hy : OnGrid k B y w) :
    OnGrid k B (Graphene.cMin x y) (Graphene.cMin v w) := by
  unfold Graphene.cMin; rw [hx.is.lt_eq hy.is]; split <;> assumption
theorem cMax (hx : OnGrid k B x v) (hy : OnGrid k B y w) :
    OnGrid k B (Graphene.cMax x y) (Graphene.cMax v w) := by
  unfold Graphene.cMax; rw [hy.is.lt_eq hx.is]; split <;> assumption
theorem zero' : OnGrid k B (f0 : F32) (f0 : ℝ) := by rw [f0_eq, RealScalar.f0_eq]; exact zero
omit [Libm binary32] in
theorem ite (hx : OnGrid k B x v) (hy : OnGrid k B y w) {a b : Bool} (e : a = b) :
    OnGrid k B (if a then x else y) (if b then v else w) := by
  subst e; split <;> assumption
omit [Libm binary32] in
theorem refine (hx : OnGrid k B x v) : OnGrid (k + 1) (2 * B) x v := by
  obtain ⟨n, hn, hv⟩ := hx.grid
  exact ⟨hx.is, 2 * n, by rw [Int.natAbs_mul]; simpa using hn, by rw [hv]; push_cast; rw [pow_succ]; field_simp⟩
omit [Libm binary32] in
/-- half of a grid number lies on the finer grid -/
theorem half (hk : k + 1 ≤ 149) (hx : OnGrid k B x v) (hB : B ≤ 2 ^ 24) {c : F32} (hc : Is c 2) :
    OnGrid (k + 1) B (Fp.div x c) (v / 2) := by
  obtain ⟨n, hn, hv⟩ := hx.grid
  have r := rnd_div hx.is.fin hc.fin (by rw [hc.val]; norm_num)
  rw [hx.is.val, hc.val] at r
  exact of_is hk r hB hn (by rw [hv]; rw [pow_succ]; field_simp)
omit [Libm binary32] in
/-- products of grid numbers lie on the product grid -/
theorem mul {j : Nat} (hk : k + j ≤ 149) (hx : OnGrid k B x v) (hy : OnGrid j C y w) (hD : B * C ≤ D)
    (hB : D ≤ 2 ^ 24) : OnGrid (k + j) D (Fp.mul x y) (v * w) := by
  obtain ⟨n, hn, hv⟩ := hx.grid
  obtain ⟨m, hm, hw⟩ := hy.grid
  have r := rnd_mul hx.is.fin hy.is.fin
  rw [hx.is.val, hy.is.val] at r
  refine of_is hk r hB (n := n * m) ?_ (by rw [hv, hw]; push_cast; rw [pow_add]; field_simp)
  rw [Int.natAbs_mul]; exact (Nat.mul_le_mul hn hm).trans hD

omit [Libm binary32] in
theorem of_int (hB : B + 2 ^ k ≤ C) {r : F32} {z : ℤ} (hv : |v| ≤ B / 2 ^ k) (hz : |(z : ℝ) - v| ≤ 1)
    (h : Is r z) : OnGrid k C r z := by
  refine ⟨h, z * 2 ^ k, ?_, ?_⟩
  · have h2 : |(z : ℝ)| ≤ B / 2 ^ k + 1 := by
      have := abs_add_le ((z : ℝ) - v) v
      rw [sub_add_cancel] at this; linarith
    have h3 : |(z : ℝ)| * 2 ^ k ≤ B + 2 ^ k := by
      have := mul_le_mul_of_nonneg_right h2 (show (0 : ℝ) ≤ 2 ^ k by positivity)
      rwa [add_mul, div_mul_cancel₀ _ (by positivity), _root_.one_mul] at this
    rw [Int.natAbs_mul, Int.natAbs_pow]
    have : ((z.natAbs * 2 ^ k : Nat) : ℝ) ≤ ((B + 2 ^ k : Nat) : ℝ) := by
      push_cast; rwa [Nat.cast_natAbs, Int.cast_abs]
    exact (by exact_mod_cast this : z.natAbs * 2 ^ k ≤ B + 2 ^ k).trans hB
  · push_cast; field_simp
theorem floor (hx : OnGrid k B x v) (hB : B + 2 ^ k ≤ C) :
    OnGrid k C (Scalar.floor x) (Scalar.floor v) := by
  rw [RealScalar.floor_eq]
  have := floor_is hx.is.fin
  rw [hx.is.val] at this
  refine of_int hB hx.abs_val_le ?_ this
  rw [_root_.abs_le]; constructor <;> linarith [Int.floor_le v, Int.lt_floor_add_one v]
theorem ceil (hx : OnGrid k B x v) (hB : B + 2 ^ k ≤ C) :
    OnGrid k C (Scalar.ceil x) (Scalar.ceil v) := by
  rw [RealScalar.ceil_eq]
  have := ceil_is hx.is.fin
  rw [hx.is.val] at this
  refine of_int hB hx.abs_val_le ?_ this
  rw [_root_.abs_le]; constructor <;> linarith [Int.le_ceil v, Int.ceil_lt_add_one v]
end OnGrid
end Fp

/-- the rectangle `r` of floats is exactly the real rectangle `s`, with origin and size on the grid -/
structure GR (k B C : Nat) (r : Rect F32) (s : Rect ℝ) : Prop where
  x : OnGrid k B r.origin.x s.origin.x
  y : OnGrid k B r.origin.y s.origin.y
  w : OnGrid k C r.size.width s.size.width
  h : OnGrid k C r.size.height s.size.height

variable [Libm binary32] {k B C D : Nat} {r a b : Rect F32} {s t u : Rect ℝ}

theorem normAxis_grid (hk : k ≤ 149) {o z : F32} {v w : ℝ} (ho : OnGrid k B o v) (hs : OnGrid k C z w)
    (hD : B + C ≤ D) (h24 : D ≤ 2 ^ 24) :
    OnGrid k D (Rect.normAxis o z).1 (Rect.normAxis v w).1 ∧
    OnGrid k C (Rect.normAxis o z).2 (Rect.normAxis v w).2 := by
  unfold Rect.normAxis
  rw [hs.is.lt_eq (OnGrid.zero' (k := k) (B := C)).is]
  cases w <. f0
  · exact ⟨ho.mono (by omega), hs⟩
  · exact ⟨ho.sub hk hs.abs hD h24, hs.abs⟩

namespace GR
theorem mk' {x y z h : F32} {x' y' z' h' : ℝ} (a : OnGrid k B x x') (b : OnGrid k B y y')
    (c : OnGrid k C z z') (d : OnGrid k C h h') : GR k B C ⟨⟨x, y⟩, ⟨z, h⟩⟩ ⟨⟨x', y'⟩, ⟨z', h'⟩⟩ := ⟨a, b, c, d⟩

theorem normalize (hk : k ≤ 149) (h : GR k B C r s) (hD : B + C ≤ D) (h24 : D ≤ 2 ^ 24) :
    GR k D C r.normalize s.normalize := by
  have h1 := normAxis_grid hk h.x h.w hD h24
  have h2 := normAxis_grid hk h.y h.h hD h24
  exact ⟨h1.1, h2.1, h1.2, h2.2⟩


theorem mono (h : GR k B C r s) {B' C' : Nat} (hB : B ≤ B') (hC : C ≤ C') : GR k B' C' r s :=
  ⟨h.x.mono hB, h.y.mono hB, h.w.mono hC, h.h.mono hC⟩

/-- union of normalised rectangles on the grid -/
theorem union (hk : k ≤ 149) (h : GR k B C a s) (g : GR k B C b t) (h24 : 2 * B + 3 * C ≤ 2 ^ 24) :
    GR k (B + C) (2 * B + 3 * C) (a.union b) (s.union t) := by
  have ha := h.normalize hk (D := B + C) le_rfl (by omega)
  have hb := g.normalize hk (D := B + C) le_rfl (by omega)
  have ax := ha.x.add hk ha.w (D := B + 2 * C) (by omega) (by omega)
  have ay := ha.y.add hk ha.h (D := B + 2 * C) (by omega) (by omega)
  have bx := hb.x.add hk hb.w (D := B + 2 * C) (by omega) (by omega)
  have b_y := hb.y.add hk hb.h (D := B + 2 * C) (by omega) (by omega)
  exact mk' (ha.x.cMin hb.x) (ha.y.cMin hb.y)
    ((ax.cMax bx).sub hk (ha.x.cMin hb.x) (by omega) h24)
    ((ay.cMax b_y).sub hk (ha.y.cMin hb.y) (by omega) h24)

theorem init {x y z h : F32} {x' y' z' h' : ℝ} (hk : k ≤ 149) (a : OnGrid k B x x') (b : OnGrid k B y y')
    (c : OnGrid k C z z') (d : OnGrid k C h h') (hD : B + C ≤ D) (h24 : D ≤ 2 ^ 24) :
    GR k D C (Rect.init x y z h) (Rect.init x' y' z' h') :=
  (mk' a b c d).normalize hk hD h24

theorem intersection (hk : k ≤ 149) (h : GR k B C a s) (g : GR k B C b t) (h24 : 3 * B + 4 * C ≤ 2 ^ 24) :
    (a.intersection b).1 = (s.intersection t).1 ∧
    GR k (3 * B + 4 * C) (2 * B + 3 * C) (a.intersection b).2 (s.intersection t).2 := by
  have ha := h.normalize hk (D := B + C) le_rfl (by omega)
  have hb := g.normalize hk (D := B + C) le_rfl (by omega)
  have ax := ha.x.add hk ha.w (D := B + 2 * C) (by omega) (by omega)
  have ay := ha.y.add hk ha.h (D := B + 2 * C) (by omega) (by omega)
  have bx := hb.x.add hk hb.w (D := B + 2 * C) (by omega) (by omega)
  have b_y := hb.y.add hk hb.h (D := B + 2 * C) (by omega) (by omega)
  have hx1 := ha.x.cMax hb.x
  have hy1 := ha.y.cMax hb.y
  have hx2 := ax.cMin bx
  have hy2 := ay.cMin b_y
  have c1 := hx2.is.le_eq hx1.is
  have c2 := hy2.is.le_eq hy1.is
  set x1 := Graphene.cMax a.normalize.origin.x b.normalize.origin.x
  set y1 := Graphene.cMax a.normalize.origin.y b.normalize.origin.y
  set x2 := Graphene.cMin (Fp.add a.normalize.origin.x a.normalize.size.width)
    (Fp.add b.normalize.origin.x b.normalize.size.width)
  set y2 := Graphene.cMin (Fp.add a.normalize.origin.y a.normalize.size.height)
    (Fp.add b.normalize.origin.y b.normalize.size.height)
  set x1' := Graphene.cMax s.normalize.origin.x t.normalize.origin.x
  set y1' := Graphene.cMax s.normalize.origin.y t.normalize.origin.y
  set x2' := Graphene.cMin (s.normalize.origin.x + s.normalize.size.width)
    (t.normalize.origin.x + t.normalize.size.width)
  set y2' := Graphene.cMin (s.normalize.origin.y + s.normalize.size.height)
    (t.normalize.origin.y + t.normalize.size.height)
  have z := OnGrid.zero' (k := k) (B := B + C)
  have z' := OnGrid.zero' (k := k) (B := 2 * B + 3 * C)
  have c : ((x1 >=. x2 || y1 >=. y2) : Bool) = (x1' >=. x2' || y1' >=. y2') := congrArg₂ (· || ·) c1 c2
  have ea : a.intersection b = if x1 >=. x2 || y1 >=. y2 then (false, Rect.init f0 f0 f0 f0)
    else (true, Rect.init x1 y1 (x2 -. x1) (y2 -. y1)) := rfl
  have es : s.intersection t = if x1' >=. x2' || y1' >=. y2' then (false, Rect.init f0 f0 f0 f0)
    else (true, Rect.init x1' y1' (x2' -. x1') (y2' -. y1')) := rfl
  rw [ea, es, c]
  cases x1' >=. x2' || y1' >=. y2'
  · exact ⟨rfl, init hk hx1 hy1 (hx2.sub hk hx1 (by omega) (by omega)) (hy2.sub hk hy1 (by omega) (by omega))
      (by omega) h24⟩
  · exact ⟨rfl, init hk z z z' z' (by omega) h24⟩

theorem containsPoint (hk : k ≤ 149) (h : GR k B C a s) {p : Point F32} {q : Point ℝ}
    (hx : Is p.x q.x) (hy : Is p.y q.y) (h24 : B + 2 * C ≤ 2 ^ 24) :
    a.containsPoint p = s.containsPoint q := by
  have ha := h.normalize hk (D := B + C) le_rfl (by omega)
  have ax := ha.x.add hk ha.w (D := B + 2 * C) (by omega) (by omega)
  have ay := ha.y.add hk ha.h (D := B + 2 * C) (by omega) (by omega)
  unfold Rect.containsPoint
  simp only []
  rw [ha.x.is.le_eq hx, ha.y.is.le_eq hy]
  congr 1
  · congr 1
    exact hx.le_eq ax.is
  · exact hy.le_eq ay.is

theorem offset (hk : k ≤ 149) (h : GR k B C a s) {dx dy : F32} {ex ey : ℝ}
    (hx : OnGrid k D dx ex) (hy : OnGrid k D dy ey) (h24 : B + C + D ≤ 2 ^ 24) :
    GR k (B + C + D) C (a.offset dx dy) (s.offset ex ey) := by
  have ha := h.normalize hk (D := B + C) le_rfl (by omega)
  exact mk' (ha.x.add hk hx le_rfl h24) (ha.y.add hk hy le_rfl h24) ha.w ha.h

theorem insetSize_grid (hk : k ≤ 149) {z d : F32} {w e : ℝ} (hz : OnGrid k C z w) (hd : OnGrid k D d e)
    (h24 : C + 2 * D ≤ 2 ^ 24) : OnGrid k (C + 2 * D) (Rect.insetSize z d) (Rect.insetSize w e) := by
  have two : Is (f2 : F32) ((2 : ℤ) : ℝ) := by
    have := lit_int 2 (by decide); exact ⟨this.1, this.2⟩
  have mtwo : Is (Scalar.lit (-2) 1 : F32) ((-2 : ℤ) : ℝ) := by
    have := lit_int (-2) (by decide); exact ⟨this.1, this.2⟩
  have m1 := hd.mul_int hk two (D := 2 * D) (by simp; omega) (by omega)
  have m2 := hd.mul_int hk mtwo (D := 2 * D) (by simp; omega) (by omega)
  have s1 := hz.sub hk m1 le_rfl h24
  have s2 := hz.add hk m2 le_rfl h24
  have zz := OnGrid.zero' (k := k) (B := C + 2 * D)
  have key := OnGrid.ite s1 s2 (zz.is.le_eq hd.is)
  have key2 := OnGrid.ite zz key (key.is.lt_eq zz.is)
  have e : Rect.insetSize w e = if (if f0 <=. e then w - e * ((2 : ℤ) : ℝ) else w + e * ((-2 : ℤ) : ℝ)) <. f0 then f0
      else if f0 <=. e then w - e * ((2 : ℤ) : ℝ) else w + e * ((-2 : ℤ) : ℝ) := by
    simp [Rect.insetSize, RealScalar.lit_eq]
  rw [e]
  exact key2

theorem inset (hk : k ≤ 149) (h : GR k B C a s) {dx dy : F32} {ex ey : ℝ}
    (hx : OnGrid k D dx ex) (hy : OnGrid k D dy ey) (h24 : B + C + 2 * D ≤ 2 ^ 24) :
    GR k (B + C + D) (C + 2 * D) (a.inset dx dy) (s.inset ex ey) := by
  have ha := h.normalize hk (D := B + C) le_rfl (by omega)
  exact mk' (ha.x.add hk hx le_rfl (by omega)) (ha.y.add hk hy le_rfl (by omega))
    (insetSize_grid hk ha.w hx (by omega)) (insetSize_grid hk ha.h hy (by omega))

theorem expand (hk : k ≤ 149) (h : GR k B C a s) {p : Point F32} {q : Point ℝ}
    (hx : OnGrid k B p.x q.x) (hy : OnGrid k B p.y q.y) (h24 : 3 * B + 4 * C ≤ 2 ^ 24) :
    GR k (3 * B + 4 * C) (2 * B + 3 * C) (a.expand p) (s.expand q) := by
  have hi : GR k B 0 (Rect.init p.x p.y f0 f0) (Rect.init q.x q.y f0 f0) :=
    init hk hx hy OnGrid.zero' OnGrid.zero' (by omega) (by omega)
  exact (h.union hk (hi.mono le_rfl (Nat.zero_le _)) (by omega)).normalize hk (by omega) h24

theorem round (hk : k ≤ 149) (h : GR k B C a s) (h24 : B + C ≤ 2 ^ 24) :
    GR k (B + C + 2 ^ k) (C + 2 ^ k) a.round s.round := by
  have ha := h.normalize hk (D := B + C) le_rfl (by omega)
  exact mk' (ha.x.floor le_rfl) (ha.y.floor le_rfl) (ha.w.ceil le_rfl) (ha.h.ceil le_rfl)

theorem roundExtents (hk : k ≤ 149) (h : GR k B C a s) (h24 : 2 * B + 3 * C + 2 * 2 ^ k ≤ 2 ^ 24) :
    GR k (B + C + 2 ^ k) (2 * B + 3 * C + 2 * 2 ^ k) a.roundExtents s.roundExtents := by
  have ha := h.normalize hk (D := B + C) le_rfl (by omega)
  have ax := ha.x.add hk ha.w (D := B + 2 * C) (by omega) (by omega)
  have ay := ha.y.add hk ha.h (D := B + 2 * C) (by omega) (by omega)
  exact mk' (ha.x.floor le_rfl) (ha.y.floor le_rfl)
    ((ax.ceil le_rfl).sub hk (ha.x.floor le_rfl) (by omega) h24)
    ((ay.ceil le_rfl).sub hk (ha.y.floor le_rfl) (by omega) h24)

theorem scale {j : Nat} (hk : k + j ≤ 149) (h : GR k B C a s) {dx dy : F32} {ex ey : ℝ}
    (hx : OnGrid j D dx ex) (hy : OnGrid j D dy ey) (h24 : (B + 2 * C) * D ≤ 2 ^ 24) (hD : 1 ≤ D) :
    GR (k + j) ((B + 2 * C) * D) (C * D) (a.scale dx dy) (s.scale ex ey) := by
  have h0 : B + 2 * C ≤ 2 ^ 24 := (Nat.le_mul_of_pos_right _ hD).trans h24
  have ha := h.normalize (by omega) (D := B + C) le_rfl (by omega)
  have e1 : (B + C) * D + C * D = (B + 2 * C) * D := by ring
  have e2 : (B + C) * D ≤ 2 ^ 24 := by omega
  have e3 : C * D ≤ 2 ^ 24 := by omega
  exact (mk' (ha.x.mul hk hx le_rfl e2) (ha.y.mul hk hy le_rfl e2) (ha.w.mul hk hx le_rfl e3)
    (ha.h.mul hk hy le_rfl e3)).normalize hk e1.le h24

theorem eps_is : Is (fltEps : F32) (fltEps : ℝ) := by
  have h := lit_dyadic 1 23 (by decide) (by decide)
  have e : (fltEps : F32) = lit 1 (2 ^ 23) := rfl
  have e2 : (fltEps : ℝ) = 1 / 2 ^ 23 := by simp [fltEps, RealScalar.lit_eq]; norm_num
  rw [e, e2]
  exact ⟨h.1, h.2.trans (by push_cast; rfl)⟩

theorem near_eq (hk : k ≤ 149) {x y : F32} {v w : ℝ} (hx : OnGrid k B x v) (hy : OnGrid k B y w)
    (h24 : 2 * B ≤ 2 ^ 24) :
    (Scalar.abs (x -. y) <. (fltEps : F32)) = (Scalar.abs (v -. w) <. (fltEps : ℝ)) :=
  (hx.sub hk hy (D := 2 * B) (by omega) h24).abs.is.lt_eq eps_is

theorem approx_eq (hk : k ≤ 149) {x y : F32} {v w : ℝ} (hx : OnGrid k B x v) (hy : OnGrid k B y w)
    (h24 : 2 * B ≤ 2 ^ 24) : approxVal x y = approxVal v w := by
  unfold approxVal fuzzyEquals
  have h1 := hx.sub hk hy (D := 2 * B) (by omega) h24
  have h2 := hy.sub hk hx (D := 2 * B) (by omega) h24
  exact (OnGrid.ite h1 h2 (hy.is.lt_eq hx.is)).is.lt_eq eps_is

theorem equalV (hk : k ≤ 149) (h : GR k B C a s) (g : GR k B C b t) (h24 : 2 * B + 2 * C ≤ 2 ^ 24) :
    a.equalV b = s.equalV t := by
  have ha := h.normalize hk (D := B + C) le_rfl (by omega)
  have hb := g.normalize hk (D := B + C) le_rfl (by omega)
  unfold Rect.equalV Point.equalV Size.equalV Point.near
  exact congrArg₂ (· && ·)
    (congrArg₂ (· && ·) (near_eq hk ha.x hb.x (by omega)) (near_eq hk ha.y hb.y (by omega)))
    (congrArg₂ (· && ·) (approx_eq hk ha.w hb.w (by omega)) (approx_eq hk ha.h hb.h (by omega)))

theorem containsRect (hk : k ≤ 149) (h : GR k B C a s) (g : GR k B C b t) (h24 : 6 * B + 8 * C ≤ 2 ^ 24) :
    a.containsRect b = s.containsRect t :=
  (h.mono (B' := B + C) (C' := 2 * B + 3 * C) (by omega) (by omega)).equalV hk
    (h.union hk g (by omega)) (by omega)

theorem center (hk : k + 1 ≤ 149) (h : GR k B C a s) (h24 : 2 * B + 3 * C ≤ 2 ^ 24) :
    Is a.getCenter.x s.getCenter.x ∧ Is a.getCenter.y s.getCenter.y := by
  have ha := h.normalize (by omega) (D := B + C) le_rfl (by omega)
  have two : Is (f2 : F32) (2 : ℝ) := by
    have := lit_int 2 (by decide); exact ⟨this.1, this.2.trans (by norm_num)⟩
  have hx := ha.x.refine.add hk (ha.w.half hk (by omega) two) (D := 2 * B + 3 * C) (by omega) h24
  have hy := ha.y.refine.add hk (ha.h.half hk (by omega) two) (D := 2 * B + 3 * C) (by omega) h24
  have e : (s.getCenter.x = s.normalize.origin.x + s.normalize.size.width / 2) ∧
    (s.getCenter.y = s.normalize.origin.y + s.normalize.size.height / 2) := by
    constructor <;> simp [Rect.getCenter, Point.init]
  rw [e.1, e.2]
  exact ⟨hx.is, hy.is⟩

end GR
end Graphene

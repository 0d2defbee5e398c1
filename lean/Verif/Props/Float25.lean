/-
  C116: bounding rectangles and boxes of transformed shapes in floating point (IEEE binary32).
-/
import Verif.Props.Float17
import Verif.Props.Float24
import Verif.Props.Float6

set_option exponentiation.threshold 3000

namespace Graphene
open Fp Spec
variable [Libm binary32]

theorem Fp.Is.min1 (bk : Backend) {x y : F32} {v w : ℝ} (hx : Is x v) (hy : Is y w) : Is (Simd4f.min1 bk x y) (min v w) := by
  have h : Is (cMin x y) (min v w) := by
    rw [← cMin_real]; unfold Graphene.cMin; rw [hx.lt_eq hy]; split <;> assumption
  cases bk <;> try exact h
  have n1 : Scalar.isNaN x = false := isNaN_of_isFin hx.fin
  have n2 : Scalar.isNaN y = false := isNaN_of_isFin hy.fin
  simp only [Simd4f.min1, n1, n2, Bool.false_eq_true, if_false]
  split
  · rename_i hz
    rw [Bool.and_eq_true] at hz
    have z1 : v = 0 := hx.zero_of_feq hz.1
    have z2 : w = 0 := hy.zero_of_feq hz.2
    subst z1 z2
    split <;> simpa
  · exact h

theorem Fp.Is.max1 (bk : Backend) {x y : F32} {v w : ℝ} (hx : Is x v) (hy : Is y w) : Is (Simd4f.max1 bk x y) (Max.max v w) := by
  have h : Is (cMax x y) (Max.max v w) := by
    rw [← cMax_real]; unfold Graphene.cMax; rw [hy.lt_eq hx]; split <;> assumption
  cases bk <;> try exact h
  have n1 : Scalar.isNaN x = false := isNaN_of_isFin hx.fin
  have n2 : Scalar.isNaN y = false := isNaN_of_isFin hy.fin
  simp only [Simd4f.max1, n1, n2, Bool.false_eq_true, if_false]
  split
  · rename_i hz
    rw [Bool.and_eq_true] at hz
    have z1 : v = 0 := hx.zero_of_feq hz.1
    have z2 : w = 0 := hy.zero_of_feq hz.2
    subst z1 z2
    split <;> simpa
  · exact h

/-- one axis of the bounding rectangle of four points -/
theorem bounds_axis (bk : Backend) {p0 p1 p2 p3 : F32} (h0 : p0.isFin = true) (h1 : p1.isFin = true) (h2 : p2.isFin = true)
    (h3 : p3.isFin = true) {B : ℝ} (hB : B ≤ 2 ^ 126) (b0 : |p0.val| ≤ B) (b1 : |p1.val| ≤ B) (b2 : |p2.val| ≤ B) (b3 : |p3.val| ≤ B) :
    let lo := (Simd4f.minVal bk ⟨p0, p1, p2, p3⟩).x
    let hi := (Simd4f.maxVal bk ⟨p0, p1, p2, p3⟩).x
    let w := Fp.sub hi lo
    lo.isFin = true ∧ w.isFin = true ∧ 0 ≤ w.val ∧
    (∀ p ∈ [p0, p1, p2, p3], lo.val ≤ p.val ∧ p.val ≤ lo.val + w.val + (B / 2 ^ 23 + 1 / 2 ^ 150)) ∧
    (∃ p ∈ [p0, p1, p2, p3], lo.val = p.val) ∧
    (∃ p ∈ [p0, p1, p2, p3], |lo.val + w.val - p.val| ≤ B / 2 ^ 23 + 1 / 2 ^ 150) := by
  intro lo hi w
  have i0 := Is.self h0
  have i1 := Is.self h1
  have i2 := Is.self h2
  have i3 := Is.self h3
  have il : Is lo (min (min p0.val p3.val) (min p2.val p1.val)) := (i0.min1 bk i3).min1 bk (i2.min1 bk i1)
  have ih : Is hi (max (max p0.val p3.val) (max p2.val p1.val)) := (i0.max1 bk i3).max1 bk (i2.max1 bk i1)
  have eL : ∃ p ∈ [p0, p1, p2, p3], lo.val = p.val := by
    rw [il.val]
    rcases min_choice (min p0.val p3.val) (min p2.val p1.val) with h | h <;> rw [h]
    · rcases min_choice p0.val p3.val with h | h <;> rw [h]
      · exact ⟨p0, by simp, rfl⟩
      · exact ⟨p3, by simp, rfl⟩
    · rcases min_choice p2.val p1.val with h | h <;> rw [h]
      · exact ⟨p2, by simp, rfl⟩
      · exact ⟨p1, by simp, rfl⟩
  have eH : ∃ p ∈ [p0, p1, p2, p3], hi.val = p.val := by
    rw [ih.val]
    rcases max_choice (max p0.val p3.val) (max p2.val p1.val) with h | h <;> rw [h]
    · rcases max_choice p0.val p3.val with h | h <;> rw [h]
      · exact ⟨p0, by simp, rfl⟩
      · exact ⟨p3, by simp, rfl⟩
    · rcases max_choice p2.val p1.val with h | h <;> rw [h]
      · exact ⟨p2, by simp, rfl⟩
      · exact ⟨p1, by simp, rfl⟩
  have bd : ∀ p ∈ [p0, p1, p2, p3], |p.val| ≤ B := by
    intro p hp
    simp only [List.mem_cons, List.not_mem_nil, or_false] at hp
    rcases hp with rfl | rfl | rfl | rfl <;> assumption
  have le : ∀ p ∈ [p0, p1, p2, p3], lo.val ≤ p.val ∧ p.val ≤ hi.val := by
    intro p hp
    rw [il.val, ih.val]
    simp only [List.mem_cons, List.not_mem_nil, or_false] at hp
    rcases hp with rfl | rfl | rfl | rfl <;> simp
  obtain ⟨pl, ml, el⟩ := eL
  obtain ⟨ph, mh, eh⟩ := eH
  have lB := bd pl ml
  have hB' := bd ph mh
  rw [← el] at lB
  rw [← eh] at hB'
  have r : Rnd (hi.val - lo.val) w := rnd_sub ih.fin il.fin
  have d0 : 0 ≤ hi.val - lo.val := by linarith [(le ph mh).1, (le ph mh).2]
  have dB : |hi.val - lo.val| ≤ 2 * B := (abs_sub _ _).trans (by linarith)
  have f : w.isFin = true := r.isFin hp32 (dB.trans (_root_.le_trans (by norm_num at hB ⊢; linarith) le_max32))
  have e := r.err_add f
  rw [u32, eta32] at e
  have e' : |w.val - (hi.val - lo.val)| ≤ B / 2 ^ 23 + 1 / 2 ^ 150 := e.trans (by
    generalize |hi.val - lo.val| = q at *; norm_num; linarith)
  have w0 : 0 ≤ w.val := by
    have := r.ge_of (a := zero false) rfl (by rw [val_zero]; exact d0)
    rw [le_iff_val rfl (isNaN_of_isFin f), val_zero] at this
    exact this
  obtain ⟨e1, e2⟩ := _root_.abs_le.1 e'
  refine ⟨il.fin, f, w0, fun p hp => ⟨(le p hp).1, ?_⟩, ⟨pl, ml, el⟩, ph, mh, ?_⟩
  · have := (le p hp).2; linarith
  · rw [← eh, show lo.val + w.val - hi.val = w.val - (hi.val - lo.val) by ring]; exact e'


/-- the rectangle built from the four axis values -/
theorem boundsOf_rect (bk : Backend) {a b c d : Point F32} {B : ℝ} (hB : B ≤ 2 ^ 126)
    (h : ∀ p ∈ [a, b, c, d], (p.x.isFin = true ∧ |p.x.val| ≤ B) ∧ (p.y.isFin = true ∧ |p.y.val| ≤ B)) :
    let r := GMatrix.boundsOf bk a b c d
    let ε := B / 2 ^ 23 + 1 / 2 ^ 150
    FiniteRect r ∧ 0 ≤ r.size.width.val ∧ 0 ≤ r.size.height.val ∧
    (∀ p ∈ [a, b, c, d], r.origin.x.val ≤ p.x.val ∧ p.x.val ≤ r.origin.x.val + r.size.width.val + ε ∧
      r.origin.y.val ≤ p.y.val ∧ p.y.val ≤ r.origin.y.val + r.size.height.val + ε) ∧
    (∃ p ∈ [a, b, c, d], r.origin.x.val = p.x.val) ∧ (∃ p ∈ [a, b, c, d], |r.origin.x.val + r.size.width.val - p.x.val| ≤ ε) ∧
    (∃ p ∈ [a, b, c, d], r.origin.y.val = p.y.val) ∧ (∃ p ∈ [a, b, c, d], |r.origin.y.val + r.size.height.val - p.y.val| ≤ ε) := by
  intro r ε
  have ha := h a (by simp)
  have hb := h b (by simp)
  have hc := h c (by simp)
  have hd := h d (by simp)
  obtain ⟨x1, x2, x3, x4, x5, x6⟩ := bounds_axis bk ha.1.1 hb.1.1 hc.1.1 hd.1.1 hB ha.1.2 hb.1.2 hc.1.2 hd.1.2
  obtain ⟨y1, y2, y3, y4, y5, y6⟩ := bounds_axis bk ha.2.1 hb.2.1 hc.2.1 hd.2.1 hB ha.2.2 hb.2.2 hc.2.2 hd.2.2
  have e : r = ⟨⟨(Simd4f.minVal bk ⟨a.x, b.x, c.x, d.x⟩).x, (Simd4f.minVal bk ⟨a.y, b.y, c.y, d.y⟩).x⟩,
      ⟨Fp.sub (Simd4f.maxVal bk ⟨a.x, b.x, c.x, d.x⟩).x (Simd4f.minVal bk ⟨a.x, b.x, c.x, d.x⟩).x,
        Fp.sub (Simd4f.maxVal bk ⟨a.y, b.y, c.y, d.y⟩).x (Simd4f.minVal bk ⟨a.y, b.y, c.y, d.y⟩).x⟩⟩ := by
    have n1 := normAxis_id (o := (Simd4f.minVal bk ⟨a.x, b.x, c.x, d.x⟩).x) x2 x3
    have n2 := normAxis_id (o := (Simd4f.minVal bk ⟨a.y, b.y, c.y, d.y⟩).x) y2 y3
    change Rect.normalize ⟨⟨_, _⟩, ⟨_, _⟩⟩ = _
    unfold Rect.normalize
    exact congrArg₂ (fun h v : F32 × F32 => (⟨⟨h.1, v.1⟩, ⟨h.2, v.2⟩⟩ : Rect F32)) n1 n2
  rw [e]
  have mem : ∀ {f : Point F32 → F32} {P : F32 → Prop}, (∃ p ∈ [f a, f b, f c, f d], P p) → ∃ p ∈ [a, b, c, d], P (f p) := by
    intro f P ⟨p, hp, hP⟩
    simp only [List.mem_cons, List.not_mem_nil, or_false] at hp
    rcases hp with rfl | rfl | rfl | rfl
    · exact ⟨a, by simp, hP⟩
    · exact ⟨b, by simp, hP⟩
    · exact ⟨c, by simp, hP⟩
    · exact ⟨d, by simp, hP⟩
  refine ⟨⟨x1, y1, x2, y2⟩, x3, y3, ?_, mem (f := fun p => p.x) x5, mem (f := fun p => p.x) (P := fun q => |_ - q.val| ≤ ε) x6,
    mem (f := fun p => p.y) y5, mem (f := fun p => p.y) (P := fun q => |_ - q.val| ≤ ε) y6⟩
  intro p hp
  have hx : p.x ∈ [a.x, b.x, c.x, d.x] := by
    simp only [List.mem_cons, List.not_mem_nil, or_false] at hp ⊢
    rcases hp with rfl | rfl | rfl | rfl <;> simp
  have hy : p.y ∈ [a.y, b.y, c.y, d.y] := by
    simp only [List.mem_cons, List.not_mem_nil, or_false] at hp ⊢
    rcases hp with rfl | rfl | rfl | rfl <;> simp
  exact ⟨(x4 _ hx).1, (x4 _ hx).2, (y4 _ hy).1, (y4 _ hy).2⟩

/-- C116: `graphene_quad_bounds` of any quadrilateral with finite corners up to `2^126`: the left and top edges are exact, the
right and bottom ones are off by one rounding of the size. -/
theorem C116_quad_bounds (bk : Backend) (q : Quad F32) {B : ℝ} (hB : B ≤ 2 ^ 126)
    (h : ∀ p ∈ [q.p0, q.p1, q.p2, q.p3], (p.x.isFin = true ∧ |p.x.val| ≤ B) ∧ (p.y.isFin = true ∧ |p.y.val| ≤ B)) :
    let r := q.bounds bk
    let ε := B / 2 ^ 23 + 1 / 2 ^ 150
    FiniteRect r ∧ 0 ≤ r.size.width.val ∧ 0 ≤ r.size.height.val ∧
    (∀ p ∈ [q.p0, q.p1, q.p2, q.p3], r.origin.x.val ≤ p.x.val ∧ p.x.val ≤ r.origin.x.val + r.size.width.val + ε ∧
      r.origin.y.val ≤ p.y.val ∧ p.y.val ≤ r.origin.y.val + r.size.height.val + ε) ∧
    (∃ p ∈ [q.p0, q.p1, q.p2, q.p3], r.origin.x.val = p.x.val) ∧
    (∃ p ∈ [q.p0, q.p1, q.p2, q.p3], |r.origin.x.val + r.size.width.val - p.x.val| ≤ ε) ∧
    (∃ p ∈ [q.p0, q.p1, q.p2, q.p3], r.origin.y.val = p.y.val) ∧
    (∃ p ∈ [q.p0, q.p1, q.p2, q.p3], |r.origin.y.val + r.size.height.val - p.y.val| ≤ ε) :=
  boundsOf_rect bk hB h

/-- the two ends of one axis of a rectangle, as `normalize` and the corner accessors compute them -/
theorem axis_ends {o s : F32} (ho : o.isFin = true) (hs : s.isFin = true) {M : ℝ} (hM : |o.val| + |s.val| ≤ M) (hM2 : M ≤ 2 ^ 100) :
    let n := Rect.normAxis o s
    n.1.isFin = true ∧ n.2.isFin = true ∧ 0 ≤ n.2.val ∧ (Fp.add n.1 n.2).isFin = true ∧
    |n.1.val - min o.val (o.val + s.val)| ≤ M / 2 ^ 22 + 1 / 2 ^ 148 ∧
    |(Fp.add n.1 n.2).val - max o.val (o.val + s.val)| ≤ M / 2 ^ 22 + 1 / 2 ^ 148 := by
  intro n
  have o0 := abs_nonneg o.val
  have s0 := abs_nonneg s.val
  have M0 : 0 ≤ M := by linarith
  by_cases h : s.val < 0
  · have e : n = (Fp.sub o (Fp.abs s), Fp.abs s) := by
      simp only [n]
      unfold Rect.normAxis
      have : (s <. (f0 : F32)) = true := by
        rw [f0_eq]; exact (lt_iff_val (isNaN_of_isFin hs) rfl).2 (by rw [val_zero]; exact h)
      rw [this]; rfl
    rw [e]
    have fa : (Fp.abs s).isFin = true := by simpa using hs
    have va : (Fp.abs s).val = -s.val := by rw [val_abs, abs_of_neg h]
    have r1 := rnd_sub ho fa
    rw [va, sub_neg_eq_add] at r1
    have b1 : |o.val + s.val| ≤ M := (abs_add_le _ _).trans hM
    have f1' := r1.isFin hp32 (b1.trans (hM2.trans (_root_.le_trans (by norm_num) le_max32)))
    have e1 := r1.err_add f1'
    rw [u32, eta32] at e1
    set c := Fp.sub o (Fp.abs s)
    have e1' : |c.val - (o.val + s.val)| ≤ M / 2 ^ 24 + 1 / 2 ^ 150 := e1.trans (by
      generalize |o.val + s.val| = q at *; norm_num; linarith)
    have r2 := rnd_add f1' fa
    rw [va] at r2
    have d2 : |c.val + -s.val - o.val| ≤ M / 2 ^ 24 + 1 / 2 ^ 150 := by
      rw [show c.val + -s.val - o.val = c.val - (o.val + s.val) by ring]; exact e1'
    have b2 : |c.val + -s.val| ≤ 2 * M + 1 := by
      have := abs_add_le (c.val + -s.val - o.val) o.val
      rw [sub_add_cancel] at this
      norm_num at d2; linarith
    have f2' := r2.isFin hp32 (b2.trans (_root_.le_trans (by norm_num at hM2 ⊢; linarith) le_max32))
    have e2 := r2.err_add f2'
    rw [u32, eta32] at e2
    refine ⟨f1', fa, by rw [va]; linarith, f2', ?_, ?_⟩
    · rw [min_eq_right (by linarith)]
      refine e1'.trans ?_; norm_num; linarith
    · rw [max_eq_left (by linarith)]
      have t := abs_add_le ((Fp.add c (Fp.abs s)).val - (c.val + -s.val)) (c.val + -s.val - o.val)
      rw [sub_add_sub_cancel] at t
      have b3 : |c.val + -s.val| ≤ M + (M / 2 ^ 24 + 1 / 2 ^ 150) := by
        have := abs_add_le (c.val + -s.val - o.val) o.val
        rw [sub_add_cancel] at this
        linarith
      refine t.trans ((add_le_add e2 d2).trans ?_)
      generalize |c.val + -s.val| = q at *
      norm_num at b3 ⊢; linarith
  · have h' : 0 ≤ s.val := not_lt.1 h
    have e : n = (o, s) := normAxis_id hs h'
    rw [e]
    have r1 := rnd_add ho hs
    have b1 : |o.val + s.val| ≤ M := (abs_add_le _ _).trans hM
    have f1' := r1.isFin hp32 (b1.trans (hM2.trans (_root_.le_trans (by norm_num) le_max32)))
    have e1 := r1.err_add f1'
    rw [u32, eta32] at e1
    refine ⟨ho, hs, h', f1', ?_, ?_⟩
    · rw [min_eq_left (by linarith), sub_self, abs_zero]; positivity
    · rw [max_eq_right (by linarith)]
      refine e1.trans ?_
      generalize |o.val + s.val| = q at *; norm_num; linarith

/-- the corners of a normalised rectangle -/
theorem corners_eq (r : Rect F32) {M : ℝ} (hr : FiniteRect r) (hx : |r.origin.x.val| + |r.size.width.val| ≤ M)
    (hy : |r.origin.y.val| + |r.size.height.val| ≤ M) (hM2 : M ≤ 2 ^ 100) :
    let h := Rect.normAxis r.origin.x r.size.width
    let v := Rect.normAxis r.origin.y r.size.height
    r.normalize.getTopLeft = ⟨h.1, v.1⟩ ∧ r.normalize.getTopRight = ⟨Fp.add h.1 h.2, v.1⟩ ∧
    r.normalize.getBottomRight = ⟨Fp.add h.1 h.2, Fp.add v.1 v.2⟩ ∧ r.normalize.getBottomLeft = ⟨h.1, Fp.add v.1 v.2⟩ := by
  intro h v
  obtain ⟨-, a2, a3, -⟩ := axis_ends hr.1 hr.2.2.1 hx hM2
  obtain ⟨-, b2, b3, -⟩ := axis_ends hr.2.1 hr.2.2.2 hy hM2
  have n1 : Rect.normAxis h.1 h.2 = (h.1, h.2) := normAxis_id a2 a3
  have n2 : Rect.normAxis v.1 v.2 = (v.1, v.2) := normAxis_id b2 b3
  have e : r.normalize.normalize = ⟨⟨h.1, v.1⟩, ⟨h.2, v.2⟩⟩ := by
    change (⟨⟨(Rect.normAxis h.1 h.2).1, (Rect.normAxis v.1 v.2).1⟩, ⟨(Rect.normAxis h.1 h.2).2, (Rect.normAxis v.1 v.2).2⟩⟩ : Rect F32) = _
    rw [n1, n2]
  refine ⟨?_, ?_, ?_, ?_⟩
  · unfold Rect.getTopLeft; rw [e]
  · unfold Rect.getTopRight; rw [e]; rfl
  · unfold Rect.getBottomRight; rw [e]; rfl
  · unfold Rect.getBottomLeft; rw [e]; rfl

/-- the image of a corner -/
theorem corner_image (m : M4 F32) (hm : FinMat m) {M N : ℝ} (M0 : 0 ≤ M) (hN : ∀ i j, |rmat m i j| ≤ N) (hMN : (2 * M + 1) * N ≤ 2 ^ 126)
    (p : Point F32) (hx : p.x.isFin = true) (hy : p.y.isFin = true) (bx : |p.x.val| ≤ M) (bY : |p.y.val| ≤ M) :
    let q := GMatrix.transformCorner m p
    let e := moved m ⟨p.x.val, p.y.val⟩
    (q.x.isFin = true ∧ |q.x.val - e.x| ≤ dotErr ((2 * M + 1) * N)) ∧ (q.y.isFin = true ∧ |q.y.val - e.y| ≤ dotErr ((2 * M + 1) * N)) := by
  intro q e
  have zero := is_f0
  have one := is_f1
  set v : Vec4 F32 := ⟨Simd4f.init p.x p.y f0 f1⟩ with hv
  have v0 : rvec v.value 0 = p.x.val := rfl
  have v1 : rvec v.value 1 = p.y.val := rfl
  have v2 : rvec v.value 2 = 0 := zero.val
  have v3 : rvec v.value 3 = 1 := one.val
  have fv : FinVec v.value := by
    intro i
    fin_cases i
    · exact hx
    · exact hy
    · exact zero.fin
    · exact one.fin
  have S : ∀ j, ∑ i, |rvec v.value i * rmat m i j| ≤ (2 * M + 1) * N := by
    intro j
    rw [Fin.sum_univ_four, v0, v1, v2, v3, MulZeroClass.zero_mul, abs_zero, _root_.one_mul, _root_.abs_mul, _root_.abs_mul]
    have h1 := mul_le_mul bx (hN 0 j) (abs_nonneg _) M0
    have h2 := mul_le_mul bY (hN 1 j) (abs_nonneg _) M0
    have h3 := hN 3 j
    linarith
  have key := fun j => C87_transform_vec4 m v hm fv j ((S j).trans hMN)
  have mono : ∀ {a b : ℝ}, a ≤ b → dotErr a ≤ dotErr b := by
    intro a b h; unfold dotErr; gcongr
  have k0 := key 0
  have k1 := key 1
  rw [Fin.sum_univ_four, v0, v1, v2, v3] at k0 k1
  have e0 : p.x.val * rmat m 0 0 + p.y.val * rmat m 1 0 + 0 * rmat m 2 0 + 1 * rmat m 3 0 = e.x := by
    change p.x.val * m.x.x.val + p.y.val * m.y.x.val + 0 * m.z.x.val + 1 * m.w.x.val = p.x.val * m.x.x.val + p.y.val * m.y.x.val + m.w.x.val
    ring
  have e1 : p.x.val * rmat m 0 1 + p.y.val * rmat m 1 1 + 0 * rmat m 2 1 + 1 * rmat m 3 1 = e.y := by
    change p.x.val * m.x.y.val + p.y.val * m.y.y.val + 0 * m.z.y.val + 1 * m.w.y.val = p.x.val * m.x.y.val + p.y.val * m.y.y.val + m.w.y.val
    ring
  rw [e0] at k0
  rw [e1] at k1
  exact ⟨⟨k0.1, k0.2.trans (mono (S 0))⟩, ⟨k1.1, k1.2.trans (mono (S 1))⟩⟩

/-- the allowance for one image of a corner computed by `normalize` and the accessors -/
theorem corner_near (m : M4 F32) (hm : FinMat m) {M N : ℝ} (hM : M ≤ 2 ^ 100) (hN : ∀ i j, |rmat m i j| ≤ N)
    (hMN : (2 * M + 1) * N ≤ 2 ^ 124) (p : Point F32) (hx : p.x.isFin = true) (hy : p.y.isFin = true) {u v : ℝ} (hu : |u| ≤ M) (hv : |v| ≤ M)
    (dx : |p.x.val - u| ≤ M / 2 ^ 22 + 1 / 2 ^ 148) (dy : |p.y.val - v| ≤ M / 2 ^ 22 + 1 / 2 ^ 148) :
    let q := GMatrix.transformCorner m p
    let e := moved m ⟨u, v⟩
    let δ := (2 * M + 1) * N / 2 ^ 21 + (2 * M + 1) * N / 2 ^ 40 + (N + 1) / 2 ^ 146
    (q.x.isFin = true ∧ |q.x.val - e.x| ≤ δ ∧ |q.x.val| ≤ (2 * M + 1) * N + δ) ∧
    (q.y.isFin = true ∧ |q.y.val - e.y| ≤ δ ∧ |q.y.val| ≤ (2 * M + 1) * N + δ) := by
  intro q e δ
  have M0 : 0 ≤ M := (abs_nonneg u).trans hu
  have N0 : 0 ≤ N := (abs_nonneg _).trans (hN 0 0)
  have MN0 : 0 ≤ M * N := mul_nonneg M0 N0
  set η : ℝ := M / 2 ^ 22 + 1 / 2 ^ 148 with hη
  have η0 : 0 ≤ η := by positivity
  have bx : |p.x.val| ≤ M + η := by
    have := abs_add_le (p.x.val - u) u
    rw [sub_add_cancel] at this; linarith
  have bY : |p.y.val| ≤ M + η := by
    have := abs_add_le (p.y.val - v) v
    rw [sub_add_cancel] at this; linarith
  have eN : η * N = M * N / 2 ^ 22 + N / 2 ^ 148 := by rw [hη]; ring
  have S' : (2 * (M + η) + 1) * N = 2 * (M * N) + N + 2 * (M * N / 2 ^ 22 + N / 2 ^ 148) := by rw [← eN]; ring
  have S0 : (2 * M + 1) * N = 2 * (M * N) + N := by ring
  have big : (2 * (M + η) + 1) * N ≤ 2 ^ 126 := by rw [S']; rw [S0] at hMN; norm_num at hMN ⊢; linarith
  obtain ⟨⟨f1', k1⟩, ⟨f2', k2⟩⟩ := corner_image m hm (by linarith : 0 ≤ M + η) hN big p hx hy bx bY
  have lip : ∀ a b c : ℝ, |a| ≤ N → |b| ≤ N →
      |(p.x.val * a + p.y.val * b + c) - (u * a + v * b + c)| ≤ 2 * (η * N) := by
    intro a b c ha hb
    rw [show (p.x.val * a + p.y.val * b + c) - (u * a + v * b + c) = (p.x.val - u) * a + (p.y.val - v) * b by ring]
    have h1 := abs_add_le ((p.x.val - u) * a) ((p.y.val - v) * b)
    rw [_root_.abs_mul, _root_.abs_mul] at h1
    have h2 := mul_le_mul dx ha (abs_nonneg _) η0
    have h3 := mul_le_mul dy hb (abs_nonneg _) η0
    linarith
  have sz : ∀ a b c : ℝ, |a| ≤ N → |b| ≤ N → |c| ≤ N → |u * a + v * b + c| ≤ (2 * M + 1) * N := by
    intro a b c ha hb hc
    have h1 := abs_add_le (u * a + v * b) c
    have h2 := abs_add_le (u * a) (v * b)
    rw [_root_.abs_mul, _root_.abs_mul] at h2
    have h3 := mul_le_mul hu ha (abs_nonneg _) M0
    have h4 := mul_le_mul hv hb (abs_nonneg _) M0
    linarith
  have fin : ∀ {c d t : ℝ}, |c - d| ≤ dotErr ((2 * (M + η) + 1) * N) → |d - t| ≤ 2 * (η * N) → |t| ≤ (2 * M + 1) * N →
      |c - t| ≤ δ ∧ |c| ≤ (2 * M + 1) * N + δ := by
    intro c d t h1 h2 h3
    have : |c - t| ≤ δ := by
      have h := abs_add_le (c - d) (d - t)
      rw [sub_add_sub_cancel] at h
      refine h.trans ((add_le_add h1 h2).trans ?_)
      rw [S', eN]
      simp only [δ]
      rw [S0]
      unfold dotErr
      norm_num
      linarith
    refine ⟨this, ?_⟩
    have h := abs_add_le (c - t) t
    rw [sub_add_cancel] at h
    linarith
  exact ⟨⟨f1', fin k1 (lip m.x.x.val m.y.x.val m.w.x.val (hN 0 0) (hN 1 0)) (sz _ _ _ (hN 0 0) (hN 1 0) (hN 3 0))⟩,
    ⟨f2', fin k2 (lip m.x.y.val m.y.y.val m.w.y.val (hN 0 1) (hN 1 1)) (sz _ _ _ (hN 0 1) (hN 1 1) (hN 3 1))⟩⟩

omit [Libm binary32] in
theorem bounds_arith {S N δ : ℝ} (S0 : 0 ≤ S) (N0 : 0 ≤ N) (NS : N ≤ S) (hδ : δ = S / 2 ^ 21 + S / 2 ^ 40 + (N + 1) / 2 ^ 146)
    (hS : S ≤ 2 ^ 124) : S + δ ≤ 2 ^ 126 ∧ δ + ((S + δ) / 2 ^ 23 + 1 / 2 ^ 150) ≤ S / 2 ^ 20 + (N + 1) / 2 ^ 145 ∧
      0 ≤ (S + δ) / 2 ^ 23 + 1 / 2 ^ 150 := by
  have : 0 ≤ δ := by rw [hδ]; positivity
  refine ⟨?_, ?_, by positivity⟩
  · rw [hδ]; norm_num at hS ⊢; linarith
  · rw [hδ]; norm_num; linarith

/-- the corners of the real rectangle: top left, top right, bottom right, bottom left -/
noncomputable def Spec.realCorners (r : Rect ℝ) : List (Point ℝ) :=
  [⟨left r, top r⟩, ⟨right r, top r⟩, ⟨right r, bottom r⟩, ⟨left r, bottom r⟩]

/-- C116: `graphene_matrix_transform_bounds` in single precision, for an arbitrary finite matrix and rectangle (any signs of the
width and height): with coordinates up to `M` and entries up to `N` the result contains the exact image of every point of the
rectangle up to `ε`, and every side passes within `ε` of the exact image of a corner. -/
theorem C116_bounds (bk : Backend) (m : M4 F32) (r : Rect F32) (hm : FinMat m) (hr : FiniteRect r) {M N : ℝ}
    (hx : |r.origin.x.val| + |r.size.width.val| ≤ M) (hy : |r.origin.y.val| + |r.size.height.val| ≤ M) (hM : M ≤ 2 ^ 100)
    (hN : ∀ i j, |rmat m i j| ≤ N) (hMN : (2 * M + 1) * N ≤ 2 ^ 124) :
    let b := GMatrix.transformBounds bk m r
    let ε := (2 * M + 1) * N / 2 ^ 20 + (N + 1) / 2 ^ 145
    FiniteRect b ∧ 0 ≤ b.size.width.val ∧ 0 ≤ b.size.height.val ∧
    (∀ p ∈ area (exact r), b.origin.x.val - ε ≤ (moved m p).x ∧ (moved m p).x ≤ b.origin.x.val + b.size.width.val + ε ∧
      b.origin.y.val - ε ≤ (moved m p).y ∧ (moved m p).y ≤ b.origin.y.val + b.size.height.val + ε) ∧
    (∃ c ∈ realCorners (exact r), |b.origin.x.val - (moved m c).x| ≤ ε) ∧
    (∃ c ∈ realCorners (exact r), |b.origin.x.val + b.size.width.val - (moved m c).x| ≤ ε) ∧
    (∃ c ∈ realCorners (exact r), |b.origin.y.val - (moved m c).y| ≤ ε) ∧
    (∃ c ∈ realCorners (exact r), |b.origin.y.val + b.size.height.val - (moved m c).y| ≤ ε) := by
  intro b ε
  obtain ⟨x1, x2, x3, x4, x5, x6⟩ := axis_ends hr.1 hr.2.2.1 hx hM
  obtain ⟨y1, y2, y3, y4, y5, y6⟩ := axis_ends hr.2.1 hr.2.2.2 hy hM
  obtain ⟨c1, c2, c3, c4⟩ := corners_eq r hr hx hy hM
  set h := Rect.normAxis r.origin.x r.size.width
  set v := Rect.normAxis r.origin.y r.size.height
  have N0 : 0 ≤ N := (abs_nonneg _).trans (hN 0 0)
  have M0 : 0 ≤ M := (add_nonneg (abs_nonneg _) (abs_nonneg _)).trans hx
  have mB : ∀ {o s : ℝ}, |o| + |s| ≤ M → |min o (o + s)| ≤ M ∧ |Max.max o (o + s)| ≤ M := by
    intro o s h
    have h1 := abs_add_le o s
    have h2 := abs_nonneg s
    constructor
    · rcases min_choice o (o + s) with e | e <;> rw [e] <;> linarith
    · rcases max_choice o (o + s) with e | e <;> rw [e] <;> linarith
  set δ := (2 * M + 1) * N / 2 ^ 21 + (2 * M + 1) * N / 2 ^ 40 + (N + 1) / 2 ^ 146 with hδ
  set q1 := GMatrix.transformCorner m ⟨h.1, v.1⟩
  set q2 := GMatrix.transformCorner m ⟨Fp.add h.1 h.2, v.1⟩
  set q3 := GMatrix.transformCorner m ⟨Fp.add h.1 h.2, Fp.add v.1 v.2⟩
  set q4 := GMatrix.transformCorner m ⟨h.1, Fp.add v.1 v.2⟩
  have k1 := corner_near m hm hM hN hMN ⟨h.1, v.1⟩ x1 y1 (mB hx).1 (mB hy).1 x5 y5
  have k2 := corner_near m hm hM hN hMN ⟨Fp.add h.1 h.2, v.1⟩ x4 y1 (mB hx).2 (mB hy).1 x6 y5
  have k3 := corner_near m hm hM hN hMN ⟨Fp.add h.1 h.2, Fp.add v.1 v.2⟩ x4 y4 (mB hx).2 (mB hy).2 x6 y6
  have k4 := corner_near m hm hM hN hMN ⟨h.1, Fp.add v.1 v.2⟩ x1 y4 (mB hx).1 (mB hy).2 x5 y6
  have eb : b = GMatrix.boundsOf bk q1 q2 q3 q4 := by
    simp only [b, GMatrix.transformBounds, c1, c2, c3, c4]; rfl
  have S0 : 0 ≤ (2 * M + 1) * N := mul_nonneg (by linarith) N0
  have NS : N ≤ (2 * M + 1) * N := by nlinarith [mul_nonneg M0 N0]
  obtain ⟨hB, dε, dε0⟩ := bounds_arith S0 N0 NS hδ hMN
  obtain ⟨b1, b2, b3, b4, b5, b6, b7, b8⟩ := boundsOf_rect bk (a := q1) (b := q2) (c := q3) (d := q4) hB (by
    intro p hp
    simp only [List.mem_cons, List.not_mem_nil, or_false] at hp
    rcases hp with rfl | rfl | rfl | rfl
    · exact ⟨⟨k1.1.1, k1.1.2.2⟩, ⟨k1.2.1, k1.2.2.2⟩⟩
    · exact ⟨⟨k2.1.1, k2.1.2.2⟩, ⟨k2.2.1, k2.2.2.2⟩⟩
    · exact ⟨⟨k3.1.1, k3.1.2.2⟩, ⟨k3.2.1, k3.2.2.2⟩⟩
    · exact ⟨⟨k4.1.1, k4.1.2.2⟩, ⟨k4.2.1, k4.2.2.2⟩⟩)
  rw [← eb] at b1 b2 b3 b4 b5 b6 b7 b8
  have near : ∀ q ∈ [q1, q2, q3, q4], ∃ c ∈ realCorners (exact r), |q.x.val - (moved m c).x| ≤ δ ∧ |q.y.val - (moved m c).y| ≤ δ := by
    intro p hp
    simp only [List.mem_cons, List.not_mem_nil, or_false] at hp
    rcases hp with rfl | rfl | rfl | rfl
    · exact ⟨⟨left (exact r), top (exact r)⟩, by simp [realCorners], k1.1.2.1, k1.2.2.1⟩
    · exact ⟨⟨right (exact r), top (exact r)⟩, by simp [realCorners], k2.1.2.1, k2.2.2.1⟩
    · exact ⟨⟨right (exact r), bottom (exact r)⟩, by simp [realCorners], k3.1.2.1, k3.2.2.1⟩
    · exact ⟨⟨left (exact r), bottom (exact r)⟩, by simp [realCorners], k4.1.2.1, k4.2.2.1⟩
  have far : ∀ c ∈ realCorners (exact r), ∃ q ∈ [q1, q2, q3, q4], |q.x.val - (moved m c).x| ≤ δ ∧ |q.y.val - (moved m c).y| ≤ δ := by
    intro p hp
    simp only [realCorners, List.mem_cons, List.not_mem_nil, or_false] at hp
    rcases hp with rfl | rfl | rfl | rfl
    · exact ⟨q1, by simp, k1.1.2.1, k1.2.2.1⟩
    · exact ⟨q2, by simp, k2.1.2.1, k2.2.2.1⟩
    · exact ⟨q3, by simp, k3.1.2.1, k3.2.2.1⟩
    · exact ⟨q4, by simp, k4.1.2.1, k4.2.2.1⟩
  change _ ≤ ε at dε
  clear_value δ ε
  have corner : ∀ c ∈ realCorners (exact r), b.origin.x.val - ε ≤ (moved m c).x ∧ (moved m c).x ≤ b.origin.x.val + b.size.width.val + ε ∧
      b.origin.y.val - ε ≤ (moved m c).y ∧ (moved m c).y ≤ b.origin.y.val + b.size.height.val + ε := by
    intro c hc
    obtain ⟨q, hq, e1, e2⟩ := far c hc
    obtain ⟨i1, i2, i3, i4⟩ := b4 q hq
    obtain ⟨j1, j2⟩ := _root_.abs_le.1 e1
    obtain ⟨l1, l2⟩ := _root_.abs_le.1 e2
    exact ⟨by linarith, by linarith, by linarith, by linarith⟩
  refine ⟨b1, b2, b3, ?_, ?_, ?_, ?_, ?_⟩
  · rintro p ⟨p1, p2, p3, p4⟩
    have t1 := corner ⟨left (exact r), top (exact r)⟩ (by simp [realCorners])
    have t2 := corner ⟨right (exact r), top (exact r)⟩ (by simp [realCorners])
    have t3 := corner ⟨right (exact r), bottom (exact r)⟩ (by simp [realCorners])
    have t4 := corner ⟨left (exact r), bottom (exact r)⟩ (by simp [realCorners])
    have gx := corner2 p1 p2 p3 p4 m.x.x.val m.y.x.val m.w.x.val
    have gy := corner2 p1 p2 p3 p4 m.x.y.val m.y.y.val m.w.y.val
    exact ⟨(le_min (le_min t1.1 t2.1) (le_min t3.1 t4.1)).trans gx.1,
      gx.2.trans (max_le (max_le t1.2.1 t2.2.1) (max_le t3.2.1 t4.2.1)),
      (le_min (le_min t1.2.2.1 t2.2.2.1) (le_min t3.2.2.1 t4.2.2.1)).trans gy.1,
      gy.2.trans (max_le (max_le t1.2.2.2 t2.2.2.2) (max_le t3.2.2.2 t4.2.2.2))⟩
  · obtain ⟨q, hq, e⟩ := b5
    obtain ⟨c, hc, e1, -⟩ := near q hq
    exact ⟨c, hc, by rw [e]; linarith⟩
  · obtain ⟨q, hq, e⟩ := b6
    obtain ⟨c, hc, e1, -⟩ := near q hq
    refine ⟨c, hc, ?_⟩
    have t := abs_add_le (b.origin.x.val + b.size.width.val - q.x.val) (q.x.val - (moved m c).x)
    rw [sub_add_sub_cancel] at t
    linarith
  · obtain ⟨q, hq, e⟩ := b7
    obtain ⟨c, hc, -, e1⟩ := near q hq
    exact ⟨c, hc, by rw [e]; linarith⟩
  · obtain ⟨q, hq, e⟩ := b8
    obtain ⟨c, hc, -, e1⟩ := near q hq
    refine ⟨c, hc, ?_⟩
    have t := abs_add_le (b.origin.y.val + b.size.height.val - q.y.val) (q.y.val - (moved m c).y)
    rw [sub_add_sub_cancel] at t
    linarith

/-! ### boxes -/

/-- the real point that a 3D point of finite floats stands for -/
noncomputable def Spec.exactPoint3 (p : Point3D F32) : Point3D ℝ := ⟨p.x.val, p.y.val, p.z.val⟩
/-- `c` is one of the eight vertices of the box with opposite corners `lo` and `hi` -/
def Spec.IsVertex (lo hi c : Point3D ℝ) : Prop :=
  (c.x = lo.x ∨ c.x = hi.x) ∧ (c.y = lo.y ∨ c.y = hi.y) ∧ (c.z = lo.z ∨ c.z = hi.z)

/-- one lane of `graphene_simd4x4f_point3_mul` -/
theorem point3_lane {a b c d x y z : F32} (ha : a.isFin = true) (hb : b.isFin = true) (hc : c.isFin = true) (hd : d.isFin = true)
    (hx : x.isFin = true) (hy : y.isFin = true) (hz : z.isFin = true) {M N : ℝ} (bx : |x.val| ≤ M) (bY : |y.val| ≤ M) (bz : |z.val| ≤ M)
    (ba : |a.val| ≤ N) (bb : |b.val| ≤ N) (bc : |c.val| ≤ N) (bd : |d.val| ≤ N) (hMN : (3 * M + 1) * N ≤ 2 ^ 126) :
    (Fp.add (Fp.add (Fp.mul a x) (Fp.mul b y)) (Fp.add (Fp.mul c z) d)).isFin = true ∧
    |(Fp.add (Fp.add (Fp.mul a x) (Fp.mul b y)) (Fp.add (Fp.mul c z) d)).val -
      (x.val * a.val + y.val * b.val + z.val * c.val + d.val)| ≤ dotErr ((3 * M + 1) * N) := by
  have N0 : 0 ≤ N := (abs_nonneg _).trans ba
  have n1 := mul_le_mul ba bx (abs_nonneg _) N0
  have n2 := mul_le_mul bb bY (abs_nonneg _) N0
  have n3 := mul_le_mul bc bz (abs_nonneg _) N0
  rw [← _root_.abs_mul] at n1 n2 n3
  have p1 := abs_nonneg (a.val * x.val)
  have p2 := abs_nonneg (b.val * y.val)
  have p3 := abs_nonneg (c.val * z.val)
  have p4 := abs_nonneg d.val
  have h : |a.val * x.val| + |b.val * y.val| + |c.val * z.val| + |d.val| ≤ (3 * M + 1) * N := by linarith
  have h' := h.trans hMN
  have q1 := prod_approx ha hx (by linarith)
  have q2 := prod_approx hb hy (by linarith)
  have q3 := prod_approx hc hz (by linarith)
  have r1 := sum2_approx q1 q2 (by norm_num [-_root_.abs_mul] at h' ⊢; linarith)
  have r2 := sum2_approx q3 (Approx.exact hd) (by norm_num [-_root_.abs_mul] at h' ⊢; linarith)
  have q := sum2_approx r1 r2 (by norm_num [-_root_.abs_mul] at h' ⊢; linarith)
  refine ⟨q.fin, ?_⟩
  have := q.err
  rw [show x.val * a.val + y.val * b.val + z.val * c.val + d.val = a.val * x.val + b.val * y.val + (c.val * z.val + d.val) by ring]
  refine this.trans ?_
  unfold dotErr; norm_num [-_root_.abs_mul] at h ⊢; linarith

/-- the least and greatest of a list of images, against the images they stand for -/
theorem lane_bounds {l : List (Vec3 F32)} {f : Vec3 F32 → F32} {g : Vec3 F32 → ℝ} {ε : ℝ} (h : ∀ v ∈ l, (f v).isFin = true ∧ |(f v).val - g v| ≤ ε)
    {a b : F32} (ha : Spec.IsLeast a (l.map f)) (hb : Spec.IsGreatest b (l.map f)) :
    a.isFin = true ∧ b.isFin = true ∧ (∀ v ∈ l, a.val - ε ≤ g v ∧ g v ≤ b.val + ε) ∧
    (∃ v ∈ l, |a.val - g v| ≤ ε) ∧ (∃ v ∈ l, |b.val - g v| ≤ ε) := by
  obtain ⟨va, ma, ea⟩ := List.mem_map.1 ha.1
  obtain ⟨vb, mb, eb⟩ := List.mem_map.1 hb.1
  have fa : a.isFin = true := by rw [← ea]; exact (h va ma).1
  have fb : b.isFin = true := by rw [← eb]; exact (h vb mb).1
  refine ⟨fa, fb, fun v hv => ?_, ⟨va, ma, by rw [← ea]; exact (h va ma).2⟩, ⟨vb, mb, by rw [← eb]; exact (h vb mb).2⟩⟩
  obtain ⟨e1, e2⟩ := _root_.abs_le.1 (h v hv).2
  have l1 := ha.2 _ (List.mem_map.2 ⟨v, hv, rfl⟩)
  have l2 := hb.2 _ (List.mem_map.2 ⟨v, hv, rfl⟩)
  rw [le_iff_val (isNaN_of_isFin fa) (isNaN_of_isFin (h v hv).1)] at l1
  rw [le_iff_val (isNaN_of_isFin (h v hv).1) (isNaN_of_isFin fb)] at l2
  exact ⟨by linarith, by linarith⟩

/-- C116: `graphene_matrix_transform_box` in single precision: with coordinates up to `M` and entries up to `N`, the box it
returns contains the exact image of every point between the two corners up to `ε`, and every face passes within `ε` of the exact
image of a vertex. -/
theorem C116_box (bk : Backend) (m : M4 F32) (lo hi : Point3D F32) (hm : FinMat m) {M N : ℝ}
    (hlo : ∀ x ∈ [lo.x, lo.y, lo.z, hi.x, hi.y, hi.z], x.isFin = true ∧ |x.val| ≤ M)
    (hN : ∀ i j, |rmat m i j| ≤ N) (hMN : (3 * M + 1) * N ≤ 2 ^ 126) :
    let b := GMatrix.transformBox bk m (Box.init (some lo) (some hi))
    let ε := dotErr ((3 * M + 1) * N)
    let f := fun p => image (exactMat m) p
    (∀ x ∈ [b.getMin.x, b.getMin.y, b.getMin.z, b.getMax.x, b.getMax.y, b.getMax.z], x.isFin = true) ∧
    (∀ p ∈ between (exactPoint3 lo) (exactPoint3 hi),
      (b.getMin.x.val - ε ≤ (f p).x ∧ (f p).x ≤ b.getMax.x.val + ε) ∧
      (b.getMin.y.val - ε ≤ (f p).y ∧ (f p).y ≤ b.getMax.y.val + ε) ∧
      (b.getMin.z.val - ε ≤ (f p).z ∧ (f p).z ≤ b.getMax.z.val + ε)) ∧
    (∃ c, IsVertex (exactPoint3 lo) (exactPoint3 hi) c ∧ |b.getMin.x.val - (f c).x| ≤ ε) ∧
    (∃ c, IsVertex (exactPoint3 lo) (exactPoint3 hi) c ∧ |b.getMax.x.val - (f c).x| ≤ ε) ∧
    (∃ c, IsVertex (exactPoint3 lo) (exactPoint3 hi) c ∧ |b.getMin.y.val - (f c).y| ≤ ε) ∧
    (∃ c, IsVertex (exactPoint3 lo) (exactPoint3 hi) c ∧ |b.getMax.y.val - (f c).y| ≤ ε) ∧
    (∃ c, IsVertex (exactPoint3 lo) (exactPoint3 hi) c ∧ |b.getMin.z.val - (f c).z| ≤ ε) ∧
    (∃ c, IsVertex (exactPoint3 lo) (exactPoint3 hi) c ∧ |b.getMax.z.val - (f c).z| ≤ ε) := by
  intro b ε f
  set l := (Box.init (some lo) (some hi)).getVertices with hl
  have mem : ∀ v, v ∈ l ↔ ∃ x y z, (x = lo.x ∨ x = hi.x) ∧ (y = lo.y ∨ y = hi.y) ∧ (z = lo.z ∨ z = hi.z) ∧ v = Vec3.init x y z := by
    intro v
    simp only [hl, Box.getVertices, Box.init, Point3D.toVec3, Box.getMin, Box.getMax, Point3D.initFromVec3,
        Point3D.initFromSimd4f, Simd4f.init, List.mem_cons, List.not_mem_nil, or_false]
    constructor
    · rintro (h | h | h | h | h | h | h | h)
      · exact ⟨lo.x, lo.y, lo.z, .inl rfl, .inl rfl, .inl rfl, h⟩
      · exact ⟨lo.x, lo.y, hi.z, .inl rfl, .inl rfl, .inr rfl, h⟩
      · exact ⟨lo.x, hi.y, lo.z, .inl rfl, .inr rfl, .inl rfl, h⟩
      · exact ⟨lo.x, hi.y, hi.z, .inl rfl, .inr rfl, .inr rfl, h⟩
      · exact ⟨hi.x, lo.y, lo.z, .inr rfl, .inl rfl, .inl rfl, h⟩
      · exact ⟨hi.x, lo.y, hi.z, .inr rfl, .inl rfl, .inr rfl, h⟩
      · exact ⟨hi.x, hi.y, lo.z, .inr rfl, .inr rfl, .inl rfl, h⟩
      · exact ⟨hi.x, hi.y, hi.z, .inr rfl, .inr rfl, .inr rfl, h⟩
    · rintro ⟨x, y, z, rfl | rfl, rfl | rfl, rfl | rfl, rfl⟩ <;> simp
  have lx := hlo lo.x (by simp)
  have ly := hlo lo.y (by simp)
  have lz := hlo lo.z (by simp)
  have gx := hlo hi.x (by simp)
  have gy := hlo hi.y (by simp)
  have gz := hlo hi.z (by simp)
  set T : Vec3 F32 → Vec3 F32 := fun v => ⟨Simd4x4f.point3Mul m v.value⟩ with hT
  have lane : ∀ v ∈ l, ((T v).value.x.isFin = true ∧ |(T v).value.x.val - (f ⟨v.value.x.val, v.value.y.val, v.value.z.val⟩).x| ≤ ε) ∧
      ((T v).value.y.isFin = true ∧ |(T v).value.y.val - (f ⟨v.value.x.val, v.value.y.val, v.value.z.val⟩).y| ≤ ε) ∧
      ((T v).value.z.isFin = true ∧ |(T v).value.z.val - (f ⟨v.value.x.val, v.value.y.val, v.value.z.val⟩).z| ≤ ε) ∧
      (T v).value.w.isFin = true := by
    intro v hv
    obtain ⟨x, y, z, hx, hy, hz, rfl⟩ := (mem v).1 hv
    have bx : x.isFin = true ∧ |x.val| ≤ M := by rcases hx with rfl | rfl <;> assumption
    have bY : y.isFin = true ∧ |y.val| ≤ M := by rcases hy with rfl | rfl <;> assumption
    have bz : z.isFin = true ∧ |z.val| ≤ M := by rcases hz with rfl | rfl <;> assumption
    simp only [f, image_eq]
    have k := fun j : Fin 4 => point3_lane (hm 0 j) (hm 1 j) (hm 2 j) (hm 3 j) bx.1 bY.1 bz.1 bx.2 bY.2 bz.2 (hN 0 j) (hN 1 j) (hN 2 j) (hN 3 j) hMN
    exact ⟨k 0, k 1, k 2, (k 3).1⟩
  have hne : l.map T ≠ [] := by
    simp only [hl, Box.getVertices]; exact List.cons_ne_nil _ _
  obtain ⟨x1, x2, y1, y2, z1, z2, -⟩ := C29_box_vectors bk (l.map T) (by
    intro v hv
    obtain ⟨u, hu, rfl⟩ := List.mem_map.1 hv
    obtain ⟨h1, h2, h3, h4⟩ := lane u hu
    exact ⟨isNaN_of_isFin h1.1, isNaN_of_isFin h2.1, isNaN_of_isFin h3.1, isNaN_of_isFin h4⟩) hne
  rw [List.map_map] at x1 x2 y1 y2 z1 z2
  obtain ⟨a1, a2, a3, a4, a5⟩ := lane_bounds (f := fun v => (T v).value.x) (g := fun v => (f ⟨v.value.x.val, v.value.y.val, v.value.z.val⟩).x)
    (fun v hv => (lane v hv).1) x1 x2
  obtain ⟨b1, b2, b3, b4, b5⟩ := lane_bounds (f := fun v => (T v).value.y) (g := fun v => (f ⟨v.value.x.val, v.value.y.val, v.value.z.val⟩).y)
    (fun v hv => (lane v hv).2.1) y1 y2
  obtain ⟨c1, c2, c3, c4, c5⟩ := lane_bounds (f := fun v => (T v).value.z) (g := fun v => (f ⟨v.value.x.val, v.value.y.val, v.value.z.val⟩).z)
    (fun v hv => (lane v hv).2.2.1) z1 z2
  have vert : ∀ {P : Point3D ℝ → Prop}, (∃ v ∈ l, P ⟨v.value.x.val, v.value.y.val, v.value.z.val⟩) →
      ∃ c, IsVertex (exactPoint3 lo) (exactPoint3 hi) c ∧ P c := by
    rintro P ⟨v, hv, h⟩
    obtain ⟨x, y, z, hx, hy, hz, rfl⟩ := (mem v).1 hv
    exact ⟨_, ⟨hx.imp (congrArg Fp.val) (congrArg Fp.val), hy.imp (congrArg Fp.val) (congrArg Fp.val), hz.imp (congrArg Fp.val) (congrArg Fp.val)⟩, h⟩
  refine ⟨?_, ?_, vert a4, vert a5, vert b4, vert b5, vert c4, vert c5⟩
  · intro x hx
    simp only [List.mem_cons, List.not_mem_nil, or_false] at hx
    rcases hx with rfl | rfl | rfl | rfl | rfl | rfl
    · exact a1
    · exact b1
    · exact c1
    · exact a2
    · exact b2
    · exact c2
  · rintro p ⟨p1, p2, p3, p4, p5, p6⟩
    have vm : ∀ u v w, (u = lo.x.val ∨ u = hi.x.val) → (v = lo.y.val ∨ v = hi.y.val) → (w = lo.z.val ∨ w = hi.z.val) →
        ∃ t ∈ l, t.value.x.val = u ∧ t.value.y.val = v ∧ t.value.z.val = w := by
      intro u v w hu hv hw
      have ex : ∀ {u : ℝ} {a b : F32}, (u = a.val ∨ u = b.val) → ∃ x : F32, (x = a ∨ x = b) ∧ x.val = u := by
        rintro u a b (h | h)
        · exact ⟨a, .inl rfl, h.symm⟩
        · exact ⟨b, .inr rfl, h.symm⟩
      obtain ⟨x, hx, ea⟩ := ex hu
      obtain ⟨y, hy, ey⟩ := ex hv
      obtain ⟨z, hz, ez⟩ := ex hw
      exact ⟨Vec3.init x y z, (mem _).2 ⟨x, y, z, hx, hy, hz, rfl⟩, ea, ey, ez⟩
    simp only [f, image_eq] at a3 b3 c3 ⊢
    refine ⟨corner3 p1 p2 p3 p4 p5 p6 ?_, corner3 p1 p2 p3 p4 p5 p6 ?_, corner3 p1 p2 p3 p4 p5 p6 ?_⟩
    · intro u v w hu hv hw
      obtain ⟨t, ht, rfl, rfl, rfl⟩ := vm u v w hu hv hw
      exact a3 t ht
    · intro u v w hu hv hw
      obtain ⟨t, ht, rfl, rfl, rfl⟩ := vm u v w hu hv hw
      exact b3 t ht
    · intro u v w hu hv hw
      obtain ⟨t, ht, rfl, rfl, rfl⟩ := vm u v w hu hv hw
      exact c3 t ht

/-- the hypotheses hold for concrete data: a rotation with scaling and translation, applied to a rectangle of negative width and
to a box. -/
example : ∃ (m : M4 F32) (r : Rect F32) (lo hi : Point3D F32), FinMat m ∧ FiniteRect r ∧ r.size.width.val < 0 ∧
    |r.origin.x.val| + |r.size.width.val| ≤ 5 ∧ |r.origin.y.val| + |r.size.height.val| ≤ 5 ∧ (∀ i j, |rmat m i j| ≤ 7) ∧
    rmat m 0 1 ≠ 0 ∧ (∀ x ∈ [lo.x, lo.y, lo.z, hi.x, hi.y, hi.z], x.isFin = true ∧ |x.val| ≤ 5) ∧ lo.x.val < hi.x.val := by
  have g : ∀ n : ℤ, n.natAbs ≤ 7 → (lit n 1 : F32).isFin = true ∧ (lit n 1 : F32).val = n := fun n hn => lit_int n (by omega)
  have c0 := g 0 (by decide)
  have c1 := g 1 (by decide)
  have c2 := g 2 (by decide)
  have c3 := g 3 (by decide)
  have c5 := g 5 (by decide)
  have c7 := g 7 (by decide)
  have d2 := g (-2) (by decide)
  refine ⟨⟨⟨lit 1 1, lit 2 1, lit 0 1, lit 0 1⟩, ⟨lit (-2) 1, lit 1 1, lit 0 1, lit 0 1⟩, ⟨lit 0 1, lit 0 1, lit 3 1, lit 0 1⟩,
    ⟨lit 5 1, lit 7 1, lit 1 1, lit 1 1⟩⟩, ⟨⟨lit 3 1, lit 1 1⟩, ⟨lit (-2) 1, lit 2 1⟩⟩, ⟨lit (-2) 1, lit 0 1, lit 1 1⟩,
    ⟨lit 3 1, lit 2 1, lit 5 1⟩, ?_, ⟨c3.1, c1.1, d2.1, c2.1⟩, ?_, ?_, ?_, ?_, ?_, ?_, ?_⟩
  · intro i j; fin_cases i <;> fin_cases j <;> first | exact c0.1 | exact c1.1 | exact c2.1 | exact c3.1 | exact c5.1 | exact c7.1 | exact d2.1
  · change (lit (-2) 1 : F32).val < 0; rw [d2.2]; norm_num
  · change |(lit 3 1 : F32).val| + |(lit (-2) 1 : F32).val| ≤ 5; rw [c3.2, d2.2]; norm_num
  · change |(lit 1 1 : F32).val| + |(lit 2 1 : F32).val| ≤ 5; rw [c1.2, c2.2]; norm_num
  · have k : ∀ {n : ℤ}, (lit n 1 : F32).val = n → |n| ≤ 7 → |(lit n 1 : F32).val| ≤ 7 := by
      intro n h h7; rw [h]; exact_mod_cast h7
    have k0 := k c0.2 (by norm_num)
    have k1 := k c1.2 (by norm_num)
    have k2 := k c2.2 (by norm_num)
    have k3 := k c3.2 (by norm_num)
    have k5 := k c5.2 (by norm_num)
    have k7 := k c7.2 (by norm_num)
    have k' := k d2.2 (by norm_num)
    intro i j; fin_cases i <;> fin_cases j <;> first | exact k0 | exact k1 | exact k2 | exact k3 | exact k5 | exact k7 | exact k'
  · change (lit 2 1 : F32).val ≠ 0; rw [c2.2]; norm_num
  · intro x hx
    simp only [List.mem_cons, List.not_mem_nil, or_false] at hx
    rcases hx with rfl | rfl | rfl | rfl | rfl | rfl
    · exact ⟨d2.1, by rw [d2.2]; norm_num⟩
    · exact ⟨c0.1, by rw [c0.2]; norm_num⟩
    · exact ⟨c1.1, by rw [c1.2]; norm_num⟩
    · exact ⟨c3.1, by rw [c3.2]; norm_num⟩
    · exact ⟨c2.1, by rw [c2.2]; norm_num⟩
    · exact ⟨c5.1, by rw [c5.2]; norm_num⟩
  · change (lit (-2) 1 : F32).val < (lit 3 1 : F32).val; rw [d2.2, c3.2]; norm_num

end Graphene

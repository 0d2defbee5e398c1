/-
  C91: rectangle tests with arbitrary finite floats err on one side only.
-/
import Verif.Props.Float5

set_option exponentiation.threshold 3000

namespace Graphene
open Fp Spec

/-- finite, with sizes that are not negative (what every constructor and `normalize` produce) -/
def Spec.NormalRect (r : Rect F32) : Prop :=
  FiniteRect r ∧ 0 ≤ r.size.width.val ∧ 0 ≤ r.size.height.val

variable [Libm binary32] {r a b : Rect F32}

theorem normAxis_id {o s : F32} (hs : s.isFin = true) (h : 0 ≤ s.val) : Rect.normAxis o s = (o, s) := by
  unfold Rect.normAxis
  have : (s <. f0) = false := by
    rw [← Bool.not_eq_true, f0_eq, sc_lt, lt_iff_val (isNaN_of_isFin hs) rfl, val_zero]
    exact _root_.not_lt.2 h
  rw [this]; rfl
theorem normalize_id (h : NormalRect r) : r.normalize = r := by
  unfold Rect.normalize
  rw [normAxis_id h.1.2.2.1 h.2.1, normAxis_id h.1.2.2.2 h.2.2]
omit [Libm binary32] in
theorem edges_normal (h : NormalRect r) :
    left (exact r) = r.origin.x.val ∧ right (exact r) = r.origin.x.val + r.size.width.val ∧
    top (exact r) = r.origin.y.val ∧ bottom (exact r) = r.origin.y.val + r.size.height.val :=
  edges_mk _ _ _ _ h.2.1 h.2.2

/-- C91: a point of the rectangle is never reported outside. -/
theorem C91_no_false_negative (h : NormalRect r) (p : Point F32) (hx : p.x.isFin = true)
    (hy : p.y.isFin = true) (hp : exactPoint p ∈ area (exact r)) : r.containsPoint p = true := by
  obtain ⟨e1, e2, e3, e4⟩ := edges_normal h
  obtain ⟨h1, h2, h3, h4⟩ := hp
  rw [e1] at h1; rw [e2] at h2; rw [e3] at h3; rw [e4] at h4
  unfold Rect.containsPoint
  rw [normalize_id h]
  simp only [sc_le, sc_add, Bool.and_eq_true]
  have rx := rnd_add h.1.1 h.1.2.2.1
  have ry := rnd_add h.1.2.1 h.1.2.2.2
  refine ⟨⟨⟨?_, ?_⟩, rx.ge_of hx h2⟩, ry.ge_of hy h4⟩
  · rw [le_iff_val (isNaN_of_isFin h.1.1) (isNaN_of_isFin hx)]; exact h1
  · rw [le_iff_val (isNaN_of_isFin h.1.2.1) (isNaN_of_isFin hy)]; exact h3

/-- C91: a point reported inside is right of the left edge and below the top edge exactly, and beyond the
right (bottom) edge at most by the rounding of that edge: no float lies between the edge and it. -/
theorem C91_false_positive_bound (h : NormalRect r) (p : Point F32) (hx : p.x.isFin = true)
    (hy : p.y.isFin = true) (hp : r.containsPoint p = true) :
    left (exact r) ≤ p.x.val ∧ top (exact r) ≤ p.y.val ∧
    (∀ q : F32, q.isFin = true → right (exact r) ≤ q.val → p.x.val ≤ q.val) ∧
    (∀ q : F32, q.isFin = true → bottom (exact r) ≤ q.val → p.y.val ≤ q.val) := by
  obtain ⟨e1, e2, e3, e4⟩ := edges_normal h
  rw [e1, e2, e3, e4]
  unfold Rect.containsPoint at hp
  rw [normalize_id h] at hp
  simp only [sc_le, sc_add, Bool.and_eq_true] at hp
  obtain ⟨⟨⟨h1, h2⟩, h3⟩, h4⟩ := hp
  have rx := rnd_add h.1.1 h.1.2.2.1
  have ry := rnd_add h.1.2.1 h.1.2.2.2
  rw [le_iff_val (isNaN_of_isFin h.1.1) (isNaN_of_isFin hx)] at h1
  rw [le_iff_val (isNaN_of_isFin h.1.2.1) (isNaN_of_isFin hy)] at h2
  rw [le_iff_val (isNaN_of_isFin hx) rx.not_nan] at h3
  rw [le_iff_val (isNaN_of_isFin hy) ry.not_nan] at h4
  refine ⟨h1, h2, fun q hq g => h3.trans ?_, fun q hq g => h4.trans ?_⟩
  · rw [← le_iff_val rx.not_nan (isNaN_of_isFin hq)]; exact rx.le_of hq g
  · rw [← le_iff_val ry.not_nan (isNaN_of_isFin hq)]; exact ry.le_of hq g

theorem cMax_val {x y : F32} (hx : x.isNaN = false) (hy : y.isNaN = false) :
    (cMax x y).val = Max.max x.val y.val ∧ (cMax x y).isNaN = false ∧ (cMax x y = x ∨ cMax x y = y) := by
  unfold cMax
  cases h : (y <. x)
  · rw [sc_lt, ← Bool.not_eq_true, lt_iff_val hy hx] at h
    exact ⟨(max_eq_right (_root_.not_lt.1 h)).symm, hy, Or.inr rfl⟩
  · rw [sc_lt, lt_iff_val hy hx] at h
    exact ⟨(max_eq_left h.le).symm, hx, Or.inl rfl⟩
theorem cMin_val {x y : F32} (hx : x.isNaN = false) (hy : y.isNaN = false) :
    (cMin x y).val = Min.min x.val y.val ∧ (cMin x y).isNaN = false ∧ (cMin x y = x ∨ cMin x y = y) := by
  unfold cMin
  cases h : (x <. y)
  · rw [sc_lt, ← Bool.not_eq_true, lt_iff_val hx hy] at h
    exact ⟨(min_eq_right (_root_.not_lt.1 h)).symm, hy, Or.inr rfl⟩
  · rw [sc_lt, lt_iff_val hx hy] at h
    exact ⟨(min_eq_left h.le).symm, hx, Or.inl rfl⟩

/-- one axis of the intersection test -/
theorem inter_axis {x w y z : F32} (hx : x.isFin = true) (hw : w.isFin = true) (hy : y.isFin = true)
    (hz : z.isFin = true) (w0 : 0 ≤ w.val) (z0 : 0 ≤ z.val) :
    ((cMin (x +. w) (y +. z) <=. cMax x y) = false →
      Max.max x.val y.val < Min.min (x.val + w.val) (y.val + z.val)) ∧
    (∀ q : F32, q.isFin = true → Max.max x.val y.val < q.val →
      q.val ≤ Min.min (x.val + w.val) (y.val + z.val) → (cMin (x +. w) (y +. z) <=. cMax x y) = false) := by
  have r1 := rnd_add hx hw
  have r2 := rnd_add hy hz
  obtain ⟨m1, m2, m3⟩ := cMax_val (isNaN_of_isFin hx) (isNaN_of_isFin hy)
  obtain ⟨n1, n2, n3⟩ := cMin_val r1.not_nan r2.not_nan
  have key : (cMin (x +. w) (y +. z) <=. cMax x y) = false ↔
      (Max.max x.val y.val < (add x w).val ∧ Max.max x.val y.val < (add y z).val) := by
    rw [← Bool.not_eq_true, sc_le, sc_add, sc_add, le_iff_val n2 m2, m1, n1, _root_.not_le, lt_min_iff]
  have hm : (cMax x y).isFin = true := by rcases m3 with e | e <;> rw [e] <;> assumption
  rw [key]
  constructor
  · rintro ⟨h1, h2⟩
    rw [lt_min_iff]
    constructor
    · by_contra h
      have := r1.le_of hm (by rw [m1]; exact _root_.not_lt.1 h)
      rw [le_iff_val r1.not_nan m2, m1] at this
      exact absurd h1 (_root_.not_lt.2 this)
    · by_contra h
      have := r2.le_of hm (by rw [m1]; exact _root_.not_lt.1 h)
      rw [le_iff_val r2.not_nan m2, m1] at this
      exact absurd h2 (_root_.not_lt.2 this)
  · intro q hq h1 h2
    rw [le_min_iff] at h2
    have g1 := r1.ge_of hq h2.1
    have g2 := r2.ge_of hq h2.2
    rw [le_iff_val (isNaN_of_isFin hq) r1.not_nan] at g1
    rw [le_iff_val (isNaN_of_isFin hq) r2.not_nan] at g2
    exact ⟨h1.trans_le g1, h1.trans_le g2⟩

omit [Libm binary32] in
theorem interior_inter (ha : NormalRect a) (hb : NormalRect b) :
    (interior (exact a) ∩ interior (exact b)).Nonempty ↔
    Max.max a.origin.x.val b.origin.x.val <
      Min.min (a.origin.x.val + a.size.width.val) (b.origin.x.val + b.size.width.val) ∧
    Max.max a.origin.y.val b.origin.y.val <
      Min.min (a.origin.y.val + a.size.height.val) (b.origin.y.val + b.size.height.val) := by
  obtain ⟨a1, a2, a3, a4⟩ := edges_normal ha
  obtain ⟨b1, b2, b3, b4⟩ := edges_normal hb
  constructor
  · rintro ⟨p, ⟨h1, h2, h3, h4⟩, ⟨g1, g2, g3, g4⟩⟩
    rw [a1] at h1; rw [a2] at h2; rw [a3] at h3; rw [a4] at h4
    rw [b1] at g1; rw [b2] at g2; rw [b3] at g3; rw [b4] at g4
    exact ⟨(max_lt h1 g1).trans (lt_min h2 g2), (max_lt h3 g3).trans (lt_min h4 g4)⟩
  · rintro ⟨h1, h2⟩
    obtain ⟨x, x1, x2⟩ := exists_between h1
    obtain ⟨y, y1, y2⟩ := exists_between h2
    rw [max_lt_iff] at x1 y1
    rw [lt_min_iff] at x2 y2
    refine ⟨⟨x, y⟩, ?_, ?_⟩ <;> unfold Spec.interior <;> simp only [Set.mem_setOf_eq, a1, a2, a3, a4, b1, b2, b3, b4]
    · exact ⟨x1.1, x2.1, y1.1, y2.1⟩
    · exact ⟨x1.2, x2.2, y1.2, y2.2⟩

theorem intersection_fst (ha : NormalRect a) (hb : NormalRect b) :
    (a.intersection b).1 = true ↔
    (cMin (a.origin.x +. a.size.width) (b.origin.x +. b.size.width) <=. cMax a.origin.x b.origin.x) = false ∧
    (cMin (a.origin.y +. a.size.height) (b.origin.y +. b.size.height) <=. cMax a.origin.y b.origin.y) = false := by
  unfold Rect.intersection
  rw [normalize_id ha, normalize_id hb]
  simp only []
  cases (cMin (a.origin.x +. a.size.width) (b.origin.x +. b.size.width) <=. cMax a.origin.x b.origin.x) <;>
    cases (cMin (a.origin.y +. a.size.height) (b.origin.y +. b.size.height) <=. cMax a.origin.y b.origin.y) <;>
    simp

/-- C91: an intersection reported for finite rectangles is real: the exact interiors overlap. -/
theorem C91_intersection_sound (ha : NormalRect a) (hb : NormalRect b) (h : (a.intersection b).1 = true) :
    (interior (exact a) ∩ interior (exact b)).Nonempty := by
  rw [interior_inter ha hb]
  rw [intersection_fst ha hb] at h
  exact ⟨(inter_axis ha.1.1 ha.1.2.2.1 hb.1.1 hb.1.2.2.1 ha.2.1 hb.2.1).1 h.1,
    (inter_axis ha.1.2.1 ha.1.2.2.2 hb.1.2.1 hb.1.2.2.2 ha.2.2 hb.2.2).1 h.2⟩

/-- C91: rectangles that share a float point that is on neither's left or top edge are reported to
intersect. -/
theorem C91_intersection_complete (ha : NormalRect a) (hb : NormalRect b) (p : Point F32)
    (hx : p.x.isFin = true) (hy : p.y.isFin = true)
    (pa : exactPoint p ∈ area (exact a)) (pb : exactPoint p ∈ area (exact b))
    (na : left (exact a) < p.x.val ∧ top (exact a) < p.y.val)
    (nb : left (exact b) < p.x.val ∧ top (exact b) < p.y.val) :
    (a.intersection b).1 = true := by
  rw [intersection_fst ha hb]
  obtain ⟨a1, a2, a3, a4⟩ := edges_normal ha
  obtain ⟨b1, b2, b3, b4⟩ := edges_normal hb
  obtain ⟨-, h2, -, h4⟩ := pa
  obtain ⟨-, g2, -, g4⟩ := pb
  rw [a1, a3] at na; rw [b1, b3] at nb
  rw [a2] at h2; rw [a4] at h4
  rw [b2] at g2; rw [b4] at g4
  exact ⟨(inter_axis ha.1.1 ha.1.2.2.1 hb.1.1 hb.1.2.2.1 ha.2.1 hb.2.1).2 p.x hx (max_lt na.1 nb.1) (le_min h2 g2),
    (inter_axis ha.1.2.1 ha.1.2.2.2 hb.1.2.1 hb.1.2.2.2 ha.2.2 hb.2.2).2 p.y hy (max_lt na.2 nb.2) (le_min h4 g4)⟩

/-- One axis of the union: error of the far edge. -/
theorem union_axis {x w y z : F32} (hx : x.isFin = true) (hw : w.isFin = true) (hy : y.isFin = true)
    (hz : z.isFin = true) (bx : |x.val| ≤ 2 ^ 124) (bw : |w.val| ≤ 2 ^ 124) (b_y : |y.val| ≤ 2 ^ 124)
    (bz : |z.val| ≤ 2 ^ 124) (w0 : 0 ≤ w.val) :
    let l := cMin x y
    let s := Fp.sub (cMax (Fp.add x w) (Fp.add y z)) l
    let R := Max.max (x.val + w.val) (y.val + z.val)
    l.isFin = true ∧ l.val = Min.min x.val y.val ∧ s.isFin = true ∧ 0 ≤ s.val ∧
    |l.val + s.val - R| ≤ (|R| + |l.val|) / 2 ^ 22 := by
  intro l s R
  obtain ⟨l1, l2, l3⟩ := cMin_val (isNaN_of_isFin hx) (isNaN_of_isFin hy)
  have lf : l.isFin = true := by rcases l3 with e | e <;> (unfold l; rw [e]; assumption)
  have lb : |l.val| ≤ 2 ^ 124 := by rcases l3 with e | e <;> (unfold l; rw [e]; assumption)
  have big := le_max32
  have r1 := rnd_add hx hw
  have r2 := rnd_add hy hz
  have bs1 : |x.val + w.val| ≤ 2 ^ 125 := (abs_add_le _ _).trans (by norm_num at bx bw ⊢; linarith)
  have bs2 : |y.val + z.val| ≤ 2 ^ 125 := (abs_add_le _ _).trans (by norm_num at b_y bz ⊢; linarith)
  have f1 := r1.isFin hp32 (bs1.trans (by norm_num at big ⊢; linarith))
  have f2 := r2.isFin hp32 (bs2.trans (by norm_num at big ⊢; linarith))
  obtain ⟨m1, m2, m3⟩ := cMax_val (isNaN_of_isFin f1) (isNaN_of_isFin f2)
  set M := cMax (Fp.add x w) (Fp.add y z) with hM
  have Mf : M.isFin = true := by rcases m3 with e | e <;> rw [e] <;> assumption
  -- the rounding of the larger edge
  have Rb : |R| ≤ 2 ^ 125 := by
    rcases max_choice (x.val + w.val) (y.val + z.val) with e | e <;> (unfold R; rw [e]; assumption)
  have e1 := (Approx.add_exact hp32 hx hw (bs1.trans (by norm_num at big ⊢; linarith))).err
  have e2 := (Approx.add_exact hp32 hy hz (bs2.trans (by norm_num at big ⊢; linarith))).err
  have Me : |M.val - R| ≤ |R| / 2 ^ 24 := by
    rw [m1]
    rcases _root_.le_total (x.val + w.val) (y.val + z.val) with g | g
    · have g' := r1.mono r2 g
      rw [le_iff_val (isNaN_of_isFin f1) (isNaN_of_isFin f2)] at g'
      rw [max_eq_right g']; unfold R; rw [max_eq_right g]
      rw [u32] at e2; norm_num at e2 ⊢; linarith
    · have g' := r2.mono r1 g
      rw [le_iff_val (isNaN_of_isFin f2) (isNaN_of_isFin f1)] at g'
      rw [max_eq_left g']; unfold R; rw [max_eq_left g]
      rw [u32] at e1; norm_num at e1 ⊢; linarith
  have Mb : |M.val| ≤ 2 * |R| := by
    have := abs_add_le (M.val - R) R
    rw [sub_add_cancel] at this
    have := abs_nonneg R
    norm_num at Me; linarith
  have Sb : |M.val - l.val| ≤ 2 * |R| + |l.val| := (abs_sub _ _).trans (by linarith)
  have A := Approx.sub_exact hp32 Mf lf (Sb.trans (by norm_num at big Rb lb ⊢; linarith))
  have e3 := A.err
  have s0 : 0 ≤ s.val := by
    have h1 := r1.ge_of hx (by linarith)
    rw [le_iff_val (isNaN_of_isFin hx) (isNaN_of_isFin f1)] at h1
    have h2 : l.val ≤ M.val := by
      rw [l1, m1]; exact (min_le_left _ _).trans (h1.trans (le_max_left _ _))
    have := (rnd_sub Mf lf).ge_of (a := zero false) rfl (by rw [val_zero]; linarith)
    rwa [le_iff_val rfl (isNaN_of_isFin A.fin), val_zero] at this
  refine ⟨lf, l1, A.fin, s0, ?_⟩
  have e4 : |M.val - l.val| ≤ 17 / 16 * |R| + |l.val| := by
    have := abs_add_le (M.val - R) R
    rw [sub_add_cancel] at this
    have h2 := abs_sub M.val l.val
    have := abs_nonneg R
    norm_num at Me; linarith
  have e5 : l.val + s.val - R = (s.val - (M.val - l.val)) + (M.val - R) := by ring
  have e6 := abs_add_le (s.val - (M.val - l.val)) (M.val - R)
  rw [← e5] at e6
  rw [u32] at e3
  have : |s.val - (M.val - l.val)| ≤ 1 / 16777216 * |M.val - l.val| := by linarith
  have n1 := abs_nonneg R
  have n2 := abs_nonneg l.val
  norm_num at Me ⊢; linarith

/-- C91: for arbitrary finite rectangles the left and top edge of the union are exact, and the right and
bottom edge are off by at most `2^-22` of the magnitudes of the edges involved. -/
theorem C91_union_error (ha : NormalRect a) (hb : NormalRect b)
    (ba : |a.origin.x.val| ≤ 2 ^ 124 ∧ |a.origin.y.val| ≤ 2 ^ 124 ∧ |a.size.width.val| ≤ 2 ^ 124 ∧
      |a.size.height.val| ≤ 2 ^ 124)
    (bb : |b.origin.x.val| ≤ 2 ^ 124 ∧ |b.origin.y.val| ≤ 2 ^ 124 ∧ |b.size.width.val| ≤ 2 ^ 124 ∧
      |b.size.height.val| ≤ 2 ^ 124) :
    NormalRect (a.union b) ∧
    left (exact (a.union b)) = Min.min (left (exact a)) (left (exact b)) ∧
    top (exact (a.union b)) = Min.min (top (exact a)) (top (exact b)) ∧
    |right (exact (a.union b)) - Max.max (right (exact a)) (right (exact b))| ≤
      (|Max.max (right (exact a)) (right (exact b))| + |left (exact (a.union b))|) / 2 ^ 22 ∧
    |bottom (exact (a.union b)) - Max.max (bottom (exact a)) (bottom (exact b))| ≤
      (|Max.max (bottom (exact a)) (bottom (exact b))| + |top (exact (a.union b))|) / 2 ^ 22 := by
  obtain ⟨x1, x2, x3, wx, x4⟩ := union_axis ha.1.1 ha.1.2.2.1 hb.1.1 hb.1.2.2.1 ba.1 ba.2.2.1 bb.1 bb.2.2.1 ha.2.1
  obtain ⟨y1, y2, y3, wy, y4⟩ := union_axis ha.1.2.1 ha.1.2.2.2 hb.1.2.1 hb.1.2.2.2 ba.2.1 ba.2.2.2 bb.2.1 bb.2.2.2 ha.2.2
  have e : a.union b = ⟨⟨cMin a.origin.x b.origin.x, cMin a.origin.y b.origin.y⟩,
      ⟨Fp.sub (cMax (Fp.add a.origin.x a.size.width) (Fp.add b.origin.x b.size.width)) (cMin a.origin.x b.origin.x),
       Fp.sub (cMax (Fp.add a.origin.y a.size.height) (Fp.add b.origin.y b.size.height)) (cMin a.origin.y b.origin.y)⟩⟩ := by
    unfold Rect.union; rw [normalize_id ha, normalize_id hb]; rfl
  rw [e]
  have n : NormalRect ⟨⟨cMin a.origin.x b.origin.x, cMin a.origin.y b.origin.y⟩,
      ⟨Fp.sub (cMax (Fp.add a.origin.x a.size.width) (Fp.add b.origin.x b.size.width)) (cMin a.origin.x b.origin.x),
       Fp.sub (cMax (Fp.add a.origin.y a.size.height) (Fp.add b.origin.y b.size.height)) (cMin a.origin.y b.origin.y)⟩⟩ :=
    ⟨⟨x1, y1, x3, y3⟩, wx, wy⟩
  obtain ⟨a1, a2, a3, a4⟩ := edges_normal ha
  obtain ⟨b1, b2, b3, b4⟩ := edges_normal hb
  obtain ⟨u1, u2, u3, u4⟩ := edges_normal n
  rw [u1, u2, u3, u4, a1, a2, a3, a4, b1, b2, b3, b4]
  exact ⟨n, x2, y2, x4, y4⟩

/-- The bounds are attained: rectangles whose exact interiors overlap by less than the rounding of an edge
are reported disjoint (`[2^-30, 1 + 2^-30]` and `[1, 2]`), and a rectangle given with a negative size can
lose its own origin (`2^-30 - 1` and `(2^-30 - 1) + 1` are rounded). -/
theorem C91_limits :
    (∃ a b : Rect F32, NormalRect a ∧ NormalRect b ∧ (interior (exact a) ∩ interior (exact b)).Nonempty ∧
      (a.intersection b).1 = false) ∧
    ∃ r : Rect F32, FiniteRect r ∧ r.containsPoint r.origin = false := by
  constructor
  · have d := lit_dyadic 1 30 (by decide) (by decide)
    have o := lit_int 1 (by decide)
    have z := lit_int 0 (by decide)
    have na : NormalRect ⟨⟨lit 1 (2 ^ 30), lit 0 1⟩, ⟨lit 1 1, lit 1 1⟩⟩ :=
      ⟨⟨d.1, z.1, o.1, o.1⟩, by simp only [o.2]; norm_num, by simp only [o.2]; norm_num⟩
    have nb : NormalRect ⟨⟨lit 1 1, lit 0 1⟩, ⟨lit 1 1, lit 1 1⟩⟩ :=
      ⟨⟨o.1, z.1, o.1, o.1⟩, by simp only [o.2]; norm_num, by simp only [o.2]; norm_num⟩
    refine ⟨_, _, na, nb, ?_, by kdecide⟩
    rw [interior_inter na nb]
    simp only [d.2, o.2, z.2]
    norm_num
  · exact ⟨⟨⟨lit 1 (2 ^ 30), lit 0 1⟩, ⟨lit (-1) 1, lit 1 1⟩⟩, by unfold FiniteRect; kdecide, by kdecide⟩

/-- non-vacuity: a normalised rectangle off every coarse grid, and a point in it -/
example : ∃ (r : Rect F32) (p : Point F32), NormalRect r ∧ exactPoint p ∈ area (exact r) ∧
    0 < r.origin.x.val ∧ r.containsPoint p = true := by
  have d := lit_dyadic 1 30 (by decide) (by decide)
  have o := lit_int 1 (by decide)
  have z := lit_int 0 (by decide)
  have n : NormalRect ⟨⟨lit 1 (2 ^ 30), lit 0 1⟩, ⟨lit 1 1, lit 1 1⟩⟩ :=
    ⟨⟨d.1, z.1, o.1, o.1⟩, by simp only [o.2]; norm_num, by simp only [o.2]; norm_num⟩
  have hp : exactPoint ⟨lit 1 1, lit 1 1⟩ ∈ area (exact ⟨⟨lit 1 (2 ^ 30), lit 0 1⟩, ⟨lit 1 1, lit 1 1⟩⟩) := by
    obtain ⟨e1, e2, e3, e4⟩ := edges_normal n
    simp only [area, Set.mem_setOf_eq, e1, e2, e3, e4, exactPoint, d.2, o.2, z.2]
    norm_num
  refine ⟨_, _, n, hp, ?_, C91_no_false_negative n _ o.1 o.1 hp⟩
  show 0 < (lit 1 (2 ^ 30) : F32).val
  rw [d.2]; norm_num

end Graphene

/-
  C119: rays and boxes in single precision.
-/
import Verif.Props.Float28

set_option exponentiation.threshold 3000

namespace Graphene
open Fp Spec
variable [Libm binary32]

/-! ### Parameter ranges -/

/-- the real parameters a computed range stands for: an interval, everything (a parallel axis inside) or nothing (outside) -/
inductive RangeSet : Bool → F32 × F32 → Set ℝ → Prop
  | act {z} : z.1.isFin = true → z.2.isFin = true → z.1.val ≤ z.2.val → RangeSet true z (Set.Icc z.1.val z.2.val)
  | inn {z} : RangeIn z → RangeSet false z Set.univ
  | out {z} : RangeOut z → RangeSet false z ∅

theorem merge_act_act {y z : F32 × F32} (hy : RangeSet true y (Set.Icc y.1.val y.2.val)) (hz : RangeSet true z (Set.Icc z.1.val z.2.val))
    (fy : y.1.isFin = true ∧ y.2.isFin = true ∧ y.1.val ≤ y.2.val) (fz : z.1.isFin = true ∧ z.2.isFin = true ∧ z.1.val ≤ z.2.val) :
    (Ray.slabMerge y z = none ∧ Set.Icc y.1.val y.2.val ∩ Set.Icc z.1.val z.2.val = ∅) ∨
    ∃ w, Ray.slabMerge y z = some w ∧ RangeSet true w (Set.Icc y.1.val y.2.val ∩ Set.Icc z.1.val z.2.val) := by
  obtain ⟨y1, y2⟩ := y; obtain ⟨z1, z2⟩ := z
  obtain ⟨g1, g2, g3⟩ := fy
  obtain ⟨h1, h2, h3⟩ := fz
  dsimp only at g1 g2 g3 h1 h2 h3 ⊢
  have lt : ∀ {a b : F32}, a.isFin = true → b.isFin = true → ((a <. b) = true ↔ a.val < b.val) :=
    fun ha hb => lt_iff_val (isNaN_of_isFin ha) (isNaN_of_isFin hb)
  have n1 : Scalar.isNaN y1 = false := isNaN_of_isFin g1
  have n2 : Scalar.isNaN y2 = false := isNaN_of_isFin g2
  unfold Ray.slabMerge
  simp only [n1, n2, Bool.or_false]
  rw [Set.Icc_inter_Icc]
  by_cases c : z2.val < y1.val ∨ y2.val < z1.val
  · left
    rw [if_pos (by rw [Bool.or_eq_true, lt h2 g1, lt g2 h1]; exact c)]
    refine ⟨rfl, Set.Icc_eq_empty ?_⟩
    rw [_root_.not_le]
    rcases c with c | c
    · exact lt_of_le_of_lt inf_le_right (lt_of_lt_of_le c le_sup_left)
    · exact lt_of_le_of_lt inf_le_left (lt_of_lt_of_le c le_sup_right)
  · right
    rw [if_neg (by rw [Bool.or_eq_true, lt h2 g1, lt g2 h1]; exact c)]
    refine ⟨_, rfl, ?_⟩
    push Not at c
    have key : ∀ (w : F32 × F32) (A B : ℝ), w.1.isFin = true → w.2.isFin = true → w.1.val = A → w.2.val = B → A ≤ B → RangeSet true w (Set.Icc A B) := by
      intro w A B f1 f2 e1 e2 h; subst e1 e2; exact .act f1 f2 h
    have f1 : (if (y1 <. z1) = true then z1 else y1).isFin = true ∧ (if (y1 <. z1) = true then z1 else y1).val = y1.val ⊔ z1.val := by
      by_cases k : y1.val < z1.val
      · rw [if_pos ((lt g1 h1).2 k)]; exact ⟨h1, (sup_eq_right.2 k.le).symm⟩
      · rw [if_neg (fun h => k ((lt g1 h1).1 h))]; exact ⟨g1, (sup_eq_left.2 (not_lt.1 k)).symm⟩
    have f2 : (if (z2 <. y2) = true then z2 else y2).isFin = true ∧ (if (z2 <. y2) = true then z2 else y2).val = y2.val ⊓ z2.val := by
      by_cases k : z2.val < y2.val
      · rw [if_pos ((lt h2 g2).2 k)]; exact ⟨h2, (inf_eq_right.2 k.le).symm⟩
      · rw [if_neg (fun h => k ((lt h2 g2).1 h))]; exact ⟨g2, (inf_eq_left.2 (not_lt.1 k)).symm⟩
    exact key _ _ _ f1.1 f2.1 f1.2 f2.2 (sup_le (le_inf g3 c.1) (le_inf c.2 h3))

theorem merge_range {f g : Bool} {y z : F32 × F32} {A B : Set ℝ} (hy : RangeSet f y A) (hz : RangeSet g z B) :
    (Ray.slabMerge y z = none ∧ A ∩ B = ∅) ∨ ∃ w, Ray.slabMerge y z = some w ∧ RangeSet (f || g) w (A ∩ B) := by
  cases hy with
  | act a1 a2 a3 =>
    cases hz with
    | act b1 b2 b3 => exact merge_act_act (.act a1 a2 a3) (.act b1 b2 b3) ⟨a1, a2, a3⟩ ⟨b1, b2, b3⟩
    | inn b => right; exact ⟨y, (merge_act_in ⟨a1, a2⟩ b).1, by rw [Set.inter_univ]; exact .act a1 a2 a3⟩
    | out b => left; exact ⟨(merge_act_out ⟨a1, a2⟩ b).1, Set.inter_empty _⟩
  | inn a =>
    cases hz with
    | act b1 b2 b3 => right; exact ⟨z, (merge_act_in ⟨b1, b2⟩ a).2, by rw [Set.univ_inter]; exact .act b1 b2 b3⟩
    | inn b => right; obtain ⟨w, e, h⟩ := merge_in_in a b; exact ⟨w, e, by rw [Set.univ_inter]; exact .inn h⟩
    | out b => right; obtain ⟨w, e, h⟩ := (merge_in_out a b).1; exact ⟨w, e, by rw [Set.univ_inter]; exact .out h⟩
  | out a =>
    cases hz with
    | act b1 b2 b3 => left; exact ⟨(merge_act_out ⟨b1, b2⟩ a).2, Set.empty_inter _⟩
    | inn b => right; obtain ⟨w, e, h⟩ := (merge_in_out b a).2; exact ⟨w, e, by rw [Set.empty_inter]; exact .out h⟩
    | out b =>
      rcases merge_out_out a b with e | ⟨w, e, h⟩
      · left; exact ⟨e, Set.empty_inter _⟩
      · right; exact ⟨w, e, by rw [Set.empty_inter]; exact .out h⟩

/-! ### One axis -/

/-- the components of a direction the backend can invert, or which are zero -/
def Spec.Invertible (bk : Backend) (d : F32) : Prop :=
  d.val = 0 ∨ (1 / 2 ^ 60 ≤ |d.val| ∧ (bk = .gcc ∨ bk = .scalar false → 1 / 2 ^ 23 < |d.val|))

/-- the accuracy with which the faces of a box are met, seen from the origin of the ray -/
noncomputable def Spec.faceErr (face o : ℝ) : ℝ := |face - o| / 2 ^ 19 + 1 / 2 ^ 148

omit [Libm binary32] in
/-- a face: the computed parameter, for the exact one `(face - o) / d` -/
theorem face_param {g d lo o : F32} (hg : g.isFin = true) (hgd : |g.val * d.val - 1| ≤ 1 / 2 ^ 20) (hd1 : |d.val| ≤ 101 / 100) (hd2 : 1 / 2 ^ 60 ≤ |d.val|)
    (hl : lo.isFin = true) (ho : o.isFin = true) (h : |lo.val - o.val| ≤ 2 ^ 60) :
    let s := Fp.mul (Fp.sub lo o) g
    s.isFin = true ∧ |o.val + s.val * d.val - lo.val| ≤ faceErr lo.val o.val := by
  intro s
  have S := near_sub hl ho (h.trans (by norm_num))
  obtain ⟨fs, es⟩ := S
  set x := Fp.sub lo o
  have dp : 0 < |d.val| := lt_of_lt_of_le (by positivity) hd2
  have gb : |g.val| * |d.val| ≤ 101 / 100 := by
    rw [← _root_.abs_mul]
    have := abs_add_le (g.val * d.val - 1) 1
    rw [sub_add_cancel, abs_one] at this
    norm_num [-_root_.abs_mul] at hgd ⊢; linarith
  have gb2 : |g.val| ≤ 2 ^ 61 := by
    have := mul_le_mul_of_nonneg_left hd2 (abs_nonneg g.val)
    norm_num at this ⊢; linarith
  have xb : |x.val| ≤ 101 / 100 * |lo.val - o.val| := by
    have := abs_add_le (x.val - (lo.val - o.val)) (lo.val - o.val)
    rw [sub_add_cancel] at this
    have n := abs_nonneg (lo.val - o.val)
    norm_num at es ⊢; linarith
  have xg : |x.val * g.val| ≤ 2 ^ 124 := by
    rw [_root_.abs_mul]
    refine (mul_le_mul (xb.trans (mul_le_mul_of_nonneg_left h (by norm_num))) gb2 (abs_nonneg _) (by positivity)).trans (by norm_num)
  have r := rnd_mul fs hg
  have fm : s.isFin = true := r.isFin hp32 (xg.trans (_root_.le_trans (by norm_num) le_max32))
  refine ⟨fm, ?_⟩
  have e := r.err_add fm
  rw [u32, eta32] at e
  change |s.val - x.val * g.val| ≤ _ at e
  -- multiply by d
  have k1 : |(s.val - x.val * g.val) * d.val| ≤ 1 / 2 ^ 24 * (103 / 100 * |lo.val - o.val|) + 1 / 2 ^ 149 := by
    rw [_root_.abs_mul]
    have h1 := mul_le_mul_of_nonneg_right e dp.le
    have h2 : |x.val * g.val| * |d.val| ≤ 103 / 100 * |lo.val - o.val| := by
      rw [_root_.abs_mul, _root_.mul_assoc]
      have := mul_le_mul xb gb (by positivity) (by positivity)
      have n := abs_nonneg (lo.val - o.val)
      linarith
    refine h1.trans ?_
    rw [_root_.add_mul, _root_.mul_assoc]
    have : (1 : ℝ) / 2 ^ 150 * |d.val| ≤ 1 / 2 ^ 149 := by
      have := mul_le_mul_of_nonneg_left hd1 (show (0 : ℝ) ≤ 1 / 2 ^ 150 by positivity)
      norm_num at this ⊢; linarith
    generalize |x.val * g.val| * |d.val| = y at *
    norm_num at this h2 ⊢; linarith
  have k2 : |x.val * (g.val * d.val - 1)| ≤ 101 / 100 * |lo.val - o.val| * (1 / 2 ^ 20) := by
    rw [_root_.abs_mul]; exact mul_le_mul xb hgd (abs_nonneg _) (by positivity)
  rw [show o.val + s.val * d.val - lo.val = (s.val - x.val * g.val) * d.val + x.val * (g.val * d.val - 1) + (x.val - (lo.val - o.val)) by ring]
  refine (abs_add_le _ _).trans ((add_le_add (abs_add_le _ _) le_rfl).trans ?_)
  unfold faceErr
  have n := abs_nonneg (lo.val - o.val)
  norm_num [-_root_.abs_mul] at k1 k2 es ⊢
  linarith

/-- the range of one axis -/
theorem axis_range (hz : EstZero) (bk : Backend) (he : EstAccurate bk) {d lo hi o : F32} (hd : d.isFin = true) (hi0 : Invertible bk d) (hd1 : |d.val| ≤ 101 / 100)
    (hl : lo.isFin = true) (hh : hi.isFin = true) (ho : o.isFin = true) (h : lo.val ≤ hi.val) (bl : |lo.val - o.val| ≤ 2 ^ 60) (bh : |hi.val - o.val| ≤ 2 ^ 60) :
    let g := Simd4f.recip1 bk d
    let z := Ray.slabAxis g (Fp.mul (Fp.sub lo o) g) (Fp.mul (Fp.sub hi o) g)
    ∃ f S, RangeSet f z S ∧ (d.val ≠ 0 → f = true) ∧
      (∀ u ∈ S, lo.val - faceErr lo.val o.val ≤ o.val + u * d.val ∧ o.val + u * d.val ≤ hi.val + faceErr hi.val o.val) ∧
      (∀ u, lo.val + faceErr lo.val o.val ≤ o.val + u * d.val → o.val + u * d.val ≤ hi.val - faceErr hi.val o.val → u ∈ S) := by
  intro g z
  have p0 : ∀ a b, 0 ≤ faceErr a b := fun a b => by unfold faceErr; positivity
  have pl := p0 lo.val o.val
  have ph := p0 hi.val o.val
  by_cases d0 : d.val = 0
  · obtain ⟨r1, r2⟩ := parallel_range hz bk hd d0 hl hh ho h
    by_cases c : lo.val ≤ o.val ∧ o.val ≤ hi.val
    · refine ⟨false, Set.univ, .inn (r1 c), fun h => absurd d0 h, fun u _ => ?_, fun u _ _ => Set.mem_univ _⟩
      rw [d0, MulZeroClass.mul_zero, _root_.add_zero]; exact ⟨by linarith [c.1], by linarith [c.2]⟩
    · refine ⟨false, ∅, .out (r2 c), fun h => absurd d0 h, fun u hu => absurd hu (Set.notMem_empty u), fun u h1 h2 => ?_⟩
      rw [d0, MulZeroClass.mul_zero, _root_.add_zero] at h1 h2
      exact absurd ⟨by linarith, by linarith⟩ c
  · obtain ⟨h1, h2⟩ := hi0.resolve_left d0
    obtain ⟨fg, eg⟩ := Newton.recip1_near bk he hd (_root_.le_trans (by norm_num) h1) (hd1.trans (by norm_num)) h2
    change g.isFin = true at fg
    change |g.val * d.val - 1| ≤ _ at eg
    obtain ⟨fl, el⟩ := face_param fg eg hd1 h1 hl ho bl
    obtain ⟨fh, eh⟩ := face_param fg eg hd1 h1 hh ho bh
    have fsl : (Fp.sub lo o).isFin = true := (near_sub hl ho (bl.trans (by norm_num))).1
    have fsh : (Fp.sub hi o).isFin = true := (near_sub hh ho (bh.trans (by norm_num))).1
    have sm : (Fp.sub lo o).val ≤ (Fp.sub hi o).val :=
      (le_iff_val (isNaN_of_isFin fsl) (isNaN_of_isFin fsh)).1 ((rnd_sub hl ho).mono (rnd_sub hh ho) (by linarith))
    set A := Fp.mul (Fp.sub lo o) g
    set B := Fp.mul (Fp.sub hi o) g
    obtain ⟨el1, el2⟩ := _root_.abs_le.1 el
    obtain ⟨eh1, eh2⟩ := _root_.abs_le.1 eh
    have gd : 0 < g.val * d.val := by
      have := (_root_.abs_le.1 eg).1
      norm_num at this; linarith
    have ge : (g >=. f0) = true ↔ 0 ≤ g.val := by
      rw [f0_eq]; exact (le_iff_val rfl (isNaN_of_isFin fg)).trans (by rw [val_zero])
    have mono : ∀ {a b : ℝ}, 0 < d.val → a ≤ b → a * d.val ≤ b * d.val := fun hp hab => mul_le_mul_of_nonneg_right hab hp.le
    have anti : ∀ {a b : ℝ}, d.val < 0 → a ≤ b → b * d.val ≤ a * d.val := fun hp hab => mul_le_mul_of_nonpos_right hab hp.le
    by_cases hg0 : 0 ≤ g.val
    · have gp : 0 < g.val := lt_of_le_of_ne hg0 (by rintro e; rw [← e] at gd; simp at gd)
      have dp : 0 < d.val := by by_contra hc; nlinarith
      have ez : z = (A, B) := by simp only [z, Ray.slabAxis]; rw [if_pos (ge.2 hg0)]
      have AB : A.val ≤ B.val := (le_iff_val (isNaN_of_isFin fl) (isNaN_of_isFin fh)).1
        ((rnd_mul fsl fg).mono (rnd_mul fsh fg) (mul_le_mul_of_nonneg_right sm hg0))
      refine ⟨true, Set.Icc A.val B.val, by rw [ez]; exact .act fl fh AB, fun _ => rfl, ?_, ?_⟩
      · rintro u ⟨u1, u2⟩
        have := mono dp u1
        have := mono dp u2
        constructor <;> linarith
      · intro u h1 h2
        constructor
        · by_contra hc
          have := mul_lt_mul_of_pos_right (not_le.1 hc) dp
          linarith
        · by_contra hc
          have := mul_lt_mul_of_pos_right (not_le.1 hc) dp
          linarith
    · have gn : g.val < 0 := not_le.1 hg0
      have dn : d.val < 0 := by by_contra hc; nlinarith
      have ez : z = (B, A) := by simp only [z, Ray.slabAxis]; rw [if_neg (fun h => hg0 (ge.1 h))]
      have BA : B.val ≤ A.val := (le_iff_val (isNaN_of_isFin fh) (isNaN_of_isFin fl)).1
        ((rnd_mul fsh fg).mono (rnd_mul fsl fg) (mul_le_mul_of_nonpos_right sm gn.le))
      refine ⟨true, Set.Icc B.val A.val, by rw [ez]; exact .act fh fl BA, fun _ => rfl, ?_, ?_⟩
      · rintro u ⟨u1, u2⟩
        have := anti dn u1
        have := anti dn u2
        constructor <;> linarith
      · intro u h1 h2
        constructor
        · by_contra hc
          have := mul_lt_mul_of_neg_right (not_le.1 hc) dn
          linarith
        · by_contra hc
          have := mul_lt_mul_of_neg_right (not_le.1 hc) dn
          linarith

/-! ### The theorem -/

/-- the point is in the box with every face moved outwards by `s` times its error (inwards for a negative `s`) -/
def Spec.InMovedBox (s : ℝ) (r : Ray F32) (b : Box F32) (p : Point3D ℝ) : Prop :=
  let o := r.getOrigin
  let lo := b.getMin
  let hi := b.getMax
  (lo.x.val - s * faceErr lo.x.val o.x.val ≤ p.x ∧ p.x ≤ hi.x.val + s * faceErr hi.x.val o.x.val) ∧
  (lo.y.val - s * faceErr lo.y.val o.y.val ≤ p.y ∧ p.y ≤ hi.y.val + s * faceErr hi.y.val o.y.val) ∧
  (lo.z.val - s * faceErr lo.z.val o.z.val ≤ p.z ∧ p.z ≤ hi.z.val + s * faceErr hi.z.val o.z.val)

/-- finite ordered corners within 2^60 of the origin of the ray -/
def Spec.ReachableBox (r : Ray F32) (b : Box F32) : Prop :=
  let o := r.getOrigin
  let lo := b.getMin
  let hi := b.getMax
  (FinPoint lo ∧ FinPoint hi) ∧ (lo.x.val ≤ hi.x.val ∧ lo.y.val ≤ hi.y.val ∧ lo.z.val ≤ hi.z.val) ∧
  (|lo.x.val - o.x.val| ≤ 2 ^ 60 ∧ |lo.y.val - o.y.val| ≤ 2 ^ 60 ∧ |lo.z.val - o.z.val| ≤ 2 ^ 60) ∧
  (|hi.x.val - o.x.val| ≤ 2 ^ 60 ∧ |hi.y.val - o.y.val| ≤ 2 ^ 60 ∧ |hi.z.val - o.z.val| ≤ 2 ^ 60)

/-- the decisions after the merges -/
theorem box_decide {x y z : F32 × F32} {fx fy fz : Bool} {X Y Z : Set ℝ} (hx : RangeSet fx x X) (hy : RangeSet fy y Y) (hz : RangeSet fz z Z)
    (act : fx = true ∨ fy = true ∨ fz = true)
    {res : IntersectionKind × F32} (hres : res = match Ray.slabMerge x y with
      | none => (.none, f0)
      | some w => match Ray.slabMerge w z with
        | none => (.none, f0)
        | some t => if t.2 <. f0 then (.none, f0) else if t.1 >=. f0 then (.enter, t.1) else (.leave, t.2)) :
    let S := X ∩ Y ∩ Z
    (res.1 ≠ .none → res.2.isFin = true ∧ 0 ≤ res.2.val ∧ res.2.val ∈ S) ∧
    (res.1 = .enter → ∀ u ∈ S, res.2.val ≤ u) ∧
    (res.1 = .leave → (∀ u, 0 ≤ u → u ≤ res.2.val → u ∈ S) ∧ ∀ u ∈ S, u ≤ res.2.val) ∧
    ((∃ u, 0 ≤ u ∧ u ∈ S) → res.1 ≠ .none) := by
  intro S
  have emp : S = ∅ → res = (.none, f0) → (res.1 ≠ .none → res.2.isFin = true ∧ 0 ≤ res.2.val ∧ res.2.val ∈ S) ∧
    (res.1 = .enter → ∀ u ∈ S, res.2.val ≤ u) ∧
    (res.1 = .leave → (∀ u, 0 ≤ u → u ≤ res.2.val → u ∈ S) ∧ ∀ u ∈ S, u ≤ res.2.val) ∧
    ((∃ u, 0 ≤ u ∧ u ∈ S) → res.1 ≠ .none) := by
    intro h1 h2
    rw [h2, h1]
    refine ⟨fun h => absurd rfl h, fun h => by simp at h, fun h => by simp at h, ?_⟩
    rintro ⟨u, -, h⟩; exact absurd h (Set.notMem_empty u)
  rcases merge_range hx hy with ⟨e1, E1⟩ | ⟨w, e1, hw⟩
  · exact emp (by simp only [S]; rw [E1, Set.empty_inter]) (by rw [hres, e1])
  rcases merge_range hw hz with ⟨e2, E2⟩ | ⟨t, e2, ht⟩
  · exact emp E2 (by rw [hres, e1]; dsimp only; rw [e2])
  have fl : (fx || fy || fz) = true := by rcases act with h | h | h <;> simp [h]
  rw [fl] at ht
  have er : res = if t.2 <. f0 then (.none, f0) else if t.1 >=. f0 then (.enter, t.1) else (.leave, t.2) := by rw [hres, e1]; dsimp only; rw [e2]
  change RangeSet true t S at ht
  clear_value S
  cases ht with
  | act f1 f2 f3 =>
    have l2 : (t.2 <. f0) = true ↔ t.2.val < 0 := by
      rw [f0_eq]; exact (lt_iff_val (isNaN_of_isFin f2) rfl).trans (by rw [val_zero])
    have g1 : (t.1 >=. f0) = true ↔ 0 ≤ t.1.val := by
      rw [f0_eq]; exact (le_iff_val rfl (isNaN_of_isFin f1)).trans (by rw [val_zero])
    by_cases c1 : t.2.val < 0
    · rw [if_pos (l2.2 c1)] at er
      rw [er]
      refine ⟨fun h => absurd rfl h, fun h => by simp at h, fun h => by simp at h, ?_⟩
      rintro ⟨u, h0, h1, h2⟩; linarith
    · rw [if_neg (fun h => c1 (l2.1 h))] at er
      by_cases c2 : 0 ≤ t.1.val
      · rw [if_pos (g1.2 c2)] at er
        rw [er]
        exact ⟨fun _ => ⟨f1, c2, le_rfl, f3⟩, fun _ u hu => hu.1, fun h => by simp at h, fun _ => by simp⟩
      · rw [if_neg (fun h => c2 (g1.1 h))] at er
        rw [er]
        push Not at c1 c2
        exact ⟨fun _ => ⟨f2, c1, f3, le_rfl⟩, fun h => by simp at h, fun _ => ⟨fun u h0 h1 => ⟨by linarith, h1⟩, fun u hu => hu.2⟩, fun _ => by simp⟩

/-- C119: `graphene_ray_intersect_box` in single precision, on every backend, for components of the direction that are zero or that the
backend can invert; `faceErr`, relative 2^-19 of the distance of a face from the origin along its axis, is how far each face may
seem moved.  A reported parameter is finite, not negative, and the exact point there is in the box with its faces moved outwards;
before an ENTER the ray is not in the box with its faces moved inwards; up to a LEAVE it stays in the box with its faces moved
outwards, and after it is not in the box with its faces moved inwards; and a ray with a point in that smaller box is reported. -/
theorem C119_box (hz : EstZero) (bk : Backend) (he : EstAccurate bk) (r : Ray F32) (b : Box F32) (hr : UnitRay r)
    (ix : Invertible bk r.getDirection.getX) (iy : Invertible bk r.getDirection.getY) (iz : Invertible bk r.getDirection.getZ) (hb : ReachableBox r b) :
    let k := (r.intersectBox bk b).1
    let t := (r.intersectBox bk b).2
    (k ≠ .none → t.isFin = true ∧ 0 ≤ t.val ∧ InMovedBox 1 r b (rayPoint r t.val)) ∧
    (k = .enter → ∀ u, 0 ≤ u → u < t.val → ¬ InMovedBox (-1) r b (rayPoint r u)) ∧
    (k = .leave → (∀ u, 0 ≤ u → u ≤ t.val → InMovedBox 1 r b (rayPoint r u)) ∧ ∀ u, t.val < u → ¬ InMovedBox (-1) r b (rayPoint r u)) ∧
    ((∃ u, 0 ≤ u ∧ InMovedBox (-1) r b (rayPoint r u)) → k ≠ .none) := by
  obtain ⟨u1, u2, u3⟩ := unit_comp hr
  obtain ⟨⟨o1, o2, o3⟩, ⟨d1, d2, d3⟩, hu⟩ := hr
  obtain ⟨⟨⟨l1, l2, l3⟩, h1, h2, h3⟩, ⟨c1, c2, c3⟩, ⟨a1, a2, a3⟩, b1, b2, b3⟩ := hb
  obtain ⟨fx, X, rx, nx, gx, sx⟩ := axis_range hz bk he d1 ix u1 l1 h1 o1 c1 a1 b1
  obtain ⟨fy, Y, ry, ny, gy, sy⟩ := axis_range hz bk he d2 iy u2 l2 h2 o2 c2 a2 b2
  obtain ⟨fz, Z, rz, nz, gz, sz⟩ := axis_range hz bk he d3 iz u3 l3 h3 o3 c3 a3 b3
  have act : fx = true ∨ fy = true ∨ fz = true := by
    by_contra hc
    push Not at hc
    have e1 : r.getDirection.getX.val = 0 := by by_contra h; exact hc.1 (nx h)
    have e2 : r.getDirection.getY.val = 0 := by by_contra h; exact hc.2.1 (ny h)
    have e3 : r.getDirection.getZ.val = 0 := by by_contra h; exact hc.2.2 (nz h)
    rw [e1, e2, e3] at hu
    norm_num at hu
  have grow : ∀ u ∈ X ∩ Y ∩ Z, InMovedBox 1 r b (rayPoint r u) := by
    rintro u ⟨⟨hx, hy⟩, hz'⟩
    have := gx u hx
    have := gy u hy
    have := gz u hz'
    simp only [InMovedBox, _root_.one_mul]
    exact ⟨gx u hx, gy u hy, gz u hz'⟩
  have shrink : ∀ u, InMovedBox (-1) r b (rayPoint r u) → u ∈ X ∩ Y ∩ Z := by
    intro u h
    simp only [InMovedBox, neg_one_mul, sub_neg_eq_add, ← sub_eq_add_neg] at h
    obtain ⟨⟨p1, q1⟩, ⟨p2, q2⟩, p3, q3⟩ := h
    exact ⟨⟨sx u p1 q1, sy u p2 q2⟩, sz u p3 q3⟩
  obtain ⟨m1, m2, m3, m4⟩ := box_decide rx ry rz act (res := r.intersectBox bk b) (by
      have q1 : Ray.slabAxis (Simd4f.reciprocal bk r.direction.value).x (Simd4f.mul (Vec3.subtract b.min r.origin).value (Simd4f.reciprocal bk r.direction.value)).x (Simd4f.mul (Vec3.subtract b.max r.origin).value (Simd4f.reciprocal bk r.direction.value)).x
        = Ray.slabAxis (Simd4f.recip1 bk r.getDirection.getX) (Fp.mul (Fp.sub b.getMin.x r.getOrigin.x) (Simd4f.recip1 bk r.getDirection.getX)) (Fp.mul (Fp.sub b.getMax.x r.getOrigin.x) (Simd4f.recip1 bk r.getDirection.getX)) := rfl
      have q2 : Ray.slabAxis (Simd4f.reciprocal bk r.direction.value).y (Simd4f.mul (Vec3.subtract b.min r.origin).value (Simd4f.reciprocal bk r.direction.value)).y (Simd4f.mul (Vec3.subtract b.max r.origin).value (Simd4f.reciprocal bk r.direction.value)).y
        = Ray.slabAxis (Simd4f.recip1 bk r.getDirection.getY) (Fp.mul (Fp.sub b.getMin.y r.getOrigin.y) (Simd4f.recip1 bk r.getDirection.getY)) (Fp.mul (Fp.sub b.getMax.y r.getOrigin.y) (Simd4f.recip1 bk r.getDirection.getY)) := rfl
      have q3 : Ray.slabAxis (Simd4f.reciprocal bk r.direction.value).z (Simd4f.mul (Vec3.subtract b.min r.origin).value (Simd4f.reciprocal bk r.direction.value)).z (Simd4f.mul (Vec3.subtract b.max r.origin).value (Simd4f.reciprocal bk r.direction.value)).z
        = Ray.slabAxis (Simd4f.recip1 bk r.getDirection.getZ) (Fp.mul (Fp.sub b.getMin.z r.getOrigin.z) (Simd4f.recip1 bk r.getDirection.getZ)) (Fp.mul (Fp.sub b.getMax.z r.getOrigin.z) (Simd4f.recip1 bk r.getDirection.getZ)) := rfl
      unfold Ray.intersectBox
      dsimp only
      rw [q1, q2, q3]
      generalize Ray.slabMerge (α := F32) _ _ = m
      cases m with
      | none => rfl
      | some w =>
        dsimp only
        generalize Ray.slabMerge (α := F32) _ _ = m
        cases m <;> rfl)
  intro k t
  refine ⟨fun h => ?_, fun h u h0 hlt hs => ?_, fun h => ⟨fun u h0 hle => ?_, fun u hlt hs => ?_⟩, ?_⟩
  · obtain ⟨e1, e2, e3⟩ := m1 h
    exact ⟨e1, e2, grow _ e3⟩
  · exact absurd (m2 h u (shrink u hs)) (not_le.2 hlt)
  · exact grow u ((m3 h).1 u h0 hle)
  · exact absurd ((m3 h).2 u (shrink u hs)) (not_le.2 hlt)
  · rintro ⟨u, h0, hs⟩; exact m4 ⟨u, h0, shrink u hs⟩

/-- a diagonal ray and a box whose middle it meets -/
example : let l := fun n m => (Fp.lit n m : F32)
    let r : Ray F32 := ⟨Vec3.init (l 0 1) (l 0 1) (l 0 1), Vec3.init (l 0 1) (l (-1) 1) (l 0 1)⟩
    let b : Box F32 := ⟨Vec3.init (l (-1) 1) (l (-3) 1) (l (-1) 1), Vec3.init (l 1 1) (l (-1) 1) (l 1 1)⟩
    UnitRay r ∧ Invertible .gcc r.getDirection.getX ∧ Invertible .gcc r.getDirection.getY ∧ Invertible .gcc r.getDirection.getZ ∧
    ReachableBox r b ∧ InMovedBox (-1) r b (rayPoint r 2) := by
  intro l r b
  have lf : ∀ n : ℤ, n.natAbs ≤ 2 ^ 24 → (l n 1).isFin = true := fun n h => (lit_int n h).1
  have lv : ∀ (n : ℤ) (x : ℝ), n.natAbs ≤ 2 ^ 24 → (n : ℝ) = x → (l n 1).val = x := fun n x h e => (lit_int n h).2.trans e
  have e0 := lv 0 0 (by decide) (by norm_num)
  have e1 := lv 1 1 (by decide) (by norm_num)
  have m1 := lv (-1) (-1) (by decide) (by norm_num)
  have m3 := lv (-3) (-3) (by decide) (by norm_num)
  have ox : r.getOrigin.x.val = 0 := e0
  have oy : r.getOrigin.y.val = 0 := e0
  have oz : r.getOrigin.z.val = 0 := e0
  have dx : r.getDirection.getX.val = 0 := e0
  have dy : r.getDirection.getY.val = -1 := m1
  have dz : r.getDirection.getZ.val = 0 := e0
  have lx : b.getMin.x.val = -1 := m1
  have ly : b.getMin.y.val = -3 := m3
  have lz : b.getMin.z.val = -1 := m1
  have hx : b.getMax.x.val = 1 := e1
  have hy : b.getMax.y.val = -1 := m1
  have hz : b.getMax.z.val = 1 := e1
  have f0 := lf 0 (by decide)
  have f1 := lf 1 (by decide)
  have g1 := lf (-1) (by decide)
  have g3 := lf (-3) (by decide)
  refine ⟨⟨⟨f0, f0, f0⟩, ⟨f0, g1, f0⟩, ?_⟩, .inl dx, .inr ?_, .inl dz, ⟨⟨⟨g1, g3, g1⟩, f1, g1, f1⟩, ?_, ?_, ?_⟩, ?_⟩
  · rw [dx, dy, dz]; norm_num
  · rw [dy]; norm_num
  · rw [lx, ly, lz, hx, hy, hz]; norm_num
  · rw [lx, ly, lz, ox, oy, oz]; norm_num
  · rw [hx, hy, hz, ox, oy, oz]; norm_num
  · simp only [InMovedBox, faceErr, rayPoint, lx, ly, lz, hx, hy, hz, ox, oy, oz, dx, dy, dz]; norm_num

end Graphene

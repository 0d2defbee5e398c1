/-
  C98: rays in single precision.
-/
import Verif.Props.Float10
import Verif.Model.Ray

set_option exponentiation.threshold 3000

namespace Graphene
open Fp Spec
variable [Libm binary32]

/-! ## Positions along a ray -/

/-- one coordinate of a position: the product, then the sum, both rounded -/
theorem axpy_approx {d t o : F32} (hd : d.isFin = true) (ht : t.isFin = true) (ho : o.isFin = true)
    (h : |d.val * t.val| + |o.val| ≤ 2 ^ 126) :
    (Fp.add (Fp.mul d t) o).isFin = true ∧
    |(Fp.add (Fp.mul d t) o).val - (o.val + t.val * d.val)| ≤ (|d.val * t.val| + |o.val|) / 2 ^ 22 + 1 / 2 ^ 149 := by
  have n1 := abs_nonneg (d.val * t.val)
  have n2 := abs_nonneg o.val
  have p := prod_approx hd ht (by linarith)
  have q := sum2_approx p (Approx.exact ho) (by norm_num [-abs_mul] at h ⊢; linarith)
  refine ⟨q.fin, ?_⟩
  have e := q.err
  rw [show d.val * t.val + o.val = o.val + t.val * d.val by ring] at e
  refine e.trans ?_
  norm_num [-abs_mul] at h ⊢; linarith

/-- C98: every coordinate of `graphene_ray_get_position_at` is `origin + t·direction` up to a relative 2^-22 of
the magnitude of the two terms. -/
theorem C98_position (r : Ray F32) (t : F32) (ht : t.isFin = true)
    (ho : FinPoint r.getOrigin) (hd : r.direction.getX.isFin = true ∧ r.direction.getY.isFin = true ∧ r.direction.getZ.isFin = true) :
    let e := fun (o d : F32) => (|d.val * t.val| + |o.val|) / 2 ^ 22 + 1 / 2 ^ 149
    let q := r.getPositionAt t
    (|r.direction.getX.val * t.val| + |r.getOrigin.x.val| ≤ 2 ^ 126 → q.x.isFin = true ∧
      |q.x.val - (r.getOrigin.x.val + t.val * r.direction.getX.val)| ≤ e r.getOrigin.x r.direction.getX) ∧
    (|r.direction.getY.val * t.val| + |r.getOrigin.y.val| ≤ 2 ^ 126 → q.y.isFin = true ∧
      |q.y.val - (r.getOrigin.y.val + t.val * r.direction.getY.val)| ≤ e r.getOrigin.y r.direction.getY) ∧
    (|r.direction.getZ.val * t.val| + |r.getOrigin.z.val| ≤ 2 ^ 126 → q.z.isFin = true ∧
      |q.z.val - (r.getOrigin.z.val + t.val * r.direction.getZ.val)| ≤ e r.getOrigin.z r.direction.getZ) :=
  ⟨fun h => axpy_approx hd.1 ht ho.1 h, fun h => axpy_approx hd.2.1 ht ho.2.1 h, fun h => axpy_approx hd.2.2 ht ho.2.2 h⟩

omit [Libm binary32] in
theorem axpy_zero {d t o : F32} (hd : d.isFin = true) (ht : t.isFin = true) (h0 : t.val = 0) (ho : o.isFin = true) :
    (Fp.add (Fp.mul d t) o).isFin = true ∧ (Fp.add (Fp.mul d t) o).val = o.val := by
  have m := Is.mul_of (Is.self hd) (Is.self ht) (c := zero false) (Is.zero_is.congr (by rw [h0]; ring))
  have a := Is.add_of m (Is.self ho) (c := o) ((Is.self ho).congr (by rw [h0]; ring))
  exact ⟨a.fin, by rw [a.val, h0]; ring⟩

/-- C98: the position at parameter zero is the origin, exactly. -/
theorem C98_position_zero (r : Ray F32) (t : F32) (ht : t.isFin = true) (h0 : t.val = 0)
    (ho : FinPoint r.getOrigin) (hd : r.direction.getX.isFin = true ∧ r.direction.getY.isFin = true ∧ r.direction.getZ.isFin = true) :
    FinPoint (r.getPositionAt t) ∧ (r.getPositionAt t).x.val = r.getOrigin.x.val ∧
    (r.getPositionAt t).y.val = r.getOrigin.y.val ∧ (r.getPositionAt t).z.val = r.getOrigin.z.val := by
  have x := axpy_zero hd.1 ht h0 ho.1
  have y := axpy_zero hd.2.1 ht h0 ho.2.1
  have z := axpy_zero hd.2.2 ht h0 ho.2.2
  exact ⟨⟨x.1, y.1, z.1⟩, x.2, y.2, z.2⟩

omit [Libm binary32] in
theorem axpy_mono {d t u o : F32} (hd : d.isFin = true) (ht : t.isFin = true) (hu : u.isFin = true) (ho : o.isFin = true)
    (h1 : (Fp.mul d t).isFin = true) (h2 : (Fp.mul d u).isFin = true) (h : t.val ≤ u.val) :
    (0 ≤ d.val → (Fp.add (Fp.mul d t) o).le (Fp.add (Fp.mul d u) o) = true) ∧
    (d.val ≤ 0 → (Fp.add (Fp.mul d u) o).le (Fp.add (Fp.mul d t) o) = true) := by
  constructor <;> intro hs
  · have := (le_iff_val (rnd_mul hd ht).not_nan (rnd_mul hd hu).not_nan).1 ((rnd_mul hd ht).mono (rnd_mul hd hu) (mul_le_mul_of_nonneg_left h hs))
    exact (rnd_add h1 ho).mono (rnd_add h2 ho) (by linarith)
  · have := (le_iff_val (rnd_mul hd hu).not_nan (rnd_mul hd ht).not_nan).1 ((rnd_mul hd hu).mono (rnd_mul hd ht) (mul_le_mul_of_nonpos_left h hs))
    exact (rnd_add h2 ho).mono (rnd_add h1 ho) (by linarith)

/-- C98: positions never move backwards: a larger parameter gives, on every axis, a position at least as far in the
direction of the ray. -/
theorem C98_position_monotone (r : Ray F32) (t u : F32) (ht : t.isFin = true) (hu : u.isFin = true) (htu : t.val ≤ u.val)
    (ho : FinPoint r.getOrigin) (hd : r.direction.getX.isFin = true ∧ r.direction.getY.isFin = true ∧ r.direction.getZ.isFin = true)
    (hbig : ∀ s ∈ [t, u], |r.direction.getX.val * s.val| ≤ 2 ^ 126 ∧ |r.direction.getY.val * s.val| ≤ 2 ^ 126 ∧ |r.direction.getZ.val * s.val| ≤ 2 ^ 126) :
    let p := r.getPositionAt t
    let q := r.getPositionAt u
    (0 ≤ r.direction.getX.val → p.x.le q.x = true) ∧ (r.direction.getX.val ≤ 0 → q.x.le p.x = true) ∧
    (0 ≤ r.direction.getY.val → p.y.le q.y = true) ∧ (r.direction.getY.val ≤ 0 → q.y.le p.y = true) ∧
    (0 ≤ r.direction.getZ.val → p.z.le q.z = true) ∧ (r.direction.getZ.val ≤ 0 → q.z.le p.z = true) := by
  obtain ⟨t1, t2, t3⟩ := hbig t (by simp)
  obtain ⟨u1, u2, u3⟩ := hbig u (by simp)
  have x := axpy_mono hd.1 ht hu ho.1 (prod_approx hd.1 ht t1).fin (prod_approx hd.1 hu u1).fin htu
  have y := axpy_mono hd.2.1 ht hu ho.2.1 (prod_approx hd.2.1 ht t2).fin (prod_approx hd.2.1 hu u2).fin htu
  have z := axpy_mono hd.2.2 ht hu ho.2.2 (prod_approx hd.2.2 ht t3).fin (prod_approx hd.2.2 hu u3).fin htu
  exact ⟨x.1, x.2, y.1, y.2, z.1, z.2⟩

/-! ## Reported parameters are never behind the ray -/

omit [Libm binary32] in
theorem div_not_neg {q d : F32} (hq : q.lt (zero false) = false) (hd : d.isNaN = true ∨ 0 < d.key) :
    (Fp.div q d).lt (zero false) = false := by
  rw [Bool.eq_false_iff] at hq ⊢
  intro h
  apply hq
  rw [lt_iff] at h ⊢
  obtain ⟨h1, -, h3⟩ := h
  rcases d with _ | s | ⟨s, m, hm⟩
  · rcases q with _ | _ | _ <;> simp [Fp.div, isNaN] at h1
  · cases s <;> simp [key, sgn, isNaN] at hd
    rcases q with _ | t | ⟨t, n, hn⟩
    · simp [Fp.div, isNaN] at h1
    · simp [Fp.div, isNaN] at h1
    · simp [Fp.div, zero, key, sgn] at h3
  · rcases q with _ | t | ⟨t, n, hn⟩
    · simp [Fp.div, isNaN] at h1
    · cases s <;> cases t <;> simp [key, sgn, isNaN, zero, Fp.div] at hd h3 ⊢ <;> omega
    · cases s <;> simp [key, sgn, isNaN] at hd
      swap
      · omega
      have hm0 : 0 < m := by omega
      refine ⟨rfl, rfl, ?_⟩
      simp only [Fp.div, if_pos hm0] at h3
      rw [key_ofMag] at h3
      have : n ≠ 0 := by
        rintro rfl
        have h0 : binary32.rnd 0 m = 0 := by simpa using binary32.rnd_exact (rep_zero _) hm0
        rw [Nat.zero_mul, h0] at h3
        revert h3; cases t <;> simp [sgn, key, zero]
      cases t
      · exfalso; revert h3; simp [sgn, key, zero]
      · simp [sgn, key, zero]; omega

/-- C98: whatever the floats involved, the parameter reported with a hit is never negative. -/
theorem C98_not_behind (bk : Backend) (r : Ray F32) (s : Sphere F32) (b : Box F32) (tr : Triangle F32) :
    (r.intersectSphere bk s).2.lt (zero false) = false ∧
    (r.intersectBox bk b).2.lt (zero false) = false ∧
    (∀ t, (r.intersectTriangle bk tr).2 = some t → t.lt (zero false) = false) := by
  have z : ∀ a : F32, (a <. (f0 : F32)) = a.lt (zero false) := fun a => by rw [f0_eq]; rfl
  have z0 : (f0 : F32).lt (zero false) = false := by rw [f0_eq]; rfl
  refine ⟨?_, ?_, ?_⟩
  · unfold Ray.intersectSphere
    dsimp only
    simp only [z]
    split
    · exact z0
    split
    · exact z0
    split
    · rename_i h1 h2
      simp only [h2, Bool.true_and, Bool.not_eq_true] at h1
      exact h1
    · rename_i h; simpa using h
  · unfold Ray.intersectBox
    dsimp only
    simp only [z]
    split
    · exact z0
    split
    · exact z0
    split
    · exact z0
    split
    · rename_i t _ _ h
      show t.1.lt (zero false) = false
      have h' : (zero false : F32).le t.1 = true := by rw [f0_eq] at h; exact h
      have := (le_iff.1 h').2.2
      rw [Bool.eq_false_iff]; intro hc
      exact absurd (lt_iff.1 hc).2.2 (by omega)
    · rename_i h _; simpa using h
  · intro t
    unfold Ray.intersectTriangle
    dsimp only
    split
    · simp
    rename_i h0
    generalize hks : (if Vec3.dot bk r.direction (Vec3.cross bk (tr.b.subtract tr.a) (tr.c.subtract tr.a)) >. f0 then
      (IntersectionKind.leave, (f1 : F32), Vec3.dot bk r.direction (Vec3.cross bk (tr.b.subtract tr.a) (tr.c.subtract tr.a))) else
      (IntersectionKind.enter, Scalar.lit (-1) 1, Scalar.neg (Vec3.dot bk r.direction (Vec3.cross bk (tr.b.subtract tr.a) (tr.c.subtract tr.a))))) = ks
    have hd : ks.2.2.isNaN = true ∨ 0 < ks.2.2.key := by
      generalize Vec3.dot bk r.direction (Vec3.cross bk (tr.b.subtract tr.a) (tr.c.subtract tr.a)) = a at *
      rw [← hks]
      split
      · rename_i h
        have h' : (zero false : F32).lt a = true := by rw [f0_eq] at h; exact h
        exact Or.inr (lt_iff.1 h').2.2
      · rename_i h
        show (Fp.neg a).isNaN = true ∨ 0 < (Fp.neg a).key
        have h' : ¬ (zero false : F32).lt a = true := by rw [f0_eq] at h; exact h
        cases hn : a.isNaN
        · right
          rw [lt_iff, hn] at h'
          have h1 : ¬ (0 < a.key) := fun hc => h' ⟨rfl, rfl, hc⟩
          have h2 : a.key ≠ 0 := by
            intro hk
            apply h0
            have : a = zero false ∨ a = zero true := by
              rcases a with _ | s | ⟨s, m, hm⟩
              · simp [isNaN] at hn
              · cases s <;> simp [key, sgn] at hk
              · have : m = 0 := by cases s <;> simpa [key, sgn] using hk
                subst this; cases s
                · exact Or.inl rfl
                · exact Or.inr rfl
            rcases this with rfl | rfl <;> kdecide
          rw [key_neg]; omega
        · left; cases a <;> simp_all [isNaN, Fp.neg]
    split
    · simp
    split
    · simp
    split
    · simp
    split
    · simp
    rename_i h4
    intro h
    have h := Option.some.inj h
    rw [z, Bool.not_eq_true] at h4
    rw [← h]
    exact div_not_neg h4 hd

/-! ## Axis-parallel rays against boxes -/

/-- The hardware estimate of the reciprocal of a zero is the infinity of the same sign, as the manuals of both
architectures specify (`RCPPS`, `FRECPE`). -/
def Spec.EstZero : Prop := ∀ s, Libm.rcpEst (zero s : F32) = inf s

theorem recip_zero (hz : EstZero) (bk : Backend) (s : Bool) : Simd4f.recip1 bk (zero s : F32) = inf s := by
  have h : Scalar.rcpEst (zero s : F32) = inf s := hz s
  rcases bk with _ | _ | _ | ⟨_ | _⟩
  · simp only [Simd4f.recip1, h]; cases s <;> kdecide
  · cases s <;> kdecide
  · simp only [Simd4f.recip1, h]; cases s <;> kdecide
  · cases s <;> kdecide
  · cases s <;> kdecide

omit [Libm binary32] in
theorem fin_inf {a : F32} (h : a.isFin = true) : a.lt (inf false) = true ∧ (inf true : F32).lt a = true ∧
    (inf false : F32).lt a = false ∧ a.lt (inf true) = false ∧ a.isNaN = false := by
  rcases a with _ | _ | ⟨s, m, hm⟩
  · simp [isFin] at h
  · simp [isFin] at h
  · have h1 := hm.1
    refine ⟨?_, ?_, ?_, ?_, rfl⟩
    · rw [lt_iff]; refine ⟨rfl, rfl, ?_⟩; cases s <;> simp only [key, sgn, if_true, if_false, Bool.false_eq_true] <;> zify at h1 <;> push_cast at h1 ⊢ <;> omega
    · rw [lt_iff]; refine ⟨rfl, rfl, ?_⟩; cases s <;> simp only [key, sgn, if_true, if_false, Bool.false_eq_true] <;> zify at h1 <;> push_cast at h1 ⊢ <;> omega
    · rw [Bool.eq_false_iff, Ne, lt_iff]; rintro ⟨-, -, h⟩; revert h; cases s <;> simp only [key, sgn, if_true, if_false, Bool.false_eq_true] <;> zify at h1 <;> push_cast at h1 ⊢ <;> omega
    · rw [Bool.eq_false_iff, Ne, lt_iff]; rintro ⟨-, -, h⟩; revert h; cases s <;> simp only [key, sgn, if_true, if_false, Bool.false_eq_true] <;> zify at h1 <;> push_cast at h1 ⊢ <;> omega

/-- the parameter range of an axis the ray is parallel to, inside the slab -/
def RangeIn (z : F32 × F32) : Prop := (z.1 = inf true ∨ z.1 = nan) ∧ (z.2 = inf false ∨ z.2 = nan)
/-- … and outside -/
def RangeOut (z : F32 × F32) : Prop := z = (inf false, inf false) ∨ z = (inf true, inf true)
/-- the parameter range of the axis the ray runs along -/
def RangeAct (a : F32 × F32) : Prop := a.1.isFin = true ∧ a.2.isFin = true

theorem merge_in_in {y z : F32 × F32} (hy : RangeIn y) (hz : RangeIn z) : ∃ w, Ray.slabMerge y z = some w ∧ RangeIn w := by
  obtain ⟨y1, y2⟩ := y; obtain ⟨z1, z2⟩ := z
  obtain ⟨(h1 | h1), (h2 | h2)⟩ := hy <;> obtain ⟨(h3 | h3), (h4 | h4)⟩ := hz <;> dsimp only at h1 h2 h3 h4 <;> subst h1 h2 h3 h4 <;>
    exact ⟨_, rfl, by unfold RangeIn; kdecide⟩
theorem merge_in_out {y z : F32 × F32} (hy : RangeIn y) (hz : RangeOut z) :
    (∃ w, Ray.slabMerge y z = some w ∧ RangeOut w) ∧ (∃ w, Ray.slabMerge z y = some w ∧ RangeOut w) := by
  obtain ⟨y1, y2⟩ := y
  obtain ⟨(h1 | h1), (h2 | h2)⟩ := hy <;> obtain (h3 | h3) := hz <;> dsimp only at h1 h2 <;> subst h1 h2 h3 <;>
    exact ⟨⟨_, rfl, by unfold RangeOut; kdecide⟩, ⟨_, rfl, by unfold RangeOut; kdecide⟩⟩
theorem merge_out_out {y z : F32 × F32} (hy : RangeOut y) (hz : RangeOut z) :
    Ray.slabMerge y z = none ∨ ∃ w, Ray.slabMerge y z = some w ∧ RangeOut w := by
  obtain (h1 | h1) := hy <;> obtain (h3 | h3) := hz <;> subst h1 h3
  · exact Or.inr ⟨_, rfl, by unfold RangeOut; kdecide⟩
  · exact Or.inl rfl
  · exact Or.inl rfl
  · exact Or.inr ⟨_, rfl, by unfold RangeOut; kdecide⟩

theorem merge_act_in {a z : F32 × F32} (ha : RangeAct a) (hz : RangeIn z) :
    Ray.slabMerge a z = some a ∧ Ray.slabMerge z a = some a := by
  obtain ⟨a1, a2⟩ := a; obtain ⟨z1, z2⟩ := z
  obtain ⟨g1, g2⟩ := ha
  obtain ⟨i1, i2, i3, i4, i5⟩ := fin_inf g1
  obtain ⟨j1, j2, j3, j4, j5⟩ := fin_inf g2
  have k1 : ∀ b : F32, b.lt nan = false := fun b => by cases b <;> rfl
  have k2 : ∀ b : F32, (nan : F32).lt b = false := fun b => by cases b <;> rfl
  have s : ∀ b c : F32, (b <. c) = b.lt c := fun _ _ => rfl
  have n : ∀ b : F32, Scalar.isNaN b = b.isNaN := fun _ => rfl
  have n1 : (nan : F32).isNaN = true := rfl
  dsimp only at i1 i2 i3 i4 i5 j1 j2 j3 j4 j5
  obtain ⟨(h3 | h3), (h4 | h4)⟩ := hz <;> dsimp only at h3 h4 <;> subst h3 h4 <;>
    simp [Ray.slabMerge, s, n, n1, k1, k2, i1, i2, i3, i4, i5, j1, j2, j3, j4, j5]
theorem merge_act_out {a z : F32 × F32} (ha : RangeAct a) (hz : RangeOut z) :
    Ray.slabMerge a z = none ∧ Ray.slabMerge z a = none := by
  obtain ⟨a1, a2⟩ := a
  obtain ⟨g1, g2⟩ := ha
  obtain ⟨i1, i2, i3, i4, i5⟩ := fin_inf g1
  obtain ⟨j1, j2, j3, j4, j5⟩ := fin_inf g2
  have s : ∀ b c : F32, (b <. c) = b.lt c := fun _ _ => rfl
  dsimp only at i1 i2 i3 i4 i5 j1 j2 j3 j4 j5
  obtain (h3 | h3) := hz <;> subst h3 <;>
    simp [Ray.slabMerge, s, i1, i2, i3, i4, i5, j1, j2, j3, j4, j5]

/-- three axes, one of them active: the result is the active range if the other two are inside, nothing otherwise -/
theorem merge3 {a y z : F32 × F32} (ha : RangeAct a) (p q : Prop) (hy : (p → RangeIn y) ∧ (¬ p → RangeOut y))
    (hz : (q → RangeIn z) ∧ (¬ q → RangeOut z)) :
    (p ∧ q → (Ray.slabMerge a y).bind (Ray.slabMerge · z) = some a ∧ (Ray.slabMerge y a).bind (Ray.slabMerge · z) = some a ∧
      (Ray.slabMerge y z).bind (Ray.slabMerge · a) = some a) ∧
    (¬ (p ∧ q) → (Ray.slabMerge a y).bind (Ray.slabMerge · z) = none ∧ (Ray.slabMerge y a).bind (Ray.slabMerge · z) = none ∧
      (Ray.slabMerge y z).bind (Ray.slabMerge · a) = none) := by
  constructor
  · rintro ⟨hp, hq⟩
    have y1 := hy.1 hp
    have z1 := hz.1 hq
    obtain ⟨w, w1, w2⟩ := merge_in_in y1 z1
    rw [(merge_act_in ha y1).1, (merge_act_in ha y1).2, w1]
    exact ⟨(merge_act_in ha z1).1, (merge_act_in ha z1).1, (merge_act_in ha w2).2⟩
  · intro h
    by_cases hp : p
    · have hq : ¬ q := fun hq => h ⟨hp, hq⟩
      have y1 := hy.1 hp
      have z1 := hz.2 hq
      obtain ⟨w, w1, w2⟩ := (merge_in_out y1 z1).1
      rw [(merge_act_in ha y1).1, (merge_act_in ha y1).2, w1]
      exact ⟨(merge_act_out ha z1).1, (merge_act_out ha z1).1, (merge_act_out ha w2).2⟩
    · have y1 := hy.2 hp
      rw [(merge_act_out ha y1).1, (merge_act_out ha y1).2]
      refine ⟨rfl, rfl, ?_⟩
      by_cases hq : q
      · obtain ⟨w, w1, w2⟩ := (merge_in_out (hz.1 hq) y1).2
        rw [w1]; exact (merge_act_out ha w2).2
      · rcases merge_out_out y1 (hz.2 hq) with e | ⟨w, w1, w2⟩
        · rw [e]; rfl
        · rw [w1]; exact (merge_act_out ha w2).2

omit [Libm binary32] in
theorem isFin_of_val_zero {a : F32} (h : a.isNaN = false) (h0 : a.val = 0) : a.isFin = true := by
  rcases a with _ | s | _
  · simp [isNaN] at h
  · exfalso
    have : (inf s : F32).key = 0 := by
      rw [val, div_eq_zero_iff] at h0
      rcases h0 with h0 | h0
      · exact_mod_cast h0
      · exact absurd h0 (by positivity)
    cases s <;> simp [key, sgn] at this
  · rfl

omit [Libm binary32] in
/-- the sign of a difference is exact -/
theorem sub_sign {a o : F32} (ha : a.isFin = true) (ho : o.isFin = true) : (Fp.sub a o).isNaN = false ∧
    (a.val < o.val → (Fp.sub a o).val < 0) ∧ (a.val = o.val → (Fp.sub a o).val = 0) ∧ (o.val < a.val → 0 < (Fp.sub a o).val) := by
  have hr := rnd_sub ha ho
  have hn := hr.not_nan
  have nz : a.val ≠ o.val → (Fp.sub a o).val ≠ 0 := by
    intro h h0
    have := sub_err ha ho (isFin_of_val_zero hn h0)
    rw [h0, u32, zero_sub, _root_.abs_neg] at this
    have h2 : 0 < |a.val - o.val| := abs_pos.2 (sub_ne_zero.2 h)
    linarith
  have zf : (zero false : F32).isFin = true := rfl
  refine ⟨hn, ?_, ?_, ?_⟩
  · intro h
    have := (le_iff_val hn rfl).1 (hr.le_of zf (by rw [val_zero]; linarith))
    rw [val_zero] at this
    exact lt_of_le_of_ne this (nz h.ne)
  · intro h
    have h1 := (le_iff_val hn rfl).1 (hr.le_of zf (by rw [val_zero]; linarith))
    have h2 := (le_iff_val rfl hn).1 (hr.ge_of zf (by rw [val_zero]; linarith))
    rw [val_zero] at h1 h2
    linarith
  · intro h
    have := (le_iff_val rfl hn).1 (hr.ge_of zf (by rw [val_zero]; linarith))
    rw [val_zero] at this
    exact lt_of_le_of_ne this (nz h.ne').symm

omit [Libm binary32] in
theorem mul_inf_sign {x : F32} (hx : x.isNaN = false) (s : Bool) :
    (x.val < 0 → Fp.mul x (inf s) = inf (!s)) ∧ (x.val = 0 → Fp.mul x (inf s) = nan) ∧ (0 < x.val → Fp.mul x (inf s) = inf s) := by
  have hk : ∀ b : F32, (b.val < 0 ↔ b.key < 0) ∧ (b.val = 0 ↔ b.key = 0) ∧ (0 < b.val ↔ 0 < b.key) := by
    intro b
    have hu : (0 : ℝ) < 2 ^ binary32.ubit := by positivity
    refine ⟨?_, ?_, ?_⟩
    · rw [val, div_neg_iff]; constructor
      · rintro (⟨_, h⟩ | ⟨h, _⟩)
        · linarith
        · exact_mod_cast h
      · intro h; exact Or.inr ⟨by exact_mod_cast h, hu⟩
    · rw [val, div_eq_zero_iff]; constructor
      · rintro (h | h)
        · exact_mod_cast h
        · linarith
      · intro h; exact Or.inl (by exact_mod_cast h)
    · rw [val, div_pos_iff]; constructor
      · rintro (⟨h, _⟩ | ⟨_, h⟩)
        · exact_mod_cast h
        · linarith
      · intro h; exact Or.inl ⟨by exact_mod_cast h, hu⟩
  rw [(hk x).1, (hk x).2.1, (hk x).2.2]
  rcases x with _ | t | ⟨t, m, hm⟩
  · simp [isNaN] at hx
  · cases t <;> cases s <;> simp [key, sgn, Fp.mul]
  · cases t <;> cases s <;> simp [key, sgn, Fp.mul] <;> omega

/-- an axis to which the ray is parallel -/
theorem parallel_range (hz : EstZero) (bk : Backend) {d lo hi o : F32} (hd : d.isFin = true) (hd0 : d.val = 0)
    (hl : lo.isFin = true) (hh : hi.isFin = true) (ho : o.isFin = true) (h : lo.val ≤ hi.val) :
    let g := Simd4f.recip1 bk d
    let z := Ray.slabAxis g (Fp.mul (Fp.sub lo o) g) (Fp.mul (Fp.sub hi o) g)
    (lo.val ≤ o.val ∧ o.val ≤ hi.val → RangeIn z) ∧ (¬ (lo.val ≤ o.val ∧ o.val ≤ hi.val) → RangeOut z) := by
  obtain ⟨s, rfl⟩ : ∃ s, d = zero s := by
    rcases d with _ | s | ⟨s, m, hm⟩
    · simp [isFin] at hd
    · simp [isFin] at hd
    · refine ⟨s, ?_⟩
      have hu : (2 : ℝ) ^ binary32.ubit ≠ 0 := by positivity
      rw [val, div_eq_zero_iff, or_iff_left hu] at hd0
      have : m = 0 := by
        have h0 : (sgn s m) = 0 := by exact_mod_cast hd0
        cases s <;> simpa [sgn] using h0
      subst this; rfl
  intro g z
  have hg : g = inf s := recip_zero hz bk s
  obtain ⟨l0, l1, l2, l3⟩ := sub_sign hl ho
  obtain ⟨h0, h1, h2, h3⟩ := sub_sign hh ho
  obtain ⟨m1, m2, m3⟩ := mul_inf_sign l0 s
  obtain ⟨k1, k2, k3⟩ := mul_inf_sign h0 s
  have hz' : z = if s then (Fp.mul (Fp.sub hi o) (inf s), Fp.mul (Fp.sub lo o) (inf s)) else (Fp.mul (Fp.sub lo o) (inf s), Fp.mul (Fp.sub hi o) (inf s)) := by
    simp only [z, hg]; cases s <;> rfl
  rw [hz']
  rcases lt_trichotomy lo.val o.val with c | c | c <;> rcases lt_trichotomy hi.val o.val with c' | c' | c'
  · rw [m1 (l1 c), k1 (h1 c')]
    refine ⟨fun h => absurd h.2 (_root_.not_le.2 c'), fun _ => ?_⟩
    cases s <;> simp [RangeOut]
  · rw [m1 (l1 c), k2 (h2 c')]
    refine ⟨fun _ => ?_, fun h => absurd ⟨c.le, c'.symm.le⟩ h⟩
    cases s <;> simp [RangeIn]
  · rw [m1 (l1 c), k3 (h3 c')]
    refine ⟨fun _ => ?_, fun h => absurd ⟨c.le, c'.le⟩ h⟩
    cases s <;> simp [RangeIn]
  · linarith
  · rw [m2 (l2 c), k2 (h2 c')]
    refine ⟨fun _ => ?_, fun h => absurd ⟨c.le, c'.symm.le⟩ h⟩
    cases s <;> simp [RangeIn]
  · rw [m2 (l2 c), k3 (h3 c')]
    refine ⟨fun _ => ?_, fun h => absurd ⟨c.le, c'.le⟩ h⟩
    cases s <;> simp [RangeIn]
  · linarith
  · linarith
  · rw [m3 (l3 c), k3 (h3 c')]
    refine ⟨fun h => absurd h.1 (_root_.not_le.2 c), fun _ => ?_⟩
    cases s <;> simp [RangeOut]

omit [Libm binary32] in
theorem min_mag {x : F32} (h : x.val ≠ 0) : 1 / 2 ^ 149 ≤ |x.val| := by
  rw [val, abs_div, abs_of_pos (show (0 : ℝ) < 2 ^ binary32.ubit by positivity)]
  have : x.key ≠ 0 := by intro hk; exact h (by rw [val, hk]; simp)
  have : (1 : ℝ) ≤ |(x.key : ℝ)| := by rw [← Int.cast_abs]; exact_mod_cast Int.one_le_abs this
  show (1 : ℝ) / 2 ^ 149 ≤ _ / 2 ^ 149
  gcongr

omit [Libm binary32] in
/-- the sign of the product with a number that is not small is exact -/
theorem mul_sign {x g : F32} (hx : x.isFin = true) (hg : g.isFin = true) (h1 : 3 / 4 ≤ |g.val|) (hm : |x.val * g.val| ≤ 2 ^ 126) :
    (Fp.mul x g).isFin = true ∧ (0 < x.val * g.val → 0 < (Fp.mul x g).val) ∧ (x.val * g.val = 0 → (Fp.mul x g).val = 0) ∧
    (x.val * g.val < 0 → (Fp.mul x g).val < 0) := by
  have hr := rnd_mul hx hg
  have hf : (Fp.mul x g).isFin = true := hr.isFin hp32 (hm.trans (le_trans (by norm_num) le_max32))
  have e := hr.err_add hf
  rw [u32, eta32, _root_.abs_le] at e
  have big : x.val ≠ 0 → 3 / 2 ^ 151 ≤ |x.val * g.val| := by
    intro h
    have := mul_le_mul (min_mag h) h1 (by norm_num) (abs_nonneg _)
    rw [abs_mul]; norm_num at this ⊢; linarith
  refine ⟨hf, ?_, ?_, ?_⟩
  · intro h
    have b := big (fun hc => by rw [hc, zero_mul] at h; exact lt_irrefl _ h)
    rw [abs_of_pos h] at b e
    norm_num at b e; linarith [e.1]
  · intro h
    have := hr.exact (a := zero false) rfl (by rw [h, val_zero])
    rw [this, val_zero]
  · intro h
    have b := big (fun hc => by rw [hc, zero_mul] at h; exact lt_irrefl _ h)
    rw [abs_of_neg h] at b e
    norm_num at b e; linarith [e.2]

/-- real geometry of one axis -/
theorem axis_real {lo hi o d : ℝ} (hd : 0 < d) (h : lo ≤ hi) :
    (hi < o ↔ ∀ t, 0 ≤ t → ¬ (lo ≤ o + t * d ∧ o + t * d ≤ hi)) ∧
    (o ≤ hi → (o ≤ lo ↔ ∀ t, t < 0 → ¬ (lo ≤ o + t * d ∧ o + t * d ≤ hi))) := by
  constructor
  · constructor
    · rintro h1 t ht ⟨-, h2⟩
      have := mul_nonneg ht hd.le
      linarith
    · intro h1
      by_contra hc
      rw [_root_.not_lt] at hc
      rcases _root_.le_total lo o with c | c
      · exact h1 0 le_rfl ⟨by linarith, by linarith⟩
      · refine h1 ((lo - o) / d) (by apply div_nonneg <;> linarith) ?_
        rw [div_mul_cancel₀ _ hd.ne']; constructor <;> linarith
  · intro h0
    constructor
    · rintro h1 t ht ⟨h2, -⟩
      have := mul_neg_of_neg_of_pos ht hd
      linarith
    · intro h1
      by_contra hc
      rw [_root_.not_le] at hc
      refine h1 ((lo - o) / d) (by apply div_neg_of_neg_of_pos <;> linarith) ?_
      rw [div_mul_cancel₀ _ hd.ne']; constructor <;> linarith

/-- The ray runs along this axis: the component of its direction is not zero and the backend's reciprocal `g` of it is a
finite number of the same sign of magnitude at least 3/4 (for a unit direction it is about one); the box is within 2^100. -/
structure Spec.Along (bk : Backend) (d lo hi o : F32) : Prop where
  fin : d.isFin = true
  rfin : (Simd4f.recip1 bk d).isFin = true
  sign : 0 < d.val * (Simd4f.recip1 bk d).val
  small : 3 / 4 ≤ |(Simd4f.recip1 bk d).val|
  big : |(Simd4f.recip1 bk d).val| ≤ 2 ^ 20
  nearLo : |lo.val - o.val| ≤ 2 ^ 100
  nearHi : |hi.val - o.val| ≤ 2 ^ 100

theorem active_range (bk : Backend) {d lo hi o : F32} (ha : Along bk d lo hi o)
    (hl : lo.isFin = true) (hh : hi.isFin = true) (ho : o.isFin = true) (h : lo.val ≤ hi.val) :
    let g := Simd4f.recip1 bk d
    let a := Ray.slabAxis g (Fp.mul (Fp.sub lo o) g) (Fp.mul (Fp.sub hi o) g)
    RangeAct a ∧ (a.2.val < 0 ↔ ∀ t, 0 ≤ t → ¬ (lo.val ≤ o.val + t * d.val ∧ o.val + t * d.val ≤ hi.val)) ∧
    (0 ≤ a.2.val → (0 ≤ a.1.val ↔ ∀ t, t < 0 → ¬ (lo.val ≤ o.val + t * d.val ∧ o.val + t * d.val ≤ hi.val))) := by
  intro g a
  obtain ⟨l0, l1, l2, l3⟩ := sub_sign hl ho
  obtain ⟨h0, h1, h2, h3⟩ := sub_sign hh ho
  have sl := Approx.sub_exact hp32 hl ho (ha.nearLo.trans (le_trans (by norm_num) le_max32))
  have sh := Approx.sub_exact hp32 hh ho (ha.nearHi.trans (le_trans (by norm_num) le_max32))
  rw [u32] at sl sh
  have bl : |(Fp.sub lo o).val * g.val| ≤ 2 ^ 126 := by
    rw [abs_mul]
    have := mul_le_mul (sl.abs_le.trans (mul_le_mul_of_nonneg_left ha.nearLo (by norm_num))) ha.big (abs_nonneg _) (by positivity)
    exact this.trans (by norm_num)
  have bh : |(Fp.sub hi o).val * g.val| ≤ 2 ^ 126 := by
    rw [abs_mul]
    have := mul_le_mul (sh.abs_le.trans (mul_le_mul_of_nonneg_left ha.nearHi (by norm_num))) ha.big (abs_nonneg _) (by positivity)
    exact this.trans (by norm_num)
  obtain ⟨ml0, ml1, ml2, ml3⟩ := mul_sign sl.fin ha.rfin ha.small bl
  obtain ⟨mh0, mh1, mh2, mh3⟩ := mul_sign sh.fin ha.rfin ha.small bh
  have hgz : (g >=. (f0 : F32)) = true ↔ 0 ≤ g.val := by
    have := le_iff_val (a := (zero false : F32)) (b := g) rfl (isNaN_of_isFin ha.rfin)
    rw [val_zero] at this
    rw [← this, f0_eq]; rfl
  have hs := ha.sign
  rcases lt_or_ge d.val 0 with hd | hd
  · have gneg : g.val < 0 := by
      by_contra hc; rw [_root_.not_lt] at hc
      have := mul_nonpos_of_nonpos_of_nonneg hd.le hc
      exact absurd hs (_root_.not_lt.2 this)
    have ea : a = (Fp.mul (Fp.sub hi o) g, Fp.mul (Fp.sub lo o) g) := by
      show (if g >=. (f0 : F32) then _ else _) = _
      rw [if_neg (fun hc => absurd (hgz.1 hc) (_root_.not_le.2 gneg))]
    rw [ea]
    have r := axis_real (lo := -hi.val) (hi := -lo.val) (o := -o.val) (d := -d.val) (by linarith) (by linarith)
    have conv : ∀ t : ℝ, (-hi.val ≤ -o.val + t * -d.val ∧ -o.val + t * -d.val ≤ -lo.val) ↔ (lo.val ≤ o.val + t * d.val ∧ o.val + t * d.val ≤ hi.val) := by
      intro t; constructor <;> rintro ⟨u, v⟩ <;> constructor <;> linarith
    simp only [conv] at r
    refine ⟨⟨mh0, ml0⟩, ?_, ?_⟩
    · rw [← r.1]
      show (Fp.mul (Fp.sub lo o) g).val < 0 ↔ _
      rcases lt_trichotomy lo.val o.val with c | c | c
      · have := ml1 (mul_pos_of_neg_of_neg (l1 c) gneg)
        constructor <;> intro <;> linarith
      · have := ml2 (by rw [l2 c, zero_mul])
        constructor <;> intro <;> linarith
      · have := ml3 (mul_neg_of_pos_of_neg (l3 c) gneg)
        constructor <;> intro <;> linarith
    · intro hp
      have hp : 0 ≤ (Fp.mul (Fp.sub lo o) g).val := hp
      have hlo : lo.val ≤ o.val := by
        by_contra c; rw [_root_.not_le] at c
        have := ml3 (mul_neg_of_pos_of_neg (l3 c) gneg); linarith
      rw [← r.2 (by linarith)]
      show 0 ≤ (Fp.mul (Fp.sub hi o) g).val ↔ _
      rcases lt_trichotomy hi.val o.val with c | c | c
      · have := mh1 (mul_pos_of_neg_of_neg (h1 c) gneg)
        constructor <;> intro <;> linarith
      · have := mh2 (by rw [h2 c, zero_mul])
        constructor <;> intro <;> linarith
      · have := mh3 (mul_neg_of_pos_of_neg (h3 c) gneg)
        constructor <;> intro <;> linarith
  · have dpos : 0 < d.val := lt_of_le_of_ne hd (fun hc => by rw [← hc, zero_mul] at hs; exact lt_irrefl _ hs)
    have gpos : 0 < g.val := (mul_pos_iff_of_pos_left dpos).1 hs
    have ea : a = (Fp.mul (Fp.sub lo o) g, Fp.mul (Fp.sub hi o) g) := by
      show (if g >=. (f0 : F32) then _ else _) = _
      rw [if_pos (hgz.2 gpos.le)]
    rw [ea]
    have r := axis_real (o := o.val) dpos h
    refine ⟨⟨ml0, mh0⟩, ?_, ?_⟩
    · rw [← r.1]
      show (Fp.mul (Fp.sub hi o) g).val < 0 ↔ _
      rcases lt_trichotomy hi.val o.val with c | c | c
      · have := mh3 (mul_neg_of_neg_of_pos (h1 c) gpos)
        constructor <;> intro <;> linarith
      · have := mh2 (by rw [h2 c, zero_mul])
        constructor <;> intro <;> linarith
      · have := mh1 (mul_pos (h3 c) gpos)
        constructor <;> intro <;> linarith
    · intro hp
      have hp : 0 ≤ (Fp.mul (Fp.sub hi o) g).val := hp
      have hhi : o.val ≤ hi.val := by
        by_contra c; rw [_root_.not_le] at c
        have := mh3 (mul_neg_of_neg_of_pos (h1 c) gpos); linarith
      rw [← r.2 hhi]
      show 0 ≤ (Fp.mul (Fp.sub lo o) g).val ↔ _
      rcases lt_trichotomy lo.val o.val with c | c | c
      · have := ml3 (mul_neg_of_neg_of_pos (l1 c) gpos)
        constructor <;> intro <;> linarith
      · have := ml2 (by rw [l2 c, zero_mul])
        constructor <;> intro <;> linarith
      · have := ml1 (mul_pos (l3 c) gpos)
        constructor <;> intro <;> linarith

/-- the exact position at real parameter `t` -/
noncomputable def Spec.rayPos (r : Ray F32) (t : ℝ) : ℝ × ℝ × ℝ :=
  (r.getOrigin.x.val + t * r.direction.getX.val, r.getOrigin.y.val + t * r.direction.getY.val, r.getOrigin.z.val + t * r.direction.getZ.val)

/-- the component is a zero (of either sign) -/
def Spec.IsZero (d : F32) : Prop := d.isFin = true ∧ d.val = 0

/-- the direction is along one of the three axes -/
def Spec.AxisDir (bk : Backend) (r : Ray F32) (b : Box F32) : Prop :=
  (Along bk r.direction.getX b.getMin.x b.getMax.x r.getOrigin.x ∧ IsZero r.direction.getY ∧ IsZero r.direction.getZ) ∨
  (IsZero r.direction.getX ∧ Along bk r.direction.getY b.getMin.y b.getMax.y r.getOrigin.y ∧ IsZero r.direction.getZ) ∨
  (IsZero r.direction.getX ∧ IsZero r.direction.getY ∧ Along bk r.direction.getZ b.getMin.z b.getMax.z r.getOrigin.z)

/-- the last step of the slab test, given the common range -/
def slabKind (m : Option (F32 × F32)) : IntersectionKind × F32 :=
  match m with
  | none => (.none, f0)
  | some t => if t.2 <. f0 then (.none, f0) else if t.1 >=. f0 then (.enter, t.1) else (.leave, t.2)

theorem final_kind {a : F32 × F32} (ha : RangeAct a) (m : Option (F32 × F32)) (P : ℝ → Prop) (pq : Prop) (Q : ℝ → Prop)
    (hP : ∀ t, Q t ↔ pq ∧ P t)
    (h2 : a.2.val < 0 ↔ ∀ t, 0 ≤ t → ¬ P t) (h1 : 0 ≤ a.2.val → (0 ≤ a.1.val ↔ ∀ t, t < 0 → ¬ P t))
    (hm : (pq → m = some a) ∧ (¬ pq → m = none)) :
    let k := slabKind m
    (k.1 ≠ .none ↔ ∃ t, 0 ≤ t ∧ Q t) ∧ (k.1 = .enter ↔ (∃ t, 0 ≤ t ∧ Q t) ∧ ∀ t, t < 0 → ¬ Q t) := by
  intro k
  by_cases c : pq
  · have e := hm.1 c
    have q2 : (a.2 <. (f0 : F32)) = true ↔ a.2.val < 0 := by
      have := lt_iff_val (b := (zero false : F32)) (isNaN_of_isFin ha.2) rfl
      rw [val_zero] at this; rw [← this, f0_eq]; rfl
    have q1 : (a.1 >=. (f0 : F32)) = true ↔ 0 ≤ a.1.val := by
      have := le_iff_val (a := (zero false : F32)) rfl (isNaN_of_isFin ha.1)
      rw [val_zero] at this; rw [← this, f0_eq]; rfl
    have ek : k = if a.2 <. f0 then (.none, f0) else if a.1 >=. f0 then (.enter, a.1) else (.leave, a.2) := by simp only [k, e]; rfl
    have hP' : ∀ t, Q t ↔ P t := fun t => by rw [hP]; exact and_iff_right c
    simp only [hP']
    by_cases d : a.2.val < 0
    · rw [ek, if_pos (q2.2 d)]
      have := h2.1 d
      refine ⟨⟨fun h => absurd rfl h, fun ⟨t, h, g⟩ => absurd g (this t h)⟩, ⟨fun h => by simp at h, fun ⟨⟨t, h, g⟩, _⟩ => absurd g (this t h)⟩⟩
    · rw [ek, if_neg (fun hc => d (q2.1 hc))]
      have ex : ∃ t, 0 ≤ t ∧ P t := by
        by_contra hc; push Not at hc; exact d (h2.2 hc)
      have h1 := h1 (_root_.not_lt.1 d)
      by_cases g : 0 ≤ a.1.val
      · rw [if_pos (q1.2 g)]
        exact ⟨⟨fun _ => ex, fun _ => by simp⟩, ⟨fun _ => ⟨ex, h1.1 g⟩, fun _ => rfl⟩⟩
      · rw [if_neg (fun hc => g (q1.1 hc))]
        exact ⟨⟨fun _ => ex, fun _ => by simp⟩, ⟨fun h => by simp at h, fun h => absurd (h1.2 h.2) g⟩⟩
  · have e := hm.2 c
    have ek : k = (.none, f0) := by simp only [k, e]; rfl
    rw [ek]
    have : ∀ t, ¬ Q t := fun t h => c ((hP t).1 h).1
    exact ⟨⟨fun h => absurd rfl h, fun ⟨t, _, g⟩ => absurd g (this t)⟩, ⟨fun h => by simp at h, fun ⟨⟨t, _, g⟩, _⟩ => absurd g (this t)⟩⟩

/-- C98: for a ray along an axis, `graphene_ray_intersects_box` is right for all floats, with no error term: it answers
true exactly when the exact half-line meets the closed box — also when the ray runs in a face or along an edge, where
the computation goes through `0·∞ = NaN` — and the kind is ENTER exactly when no earlier point of the line is in
the box. -/
theorem C98_axis_box (hz : EstZero) (bk : Backend) (r : Ray F32) (b : Box F32) (hb : FinBox b) (ho : FinPoint r.getOrigin)
    (hd : AxisDir bk r b) :
    (r.intersectsBox bk b = true ↔ ∃ t, 0 ≤ t ∧ InBox b (rayPos r t)) ∧
    ((r.intersectBox bk b).1 = .enter ↔ (∃ t, 0 ≤ t ∧ InBox b (rayPos r t)) ∧ ∀ t, t < 0 → ¬ InBox b (rayPos r t)) := by
  set X := Ray.slabAxis (Simd4f.recip1 bk r.direction.getX) (Fp.mul (Fp.sub b.getMin.x r.getOrigin.x) (Simd4f.recip1 bk r.direction.getX))
    (Fp.mul (Fp.sub b.getMax.x r.getOrigin.x) (Simd4f.recip1 bk r.direction.getX)) with hX
  set Y := Ray.slabAxis (Simd4f.recip1 bk r.direction.getY) (Fp.mul (Fp.sub b.getMin.y r.getOrigin.y) (Simd4f.recip1 bk r.direction.getY))
    (Fp.mul (Fp.sub b.getMax.y r.getOrigin.y) (Simd4f.recip1 bk r.direction.getY)) with hY
  set Z := Ray.slabAxis (Simd4f.recip1 bk r.direction.getZ) (Fp.mul (Fp.sub b.getMin.z r.getOrigin.z) (Simd4f.recip1 bk r.direction.getZ))
    (Fp.mul (Fp.sub b.getMax.z r.getOrigin.z) (Simd4f.recip1 bk r.direction.getZ)) with hZ
  have e : r.intersectBox bk b = slabKind ((Ray.slabMerge X Y).bind (Ray.slabMerge · Z)) := by
    unfold Ray.intersectBox
    dsimp only
    split
    · rename_i h
      have h' : Ray.slabMerge X Y = none := h
      rw [h']; rfl
    · rename_i txy h
      have h' : Ray.slabMerge X Y = some txy := h
      rw [h']
      split
      · rename_i g
        have g' : Ray.slabMerge txy Z = none := g
        rw [Option.bind_some, g']; rfl
      · rename_i t g
        have g' : Ray.slabMerge txy Z = some t := g
        rw [Option.bind_some, g']; rfl
  have e2 : r.intersectsBox bk b = true ↔ (r.intersectBox bk b).1 ≠ .none := by
    unfold Ray.intersectsBox; simp
  rw [e2, e]
  have hin : ∀ t, InBox b (rayPos r t) ↔
      (b.getMin.x.val ≤ r.getOrigin.x.val + t * r.direction.getX.val ∧ r.getOrigin.x.val + t * r.direction.getX.val ≤ b.getMax.x.val) ∧
      (b.getMin.y.val ≤ r.getOrigin.y.val + t * r.direction.getY.val ∧ r.getOrigin.y.val + t * r.direction.getY.val ≤ b.getMax.y.val) ∧
      (b.getMin.z.val ≤ r.getOrigin.z.val + t * r.direction.getZ.val ∧ r.getOrigin.z.val + t * r.direction.getZ.val ≤ b.getMax.z.val) := by
    intro t; unfold InBox rayPos; tauto
  have zx := fun h : IsZero r.direction.getX => parallel_range hz bk h.1 h.2 hb.lo.1 hb.hi.1 ho.1 hb.x
  have zy := fun h : IsZero r.direction.getY => parallel_range hz bk h.1 h.2 hb.lo.2.1 hb.hi.2.1 ho.2.1 hb.y
  have zz := fun h : IsZero r.direction.getZ => parallel_range hz bk h.1 h.2 hb.lo.2.2 hb.hi.2.2 ho.2.2 hb.z
  rcases hd with ⟨h1, h2, h3⟩ | ⟨h1, h2, h3⟩ | ⟨h1, h2, h3⟩
  · obtain ⟨a1, a2, a3⟩ := active_range bk h1 hb.lo.1 hb.hi.1 ho.1 hb.x
    have m := merge3 a1 _ _ (zy h2) (zz h3)
    refine final_kind a1 _ _ _ (fun t => InBox b (rayPos r t)) ?_ a2 a3 ⟨fun h => (m.1 h).1, fun h => (m.2 h).1⟩
    intro t; rw [hin, h2.2, h3.2]; simp only [mul_zero, add_zero]; exact ⟨fun ⟨x, y, z⟩ => ⟨⟨y, z⟩, x⟩, fun ⟨⟨y, z⟩, x⟩ => ⟨x, y, z⟩⟩
  · obtain ⟨a1, a2, a3⟩ := active_range bk h2 hb.lo.2.1 hb.hi.2.1 ho.2.1 hb.y
    have m := merge3 a1 _ _ (zx h1) (zz h3)
    refine final_kind a1 _ _ _ (fun t => InBox b (rayPos r t)) ?_ a2 a3 ⟨fun h => (m.1 h).2.1, fun h => (m.2 h).2.1⟩
    intro t; rw [hin, h1.2, h3.2]; simp only [mul_zero, add_zero]; exact ⟨fun ⟨x, y, z⟩ => ⟨⟨x, z⟩, y⟩, fun ⟨⟨x, z⟩, y⟩ => ⟨x, y, z⟩⟩
  · obtain ⟨a1, a2, a3⟩ := active_range bk h3 hb.lo.2.2 hb.hi.2.2 ho.2.2 hb.z
    have m := merge3 a1 _ _ (zx h1) (zy h2)
    refine final_kind a1 _ _ _ (fun t => InBox b (rayPos r t)) ?_ a2 a3 ⟨fun h => (m.1 h).2.2, fun h => (m.2 h).2.2⟩
    intro t; rw [hin, h1.2, h2.2]; simp only [mul_zero, add_zero]; exact ⟨fun ⟨x, y, z⟩ => ⟨⟨x, y⟩, z⟩, fun ⟨⟨x, y⟩, z⟩ => ⟨x, y, z⟩⟩

/-- non-vacuity: a ray running along an edge of the unit box, and estimates that satisfy the hypothesis -/
example : let r : Ray F32 := ⟨Vec3.init (Fp.lit 0 1) (Fp.lit 0 1) (Fp.lit (-1) 1), Vec3.init (Fp.lit 0 1) (Fp.lit 0 1) (Fp.lit 1 1)⟩
    let b : Box F32 := ⟨Vec3.init (Fp.lit 0 1) (Fp.lit 0 1) (Fp.lit 0 1), Vec3.init (Fp.lit 1 1) (Fp.lit 1 1) (Fp.lit 1 1)⟩
    FinBox b ∧ FinPoint r.getOrigin ∧ AxisDir .gcc r b ∧ ∃ t, 0 ≤ t ∧ InBox b (rayPos r t) := by
  intro r b
  have l : ∀ n : Int, n.natAbs ≤ 2 ^ 24 → (Fp.lit n 1 : F32).isFin = true ∧ (Fp.lit n 1 : F32).val = n := fun n h => lit_int n h
  have l0 := l 0 (by decide)
  have l1 := l 1 (by decide)
  have lm := l (-1) (by decide)
  have e1 : (Fp.lit 1 1 : F32).val = 1 := by simpa using l1.2
  have e0 : (Fp.lit 0 1 : F32).val = 0 := by simpa using l0.2
  have m1 : (Fp.lit (-1) 1 : F32).val = -1 := by simpa using lm.2
  have b1 : b.getMin = ⟨Fp.lit 0 1, Fp.lit 0 1, Fp.lit 0 1⟩ := rfl
  have b2 : b.getMax = ⟨Fp.lit 1 1, Fp.lit 1 1, Fp.lit 1 1⟩ := rfl
  have r1 : r.getOrigin = ⟨Fp.lit 0 1, Fp.lit 0 1, Fp.lit (-1) 1⟩ := rfl
  have d1 : r.direction.getX = Fp.lit 0 1 := rfl
  have d2 : r.direction.getY = Fp.lit 0 1 := rfl
  have d3 : r.direction.getZ = Fp.lit 1 1 := rfl
  have g : Simd4f.recip1 .gcc (Fp.lit 1 1 : F32) = Fp.lit 1 1 := by kdecide
  refine ⟨⟨⟨l0.1, l0.1, l0.1⟩, ⟨l1.1, l1.1, l1.1⟩, ?_, ?_, ?_⟩, ⟨l0.1, l0.1, lm.1⟩, Or.inr (Or.inr ⟨⟨l0.1, e0⟩, ⟨l0.1, e0⟩, ?_⟩), 1, zero_le_one, ?_⟩
  · rw [b1, b2, e0, e1]; norm_num
  · simp only [b1, b2, e0, e1]; norm_num
  · simp only [b1, b2, e0, e1]; norm_num
  · rw [d3]
    refine ⟨l1.1, by rw [g]; exact l1.1, ?_, ?_, ?_, ?_, ?_⟩
    · rw [g, e1]; norm_num
    · rw [g, e1]; norm_num
    · rw [g, e1]; norm_num
    · simp only [b1, r1, e0, m1]; norm_num
    · simp only [b2, r1, e1, m1]; norm_num
  · unfold InBox rayPos
    simp only [b1, b2, r1, d1, d2, d3, e0, e1, m1]
    norm_num

omit [Libm binary32] in
example : ∃ L : Libm binary32, @EstZero L :=
  ⟨⟨id, id, id, id, id, fun a _ => a, fun a => Fp.div (Fp.lit 1 1) a, id⟩, fun s => by cases s <;> decide +kernel⟩

end Graphene

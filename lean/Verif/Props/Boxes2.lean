/-
  C31 – C34: box intersection, union, inclusion, expansion, over IEEE binary32.
-/
import Verif.Props.Boxes1

namespace Graphene
open Spec Simd4f
variable [Libm binary32]

/-! ## C31 intersection -/

omit [Libm binary32] in
theorem mem_inter_axis {lo1 lo2 hi1 hi2 p : F32} :
    (lo1.le p = true ∧ lo2.le p = true) ∧ p.le hi1 = true ∧ p.le hi2 = true ↔
    (lo1.le p = true ∧ p.le hi1 = true) ∧ lo2.le p = true ∧ p.le hi2 = true := by tauto

/-- C31: a point is in the result exactly when it is in both boxes; the flag says whether a
common point exists; without one the result is the empty box. -/
theorem C31_box (bk : Backend) (a b : Box F32) (ha : BoundsNoNaN a) (hb : BoundsNoNaN b)
    (ua : Usable a) (ub : Usable b) :
    (∀ p, NoNaN3 p → ((Box.intersection bk a b).2.containsPoint p = true ↔
      a.containsPoint p = true ∧ b.containsPoint p = true)) ∧
    ((Box.intersection bk a b).1 = true ↔
      ∃ p, NoNaN3 p ∧ a.containsPoint p = true ∧ b.containsPoint p = true) ∧
    ((Box.intersection bk a b).1 = false → (Box.intersection bk a b).2 = Box.empty) ∧
    Usable (Box.intersection bk a b).2 := by
  obtain ⟨⟨a1, a2, a3⟩, a4, a5, a6⟩ := ha
  obtain ⟨⟨b1, b2, b3⟩, b4, b5, b6⟩ := hb
  obtain ⟨ua1, ua2⟩ := ua
  obtain ⟨ub1, ub2⟩ := ub
  have aw1 := Fp.le_left_not_nan ua1
  have aw2 := Fp.le_right_not_nan ua2
  have bw1 := Fp.le_left_not_nan ub1
  have bw2 := Fp.le_right_not_nan ub2
  set lo := Simd4f.max bk a.min.value b.min.value with hlo
  set hi := Simd4f.min bk a.max.value b.max.value with hhi
  have uw1 : lo.w.le (Fp.zero false) = true := (max1_le bk aw1 bw1).2 ⟨ua1, ub1⟩
  have uw2 : (Fp.zero false : F32).le hi.w = true := (le_min1 bk aw2 bw2).2 ⟨ua2, ub2⟩
  have hu : Usable (Box.initFromSimd4f lo hi) := ⟨uw1, uw2⟩
  have hpts : ∀ p : Point3D F32, p ∈ boxPts (Box.initFromSimd4f lo hi) ↔ p ∈ boxPts a ∧ p ∈ boxPts b := by
    intro p
    simp only [boxPts, Set.mem_setOf_eq, Box.initFromSimd4f, hlo, hhi, Simd4f.max, Simd4f.min, map2,
      max1_le bk a1 b1, max1_le bk a2 b2, max1_le bk a3 b3, le_min1 bk a4 b4, le_min1 bk a5 b5,
      le_min1 bk a6 b6]
    tauto
  have hca : ∀ p, NoNaN3 p → (a.containsPoint p = true ↔ p ∈ boxPts a) :=
    fun p hp => contains_iff ⟨ua1, ua2⟩ hp
  have hcb : ∀ p, NoNaN3 p → (b.containsPoint p = true ↔ p ∈ boxPts b) :=
    fun p hp => contains_iff ⟨ub1, ub2⟩ hp
  have nlo : lo.x.isNaN = false ∧ lo.y.isNaN = false ∧ lo.z.isNaN = false :=
    ⟨max1_nn bk a1 b1, max1_nn bk a2 b2, max1_nn bk a3 b3⟩
  have hflag : cmpLe lo hi = true ↔ ∃ p, NoNaN3 p ∧ p ∈ boxPts a ∧ p ∈ boxPts b := by
    simp only [cmpLe, Fp.sc_le, Bool.and_eq_true, Fp.le_trans uw1 uw2, and_true]
    constructor
    · rintro ⟨⟨h1, h2⟩, h3⟩
      refine ⟨⟨lo.x, lo.y, lo.z⟩, nlo, (hpts _).1 ?_⟩
      exact ⟨⟨Fp.le_refl nlo.1, h1⟩, ⟨Fp.le_refl nlo.2.1, h2⟩, Fp.le_refl nlo.2.2, h3⟩
    · rintro ⟨p, -, hp⟩
      obtain ⟨⟨h1, h2⟩, ⟨h3, h4⟩, h5, h6⟩ := (hpts p).2 hp
      exact ⟨⟨Fp.le_trans h1 h2, Fp.le_trans h3 h4⟩, Fp.le_trans h5 h6⟩
  have hex : (∃ p, NoNaN3 p ∧ a.containsPoint p = true ∧ b.containsPoint p = true) ↔
      ∃ p, NoNaN3 p ∧ p ∈ boxPts a ∧ p ∈ boxPts b := by
    constructor <;> rintro ⟨p, hp, h1, h2⟩
    · exact ⟨p, hp, (hca p hp).1 h1, (hcb p hp).1 h2⟩
    · exact ⟨p, hp, (hca p hp).2 h1, (hcb p hp).2 h2⟩
  by_cases hf : cmpLe lo hi = true
  · have e : Box.intersection bk a b = (true, Box.initFromSimd4f lo hi) := by
      simp only [Box.intersection, ← hlo, ← hhi, hf, Bool.not_true, Bool.false_eq_true, if_false]
    rw [e]
    refine ⟨fun p hp => ?_, ?_, by simp, hu⟩
    · rw [contains_iff hu hp, hpts, hca p hp, hcb p hp]
    · simp only [true_iff]; rw [hex]; exact hflag.1 hf
  · have e : Box.intersection bk a b = (false, Box.empty) := by
      simp only [Bool.not_eq_true] at hf
      simp only [Box.intersection, ← hlo, ← hhi, hf, Bool.not_false, if_true]
    rw [e]
    have hno : ¬ ∃ p, NoNaN3 p ∧ p ∈ boxPts a ∧ p ∈ boxPts b := fun h => hf (hflag.2 h)
    refine ⟨fun p hp => ?_, ?_, by simp, ?_⟩
    · rw [(C30_contains p ⟨f0, f0⟩).1]
      simp only [Bool.false_eq_true, false_iff]
      rw [hca p hp, hcb p hp]
      intro h; exact hno ⟨p, hp, h⟩
    · simp only [Bool.false_eq_true, false_iff]; rw [hex]; exact hno
    · simp only [Usable, Box.empty, Simd4f.init, Fp.f0_eq]; exact ⟨zero_le_zero, zero_le_zero⟩

/-- C31 for 2D boxes, with `box2d_intersects`. -/
theorem C31_box2d (bk : Backend) (a b : Box2d F32) (ha : Bounds2NoNaN a) (hb : Bounds2NoNaN b) :
    (∀ p, NoNaN2 p → ((Box2d.intersection bk a b).2.containsPoint p = true ↔
      a.containsPoint p = true ∧ b.containsPoint p = true)) ∧
    ((Box2d.intersection bk a b).1 = true ↔
      ∃ p, NoNaN2 p ∧ a.containsPoint p = true ∧ b.containsPoint p = true) ∧
    ((Box2d.intersection bk a b).1 = false → (Box2d.intersection bk a b).2 = Box2d.empty) ∧
    Box2d.intersects bk a b = (Box2d.intersection bk a b).1 := by
  obtain ⟨a1, a2, a3, a4⟩ := ha
  obtain ⟨b1, b2, b3, b4⟩ := hb
  set lo := Simd4f.max bk a.minV b.minV with hlo
  set hi := Simd4f.min bk a.maxV b.maxV with hhi
  have elo : lo = ⟨max1 bk a.minmax.x b.minmax.x, max1 bk a.minmax.y b.minmax.y, Fp.zero false, Fp.zero false⟩ := by
    simp only [hlo, Simd4f.max, map2, Box2d.minV, mergeLow, initZero, Fp.f0_eq, max1_zero]
  have ehi : hi = ⟨min1 bk a.minmax.z b.minmax.z, min1 bk a.minmax.w b.minmax.w, Fp.zero false, Fp.zero false⟩ := by
    simp only [hhi, Simd4f.min, map2, Box2d.maxV, mergeHigh, initZero, Fp.f0_eq, min1_zero]
  have hpts : ∀ p : Point F32, p ∈ box2Pts (Box2d.initFromSimd4f lo hi) ↔ p ∈ box2Pts a ∧ p ∈ box2Pts b := by
    intro p
    simp only [box2Pts, Set.mem_setOf_eq, Box2d.initFromSimd4f, elo, ehi, mergeLow,
      max1_le bk a1 b1, max1_le bk a2 b2, le_min1 bk a3 b3, le_min1 bk a4 b4]
    tauto
  have nlo : lo.x.isNaN = false ∧ lo.y.isNaN = false := by
    rw [elo]; exact ⟨max1_nn bk a1 b1, max1_nn bk a2 b2⟩
  have hflag : cmpLe lo hi = true ↔ ∃ p, NoNaN2 p ∧ p ∈ box2Pts a ∧ p ∈ box2Pts b := by
    have hz : lo.z.le hi.z = true ∧ lo.w.le hi.w = true := by
      rw [elo, ehi]; exact ⟨zero_le_zero, zero_le_zero⟩
    simp only [cmpLe, Fp.sc_le, Bool.and_eq_true, hz.1, hz.2, and_true]
    constructor
    · rintro ⟨h1, h2⟩
      exact ⟨⟨lo.x, lo.y⟩, nlo, (hpts _).1 ⟨⟨Fp.le_refl nlo.1, h1⟩, Fp.le_refl nlo.2, h2⟩⟩
    · rintro ⟨p, -, hp⟩
      obtain ⟨⟨h1, h2⟩, h3, h4⟩ := (hpts p).2 hp
      exact ⟨Fp.le_trans h1 h2, Fp.le_trans h3 h4⟩
  have hex : (∃ p, NoNaN2 p ∧ a.containsPoint p = true ∧ b.containsPoint p = true) ↔
      ∃ p, NoNaN2 p ∧ p ∈ box2Pts a ∧ p ∈ box2Pts b := by
    constructor <;> rintro ⟨p, hp, h1, h2⟩
    · exact ⟨p, hp, (contains2_iff a hp).1 h1, (contains2_iff b hp).1 h2⟩
    · exact ⟨p, hp, (contains2_iff a hp).2 h1, (contains2_iff b hp).2 h2⟩
  have hint : Box2d.intersects bk a b = cmpLe lo hi := by
    have e1 : Simd4f.max bk (Simd4f.init a.getMin.x a.getMin.y f0 f0)
        (Simd4f.init b.getMin.x b.getMin.y f0 f0) = lo := by
      rw [elo]
      simp only [Simd4f.max, map2, Simd4f.init, Box2d.getMin, Box2d.minV, mergeLow, Fp.f0_eq, max1_zero]
    have e2 : Simd4f.min bk (Simd4f.init a.getMax.x a.getMax.y f0 f0)
        (Simd4f.init b.getMax.x b.getMax.y f0 f0) = hi := by
      rw [ehi]
      simp only [Simd4f.min, map2, Simd4f.init, Box2d.getMax, Box2d.maxV, mergeHigh, Fp.f0_eq, min1_zero]
    simp only [Box2d.intersects, e1, e2]
    cases cmpLe lo hi <;> rfl
  rw [hint]
  by_cases hf : cmpLe lo hi = true
  · have e : Box2d.intersection bk a b = (true, Box2d.initFromSimd4f lo hi) := by
      simp only [Box2d.intersection, ← hlo, ← hhi, hf, Bool.not_true, Bool.false_eq_true, if_false]
    rw [e]
    refine ⟨fun p hp => ?_, ?_, by simp, hf⟩
    · rw [contains2_iff _ hp, hpts, contains2_iff a hp, contains2_iff b hp]
    · simp only [true_iff]; rw [hex]; exact hflag.1 hf
  · have hf' : cmpLe lo hi = false := by simpa using hf
    have e : Box2d.intersection bk a b = (false, Box2d.empty) := by
      simp only [Box2d.intersection, ← hlo, ← hhi, hf', Bool.not_false, if_true]
    rw [e]
    have hno : ¬ ∃ p, NoNaN2 p ∧ p ∈ box2Pts a ∧ p ∈ box2Pts b := fun h => hf (hflag.2 h)
    refine ⟨fun p hp => ?_, ?_, by simp, hf'⟩
    · rw [(C30_contains ⟨f0, f0, f0⟩ p).2.1]
      simp only [Bool.false_eq_true, false_iff]
      rw [contains2_iff a hp, contains2_iff b hp]
      intro h; exact hno ⟨p, hp, h⟩
    · simp only [Bool.false_eq_true, false_iff]; rw [hex]; exact hno

/-- non-vacuity: two overlapping boxes and a disjoint pair -/
example (bk : Backend) : (Box2d.intersection bk Box2d.oneMinusOne (Box2d.one : Box2d F32)).1 = true ∧
    (Box2d.intersection bk (Box2d.init (some ⟨f2, f2⟩) (some ⟨f2, f2⟩)) (Box2d.one : Box2d F32)).1 = false := by
  rcases bk with ⟨_, _⟩ | _ | _ | _ <;> constructor <;> kdecide

/-! ## C32 union -/

/-- C32: the union contains both boxes and is contained in every box containing both.
Each of `a`, `b` is either the empty box or has its corners in order. -/
theorem C32_box (bk : Backend) (a b : Box F32) (ha : BoundsNoNaN a) (hb : BoundsNoNaN b)
    (ua : Usable a) (ub : Usable b) (va : IsEmptyBox a ∨ Ordered a) (vb : IsEmptyBox b ∨ Ordered b) :
    (∀ p, NoNaN3 p → a.containsPoint p = true ∨ b.containsPoint p = true →
      (Box.union bk a b).containsPoint p = true) ∧
    (∀ c : Box F32, Usable c → BoundsNoNaN c →
      (∀ p, NoNaN3 p → a.containsPoint p = true ∨ b.containsPoint p = true → c.containsPoint p = true) →
      ∀ p, NoNaN3 p → (Box.union bk a b).containsPoint p = true → c.containsPoint p = true) ∧
    Usable (Box.union bk a b) := by
  obtain ⟨⟨a1, a2, a3⟩, a4, a5, a6⟩ := ha
  obtain ⟨⟨b1, b2, b3⟩, b4, b5, b6⟩ := hb
  have aw1 := Fp.le_left_not_nan ua.1
  have aw2 := Fp.le_right_not_nan ua.2
  have bw1 := Fp.le_left_not_nan ub.1
  have bw2 := Fp.le_right_not_nan ub.2
  have hu : Usable (Box.union bk a b) :=
    ⟨Fp.le_trans (min1_spec bk aw1 bw1).2.1 ua.1, Fp.le_trans ua.2 (max1_spec bk aw2 bw2).2.1⟩
  refine ⟨?_, ?_, hu⟩
  · intro p hp h
    rw [contains_iff hu hp]
    rw [contains_iff ua hp, contains_iff ub hp] at h
    rcases h with ⟨⟨h1, h2⟩, ⟨h3, h4⟩, h5, h6⟩ | ⟨⟨h1, h2⟩, ⟨h3, h4⟩, h5, h6⟩
    · exact ⟨⟨Fp.le_trans (min1_spec bk a1 b1).2.1 h1, Fp.le_trans h2 (max1_spec bk a4 b4).2.1⟩,
        ⟨Fp.le_trans (min1_spec bk a2 b2).2.1 h3, Fp.le_trans h4 (max1_spec bk a5 b5).2.1⟩,
        Fp.le_trans (min1_spec bk a3 b3).2.1 h5, Fp.le_trans h6 (max1_spec bk a6 b6).2.1⟩
    · exact ⟨⟨Fp.le_trans (min1_spec bk a1 b1).2.2 h1, Fp.le_trans h2 (max1_spec bk a4 b4).2.2⟩,
        ⟨Fp.le_trans (min1_spec bk a2 b2).2.2 h3, Fp.le_trans h4 (max1_spec bk a5 b5).2.2⟩,
        Fp.le_trans (min1_spec bk a3 b3).2.2 h5, Fp.le_trans h6 (max1_spec bk a6 b6).2.2⟩
  · intro c uc nc hc p hp h
    rw [contains_iff hu hp] at h
    rw [contains_iff uc hp]
    -- the bounds of `c` enclose those of `d`, for `d` empty or ordered and inside `c`
    have enc : ∀ d : Box F32, BoundsNoNaN d → (IsEmptyBox d ∨ Ordered d) →
        (∀ p, NoNaN3 p → p ∈ boxPts d → p ∈ boxPts c) →
        (c.min.value.x.le d.min.value.x = true ∧ c.min.value.y.le d.min.value.y = true ∧
          c.min.value.z.le d.min.value.z = true) ∧
        (d.max.value.x.le c.max.value.x = true ∧ d.max.value.y.le c.max.value.y = true ∧
          d.max.value.z.le c.max.value.z = true) := by
      rintro d ⟨⟨d1, d2, d3⟩, d4, d5, d6⟩ (he | ho) hsub
      · obtain ⟨⟨c1, c2, c3⟩, c4, c5, c6⟩ := nc
        obtain ⟨e1, e2, e3, e4, e5, e6⟩ := he
        rw [e1, e2, e3, e4, e5, e6]
        exact ⟨⟨Fp.le_posInf c1, Fp.le_posInf c2, Fp.le_posInf c3⟩,
          Fp.negInf_le c4, Fp.negInf_le c5, Fp.negInf_le c6⟩
      · obtain ⟨o1, o2, o3⟩ := ho
        have m1 := hsub ⟨d.min.value.x, d.min.value.y, d.min.value.z⟩ ⟨d1, d2, d3⟩
          ⟨⟨Fp.le_refl d1, o1⟩, ⟨Fp.le_refl d2, o2⟩, Fp.le_refl d3, o3⟩
        have m2 := hsub ⟨d.max.value.x, d.max.value.y, d.max.value.z⟩ ⟨d4, d5, d6⟩
          ⟨⟨o1, Fp.le_refl d4⟩, ⟨o2, Fp.le_refl d5⟩, o3, Fp.le_refl d6⟩
        exact ⟨⟨m1.1.1, m1.2.1.1, m1.2.2.1⟩, m2.1.2, m2.2.1.2, m2.2.2.2⟩
    obtain ⟨⟨p1, p2, p3⟩, p4, p5, p6⟩ := enc a ⟨⟨a1, a2, a3⟩, a4, a5, a6⟩ va (fun q hq hm => by
      rw [← contains_iff uc hq]; exact hc q hq (Or.inl ((contains_iff ua hq).2 hm)))
    obtain ⟨⟨q1, q2, q3⟩, q4, q5, q6⟩ := enc b ⟨⟨b1, b2, b3⟩, b4, b5, b6⟩ vb (fun q hq hm => by
      rw [← contains_iff uc hq]; exact hc q hq (Or.inr ((contains_iff ub hq).2 hm)))
    obtain ⟨⟨h1, h2⟩, ⟨h3, h4⟩, h5, h6⟩ := h
    exact ⟨⟨Fp.le_trans ((le_min1 bk a1 b1).2 ⟨p1, q1⟩) h1, Fp.le_trans h2 ((max1_le bk a4 b4).2 ⟨p4, q4⟩)⟩,
      ⟨Fp.le_trans ((le_min1 bk a2 b2).2 ⟨p2, q2⟩) h3, Fp.le_trans h4 ((max1_le bk a5 b5).2 ⟨p5, q5⟩)⟩,
      Fp.le_trans ((le_min1 bk a3 b3).2 ⟨p3, q3⟩) h5, Fp.le_trans h6 ((max1_le bk a6 b6).2 ⟨p6, q6⟩)⟩

/-- C32 for 2D boxes. -/
theorem C32_box2d (bk : Backend) (a b : Box2d F32) (ha : Bounds2NoNaN a) (hb : Bounds2NoNaN b)
    (va : IsEmptyBox2 a ∨ Ordered2 a) (vb : IsEmptyBox2 b ∨ Ordered2 b) :
    (∀ p, NoNaN2 p → a.containsPoint p = true ∨ b.containsPoint p = true →
      (Box2d.union bk a b).containsPoint p = true) ∧
    (∀ c : Box2d F32, Bounds2NoNaN c →
      (∀ p, NoNaN2 p → a.containsPoint p = true ∨ b.containsPoint p = true → c.containsPoint p = true) →
      ∀ p, NoNaN2 p → (Box2d.union bk a b).containsPoint p = true → c.containsPoint p = true) := by
  obtain ⟨a1, a2, a3, a4⟩ := ha
  obtain ⟨b1, b2, b3, b4⟩ := hb
  have hpts : ∀ p : Point F32, p ∈ box2Pts (Box2d.union bk a b) ↔
      ((min1 bk a.minmax.x b.minmax.x).le p.x = true ∧ p.x.le (max1 bk a.minmax.z b.minmax.z) = true) ∧
      ((min1 bk a.minmax.y b.minmax.y).le p.y = true ∧ p.y.le (max1 bk a.minmax.w b.minmax.w) = true) :=
    fun p => Iff.rfl
  constructor
  · intro p hp h
    rw [contains2_iff _ hp, hpts]
    rw [contains2_iff a hp, contains2_iff b hp] at h
    rcases h with ⟨⟨h1, h2⟩, h3, h4⟩ | ⟨⟨h1, h2⟩, h3, h4⟩
    · exact ⟨⟨Fp.le_trans (min1_spec bk a1 b1).2.1 h1, Fp.le_trans h2 (max1_spec bk a3 b3).2.1⟩,
        Fp.le_trans (min1_spec bk a2 b2).2.1 h3, Fp.le_trans h4 (max1_spec bk a4 b4).2.1⟩
    · exact ⟨⟨Fp.le_trans (min1_spec bk a1 b1).2.2 h1, Fp.le_trans h2 (max1_spec bk a3 b3).2.2⟩,
        Fp.le_trans (min1_spec bk a2 b2).2.2 h3, Fp.le_trans h4 (max1_spec bk a4 b4).2.2⟩
  · intro c nc hc p hp h
    rw [contains2_iff _ hp, hpts] at h
    rw [contains2_iff c hp]
    have enc : ∀ d : Box2d F32, Bounds2NoNaN d → (IsEmptyBox2 d ∨ Ordered2 d) →
        (∀ p, NoNaN2 p → p ∈ box2Pts d → p ∈ box2Pts c) →
        (c.minmax.x.le d.minmax.x = true ∧ c.minmax.y.le d.minmax.y = true) ∧
        (d.minmax.z.le c.minmax.z = true ∧ d.minmax.w.le c.minmax.w = true) := by
      rintro d ⟨d1, d2, d3, d4⟩ (he | ho) hsub
      · obtain ⟨c1, c2, c3, c4⟩ := nc
        obtain ⟨e1, e2, e3, e4⟩ := he
        rw [e1, e2, e3, e4]
        exact ⟨⟨Fp.le_posInf c1, Fp.le_posInf c2⟩, Fp.negInf_le c3, Fp.negInf_le c4⟩
      · obtain ⟨o1, o2⟩ := ho
        have m1 := hsub ⟨d.minmax.x, d.minmax.y⟩ ⟨d1, d2⟩ ⟨⟨Fp.le_refl d1, o1⟩, Fp.le_refl d2, o2⟩
        have m2 := hsub ⟨d.minmax.z, d.minmax.w⟩ ⟨d3, d4⟩ ⟨⟨o1, Fp.le_refl d3⟩, o2, Fp.le_refl d4⟩
        exact ⟨⟨m1.1.1, m1.2.1⟩, m2.1.2, m2.2.2⟩
    obtain ⟨⟨p1, p2⟩, p4, p5⟩ := enc a ⟨a1, a2, a3, a4⟩ va (fun q hq hm => by
      rw [← contains2_iff c hq]; exact hc q hq (Or.inl ((contains2_iff a hq).2 hm)))
    obtain ⟨⟨q1, q2⟩, q4, q5⟩ := enc b ⟨b1, b2, b3, b4⟩ vb (fun q hq hm => by
      rw [← contains2_iff c hq]; exact hc q hq (Or.inr ((contains2_iff b hq).2 hm)))
    obtain ⟨⟨h1, h2⟩, h3, h4⟩ := h
    exact ⟨⟨Fp.le_trans ((le_min1 bk a1 b1).2 ⟨p1, q1⟩) h1, Fp.le_trans h2 ((max1_le bk a3 b3).2 ⟨p4, q4⟩)⟩,
      Fp.le_trans ((le_min1 bk a2 b2).2 ⟨p2, q2⟩) h3, Fp.le_trans h4 ((max1_le bk a4 b4).2 ⟨p5, q5⟩)⟩

/-- non-vacuity: the union of two different boxes is a third one -/
example (bk : Backend) : Box2d.union bk Box2d.one (Box2d.minusOne : Box2d F32) = Box2d.oneMinusOne := by
  rcases bk with ⟨_, _⟩ | _ | _ | _ <;> kdecide

/-! ## C33 contains_box -/

/-- C33 is false when both boxes are infinite or both are empty: every point of the second is in
the first, but `contains_box` says no (3D and 2D). -/
theorem C33_infinite_empty_false :
    (Box.containsBox (Box.infinite : Box F32) Box.infinite = false ∧
      ∀ p, (Box.infinite : Box F32).containsPoint p = true → (Box.infinite : Box F32).containsPoint p = true) ∧
    (Box.containsBox (Box.empty : Box F32) Box.empty = false ∧
      ∀ p, (Box.empty : Box F32).containsPoint p = true → (Box.empty : Box F32).containsPoint p = true) ∧
    Box2d.containsBox (Box2d.infinite : Box2d F32) Box2d.infinite = false ∧
    Box2d.containsBox (Box2d.empty : Box2d F32) Box2d.empty = false :=
  ⟨⟨rfl, fun _ h => h⟩, ⟨rfl, fun _ h => h⟩, rfl, rfl⟩

omit [Libm binary32] in
theorem inf_le_iff {x : F32} : (Fp.inf false : F32).le x = true ↔ x = .inf false := by
  constructor
  · intro h
    have hx := Fp.le_right_not_nan h
    have h0 : (0 : Int) < 2 ^ binary32.top := by positivity
    refine (Fp.eq_of_key rfl hx ?_ ?_).symm
    · exact le_antisymm (Fp.le_iff.1 h).2.2 (Fp.le_iff.1 (Fp.le_posInf hx)).2.2
    · simp only [Fp.key, Fp.sgn, Bool.false_eq_true, if_false]; push_cast; omega
  · rintro rfl; rfl
omit [Libm binary32] in
theorem le_neginf_iff {x : F32} : x.le (Fp.inf true : F32) = true ↔ x = .inf true := by
  constructor
  · intro h
    have hx := Fp.le_left_not_nan h
    have h0 : (0 : Int) < 2 ^ binary32.top := by positivity
    refine (Fp.eq_of_key rfl hx ?_ ?_).symm
    · exact le_antisymm (Fp.le_iff.1 (Fp.negInf_le hx)).2.2 (Fp.le_iff.1 h).2.2
    · simp only [Fp.key, Fp.sgn, if_true]; push_cast; omega
  · rintro rfl; rfl

/-- C33, what holds: for boxes that are empty or have their corners in order, with ordinary
hidden lanes, `contains_box` is inclusion of point sets — except for two infinite or two empty
boxes. -/
theorem C33_box_partial (a b : Box F32) (ha : BoundsNoNaN a) (hb : BoundsNoNaN b) (pa : Plain a)
    (pb : Plain b) (va : IsEmptyBox a ∨ Ordered a) (vb : IsEmptyBox b ∨ Ordered b)
    (hinf : ¬ (IsInfiniteBox a ∧ IsInfiniteBox b)) (hemp : ¬ (IsEmptyBox a ∧ IsEmptyBox b)) :
    Box.containsBox a b = true ↔
      ∀ p, NoNaN3 p → b.containsPoint p = true → a.containsPoint p = true := by
  have hc : (∀ p, NoNaN3 p → b.containsPoint p = true → a.containsPoint p = true) ↔
      ∀ p, NoNaN3 p → p ∈ boxPts b → p ∈ boxPts a := by
    constructor <;> intro h p hp
    · rw [← contains_iff pa.usable hp, ← contains_iff pb.usable hp]; exact h p hp
    · rw [contains_iff pa.usable hp, contains_iff pb.usable hp]; exact h p hp
  rw [hc]
  obtain ⟨⟨a1, a2, a3⟩, a4, a5, a6⟩ := ha
  obtain ⟨⟨b1, b2, b3⟩, b4, b5, b6⟩ := hb
  have corners : Ordered b →
      (⟨b.min.value.x, b.min.value.y, b.min.value.z⟩ : Point3D F32) ∈ boxPts b ∧
      (⟨b.max.value.x, b.max.value.y, b.max.value.z⟩ : Point3D F32) ∈ boxPts b := fun ⟨o1, o2, o3⟩ =>
    ⟨⟨⟨Fp.le_refl b1, o1⟩, ⟨Fp.le_refl b2, o2⟩, Fp.le_refl b3, o3⟩,
     ⟨⟨o1, Fp.le_refl b4⟩, ⟨o2, Fp.le_refl b5⟩, o3, Fp.le_refl b6⟩⟩
  unfold Box.containsBox
  by_cases h1 : a.isEmpty = true
  · have hae := (isEmpty_iff a).1 h1
    simp only [h1, Bool.true_or, if_true, Bool.false_eq_true, false_iff]
    intro h
    rcases vb with hbe | hbo
    · exact hemp ⟨hae, hbe⟩
    · exact not_mem_empty hae _ (h _ ⟨b1, b2, b3⟩ (corners hbo).1)
  by_cases h2 : b.isInfinity = true
  · have hbi := (isInfinity_iff b).1 h2
    simp only [h2, Bool.or_true, if_true, Bool.false_eq_true, false_iff]
    intro h
    apply hinf
    refine ⟨?_, hbi⟩
    have m1 := h ⟨.inf true, .inf true, .inf true⟩ ⟨rfl, rfl, rfl⟩ (mem_infinite hbi ⟨rfl, rfl, rfl⟩)
    have m2 := h ⟨.inf false, .inf false, .inf false⟩ ⟨rfl, rfl, rfl⟩ (mem_infinite hbi ⟨rfl, rfl, rfl⟩)
    exact ⟨le_neginf_iff.1 m1.1.1, le_neginf_iff.1 m1.2.1.1, le_neginf_iff.1 m1.2.2.1,
      inf_le_iff.1 m2.1.2, inf_le_iff.1 m2.2.1.2, inf_le_iff.1 m2.2.2.2⟩
  simp only [Bool.not_eq_true] at h1 h2
  by_cases h3 : a.isInfinity = true
  · simp only [h1, h2, h3, Bool.or_self, Bool.true_or, if_true, Bool.false_eq_true, if_false, true_iff]
    intro p hp _
    exact mem_infinite ((isInfinity_iff a).1 h3) hp
  by_cases h4 : b.isEmpty = true
  · simp only [h1, h2, h4, Bool.or_self, Bool.or_true, if_true, Bool.false_eq_true, if_false, true_iff]
    intro p hp hm
    exact absurd hm (not_mem_empty ((isEmpty_iff b).1 h4) p)
  simp only [Bool.not_eq_true] at h3 h4
  have hbo : Ordered b := by
    rcases vb with h | h
    · rw [(isEmpty_iff b).2 h] at h4; cases h4
    · exact h
  simp only [h1, h2, h3, h4, Bool.or_self, Bool.false_eq_true, if_false, cmpGe, cmpLe, Fp.sc_le,
    Bool.and_eq_true, pa.1, pa.2, pb.1, pb.2, zero_le_zero, and_true]
  constructor
  · rintro ⟨⟨⟨l1, l2⟩, l3⟩, ⟨l4, l5⟩, l6⟩ p _ ⟨⟨q1, q2⟩, ⟨q3, q4⟩, q5, q6⟩
    exact ⟨⟨Fp.le_trans l1 q1, Fp.le_trans q2 l4⟩, ⟨Fp.le_trans l2 q3, Fp.le_trans q4 l5⟩,
      Fp.le_trans l3 q5, Fp.le_trans q6 l6⟩
  · intro h
    have m1 := h _ ⟨b1, b2, b3⟩ (corners hbo).1
    have m2 := h _ ⟨b4, b5, b6⟩ (corners hbo).2
    exact ⟨⟨⟨m1.1.1, m1.2.1.1⟩, m1.2.2.1⟩, ⟨m2.1.2, m2.2.1.2⟩, m2.2.2.2⟩

/-- C33 for 2D boxes, same exceptions. -/
theorem C33_box2d_partial (a b : Box2d F32) (ha : Bounds2NoNaN a) (hb : Bounds2NoNaN b)
    (va : IsEmptyBox2 a ∨ Ordered2 a) (vb : IsEmptyBox2 b ∨ Ordered2 b)
    (hinf : ¬ (IsInfiniteBox2 a ∧ IsInfiniteBox2 b)) (hemp : ¬ (IsEmptyBox2 a ∧ IsEmptyBox2 b)) :
    Box2d.containsBox a b = true ↔
      ∀ p, NoNaN2 p → b.containsPoint p = true → a.containsPoint p = true := by
  have hc : (∀ p, NoNaN2 p → b.containsPoint p = true → a.containsPoint p = true) ↔
      ∀ p, NoNaN2 p → p ∈ box2Pts b → p ∈ box2Pts a := by
    constructor <;> intro h p hp
    · rw [← contains2_iff a hp, ← contains2_iff b hp]; exact h p hp
    · rw [contains2_iff a hp, contains2_iff b hp]; exact h p hp
  rw [hc]
  obtain ⟨a1, a2, a4, a5⟩ := ha
  obtain ⟨b1, b2, b4, b5⟩ := hb
  have corners : Ordered2 b → (⟨b.minmax.x, b.minmax.y⟩ : Point F32) ∈ box2Pts b ∧
      (⟨b.minmax.z, b.minmax.w⟩ : Point F32) ∈ box2Pts b := fun ⟨o1, o2⟩ =>
    ⟨⟨⟨Fp.le_refl b1, o1⟩, Fp.le_refl b2, o2⟩, ⟨o1, Fp.le_refl b4⟩, o2, Fp.le_refl b5⟩
  unfold Box2d.containsBox
  by_cases h1 : a.isEmpty = true
  · have hae := (isEmpty2_iff a).1 h1
    simp only [h1, Bool.true_or, if_true, Bool.false_eq_true, false_iff]
    intro h
    rcases vb with hbe | hbo
    · exact hemp ⟨hae, hbe⟩
    · exact not_mem_empty2 hae _ (h _ ⟨b1, b2⟩ (corners hbo).1)
  by_cases h2 : b.isInfinity = true
  · have hbi := (isInfinity2_iff b).1 h2
    simp only [h2, Bool.or_true, if_true, Bool.false_eq_true, false_iff]
    intro h
    apply hinf
    refine ⟨?_, hbi⟩
    have m1 := h ⟨.inf true, .inf true⟩ ⟨rfl, rfl⟩ (mem_infinite2 hbi ⟨rfl, rfl⟩)
    have m2 := h ⟨.inf false, .inf false⟩ ⟨rfl, rfl⟩ (mem_infinite2 hbi ⟨rfl, rfl⟩)
    exact ⟨le_neginf_iff.1 m1.1.1, le_neginf_iff.1 m1.2.1,
      inf_le_iff.1 m2.1.2, inf_le_iff.1 m2.2.2⟩
  simp only [Bool.not_eq_true] at h1 h2
  by_cases h3 : a.isInfinity = true
  · simp only [h1, h2, h3, Bool.or_self, Bool.true_or, if_true, Bool.false_eq_true, if_false, true_iff]
    intro p hp _
    exact mem_infinite2 ((isInfinity2_iff a).1 h3) hp
  by_cases h4 : b.isEmpty = true
  · simp only [h1, h2, h4, Bool.or_self, Bool.or_true, if_true, Bool.false_eq_true, if_false, true_iff]
    intro p hp hm
    exact absurd hm (not_mem_empty2 ((isEmpty2_iff b).1 h4) p)
  simp only [Bool.not_eq_true] at h3 h4
  have hbo : Ordered2 b := by
    rcases vb with h | h
    · rw [(isEmpty2_iff b).2 h] at h4; cases h4
    · exact h
  simp only [h1, h2, h3, h4, Bool.or_self, Bool.false_eq_true, if_false, cmpGe, cmpLe, Fp.sc_le,
    Bool.and_eq_true, Box2d.minV, Box2d.maxV, mergeLow, mergeHigh, initZero, Fp.f0_eq, zero_le_zero,
    and_true]
  constructor
  · rintro ⟨⟨l1, l2⟩, l4, l5⟩ p _ ⟨⟨q1, q2⟩, q3, q4⟩
    exact ⟨⟨Fp.le_trans l1 q1, Fp.le_trans q2 l4⟩, Fp.le_trans l2 q3, Fp.le_trans q4 l5⟩
  · intro h
    have m1 := h _ ⟨b1, b2⟩ (corners hbo).1
    have m2 := h _ ⟨b4, b5⟩ (corners hbo).2
    exact ⟨⟨m1.1.1, m1.2.1⟩, m2.1.2, m2.2.2⟩

/-- C33: `box2d_contains_rect` tests the two corners of the rectangle as stored; for a
rectangle with non-negative sizes this is: every point between the corners is contained. -/
theorem C33_box2d_rect (b : Box2d F32) (r : Rect F32)
    (hx : r.origin.x.le (Fp.add r.origin.x r.size.width) = true)
    (hy : r.origin.y.le (Fp.add r.origin.y r.size.height) = true) :
    b.containsRect r = true ↔
      ∀ p : Point F32, r.origin.x.le p.x = true → p.x.le (Fp.add r.origin.x r.size.width) = true →
        r.origin.y.le p.y = true → p.y.le (Fp.add r.origin.y r.size.height) = true →
        b.containsPoint p = true := by
  have n1 : NoNaN2 r.origin := ⟨Fp.le_left_not_nan hx, Fp.le_left_not_nan hy⟩
  have n2 : NoNaN2 ⟨Fp.add r.origin.x r.size.width, Fp.add r.origin.y r.size.height⟩ :=
    ⟨Fp.le_right_not_nan hx, Fp.le_right_not_nan hy⟩
  have key : b.containsRect r = true ↔ b.containsPoint r.origin = true ∧
      b.containsPoint ⟨Fp.add r.origin.x r.size.width, Fp.add r.origin.y r.size.height⟩ = true := by
    unfold Box2d.containsRect
    by_cases h1 : b.isEmpty = true
    · simp [h1, Box2d.containsPoint]
    by_cases h2 : b.isInfinity = true
    · simp [h1, h2, Box2d.containsPoint]
    simp only [h1, h2, Bool.false_eq_true, if_false, Point.init, Fp.sc_add]
    by_cases g1 : b.containsPoint r.origin = true <;>
      by_cases g2 : b.containsPoint
        ⟨Fp.add r.origin.x r.size.width, Fp.add r.origin.y r.size.height⟩ = true <;> simp [g1, g2]
  rw [key]
  constructor
  · rintro ⟨h1, h2⟩ p p1 p2 p3 p4
    have hp : NoNaN2 p := ⟨Fp.le_left_not_nan p2, Fp.le_left_not_nan p4⟩
    rw [contains2_iff b n1] at h1
    rw [contains2_iff b n2] at h2
    rw [contains2_iff b hp]
    exact ⟨⟨Fp.le_trans h1.1.1 p1, Fp.le_trans p2 h2.1.2⟩, Fp.le_trans h1.2.1 p3, Fp.le_trans p4 h2.2.2⟩
  · intro h
    exact ⟨h _ (Fp.le_refl n1.1) hx (Fp.le_refl n1.2) hy, h _ hx (Fp.le_refl n2.1) hy (Fp.le_refl n2.2)⟩

/-- non-vacuity: an inclusion that holds and one that does not -/
example : Box.containsBox (Box.oneMinusOne : Box F32) Box.one = true ∧
    Box.containsBox (Box.one : Box F32) Box.oneMinusOne = false := by
  constructor <;> kdecide

/-! ## C34 expand_scalar -/

/-- C34 is false for negative scalars in 3D: `[-10,10]³` shrunk by 1 should still contain the
origin, but does not (the scalar is also added to the hidden lanes). -/
theorem C34_negative_false :
    let b : Box F32 := Box.init (some ⟨Fp.lit (-10) 1, Fp.lit (-10) 1, Fp.lit (-10) 1⟩)
      (some ⟨Fp.lit 10 1, Fp.lit 10 1, Fp.lit 10 1⟩)
    let r := b.expandScalar (Fp.lit (-1) 1)
    r.getMin = ⟨Fp.lit (-9) 1, Fp.lit (-9) 1, Fp.lit (-9) 1⟩ ∧
    r.getMax = ⟨Fp.lit 9 1, Fp.lit 9 1, Fp.lit 9 1⟩ ∧
    r.containsPoint ⟨f0, f0, f0⟩ = false := by
  refine ⟨?_, ?_, ?_⟩
  · have h : ∀ x y z : F32, Point3D.mk x y z = Point3D.mk (Fp.lit (-9) 1) (Fp.lit (-9) 1) (Fp.lit (-9) 1) ↔
      x = Fp.lit (-9) 1 ∧ y = Fp.lit (-9) 1 ∧ z = Fp.lit (-9) 1 := by intros; simp
    apply (h _ _ _).2
    refine ⟨?_, ?_, ?_⟩ <;> kdecide
  · have h : ∀ x y z : F32, Point3D.mk x y z = Point3D.mk (Fp.lit 9 1) (Fp.lit 9 1) (Fp.lit 9 1) ↔
      x = Fp.lit 9 1 ∧ y = Fp.lit 9 1 ∧ z = Fp.lit 9 1 := by intros; simp
    apply (h _ _ _).2
    refine ⟨?_, ?_, ?_⟩ <;> kdecide
  · kdecide

/-- C34, what holds in 3D: for a non-negative scalar a point is contained exactly when it lies
between `min - s` and `max + s` (IEEE operations, infinities included). -/
theorem C34_box_partial (b : Box F32) (pb : Plain b) (s : F32) (hs : (Fp.zero false : F32).le s = true)
    (p : Point3D F32) (hp : NoNaN3 p) :
    (b.expandScalar s).containsPoint p = true ↔
      ((Fp.sub b.min.value.x s).le p.x = true ∧ p.x.le (Fp.add b.max.value.x s) = true) ∧
      ((Fp.sub b.min.value.y s).le p.y = true ∧ p.y.le (Fp.add b.max.value.y s) = true) ∧
      ((Fp.sub b.min.value.z s).le p.z = true ∧ p.z.le (Fp.add b.max.value.z s) = true) := by
  have z1 : (Fp.add (Fp.zero false) (Fp.neg s)).le (Fp.zero false : F32) = true := by
    cases s with
    | nan => simp [Fp.le] at hs
    | inf t =>
      cases t
      · rfl
      · rw [le_neginf_iff] at hs; cases hs
    | fin t m h =>
      have e : Fp.add (Fp.zero false) (Fp.neg (Fp.fin t m h)) = Fp.fin (if m = 0 then false else !t) m h ∨
        (Fp.add (Fp.zero false) (Fp.neg (Fp.fin t m h)) : F32).key = -(Fp.fin t m h : F32).key ∧
        (Fp.add (Fp.zero false) (Fp.neg (Fp.fin t m h)) : F32).isNaN = false := by
        by_cases hm : m = 0
        · subst hm; right
          cases t <;> exact ⟨rfl, rfl⟩
        · right
          rw [show Fp.neg (Fp.fin t m h : F32) = Fp.fin (!t) m h from rfl]
          have := Fp.zero_add_fin (f := binary32) (s := !t) h false
          rw [this]
          simp only [hm, if_false]
          cases t <;> simp [Fp.key, Fp.sgn]
      rw [Fp.le_iff] at hs ⊢
      have hk := hs.2.2
      simp only [Fp.key_zero] at hk ⊢
      rcases e with e | ⟨e1, e2⟩
      · rw [e]
        refine ⟨rfl, rfl, ?_⟩
        by_cases hm : m = 0
        · subst hm; simp [Fp.key, Fp.sgn]
        · cases t
          · simp [Fp.key, Fp.sgn, hm]
          · simp [Fp.key, Fp.sgn] at hk; omega
      · exact ⟨e2, rfl, by omega⟩
  have z2 : (Fp.zero false : F32).le (Fp.add (Fp.zero false) s) = true := by
    cases s with
    | nan => simp [Fp.le] at hs
    | inf t =>
      cases t
      · rfl
      · rw [le_neginf_iff] at hs; cases hs
    | fin t m h =>
      by_cases hm : m = 0
      · subst hm
        cases t <;> rfl
      · rw [Fp.zero_add_fin]; simpa only [hm, if_false] using hs
  have hu : Usable (b.expandScalar s) := by
    simp only [Usable, Box.expandScalar, Simd4f.add, map2, splat, Fp.sc_add, Fp.sc_mul, Fp.sc_lit,
      Fp.mul_negOne32, pb.1, pb.2]
    exact ⟨z1, z2⟩
  rw [contains_iff hu hp]
  simp only [boxPts, Set.mem_setOf_eq, Box.expandScalar, Simd4f.add, map2, splat, Fp.sc_add,
    Fp.sc_mul, Fp.sc_lit, Fp.mul_negOne32, Fp.sub]

/-- C34 for 2D boxes holds for every scalar. -/
theorem C34_box2d (b : Box2d F32) (s : F32) (p : Point F32) (hp : NoNaN2 p) :
    (b.expandScalar s).containsPoint p = true ↔
      ((Fp.sub b.minmax.x s).le p.x = true ∧ p.x.le (Fp.add b.minmax.z s) = true) ∧
      ((Fp.sub b.minmax.y s).le p.y = true ∧ p.y.le (Fp.add b.minmax.w s) = true) := by
  rw [contains2_iff _ hp]
  simp only [box2Pts, Set.mem_setOf_eq, Box2d.expandScalar, Simd4f.add, map2, splat, Fp.sc_add,
    Fp.sc_mul, Fp.sc_lit, Fp.mul_negOne32, Fp.sub, Box2d.initFromSimd4f, Box2d.minV, Box2d.maxV,
    mergeLow, mergeHigh]

/-- C34/C33 is also broken by a positive scalar: the expanded box `[-2,2]³` is inside
`[-10,10]³`, but `contains_box` compares the hidden lanes, which only one of them has changed. -/
theorem C34_then_contains_box_false :
    let big : Box F32 := Box.init (some ⟨Fp.lit (-10) 1, Fp.lit (-10) 1, Fp.lit (-10) 1⟩)
      (some ⟨Fp.lit 10 1, Fp.lit 10 1, Fp.lit 10 1⟩)
    big.containsBox ((Box.oneMinusOne : Box F32).expandScalar f1) = false ∧
    big.containsPoint ((Box.oneMinusOne : Box F32).expandScalar f1).getMin = true ∧
    big.containsPoint ((Box.oneMinusOne : Box F32).expandScalar f1).getMax = true := by
  refine ⟨?_, ?_, ?_⟩ <;> kdecide

/-- non-vacuity -/
example : (Fp.zero false : F32).le f1 = true ∧ NoNaN3 (⟨f2, f0, f0⟩ : Point3D F32) ∧
    ((Box.oneMinusOne : Box F32).expandScalar f1).containsPoint ⟨f2, f0, f0⟩ = true := by
  refine ⟨?_, ⟨?_, ?_, ?_⟩, ?_⟩ <;> kdecide

end Graphene

/-
  Properties C09 (min/max/clamp), C11 (comparisons) over IEEE binary32, and C10 (agreement of
  the backends) over ℝ.
-/
import Verif.Proofs.FpLemmas
import Verif.Props.Vectors3
import Verif.Props.Vectors1

namespace Graphene
open Simd4f

/-! ## C09 selection -/
section
variable [Libm binary32]

theorem min1_spec (bk : Backend) {a b : F32} (ha : a.isNaN = false) (hb : b.isNaN = false) :
    (min1 bk a b = a ∨ min1 bk a b = b) ∧ (min1 bk a b).le a = true ∧ (min1 bk a b).le b = true := by
  have key : min1 bk a b = (if a.lt b then a else b) ∨
      (a.feq f0 = true ∧ b.feq f0 = true ∧ (min1 bk a b = a ∨ min1 bk a b = b)) := min1_noNaN bk ha hb
  rcases key with e | ⟨z1, z2, e⟩
  case inr =>
    have h1 : a.key = b.key := (Fp.feq_iff.1 z1).2.2.trans (Fp.feq_iff.1 z2).2.2.symm
    refine ⟨e, ?_⟩
    rcases e with e | e <;> rw [e, Fp.le_iff, Fp.le_iff] <;> simp [ha, hb, h1]
  rw [e]
  cases h : a.lt b
  · simp only [Bool.false_eq_true, if_false]
    exact ⟨.inr trivial, Fp.le_of_not_lt ha hb h, Fp.le_refl hb⟩
  · simp only [if_true]
    exact ⟨.inl trivial, Fp.le_refl ha, Fp.le_of_lt h⟩

theorem max1_spec (bk : Backend) {a b : F32} (ha : a.isNaN = false) (hb : b.isNaN = false) :
    (max1 bk a b = a ∨ max1 bk a b = b) ∧ a.le (max1 bk a b) = true ∧ b.le (max1 bk a b) = true := by
  have key : max1 bk a b = (if b.lt a then a else b) ∨
      (a.feq f0 = true ∧ b.feq f0 = true ∧ (max1 bk a b = a ∨ max1 bk a b = b)) := max1_noNaN bk ha hb
  rcases key with e | ⟨z1, z2, e⟩
  case inr =>
    have h1 : a.key = b.key := (Fp.feq_iff.1 z1).2.2.trans (Fp.feq_iff.1 z2).2.2.symm
    refine ⟨e, ?_⟩
    rcases e with e | e <;> rw [e, Fp.le_iff, Fp.le_iff] <;> simp [ha, hb, h1]
  rw [e]
  cases h : b.lt a
  · simp only [Bool.false_eq_true, if_false]
    exact ⟨.inr trivial, Fp.le_of_not_lt hb ha h, Fp.le_refl hb⟩
  · simp only [if_true]
    exact ⟨.inl trivial, Fp.le_refl ha, Fp.le_of_lt h⟩

/-- `r` is the least of the values in `l` -/
def Spec.IsLeast (r : F32) (l : List F32) : Prop := r ∈ l ∧ ∀ x ∈ l, r.le x = true
/-- `r` is the greatest of the values in `l` -/
def Spec.IsGreatest (r : F32) (l : List F32) : Prop := r ∈ l ∧ ∀ x ∈ l, x.le r = true

theorem get_map2 (g : F32 → F32 → F32) (a b : V4 F32) (i : Nat) (hi : i < 4) :
    Simd4f.get (map2 g a b) i = g (Simd4f.get a i) (Simd4f.get b i) := by
  match i, hi with
  | 0, _ => rfl
  | 1, _ => rfl
  | 2, _ => rfl
  | 3, _ => rfl

/-- C09: each lane of `min` / `max` is the least / greatest of the two operand lanes, for
operands that are not NaN, infinities included, on every backend. -/
theorem C09_min_max (bk : Backend) (a b : V4 F32) (i : Nat) (hi : i < 4)
    (ha : (Simd4f.get a i).isNaN = false) (hb : (Simd4f.get b i).isNaN = false) :
    Spec.IsLeast (Simd4f.get (Simd4f.min bk a b) i) [Simd4f.get a i, Simd4f.get b i] ∧
    Spec.IsGreatest (Simd4f.get (Simd4f.max bk a b) i) [Simd4f.get a i, Simd4f.get b i] := by
  simp only [Simd4f.min, Simd4f.max, get_map2 _ _ _ i hi]
  have h1 := min1_spec bk ha hb
  have h2 := max1_spec bk ha hb
  constructor
  · refine ⟨by simpa using h1.1, ?_⟩
    intro x hx; simp only [List.mem_cons, List.not_mem_nil, or_false] at hx
    rcases hx with rfl | rfl
    · exact h1.2.1
    · exact h1.2.2
  · refine ⟨by simpa using h2.1, ?_⟩
    intro x hx; simp only [List.mem_cons, List.not_mem_nil, or_false] at hx
    rcases hx with rfl | rfl
    · exact h2.2.1
    · exact h2.2.2

/-- C09: `clamp` returns the lane itself when it is strictly between the bounds, and a value
that compares equal to the violated bound otherwise; it is always within the bounds. -/
theorem C09_clamp (bk : Backend) (v lo hi : V4 F32) (i : Nat) (hi4 : i < 4)
    (hv : (Simd4f.get v i).isNaN = false)
    (hlh : (Simd4f.get lo i).le (Simd4f.get hi i) = true) :
    let r := Simd4f.get (Simd4f.clamp bk v lo hi) i
    (r = Simd4f.get v i ∨ r = Simd4f.get lo i ∨ r = Simd4f.get hi i) ∧
    (Simd4f.get lo i).le r = true ∧ r.le (Simd4f.get hi i) = true ∧
    ((Simd4f.get lo i).lt (Simd4f.get v i) = true → (Simd4f.get v i).lt (Simd4f.get hi i) = true →
      r = Simd4f.get v i) ∧
    ((Simd4f.get v i).le (Simd4f.get lo i) = true → Fp.feq r (Simd4f.get lo i) = true) ∧
    ((Simd4f.get hi i).le (Simd4f.get v i) = true → Fp.feq r (Simd4f.get hi i) = true) := by
  simp only [Simd4f.clamp, Simd4f.min, Simd4f.max, get_map2 _ _ _ i hi4]
  generalize Simd4f.get v i = x at *
  generalize Simd4f.get lo i = l at *
  generalize Simd4f.get hi i = h at *
  have hl := Fp.le_left_not_nan hlh
  have hh := Fp.le_right_not_nan hlh
  obtain ⟨m1, m2, m3⟩ := max1_spec bk hl hv
  have hm : (max1 bk l x).isNaN = false := by rcases m1 with e | e <;> rw [e] <;> assumption
  obtain ⟨n1, n2, n3⟩ := min1_spec bk hm hh
  refine ⟨?_, ?_, n3, ?_, ?_, ?_⟩
  · rcases n1 with e | e
    · rw [e]; rcases m1 with e' | e' <;> simp [e']
    · simp [e]
  · rcases n1 with e | e <;> rw [e]
    · exact m2
    · exact hlh
  · intro c1 c2
    have e1 : max1 bk l x = x := by
      rcases m1 with e | e
      · rw [e] at m3; have := Fp.not_lt_of_le m3; rw [c1] at this; cases this
      · exact e
    rw [e1] at n1 n2 ⊢
    rcases n1 with e | e
    · exact e
    · rw [e] at n2; have := Fp.not_lt_of_le n2; rw [c2] at this; cases this
  · intro c
    have hml : (max1 bk l x).le l = true := by
      rcases m1 with e | e <;> rw [e]
      · exact Fp.le_refl hl
      · exact c
    rw [Fp.feq_iff_le]
    refine ⟨Fp.le_trans n2 hml, ?_⟩
    rcases n1 with e | e <;> rw [e]
    · exact m2
    · exact hlh
  · intro c
    rw [Fp.feq_iff_le]
    refine ⟨n3, ?_⟩
    rcases n1 with e | e <;> rw [e]
    · exact Fp.le_trans c m3
    · exact Fp.le_refl hh

/-- C09: `clamp_scalar` clamps every lane to the same bounds. -/
theorem C09_clampScalar (bk : Backend) (v : V4 F32) (lo hi : F32) :
    Simd4f.clampScalar bk v lo hi = Simd4f.clamp bk v ⟨lo, lo, lo, lo⟩ ⟨hi, hi, hi, hi⟩ := rfl

/-- C09: `min_val` / `max_val` put the extremum of the four lanes in every lane. -/
theorem C09_minVal_maxVal (bk : Backend) (v : V4 F32)
    (hx : v.x.isNaN = false) (hy : v.y.isNaN = false) (hz : v.z.isNaN = false)
    (hw : v.w.isNaN = false) (i : Nat) (hi : i < 4) :
    Spec.IsLeast (Simd4f.get (minVal bk v) i) [v.x, v.y, v.z, v.w] ∧
    Spec.IsGreatest (Simd4f.get (maxVal bk v) i) [v.x, v.y, v.z, v.w] := by
  have nmin : ∀ {a b : F32}, a.isNaN = false → b.isNaN = false → (min1 bk a b).isNaN = false := by
    intro a b ha hb; rcases (min1_spec bk ha hb).1 with e | e <;> rw [e] <;> assumption
  have nmax : ∀ {a b : F32}, a.isNaN = false → b.isNaN = false → (max1 bk a b).isNaN = false := by
    intro a b ha hb; rcases (max1_spec bk ha hb).1 with e | e <;> rw [e] <;> assumption
  have kmin : ∀ a b c d : F32, a.isNaN = false → b.isNaN = false → c.isNaN = false → d.isNaN = false →
      (∀ l : List F32, (∀ t, t ∈ l ↔ t = a ∨ t = b ∨ t = c ∨ t = d) →
        Spec.IsLeast (min1 bk (min1 bk a b) (min1 bk c d)) l) := by
    intro a b c d ha hb hc hd l hl
    obtain ⟨p1, p2, p3⟩ := min1_spec bk ha hb
    obtain ⟨q1, q2, q3⟩ := min1_spec bk hc hd
    obtain ⟨r1, r2, r3⟩ := min1_spec bk (nmin ha hb) (nmin hc hd)
    refine ⟨?_, ?_⟩
    · rw [hl]
      rcases r1 with e | e <;> rw [e]
      · rcases p1 with e | e <;> rw [e] <;> simp
      · rcases q1 with e | e <;> rw [e] <;> simp
    · intro t ht; rw [hl] at ht
      rcases ht with rfl | rfl | rfl | rfl
      · exact Fp.le_trans r2 p2
      · exact Fp.le_trans r2 p3
      · exact Fp.le_trans r3 q2
      · exact Fp.le_trans r3 q3
  have kmax : ∀ a b c d : F32, a.isNaN = false → b.isNaN = false → c.isNaN = false → d.isNaN = false →
      (∀ l : List F32, (∀ t, t ∈ l ↔ t = a ∨ t = b ∨ t = c ∨ t = d) →
        Spec.IsGreatest (max1 bk (max1 bk a b) (max1 bk c d)) l) := by
    intro a b c d ha hb hc hd l hl
    obtain ⟨p1, p2, p3⟩ := max1_spec bk ha hb
    obtain ⟨q1, q2, q3⟩ := max1_spec bk hc hd
    obtain ⟨r1, r2, r3⟩ := max1_spec bk (nmax ha hb) (nmax hc hd)
    refine ⟨?_, ?_⟩
    · rw [hl]
      rcases r1 with e | e <;> rw [e]
      · rcases p1 with e | e <;> rw [e] <;> simp
      · rcases q1 with e | e <;> rw [e] <;> simp
    · intro t ht; rw [hl] at ht
      rcases ht with rfl | rfl | rfl | rfl
      · exact Fp.le_trans p2 r2
      · exact Fp.le_trans p3 r2
      · exact Fp.le_trans q2 r3
      · exact Fp.le_trans q3 r3
  match i, hi with
  | 0, _ => exact ⟨kmin _ _ _ _ hx hw hz hy _ (by intro t; simp; tauto),
      kmax _ _ _ _ hx hw hz hy _ (by intro t; simp; tauto)⟩
  | 1, _ => exact ⟨kmin _ _ _ _ hy hx hw hz _ (by intro t; simp; tauto),
      kmax _ _ _ _ hy hx hw hz _ (by intro t; simp; tauto)⟩
  | 2, _ => exact ⟨kmin _ _ _ _ hz hy hx hw _ (by intro t; simp; tauto),
      kmax _ _ _ _ hz hy hx hw _ (by intro t; simp; tauto)⟩
  | 3, _ => exact ⟨kmin _ _ _ _ hw hz hy hx _ (by intro t; simp; tauto),
      kmax _ _ _ _ hw hz hy hx _ (by intro t; simp; tauto)⟩

/-- non-vacuity: lanes with both infinities and both zeros -/
example : (Fp.inf true : F32).isNaN = false ∧ (Fp.inf true : F32).le (.inf false) = true ∧
    (Fp.zero true : F32).le (Fp.zero false) = true := by decide

/-! ## C11 comparisons -/

/-- C11: the ordered comparisons hold exactly when they hold in all four lanes (so a NaN
lane makes them false). -/
theorem C11_ordered (a b : V4 F32) :
    (cmpLt a b = true ↔ ∀ i < 4, (Simd4f.get a i).lt (Simd4f.get b i) = true) ∧
    (cmpLe a b = true ↔ ∀ i < 4, (Simd4f.get a i).le (Simd4f.get b i) = true) ∧
    (cmpGt a b = true ↔ ∀ i < 4, (Simd4f.get b i).lt (Simd4f.get a i) = true) ∧
    (cmpGe a b = true ↔ ∀ i < 4, (Simd4f.get b i).le (Simd4f.get a i) = true) ∧
    (∀ i < 4, ((Simd4f.get a i).isNaN = true ∨ (Simd4f.get b i).isNaN = true) →
      cmpLt a b = false ∧ cmpLe a b = false ∧ cmpGt a b = false ∧ cmpGe a b = false) := by
  have all4 : ∀ P : Nat → Prop, (∀ i < 4, P i) ↔ ((P 0 ∧ P 1) ∧ P 2) ∧ P 3 := by
    intro P; constructor
    · intro h; exact ⟨⟨⟨h 0 (by decide), h 1 (by decide)⟩, h 2 (by decide)⟩, h 3 (by decide)⟩
    · rintro ⟨⟨⟨h0, h1⟩, h2⟩, h3⟩ i hi
      match i, hi with
      | 0, _ => exact h0
      | 1, _ => exact h1
      | 2, _ => exact h2
      | 3, _ => exact h3
  have A : cmpLt a b = true ↔ ∀ i < 4, (Simd4f.get a i).lt (Simd4f.get b i) = true := by
    rw [all4]; simp only [cmpLt, Bool.and_eq_true]; rfl
  have B : cmpLe a b = true ↔ ∀ i < 4, (Simd4f.get a i).le (Simd4f.get b i) = true := by
    rw [all4]; simp only [cmpLe, Bool.and_eq_true]; rfl
  have C : cmpGt a b = true ↔ ∀ i < 4, (Simd4f.get b i).lt (Simd4f.get a i) = true := by
    rw [all4]; simp only [cmpGt, Bool.and_eq_true]; rfl
  have D : cmpGe a b = true ↔ ∀ i < 4, (Simd4f.get b i).le (Simd4f.get a i) = true := by
    rw [all4]; simp only [cmpGe, Bool.and_eq_true]; rfl
  refine ⟨A, B, C, D, ?_⟩
  intro i hi hn
  refine ⟨?_, ?_, ?_, ?_⟩ <;> rw [← Bool.not_eq_true]
  · rw [A]; intro h; have := Fp.lt_iff.1 (h i hi); rcases hn with hn | hn <;> simp [this] at hn
  · rw [B]; intro h; have := Fp.le_iff.1 (h i hi); rcases hn with hn | hn <;> simp [this] at hn
  · rw [C]; intro h; have := Fp.lt_iff.1 (h i hi); rcases hn with hn | hn <;> simp [this] at hn
  · rw [D]; intro h; have := Fp.le_iff.1 (h i hi); rcases hn with hn | hn <;> simp [this] at hn

/-- C11: on the SSE, GCC and NEON backends `cmp_eq` is IEEE equality of all four lanes (a NaN
lane makes it false); on every backend `cmp_neq` is its complement. -/
theorem C11_equality (bk : Backend) (a b : V4 F32) :
    cmpNeq bk a b = !cmpEq bk a b ∧
    ((∀ d, bk ≠ .scalar d) →
      (cmpEq bk a b = true ↔ ∀ i < 4, Fp.feq (Simd4f.get a i) (Simd4f.get b i) = true) ∧
      (∀ i < 4, ((Simd4f.get a i).isNaN = true ∨ (Simd4f.get b i).isNaN = true) →
        cmpEq bk a b = false)) := by
  refine ⟨by simp [cmpNeq, cmpEq, Bool.not_and], fun hb => ?_⟩
  have hq : ∀ x y : F32, eq1 bk x y = Fp.feq x y := by
    intro x y; cases bk <;> simp [eq1]; exact absurd rfl (hb _)
  have A : cmpEq bk a b = true ↔ ∀ i < 4, Fp.feq (Simd4f.get a i) (Simd4f.get b i) = true := by
    simp only [cmpEq, hq, Bool.and_eq_true]
    constructor
    · rintro ⟨⟨⟨h0, h1⟩, h2⟩, h3⟩ i hi
      match i, hi with
      | 0, _ => exact h0
      | 1, _ => exact h1
      | 2, _ => exact h2
      | 3, _ => exact h3
    · intro h; exact ⟨⟨⟨h 0 (by decide), h 1 (by decide)⟩, h 2 (by decide)⟩, h 3 (by decide)⟩
  refine ⟨A, ?_⟩
  intro i hi hn
  rw [← Bool.not_eq_true, A]; intro h
  have := Fp.feq_iff.1 (h i hi); rcases hn with hn | hn <;> simp [this] at hn

/-- C11 is false of the scalar backend: `cmp_eq` accepts `+∞ = −∞` and a NaN lane. -/
theorem C11_scalar_false (d : Bool) (t : F32) :
    (∃ a b : V4 F32, cmpEq (.scalar d) a b = true ∧ Fp.feq a.x b.x = false ∧
      a.x.isNaN = false ∧ b.x.isNaN = false) ∧
    (∃ a b : V4 F32, cmpEq (.scalar d) a b = true ∧ a.x.isNaN = true ∧ b.x = t) := by
  have h0 : ∀ x : F32, approxEqual (Fp.nan : F32) x fltEps = true := by
    intro x
    simp only [approxEqual, Fp.sc_isInf, Fp.sc_sub, Fp.sc_abs, Fp.sc_isNaN, Fp.isNaN_abs]
    simp [Fp.isInf, Fp.sub, Fp.add]
  have h1 : approxEqual (Fp.inf false : F32) (Fp.inf true) fltEps = true := rfl
  refine ⟨⟨⟨.inf false, .nan, .nan, .nan⟩, ⟨.inf true, .nan, .nan, .nan⟩, ?_, rfl, rfl, rfl⟩,
    ⟨⟨.nan, .nan, .nan, .nan⟩, ⟨t, t, t, t⟩, ?_, rfl, rfl⟩⟩
  · simp [cmpEq, eq1, h0, h1]
  · simp [cmpEq, eq1, h0]

end

/-! ## C10 the backends agree in exact arithmetic -/

/-- C10: for every backend the lane results are the exact mathematical ones
(hence any two backends agree), with the divisors, radicands and reciprocal operands
above the scalar backend's `FLT_EPSILON` guard.  At or below the guard
the backends differ (`C10_small_false`). -/
theorem C10_backends (bk : Backend) (a b c : V4 ℝ) :
    (eps < |b.x| → eps < |b.y| → eps < |b.z| → eps < |b.w| →
      Simd4f.div bk a b = ⟨a.x / b.x, a.y / b.y, a.z / b.z, a.w / b.w⟩ ∧
      Simd4f.reciprocal bk b = ⟨b.x⁻¹, b.y⁻¹, b.z⁻¹, b.w⁻¹⟩) ∧
    (0 ≤ a.x → 0 ≤ a.y → 0 ≤ a.z → 0 ≤ a.w →
      Simd4f.sqrt bk a = ⟨√a.x, √a.y, √a.z, √a.w⟩) ∧
    (eps < a.x → eps < a.y → eps < a.z → eps < a.w →
      Simd4f.rsqrt bk a = ⟨(√a.x)⁻¹, (√a.y)⁻¹, (√a.z)⁻¹, (√a.w)⁻¹⟩) ∧
    Simd4f.dot3Scalar bk a b = a.x * b.x + a.y * b.y + a.z * b.z ∧
    (Simd4f.dot3 bk a b).x = Simd4f.dot3Scalar bk a b ∧
    Simd4f.cross3 bk a b =
      ⟨a.y * b.z - a.z * b.y, a.z * b.x - a.x * b.z, a.x * b.y - a.y * b.x, 0⟩ ∧
    Simd4f.madd bk a b c = ⟨a.x * b.x + c.x, a.y * b.y + c.y, a.z * b.z + c.z, a.w * b.w + c.w⟩ ∧
    Simd4f.neg bk a = ⟨-a.x, -a.y, -a.z, -a.w⟩ ∧
    Simd4f.min bk a b = ⟨min a.x b.x, min a.y b.y, min a.z b.z, min a.w b.w⟩ ∧
    Simd4f.max bk a b = ⟨max a.x b.x, max a.y b.y, max a.z b.z, max a.w b.w⟩ := by
  refine ⟨fun h1 h2 h3 h4 => ⟨?_, ?_⟩, fun h1 h2 h3 h4 => ?_, fun h1 h2 h3 h4 => ?_,
    dot3Scalar_real bk a b, rfl, cross3_real bk a b, madd_real bk a b c, ?_, ?_, ?_⟩
  · simp [Simd4f.div, map2, div1_real bk h1, div1_real bk h2, div1_real bk h3, div1_real bk h4]
  · simp [Simd4f.reciprocal, map1, recip1_real bk h1, recip1_real bk h2, recip1_real bk h3,
      recip1_real bk h4]
  · simp [Simd4f.sqrt, map1, sqrt1_real bk h1, sqrt1_real bk h2, sqrt1_real bk h3, sqrt1_real bk h4]
  · simp [Simd4f.rsqrt, map1, rsqrt1_real bk h1, rsqrt1_real bk h2, rsqrt1_real bk h3,
      rsqrt1_real bk h4]
  · simp [greal]
  · simp [greal]
  · simp [greal]

/-- C10: the operations without a backend-specific implementation are lane-wise. -/
theorem C10_lanes (a b : V4 ℝ) :
    Simd4f.add a b = ⟨a.x + b.x, a.y + b.y, a.z + b.z, a.w + b.w⟩ ∧
    Simd4f.sub a b = ⟨a.x - b.x, a.y - b.y, a.z - b.z, a.w - b.w⟩ ∧
    Simd4f.mul a b = ⟨a.x * b.x, a.y * b.y, a.z * b.z, a.w * b.w⟩ ∧
    (Simd4f.dot4 a b).x = a.x * b.x + a.y * b.y + a.z * b.z + a.w * b.w ∧
    (Simd4f.dot2 a b).x = a.x * b.x + a.y * b.y ∧
    Simd4f.floor a = ⟨⌊a.x⌋, ⌊a.y⌋, ⌊a.z⌋, ⌊a.w⌋⟩ ∧
    Simd4f.ceil a = ⟨⌈a.x⌉, ⌈a.y⌉, ⌈a.z⌉, ⌈a.w⌉⟩ ∧
    (Simd4f.sumScalar a) = a.x + a.y + a.z + a.w := by
  refine ⟨?_, ?_, ?_, ?_, ?_, ?_, ?_, ?_⟩ <;> simp [greal] <;> ring

/-- non-vacuity -/
example : eps < |(-3 : ℝ)| ∧ eps < (2 : ℝ) := by unfold eps; norm_num

/-- C10 is false for tiny divisors and radicands: SSE divides, the scalar backend
returns 0. -/
theorem C10_small_false (s1 s2 d : Bool) :
    ∃ a b : V4 ℝ, 0 < b.x ∧ (Simd4f.div (.sse s1 s2) a b).x ≠ (Simd4f.div (.scalar d) a b).x ∧
      (Simd4f.rsqrt (.sse s1 s2) b).x ≠ (Simd4f.rsqrt (.scalar d) b).x := by
  refine ⟨⟨1, 1, 1, 1⟩, ⟨eps, 1, 1, 1⟩, eps_pos, ?_, ?_⟩
  · simp [Simd4f.div, map2, div1, abs_of_pos eps_pos, eps_pos.ne']
  · have h := rsqrt1_real' (.sse s1 s2) eps_pos (by simp)
    simp [Simd4f.rsqrt, map1, h]
    simp [rsqrt1, abs_of_pos eps_pos, (Real.sqrt_pos.2 eps_pos).ne']

end Graphene

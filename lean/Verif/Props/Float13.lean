/-
  C100: the algebraic laws that survive rounding.  They hold for every single precision float,
  NaN, infinities, subnormals and signed zeros included, on every backend.

  Equalities of whole vectors and matrices are equalities of all the lanes, hidden ones included.
  (A NaN has no payload in the model.)
-/
import Verif.Proofs.FpLemmas
import Verif.Proofs.KDecide
import Verif.Model.Quat
import Verif.Model.GMatrix
import Verif.Model.Point

namespace Graphene
open Fp

/-- opposite floats: both NaN, or neither is and one is minus the other (`+0` and `-0` being the same
number) -/
def Spec.Opp (a b : F32) : Prop := a.isNaN = b.isNaN ∧ (a.isNaN = false → a.key = -b.key)

namespace Fp
variable {f : Fmt}

theorem fadd_comm (a b : Fp f) : add a b = add b a := by
  rcases a with _ | s | ⟨s, m, hm⟩ <;> rcases b with _ | t | ⟨t, n, hn⟩ <;> simp only [add]
  · cases s <;> cases t <;> rfl
  · rw [_root_.add_comm, Bool.and_comm]

theorem fmul_comm (a b : Fp f) : mul a b = mul b a := by
  rcases a with _ | s | ⟨s, m, hm⟩ <;> rcases b with _ | t | ⟨t, n, hn⟩ <;> simp only [mul, Bool.xor_comm]
  · rw [_root_.mul_comm, Bool.xor_comm]

theorem neg_ofMag (s : Bool) (n d : Nat) : neg (ofMag f s n d) = ofMag f (!s) n d := by
  unfold ofMag; split <;> rfl

theorem mul_neg_left (a b : Fp f) : mul (neg a) b = neg (mul a b) := by
  rcases a with _ | s | ⟨s, m, hm⟩ <;> rcases b with _ | t | ⟨t, n, hn⟩
  · rfl
  · rfl
  · rfl
  · rfl
  · simp [mul, neg]
  · simp only [mul, neg]; split <;> simp
  · rfl
  · simp only [mul, neg]; split <;> simp
  · show ofMag f ((!s) ^^ t) (m * n) (2 ^ f.ubit) = neg (ofMag f (s ^^ t) (m * n) (2 ^ f.ubit))
    rw [neg_ofMag]; simp

theorem mul_neg_right (a b : Fp f) : mul a (neg b) = neg (mul a b) := by
  rw [fmul_comm, mul_neg_left, fmul_comm]

theorem mul_neg_neg (a b : Fp f) : mul (neg a) (neg b) = mul a b := by
  rw [mul_neg_left, mul_neg_right, neg_neg]

theorem sub_zero_false (a : Fp f) : sub a (zero false) = a := by
  rcases a with _ | s | ⟨s, m, hm⟩
  · rfl
  · rfl
  · show add (.fin s m hm) (zero true) = _
    rw [add_zero_fin]
    by_cases h : m = 0
    · subst h; simp [zero]
    · rw [if_neg h]

theorem key_inf_true : (inf true : Fp f).key = -(inf false : Fp f).key := by simp [key, sgn]
theorem key_inf_pos : 0 < (inf false : Fp f).key := by
  simp only [key, sgn, Bool.false_eq_true, if_false]; exact_mod_cast Nat.two_pow_pos _
theorem inf_nonneg {s : Bool} (h : 0 ≤ (inf s : Fp f).key) : s = false := by
  cases s
  · rfl
  · have := key_inf_pos (f := f); rw [key_inf_true] at h; omega

theorem sub_opp (a b : F32) : Spec.Opp (sub a b) (sub b a) := by
  unfold Spec.Opp sub
  rcases a with _ | s | ⟨s, m, hm⟩ <;> rcases b with _ | t | ⟨t, n, hn⟩
  · simp [add, neg]
  · simp [add, neg]
  · simp [add, neg]
  · simp [add, neg]
  · cases s <;> cases t <;> simp [add, neg, key_inf_true]
  · cases s <;> simp [add, neg, key_inf_true]
  · simp [add, neg]
  · cases t <;> simp [add, neg, key_inf_true]
  · simp only [add, neg]
    rw [show sgn t n + sgn (!s) m = -(sgn s m + sgn (!t) n) by rw [sgn_not, sgn_not]; ring]
    generalize sgn s m + sgn (!t) n = z
    unfold ofInt
    by_cases h : z = 0
    · subst h; simp [zero, key, sgn]
    · have h' : -z ≠ 0 := by omega
      have e : decide (-z < 0) = !decide (z < 0) := by
        rcases lt_trichotomy z 0 with h1 | h1 | h1
        · rw [decide_eq_true h1, decide_eq_false (by omega)]; rfl
        · omega
        · rw [decide_eq_false (show ¬ z < 0 by omega), decide_eq_true (by omega)]; rfl
      rw [if_neg h, if_neg h', e, Int.natAbs_neg, ← neg_ofMag]
      simp

theorem opp_neg (a : F32) : Spec.Opp (neg a) a := ⟨by simp, fun _ => by simp⟩

/-- a non-negative float, or `+∞`; never a NaN -/
def NonNeg (a : F32) : Prop := a.isNaN = false ∧ 0 ≤ a.key

theorem key_ofMag_false (n d : Nat) : 0 ≤ (ofMag f false n d : Fp f).key ∧ (ofMag f false n d : Fp f).isNaN = false := by
  unfold ofMag; split
  · exact ⟨by simp [key, sgn], rfl⟩
  · exact ⟨key_inf_pos.le, rfl⟩

theorem nonNeg_mul_self {a : F32} (h : a.isNaN = false) : NonNeg (mul a a) := by
  rcases a with _ | s | ⟨s, m, hm⟩
  · simp at h
  · simp only [NonNeg, mul, Bool.xor_self]; exact ⟨rfl, key_inf_pos.le⟩
  · have := key_ofMag_false (f := binary32) (m * m) (2 ^ binary32.ubit)
    simp only [NonNeg, mul, Bool.xor_self]
    exact ⟨this.2, this.1⟩

theorem nonNeg_add {a b : F32} (ha : NonNeg a) (hb : NonNeg b) : NonNeg (add a b) := by
  obtain ⟨ha, ha'⟩ := ha; obtain ⟨hb, hb'⟩ := hb
  rcases a with _ | s | ⟨s, m, hm⟩
  · simp at ha
  · rcases b with _ | t | ⟨t, n, hn⟩
    · simp at hb
    · rw [inf_nonneg ha', inf_nonneg hb']; exact ⟨rfl, key_inf_pos.le⟩
    · exact ⟨rfl, ha'⟩
  · rcases b with _ | t | ⟨t, n, hn⟩
    · simp at hb
    · exact ⟨rfl, hb'⟩
    · simp only [key] at ha' hb'
      simp only [NonNeg, add, ofInt]
      split
      · simp [zero, key, sgn]
      · rw [decide_eq_false (by omega)]
        have := key_ofMag_false (f := binary32) (sgn s m + sgn t n).natAbs 1
        exact ⟨this.2, this.1⟩

theorem nonNeg_sqrt {a : F32} (ha : NonNeg a) : NonNeg (sqrt a) := by
  obtain ⟨ha, ha'⟩ := ha
  rcases a with _ | s | ⟨s, m, hm⟩
  · simp at ha
  · rw [inf_nonneg ha']; exact ⟨rfl, key_inf_pos.le⟩
  · simp only [sqrt]
    split
    · exact ⟨rfl, ha'⟩
    · have hs : s = false := by
        cases s
        · rfl
        · simp [key, sgn] at ha'; omega
      subst hs
      simp only [Bool.false_eq_true, if_false]
      have := fun n d => key_ofMag_false (f := binary32) n d
      exact ⟨(this _ _).2, (this _ _).1⟩

theorem nonNeg_zero : NonNeg (zero false) := ⟨rfl, by simp⟩

theorem isNaN_add_of {a b : F32} (h : a.isNaN = true ∨ b.isNaN = true) : (add a b).isNaN = true := by
  rcases h with h | h
  · rw [isNaN_iff.1 h]; cases b <;> rfl
  · rw [isNaN_iff.1 h]; cases a <;> rfl
theorem isNaN_mul_self_of {a : F32} (h : a.isNaN = true) : (mul a a).isNaN = true := by
  rw [isNaN_iff.1 h]; rfl
theorem isNaN_sqrt_of {a : F32} (h : a.isNaN = true) : (sqrt a).isNaN = true := by
  rw [isNaN_iff.1 h]; rfl

theorem key_ofInt_sgn (z : Int) (t u : Bool) : (ofInt z 1 t : F32).key = (ofInt z 1 u : F32).key ∧
    (ofInt z 1 t : F32).isNaN = false := by
  unfold ofInt; split
  · exact ⟨by simp, rfl⟩
  · exact ⟨rfl, by unfold ofMag; split <;> rfl⟩
theorem key_ofInt_neg (z : Int) (t u : Bool) : (ofInt (-z) 1 t : F32).key = -(ofInt z 1 u : F32).key := by
  unfold ofInt
  by_cases h : z = 0
  · subst h; simp
  · have h' : -z ≠ 0 := by omega
    have e : decide (-z < 0) = !decide (z < 0) := by
      rcases lt_trichotomy z 0 with h1 | h1 | h1
      · rw [decide_eq_true h1, decide_eq_false (by omega)]; rfl
      · omega
      · rw [decide_eq_false (show ¬ z < 0 by omega), decide_eq_true (by omega)]; rfl
    rw [if_neg h, if_neg h', e, Int.natAbs_neg, ← neg_ofMag]
    simp

theorem opp_cases {a c : F32} (h : Spec.Opp a c) :
    (a = .nan ∧ c = .nan) ∨ (∃ s, a = .inf s ∧ c = .inf (!s)) ∨
      (∃ s m h t n h', a = .fin s m h ∧ c = .fin t n h' ∧ sgn t n = -sgn s m) := by
  obtain ⟨n1, k1⟩ := h
  rcases a with _ | s | ⟨s, m, hm⟩
  · exact .inl ⟨rfl, isNaN_iff.1 n1.symm⟩
  · refine .inr (.inl ⟨s, rfl, ?_⟩)
    have k := k1 rfl
    refine eq_of_key n1.symm rfl ?_ ?_
    · rw [show (inf (!s) : F32) = neg (inf s) from rfl, key_neg]; omega
    · have := key_inf_pos (f := binary32)
      cases s
      · omega
      · rw [key_inf_true] at k; omega
  · rcases c with _ | t | ⟨t, n, hn⟩
    · simp at n1
    · have k := k1 rfl
      exfalso
      have h1 := sgn_abs_lt (s := s) hm.1
      cases t
      · rw [show (inf false : F32).key = ((2 ^ binary32.top : Nat) : Int) from rfl] at k
        simp only [key] at k; linarith [h1.1, h1.2]
      · rw [key_inf_true, show (inf false : F32).key = ((2 ^ binary32.top : Nat) : Int) from rfl] at k
        simp only [key] at k; linarith [h1.1, h1.2]
    · have k := k1 rfl
      exact .inr (.inr ⟨s, m, hm, t, n, hn, rfl, rfl, by simp only [key] at k; omega⟩)

/-- opposite operands give opposite sums -/
theorem opp_add {a b c d : F32} (h1 : Spec.Opp a c) (h2 : Spec.Opp b d) : Spec.Opp (add a b) (add c d) := by
  rcases opp_cases h1 with ⟨rfl, rfl⟩ | ⟨s, rfl, rfl⟩ | ⟨s, m, hm, s', m', hm', rfl, rfl, e1⟩
  · exact ⟨by cases b <;> cases d <;> rfl, fun h => by cases b <;> simp [add] at h⟩
  · rcases opp_cases h2 with ⟨rfl, rfl⟩ | ⟨t, rfl, rfl⟩ | ⟨t, n, hn, t', n', hn', rfl, rfl, e2⟩
    · exact ⟨rfl, fun h => by simp [add] at h⟩
    · cases s <;> cases t <;> simp [add, Spec.Opp, key_inf_true]
    · cases s <;> simp [add, Spec.Opp, key_inf_true]
  · rcases opp_cases h2 with ⟨rfl, rfl⟩ | ⟨t, rfl, rfl⟩ | ⟨t, n, hn, t', n', hn', rfl, rfl, e2⟩
    · exact ⟨rfl, fun h => by simp [add] at h⟩
    · cases t <;> simp [add, Spec.Opp, key_inf_true]
    · simp only [add]
      rw [show sgn s' m' + sgn t' n' = -(sgn s m + sgn t n) by rw [e1, e2]; ring]
      refine ⟨by rw [(key_ofInt_sgn _ _ false).2, (key_ofInt_sgn _ _ false).2], fun _ => ?_⟩
      rw [key_ofInt_neg _ _ (s && t)]; omega

theorem opp_symm {a b : F32} (h : Spec.Opp a b) : Spec.Opp b a :=
  ⟨h.1.symm, fun n => by have := h.2 (h.1.trans n); omega⟩

theorem sub_self_fin {a : F32} (h : a.isFin = true) : sub a a = zero false := by
  rcases a with _ | s | ⟨s, m, hm⟩
  · simp [isFin] at h
  · simp [isFin] at h
  · simp only [sub, neg, add, sgn_not, Int.add_right_neg, ofInt]
    cases s <;> rfl
end Fp

open Fp

section
variable [Libm binary32]
/-! ### Commutativity -/

/-- C100: sums, products and dot products of 2-vectors do not depend on the order of the operands. -/
theorem C100_comm2 (a b : Vec2 F32) :
    Vec2.add a b = Vec2.add b a ∧ Vec2.multiply a b = Vec2.multiply b a ∧ Vec2.dot a b = Vec2.dot b a := by
  refine ⟨?_, ?_, ?_⟩
  · simp only [Vec2.add, Simd4f.add, Simd4f.map2, sc_add, fadd_comm a.value.x, fadd_comm a.value.y,
      fadd_comm a.value.z, fadd_comm a.value.w]
  · simp only [Vec2.multiply, Simd4f.mul, Simd4f.map2, sc_mul, fmul_comm a.value.x, fmul_comm a.value.y,
      fmul_comm a.value.z, fmul_comm a.value.w]
  · simp only [Vec2.dot, Simd4f.dot2, Simd4f.mul, Simd4f.map2, sc_mul, fmul_comm a.value.x, fmul_comm a.value.y,
      fmul_comm a.value.z, fmul_comm a.value.w]

/-- C100: the same for 3-vectors, whatever the order in which the backend adds up a dot product. -/
theorem C100_comm3 (bk : Backend) (a b : Vec3 F32) :
    Vec3.add a b = Vec3.add b a ∧ Vec3.multiply a b = Vec3.multiply b a ∧ Vec3.dot bk a b = Vec3.dot bk b a := by
  refine ⟨?_, ?_, ?_⟩
  · simp only [Vec3.add, Simd4f.add, Simd4f.map2, sc_add, fadd_comm a.value.x, fadd_comm a.value.y,
      fadd_comm a.value.z, fadd_comm a.value.w]
  · simp only [Vec3.multiply, Simd4f.mul, Simd4f.map2, sc_mul, fmul_comm a.value.x, fmul_comm a.value.y,
      fmul_comm a.value.z, fmul_comm a.value.w]
  · simp only [Vec3.dot, Simd4f.dot3Scalar, sc_mul, fmul_comm a.value.x, fmul_comm a.value.y,
      fmul_comm a.value.z]

/-- C100: the same for 4-vectors. -/
theorem C100_comm4 (a b : Vec4 F32) :
    Vec4.add a b = Vec4.add b a ∧ Vec4.multiply a b = Vec4.multiply b a ∧ Vec4.dot a b = Vec4.dot b a := by
  refine ⟨?_, ?_, ?_⟩
  · simp only [Vec4.add, Simd4f.add, Simd4f.map2, sc_add, fadd_comm a.value.x, fadd_comm a.value.y,
      fadd_comm a.value.z, fadd_comm a.value.w]
  · simp only [Vec4.multiply, Simd4f.mul, Simd4f.map2, sc_mul, fmul_comm a.value.x, fmul_comm a.value.y,
      fmul_comm a.value.z, fmul_comm a.value.w]
  · simp only [Vec4.dot, Simd4f.dot4, Simd4f.mul, Simd4f.map2, sc_mul, fmul_comm a.value.x, fmul_comm a.value.y,
      fmul_comm a.value.z, fmul_comm a.value.w]

/-- C100: the same for quaternion sums and dot products; the inverse of the inverse is the quaternion. -/
theorem C100_quaternion (a b : Quat F32) :
    Quat.add a b = Quat.add b a ∧ Quat.dot a b = Quat.dot b a ∧ Quat.invert (Quat.invert a) = a := by
  refine ⟨?_, ?_, ?_⟩
  · simp only [Quat.add, Quat.vec, Simd4f.init, Simd4f.add, Simd4f.map2, sc_add, fadd_comm a.x, fadd_comm a.y,
      fadd_comm a.z, fadd_comm a.w]
  · simp only [Quat.dot, Quat.vec, Simd4f.init, Simd4f.dot4, Simd4f.mul, Simd4f.map2, sc_mul, fmul_comm a.x,
      fmul_comm a.y, fmul_comm a.z, fmul_comm a.w]
  · simp [Quat.invert]

/-! ### Negation, scaling, subtraction -/

theorem neg1_eq (bk : Backend) (a : F32) : Simd4f.neg1 bk a = Fp.neg a := by
  cases bk <;> simp [Simd4f.neg1, mul_negOne32]

theorem neg_eq (bk : Backend) (v : V4 F32) :
    Simd4f.neg bk v = ⟨Fp.neg v.x, Fp.neg v.y, Fp.neg v.z, Fp.neg v.w⟩ := by
  simp [Simd4f.neg, Simd4f.map1, neg1_eq]

/-- C100: negating twice gives the vector back, and a vector and its opposite have the same length. -/
theorem C100_negate2 (bk : Backend) (v : Vec2 F32) :
    Vec2.negate bk (Vec2.negate bk v) = v ∧ Vec2.length bk (Vec2.negate bk v) = Vec2.length bk v := by
  simp [Vec2.negate, neg_eq, Vec2.length, Simd4f.length2, Simd4f.dot2, Simd4f.mul, Simd4f.map2, mul_neg_neg]
theorem C100_negate3 (bk : Backend) (v : Vec3 F32) :
    Vec3.negate bk (Vec3.negate bk v) = v ∧ Vec3.length bk (Vec3.negate bk v) = Vec3.length bk v := by
  simp [Vec3.negate, neg_eq, Vec3.length, Simd4f.length3, Simd4f.dot3, Simd4f.dot3Scalar, mul_neg_neg]
theorem C100_negate4 (bk : Backend) (v : Vec4 F32) :
    Vec4.negate bk (Vec4.negate bk v) = v ∧ Vec4.length bk (Vec4.negate bk v) = Vec4.length bk v := by
  simp [Vec4.negate, neg_eq, Vec4.length, Simd4f.length4, Simd4f.dot4, Simd4f.mul, Simd4f.map2, mul_neg_neg]

/-- C100: scaling by 1 is the identity, scaling by -1 negates, and scaling by `-k` is the opposite of
scaling by `k`. -/
theorem C100_scale2 (bk : Backend) (v : Vec2 F32) (k : F32) :
    Vec2.scale v f1 = v ∧ Vec2.scale v (Scalar.lit (-1) 1) = Vec2.negate bk v ∧
      Vec2.scale v (Fp.neg k) = Vec2.negate bk (Vec2.scale v k) := by
  refine ⟨?_, ?_, ?_⟩ <;>
    simp [Vec2.scale, Vec2.negate, neg_eq, Simd4f.mul, Simd4f.map2, Simd4f.splat, mul_neg_right, f1, mul_one32,
      mul_negOne32]
theorem C100_scale3 (bk : Backend) (v : Vec3 F32) (k : F32) :
    Vec3.scale v f1 = v ∧ Vec3.scale v (Scalar.lit (-1) 1) = Vec3.negate bk v ∧
      Vec3.scale v (Fp.neg k) = Vec3.negate bk (Vec3.scale v k) := by
  refine ⟨?_, ?_, ?_⟩ <;>
    simp [Vec3.scale, Vec3.negate, neg_eq, Simd4f.mul, Simd4f.map2, Simd4f.splat, mul_neg_right, f1, mul_one32,
      mul_negOne32]
theorem C100_scale4 (bk : Backend) (v : Vec4 F32) (k : F32) :
    Vec4.scale v f1 = v ∧ Vec4.scale v (Scalar.lit (-1) 1) = Vec4.negate bk v ∧
      Vec4.scale v (Fp.neg k) = Vec4.negate bk (Vec4.scale v k) := by
  refine ⟨?_, ?_, ?_⟩ <;>
    simp [Vec4.scale, Vec4.negate, neg_eq, Simd4f.mul, Simd4f.map2, Simd4f.splat, mul_neg_right, f1, mul_one32,
      mul_negOne32]

/-- C100: `a - b` is the opposite of `b - a` in every component; subtracting the zero vector changes
nothing; a finite vector minus itself is `+0`. -/
theorem C100_subtract3 (a b : Vec3 F32) :
    (Spec.Opp (Vec3.subtract a b).getX (Vec3.subtract b a).getX ∧
     Spec.Opp (Vec3.subtract a b).getY (Vec3.subtract b a).getY ∧
     Spec.Opp (Vec3.subtract a b).getZ (Vec3.subtract b a).getZ) ∧
    Vec3.subtract a Vec3.zero = a ∧
    (a.getX.isFin = true → (Vec3.subtract a a).getX = f0) ∧ (a.getY.isFin = true → (Vec3.subtract a a).getY = f0) ∧
    (a.getZ.isFin = true → (Vec3.subtract a a).getZ = f0) := by
  refine ⟨⟨sub_opp _ _, sub_opp _ _, sub_opp _ _⟩, ?_, ?_, ?_, ?_⟩
  · simp [Vec3.subtract, Vec3.zero, Simd4f.initZero, Simd4f.sub, Simd4f.map2, f0_eq, sub_zero_false]
  · intro h; rw [f0_eq]; exact sub_self_fin h
  · intro h; rw [f0_eq]; exact sub_self_fin h
  · intro h; rw [f0_eq]; exact sub_self_fin h
theorem C100_subtract2 (a b : Vec2 F32) :
    (Spec.Opp (Vec2.subtract a b).getX (Vec2.subtract b a).getX ∧
     Spec.Opp (Vec2.subtract a b).getY (Vec2.subtract b a).getY) ∧
    Vec2.subtract a (Vec2.init f0 f0) = a ∧
    (a.getX.isFin = true → (Vec2.subtract a a).getX = f0) ∧ (a.getY.isFin = true → (Vec2.subtract a a).getY = f0) := by
  refine ⟨⟨sub_opp _ _, sub_opp _ _⟩, ?_, ?_, ?_⟩
  · simp [Vec2.subtract, Vec2.init, Simd4f.init, Simd4f.sub, Simd4f.map2, f0_eq, sub_zero_false]
  · intro h; rw [f0_eq]; exact sub_self_fin h
  · intro h; rw [f0_eq]; exact sub_self_fin h
theorem C100_subtract4 (a b : Vec4 F32) :
    (Spec.Opp (Vec4.subtract a b).getX (Vec4.subtract b a).getX ∧
     Spec.Opp (Vec4.subtract a b).getY (Vec4.subtract b a).getY ∧
     Spec.Opp (Vec4.subtract a b).getZ (Vec4.subtract b a).getZ ∧
     Spec.Opp (Vec4.subtract a b).getW (Vec4.subtract b a).getW) ∧
    Vec4.subtract a Vec4.zero = a ∧
    (a.getX.isFin = true → (Vec4.subtract a a).getX = f0) ∧ (a.getY.isFin = true → (Vec4.subtract a a).getY = f0) ∧
    (a.getZ.isFin = true → (Vec4.subtract a a).getZ = f0) ∧ (a.getW.isFin = true → (Vec4.subtract a a).getW = f0) := by
  refine ⟨⟨sub_opp _ _, sub_opp _ _, sub_opp _ _, sub_opp _ _⟩, ?_, ?_, ?_, ?_, ?_⟩
  · simp [Vec4.subtract, Vec4.zero, Simd4f.initZero, Simd4f.sub, Simd4f.map2, f0_eq, sub_zero_false]
  · intro h; rw [f0_eq]; exact sub_self_fin h
  · intro h; rw [f0_eq]; exact sub_self_fin h
  · intro h; rw [f0_eq]; exact sub_self_fin h
  · intro h; rw [f0_eq]; exact sub_self_fin h

/-! ### Cross product -/

/-- C100: `a × b` is the opposite of `b × a` in every component, on every backend. -/
theorem C100_cross (bk : Backend) (a b : Vec3 F32) :
    Spec.Opp (Vec3.cross bk a b).getX (Vec3.cross bk b a).getX ∧
    Spec.Opp (Vec3.cross bk a b).getY (Vec3.cross bk b a).getY ∧
    Spec.Opp (Vec3.cross bk a b).getZ (Vec3.cross bk b a).getZ := by
  have key : ∀ p q r s : F32, Spec.Opp (Fp.sub (Fp.mul p q) (Fp.mul r s)) (Fp.sub (Fp.mul s r) (Fp.mul q p)) :=
    fun p q r s => by rw [fmul_comm s r, fmul_comm q p]; exact sub_opp _ _
  cases bk <;> simp only [Vec3.cross, Simd4f.cross3, Vec3.getX, Vec3.getY, Vec3.getZ, Simd4f.get, sc_sub, sc_mul]
  · exact ⟨key _ _ _ _, key _ _ _ _, key _ _ _ _⟩
  · exact ⟨key _ _ _ _, key _ _ _ _, key _ _ _ _⟩
  · exact ⟨sub_opp _ _, sub_opp _ _, sub_opp _ _⟩
  · exact ⟨key _ _ _ _, key _ _ _ _, key _ _ _ _⟩

/-- C100: the cross product of a vector with itself is `+0` in every component whose two products do
not overflow. -/
theorem C100_cross_self (bk : Backend) (a : Vec3 F32) :
    ((Fp.mul a.getY a.getZ).isFin = true → (Vec3.cross bk a a).getX = f0) ∧
    ((Fp.mul a.getZ a.getX).isFin = true → (Vec3.cross bk a a).getY = f0) ∧
    ((Fp.mul a.getX a.getY).isFin = true → (Vec3.cross bk a a).getZ = f0) := by
  have key : ∀ p q : F32, (Fp.mul p q).isFin = true → Fp.sub (Fp.mul p q) (Fp.mul q p) = f0 :=
    fun p q h => by rw [fmul_comm q p, f0_eq]; exact sub_self_fin h
  have key' : ∀ p q : F32, (Fp.mul p q).isFin = true → Fp.sub (Fp.mul q p) (Fp.mul q p) = f0 :=
    fun p q h => by rw [fmul_comm q p, f0_eq]; exact sub_self_fin h
  cases bk <;> simp only [Vec3.cross, Simd4f.cross3, Vec3.getX, Vec3.getY, Vec3.getZ, Simd4f.get, sc_sub, sc_mul]
  · exact ⟨key _ _, key _ _, key _ _⟩
  · exact ⟨key _ _, key _ _, key _ _⟩
  · exact ⟨key' _ _, key' _ _, key' _ _⟩
  · exact ⟨key _ _, key _ _, key _ _⟩

/-! ### Dot products, lengths, distances -/

theorem opp_mul_left {a b : F32} (c : F32) (h : a = Fp.neg b) : Spec.Opp (Fp.mul a c) (Fp.mul b c) := by
  rw [h, mul_neg_left]; exact opp_neg _
theorem opp_mul_right {a b : F32} (c : F32) (h : a = Fp.neg b) : Spec.Opp (Fp.mul c a) (Fp.mul c b) := by
  rw [h, mul_neg_right]; exact opp_neg _

/-- C100: negating an operand of a dot product gives the opposite number. -/
theorem C100_dot_negate (bk : Backend) (a b : Vec3 F32) (c d : Vec4 F32) (e g : Vec2 F32) :
    Spec.Opp (Vec2.dot (Vec2.negate bk e) g) (Vec2.dot e g) ∧
    Spec.Opp (Vec3.dot bk (Vec3.negate bk a) b) (Vec3.dot bk a b) ∧
    Spec.Opp (Vec4.dot (Vec4.negate bk c) d) (Vec4.dot c d) := by
  have z : Spec.Opp (Fp.zero false : F32) (Fp.zero false) := ⟨rfl, fun _ => by simp⟩
  refine ⟨?_, ?_, ?_⟩
  · simp only [Vec2.dot, Vec2.negate, neg_eq, Simd4f.dot2, Simd4f.mul, Simd4f.map2, Simd4f.splatX, Simd4f.splatY,
      Simd4f.splat, Simd4f.add, Simd4f.get, sc_add, sc_mul]
    exact opp_add (opp_mul_left _ rfl) (opp_mul_left _ rfl)
  · unfold Vec3.dot Vec3.negate
    rw [neg_eq]
    unfold Simd4f.dot3Scalar
    simp only [sc_add, sc_mul, f0_eq]
    split
    · exact opp_add (opp_add (opp_mul_left _ rfl) (opp_mul_left _ rfl)) (opp_add (opp_mul_left _ rfl) z)
    · exact opp_add (opp_add (opp_mul_left _ rfl) (opp_mul_left _ rfl)) (opp_add (opp_mul_left _ rfl) z)
    · exact opp_add (opp_add (opp_mul_left _ rfl) (opp_mul_left _ rfl)) (opp_mul_left _ rfl)
  · simp only [Vec4.dot, Vec4.negate, neg_eq, Simd4f.dot4, Simd4f.sum, Simd4f.mul, Simd4f.map2, Simd4f.splatX,
      Simd4f.splatY, Simd4f.splatZ, Simd4f.splatW, Simd4f.splat, Simd4f.add, Simd4f.get, sc_add, sc_mul]
    exact opp_add (opp_add (opp_mul_left _ rfl) (opp_mul_left _ rfl))
      (opp_add (opp_mul_left _ rfl) (opp_mul_left _ rfl))

theorem nonNeg_sqrt1 {bk : Backend} (hb : bk ≠ .neon) {a : F32} (h : NonNeg a) : NonNeg (Simd4f.sqrt1 bk a) := by
  cases bk <;> first | exact absurd rfl hb | exact nonNeg_sqrt h
theorem isNaN_sqrt1 {bk : Backend} (hb : bk ≠ .neon) {a : F32} (h : a.isNaN = true) :
    (Simd4f.sqrt1 bk a).isNaN = true := by
  cases bk <;> first | exact absurd rfl hb | exact isNaN_sqrt_of h

theorem dot2_self_nan (v : V4 F32) :
    (NonNeg (Simd4f.dot2 v v).x ∧ v.x.isNaN = false ∧ v.y.isNaN = false) ∨
    ((Simd4f.dot2 v v).x.isNaN = true ∧ (v.x.isNaN = true ∨ v.y.isNaN = true)) := by
  by_cases h : v.x.isNaN = true ∨ v.y.isNaN = true
  · refine .inr ⟨?_, h⟩
    exact isNaN_add_of (h.imp isNaN_mul_self_of isNaN_mul_self_of)
  · simp only [not_or, Bool.not_eq_true] at h
    exact .inl ⟨nonNeg_add (nonNeg_mul_self h.1) (nonNeg_mul_self h.2), h⟩
theorem dot3_self_nan (bk : Backend) (v : V4 F32) :
    (NonNeg (Simd4f.dot3Scalar bk v v) ∧ v.x.isNaN = false ∧ v.y.isNaN = false ∧ v.z.isNaN = false) ∨
    ((Simd4f.dot3Scalar bk v v).isNaN = true ∧ (v.x.isNaN = true ∨ v.y.isNaN = true ∨ v.z.isNaN = true)) := by
  by_cases h : v.x.isNaN = true ∨ v.y.isNaN = true ∨ v.z.isNaN = true
  · refine .inr ⟨?_, h⟩
    unfold Simd4f.dot3Scalar
    simp only [sc_add, sc_mul]
    rcases h with h | h | h <;> have h' := isNaN_mul_self_of h <;> split <;>
      first
        | exact isNaN_add_of (.inl (isNaN_add_of (.inl h')))
        | exact isNaN_add_of (.inl (isNaN_add_of (.inr h')))
        | exact isNaN_add_of (.inr (isNaN_add_of (.inl h')))
        | exact isNaN_add_of (.inr h')
  · simp only [not_or, Bool.not_eq_true] at h
    refine .inl ⟨?_, h⟩
    have a1 := nonNeg_mul_self h.1
    have a2 := nonNeg_mul_self h.2.1
    have a3 := nonNeg_mul_self h.2.2
    unfold Simd4f.dot3Scalar
    simp only [sc_add, sc_mul, f0_eq]
    split
    · exact nonNeg_add (nonNeg_add a1 a3) (nonNeg_add a2 nonNeg_zero)
    · exact nonNeg_add (nonNeg_add a1 a2) (nonNeg_add a3 nonNeg_zero)
    · exact nonNeg_add (nonNeg_add a1 a2) a3
theorem dot4_self_nan (v : V4 F32) :
    (NonNeg (Simd4f.dot4 v v).x ∧ v.x.isNaN = false ∧ v.y.isNaN = false ∧ v.z.isNaN = false ∧ v.w.isNaN = false) ∨
    ((Simd4f.dot4 v v).x.isNaN = true ∧
      (v.x.isNaN = true ∨ v.y.isNaN = true ∨ v.z.isNaN = true ∨ v.w.isNaN = true)) := by
  by_cases h : v.x.isNaN = true ∨ v.y.isNaN = true ∨ v.z.isNaN = true ∨ v.w.isNaN = true
  · refine .inr ⟨?_, h⟩
    rcases h with h | h | h | h <;> have h' := isNaN_mul_self_of h
    · exact isNaN_add_of (.inl (isNaN_add_of (.inl h')))
    · exact isNaN_add_of (.inl (isNaN_add_of (.inr h')))
    · exact isNaN_add_of (.inr (isNaN_add_of (.inl h')))
    · exact isNaN_add_of (.inr (isNaN_add_of (.inr h')))
  · simp only [not_or, Bool.not_eq_true] at h
    refine .inl ⟨?_, h⟩
    have a1 := nonNeg_mul_self h.1
    have a2 := nonNeg_mul_self h.2.1
    have a3 := nonNeg_mul_self h.2.2.1
    have a4 := nonNeg_mul_self h.2.2.2
    exact nonNeg_add (nonNeg_add a1 a2) (nonNeg_add a3 a4)

/-- C100: whatever the components — subnormal, huge, infinite — a length is never negative, and it is
NaN exactly when some component is (not on NEON, which computes `1 / (1/√v)`). -/
theorem C100_length2 (bk : Backend) (hb : bk ≠ .neon) (v : Vec2 F32) :
    ((Vec2.length bk v).isNaN = true ↔ v.getX.isNaN = true ∨ v.getY.isNaN = true) ∧ 0 ≤ (Vec2.length bk v).key := by
  have e : Vec2.length bk v = Simd4f.sqrt1 bk (Simd4f.dot2 v.value v.value).x := rfl
  rw [e]
  rcases dot2_self_nan v.value with ⟨h, h1, h2⟩ | ⟨h, h'⟩
  · have := nonNeg_sqrt1 hb h
    refine ⟨?_, this.2⟩
    simp only [Vec2.getX, Vec2.getY, Simd4f.get, this.1, h1, h2]; simp
  · have := isNaN_sqrt1 hb h
    exact ⟨⟨fun _ => h', fun _ => this⟩, by rw [isNaN_iff.1 this]; rfl⟩
theorem C100_length3 (bk : Backend) (hb : bk ≠ .neon) (v : Vec3 F32) :
    ((Vec3.length bk v).isNaN = true ↔ v.getX.isNaN = true ∨ v.getY.isNaN = true ∨ v.getZ.isNaN = true) ∧
      0 ≤ (Vec3.length bk v).key := by
  have e : Vec3.length bk v = Simd4f.sqrt1 bk (Simd4f.dot3Scalar bk v.value v.value) := rfl
  rw [e]
  rcases dot3_self_nan bk v.value with ⟨h, h1, h2, h3⟩ | ⟨h, h'⟩
  · have := nonNeg_sqrt1 hb h
    refine ⟨?_, this.2⟩
    simp only [Vec3.getX, Vec3.getY, Vec3.getZ, Simd4f.get, this.1, h1, h2, h3]; simp
  · have := isNaN_sqrt1 hb h
    exact ⟨⟨fun _ => h', fun _ => this⟩, by rw [isNaN_iff.1 this]; rfl⟩
theorem C100_length4 (bk : Backend) (hb : bk ≠ .neon) (v : Vec4 F32) :
    ((Vec4.length bk v).isNaN = true ↔
        v.getX.isNaN = true ∨ v.getY.isNaN = true ∨ v.getZ.isNaN = true ∨ v.getW.isNaN = true) ∧
      0 ≤ (Vec4.length bk v).key := by
  have e : Vec4.length bk v = Simd4f.sqrt1 bk (Simd4f.dot4 v.value v.value).x := rfl
  rw [e]
  rcases dot4_self_nan v.value with ⟨h, h1, h2, h3, h4⟩ | ⟨h, h'⟩
  · have := nonNeg_sqrt1 hb h
    refine ⟨?_, this.2⟩
    simp only [Vec4.getX, Vec4.getY, Vec4.getZ, Vec4.getW, Simd4f.get, this.1, h1, h2, h3, h4]; simp
  · have := isNaN_sqrt1 hb h
    exact ⟨⟨fun _ => h', fun _ => this⟩, by rw [isNaN_iff.1 this]; rfl⟩

/-- C100: the distance between two points, its components, the squared distance and `near` do not depend
on the order of the points. -/
theorem C100_distance (bk : Backend) (a b : Point F32) (eps : F32) :
    Point.distance bk a b = Point.distance bk b a ∧ Point.distanceSquared a b = Point.distanceSquared b a ∧
      Point.near a b eps = Point.near b a eps := by
  refine ⟨?_, ?_, ?_⟩
  · simp [Point.distance, Point.diff, Simd4f.init, Simd4f.length2, Simd4f.dot2, Simd4f.mul, Simd4f.sub, Simd4f.map2,
      Simd4f.get, sub_mul_self_comm a.x b.x, sub_mul_self_comm a.y b.y, Fp.abs_sub_comm a.x b.x,
      Fp.abs_sub_comm a.y b.y]
  · simp [Point.distanceSquared, Point.diff, Simd4f.init, Simd4f.dot2, Simd4f.mul, Simd4f.sub, Simd4f.map2,
      Simd4f.get, sub_mul_self_comm a.x b.x, sub_mul_self_comm a.y b.y]
  · simp [Point.near, Point.diff, Simd4f.init, Simd4f.sub, Simd4f.map2, Simd4f.get, Fp.abs_sub_comm a.x b.x,
      Fp.abs_sub_comm a.y b.y]
theorem C100_distance3d (bk : Backend) (a b : Point3D F32) (eps : F32) :
    Point3D.distance bk a b = Point3D.distance bk b a ∧ Point3D.near a b eps = Point3D.near b a eps := by
  refine ⟨?_, ?_⟩
  · simp [Point3D.distance, Point3D.toVec3, Vec3.init, Vec3.subtract, Vec3.length, Vec3.getX, Vec3.getY, Vec3.getZ,
      Simd4f.init, Simd4f.length3, Simd4f.dot3, Simd4f.dot3Scalar, Simd4f.sub, Simd4f.map2,
      Simd4f.get, sub_mul_self_comm a.x b.x, sub_mul_self_comm a.y b.y, sub_mul_self_comm a.z b.z,
      Fp.abs_sub_comm a.x b.x, Fp.abs_sub_comm a.y b.y, Fp.abs_sub_comm a.z b.z]
  · simp [Point3D.near, Point3D.vec, Simd4f.init, Simd4f.sub, Simd4f.map2, Simd4f.get, Fp.abs_sub_comm a.x b.x,
      Fp.abs_sub_comm a.y b.y, Fp.abs_sub_comm a.z b.z]

/-! ### Matrices -/

/-- C100: transposing a product gives, bit for bit, the product of the transposes in the other order. -/
theorem C100_transpose_multiply (a b : M4 F32) :
    GMatrix.transpose (GMatrix.multiply a b) = GMatrix.multiply (GMatrix.transpose b) (GMatrix.transpose a) := by
  simp only [GMatrix.transpose, GMatrix.multiply, Simd4x4f.matrixMul, Simd4x4f.transpose, Simd4x4f.vec4Mul, Simd4x4f.init,
    Simd4f.add, Simd4f.mul, Simd4f.map2, Simd4f.splatX, Simd4f.splatY, Simd4f.splatZ, Simd4f.splatW, Simd4f.splat,
    sc_add, sc_mul]
  simp only [fmul_comm a.x.x, fmul_comm a.x.y, fmul_comm a.x.z, fmul_comm a.x.w, fmul_comm a.y.x, fmul_comm a.y.y,
    fmul_comm a.y.z, fmul_comm a.y.w, fmul_comm a.z.x, fmul_comm a.z.y, fmul_comm a.z.z, fmul_comm a.z.w,
    fmul_comm a.w.x, fmul_comm a.w.y, fmul_comm a.w.z, fmul_comm a.w.w]

/-- C100: a matrix takes opposite vectors to opposite vectors. -/
theorem C100_transform_negate (bk : Backend) (m : M4 F32) (v : Vec4 F32) :
    Spec.Opp (GMatrix.transformVec4 m (Vec4.negate bk v)).getX (GMatrix.transformVec4 m v).getX ∧
    Spec.Opp (GMatrix.transformVec4 m (Vec4.negate bk v)).getY (GMatrix.transformVec4 m v).getY ∧
    Spec.Opp (GMatrix.transformVec4 m (Vec4.negate bk v)).getZ (GMatrix.transformVec4 m v).getZ ∧
    Spec.Opp (GMatrix.transformVec4 m (Vec4.negate bk v)).getW (GMatrix.transformVec4 m v).getW := by
  simp only [GMatrix.transformVec4, Vec4.negate, neg_eq, Simd4x4f.vec4Mul, Simd4f.add, Simd4f.mul, Simd4f.map2,
    Simd4f.splatX, Simd4f.splatY, Simd4f.splatZ, Simd4f.splatW, Simd4f.splat, sc_add, sc_mul, Vec4.getX, Vec4.getY,
    Vec4.getZ, Vec4.getW, Simd4f.get]
  exact ⟨opp_add (opp_add (opp_mul_right _ rfl) (opp_mul_right _ rfl)) (opp_add (opp_mul_right _ rfl) (opp_mul_right _ rfl)),
    opp_add (opp_add (opp_mul_right _ rfl) (opp_mul_right _ rfl)) (opp_add (opp_mul_right _ rfl) (opp_mul_right _ rfl)),
    opp_add (opp_add (opp_mul_right _ rfl) (opp_mul_right _ rfl)) (opp_add (opp_mul_right _ rfl) (opp_mul_right _ rfl)),
    opp_add (opp_add (opp_mul_right _ rfl) (opp_mul_right _ rfl)) (opp_add (opp_mul_right _ rfl) (opp_mul_right _ rfl))⟩

/-- the laws that do *not* survive: a sum of three numbers depends on the grouping, so adding vectors
is not associative (2²⁴ + 1 + 1). -/
theorem C100_add_not_assoc :
    Vec2.getX (Vec2.add (Vec2.add (Vec2.init (Scalar.lit 16777216 1) f0) (Vec2.init f1 f0)) (Vec2.init f1 f0)) ≠
    Vec2.getX (Vec2.add (Vec2.init (Scalar.lit 16777216 1) f0) (Vec2.add (Vec2.init f1 f0) (Vec2.init (f1 : F32) f0))) := by
  kdecide

/-- the hypotheses are met, and the claims are not about zeros or NaNs only: lengths with an infinite
component, a cross product with inexact components -/
example : (Fp.mul (Scalar.lit 3 1 : F32) (Scalar.lit 1 10)).isFin = true ∧
    (Vec2.length .gcc (Vec2.init (Scalar.inf : F32) (Scalar.lit 1 10))).isNaN = false ∧
    (Vec3.cross .neon (Vec3.init (Scalar.lit 1 3 : F32) (Scalar.lit 1 7) f1) (Vec3.init f1 f2 (Scalar.lit 3 1))).getZ.isNaN = false ∧
    0 < (Vec3.cross .neon (Vec3.init (Scalar.lit 1 3 : F32) (Scalar.lit 1 7) f1) (Vec3.init f1 f2 (Scalar.lit 3 1))).getZ.key := by
  kdecide
end
end Graphene

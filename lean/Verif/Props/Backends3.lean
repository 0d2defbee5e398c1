/-
  C126: the vector backends, instruction by instruction, compute the documented lane
  operations: the statements.
-/
import Verif.Props.Backends2

set_option exponentiation.threshold 3000

namespace Graphene
open Bits Ins
variable [Libm binary32] [H : Alu]

/-! ### lane selections -/

theorem gcc_recip_lane (bk : Backend) (hb : bk = .gcc ∨ bk = .scalar false) (x : Word)
    (hx : (decode x).isNaN = false) : decode (Gccv.recipLane x) = Simd4f.recip1 bk (decode x) := by
  have hc : clt wEps (cfabs x) = (Scalar.abs (decode x) >. (fltEps : F32)) := by
    rw [clt, dec_eps, decode_fabs]; rfl
  have hi : decode (ccopysign wInf x) = Scalar.copysign Scalar.inf (decode x) := by
    have hw : ccopysign wInf x = if x.msb then 0xff800000#32 else 0x7f800000#32 := by
      have h1 : x &&& 0x80000000#32 = if x.msb then 0x80000000#32 else 0 := by
        apply BitVec.eq_of_getLsbD_eq
        intro i hi
        rw [BitVec.getLsbD_and, show 0x80000000#32 = BitVec.twoPow 32 31 by decide, BitVec.getLsbD_twoPow]
        by_cases h31 : i = 31
        · subst h31
          rw [BitVec.msb_eq_getLsbD_last]
          cases x.getLsbD (32 - 1) <;> simp
        · have : (decide (31 = i)) = false := by simpa using fun h => h31 h.symm
          rw [this, Bool.and_false, Bool.and_false]
          cases x.msb <;> simp [BitVec.getLsbD_twoPow, this]
      rw [ccopysign, h1]
      cases x.msb <;> decide
    rw [hw, ← decode_msb hx]
    show _ = Fp.copysign (.inf false) (decode x)
    unfold Fp.copysign
    cases (decode x).signbit
    · decide +kernel
    · decide +kernel
  have hd : decode (H.div w1 x) = (f1 : F32) /. decode x := by rw [H.div_val, dec_w1]; rfl
  have key : decode (Gccv.recipLane x) =
      if Scalar.abs (decode x) >. (fltEps : F32) then (f1 : F32) /. decode x
      else Scalar.copysign Scalar.inf (decode x) := by
    unfold Gccv.recipLane
    rw [hc]
    split
    · exact hd
    · exact hi
  rcases hb with rfl | rfl <;> exact key

theorem gcc_rsqrt_lane (x : Word) : decode (Gccv.rsqrtLane x) = Simd4f.rsqrt1 .gcc (decode x) := by
  unfold Gccv.rsqrtLane Simd4f.rsqrt1
  rw [ceq_w0]
  show decode (if (!(decode x).feq f0) = true then _ else _) = if (decode x).feq f0 = true then _ else _
  cases (decode x).feq f0
  · simp only [Bool.not_false, if_true, Bool.false_eq_true, if_false, H.div_val, H.sqrt_val, dec_w1]; rfl
  · simp only [Bool.not_true, Bool.false_eq_true, if_false, if_true]; exact dec_w0

theorem plain_guard (b : Word) : clt wEps (cfabs b) = (Scalar.abs (decode b) >. (fltEps : F32)) := by
  rw [clt, dec_eps, decode_fabs]; rfl

theorem plain_recip_lane (d : Bool) (x : Word) (hx : (decode x).isNaN = false) :
    decode (Plain.recipLane d x) = Simd4f.recip1 (.scalar d) (decode x) := by
  cases d
  · exact gcc_recip_lane (.scalar false) (.inr rfl) x hx
  · show decode (H.div w1 x) = _
    rw [H.div_val, dec_w1]; rfl
theorem plain_rsqrt_lane (d : Bool) (x : Word) :
    decode (Plain.rsqrtLane x) = Simd4f.rsqrt1 (.scalar d) (decode x) := by
  unfold Plain.rsqrtLane Simd4f.rsqrt1
  rw [plain_guard]
  split
  · rw [H.div_val, H.sqrt_val, dec_w1]; rfl
  · exact dec_w0
theorem plain_div_lane (d : Bool) (a b : Word) :
    decode (Plain.divLane a b) = Simd4f.div1 (.scalar d) (decode a) (decode b) := by
  unfold Plain.divLane Simd4f.div1
  rw [plain_guard]
  split
  · rw [H.div_val]; rfl
  · exact dec_w0

theorem sel_lt (a b : Word) : decode (if clt a b then a else b) = cMin (decode a) (decode b) := by
  unfold clt cMin
  show _ = if (decode a).lt (decode b) = true then _ else _
  split <;> rfl
theorem sel_gt (a b : Word) : decode (if clt b a then a else b) = cMax (decode a) (decode b) := by
  unfold clt cMax
  show _ = if (decode b).lt (decode a) = true then _ else _
  split <;> rfl

theorem zero_word {a : Word} (h : (decode a).feq f0 = true) : a = 0#32 ∨ a = 0x80000000#32 := by
  rw [Fp.f0_eq] at h
  obtain ⟨n1, _, k⟩ := Fp.feq_iff.1 h
  have hz : ∀ {b : Word}, (decode b).isNaN = false → (decode b).key = 0 → b.msb = false → b = 0 := by
    intro b hn hk hs
    rw [← decode_eq_zero]
    rw [← decode_msb hn] at hs
    generalize decode b = d at *
    cases d with
    | nan => simp [Fp.isNaN] at hn
    | inf s => cases s <;> exact absurd hk (by decide +kernel)
    | fin s m h =>
      have z3 : s = false := hs
      subst z3
      simp only [Fp.key, Fp.sgn, Bool.false_eq_true, if_false] at hk
      exact fin_congr _ _ (by exact_mod_cast hk)
  have k0 : (decode a).key = 0 := by rw [k]; rfl
  by_cases hs : a.msb = false
  · exact .inl (hz n1 k0 hs)
  · right
    have hb := decode_neg a
    have : a ^^^ 0x80000000#32 = 0 := by
      apply hz
      · rw [hb]; revert n1; cases decode a <;> simp [Fp.neg, Fp.isNaN]
      · rw [hb]; revert k0
        cases decode a with
        | nan => simp [Fp.neg, Fp.key]
        | inf s => cases s <;> intro h <;> exact absurd h (by decide +kernel)
        | fin s m h => cases s <;> simp [Fp.neg, Fp.key, Fp.sgn]
      · rw [BitVec.msb_xor, show (0x80000000#32).msb = true by decide, Bool.xor_true]
        simpa using hs
    have h2 : (a ^^^ 0x80000000#32) ^^^ 0x80000000#32 = 0 ^^^ 0x80000000#32 := by rw [this]
    rw [BitVec.xor_assoc, BitVec.xor_self, BitVec.xor_zero] at h2
    rw [h2]; decide

theorem neon_min_lane (a b : Word) : decode (fmin1 a b) = Simd4f.min1 .neon (decode a) (decode b) := by
  unfold fmin1 Simd4f.min1
  simp only [ceq_w0, Fp.sc_isNaN, Fp.sc_feq]
  by_cases h1 : (decode a).isNaN = true
  · rw [if_pos h1, if_pos h1]
  rw [if_neg h1, if_neg h1]
  by_cases h2 : (decode b).isNaN = true
  · rw [if_pos h2, if_pos h2]
  rw [if_neg h2, if_neg h2]
  by_cases h3 : ((decode a).feq f0 && (decode b).feq f0) = true
  · rw [if_pos h3, if_pos h3]
    rw [Bool.and_eq_true] at h3
    rcases zero_word h3.1 with rfl | rfl <;> rcases zero_word h3.2 with rfl | rfl <;> kdecide
  · rw [if_neg h3, if_neg h3]; exact sel_lt a b
theorem neon_max_lane (a b : Word) : decode (fmax1 a b) = Simd4f.max1 .neon (decode a) (decode b) := by
  unfold fmax1 Simd4f.max1
  simp only [ceq_w0, Fp.sc_isNaN, Fp.sc_feq]
  by_cases h1 : (decode a).isNaN = true
  · rw [if_pos h1, if_pos h1]
  rw [if_neg h1, if_neg h1]
  by_cases h2 : (decode b).isNaN = true
  · rw [if_pos h2, if_pos h2]
  rw [if_neg h2, if_neg h2]
  by_cases h3 : ((decode a).feq f0 && (decode b).feq f0) = true
  · rw [if_pos h3, if_pos h3]
    rw [Bool.and_eq_true] at h3
    rcases zero_word h3.1 with rfl | rfl <;> rcases zero_word h3.2 with rfl | rfl <;> kdecide
  · rw [if_neg h3, if_neg h3]; exact sel_gt a b

theorem plain_approx (a b : Word) :
    Plain.approxEqual a b wEps = Simd4f.approxEqual (decode a) (decode b) fltEps := by
  unfold Plain.approxEqual Simd4f.approxEqual
  simp only [decode_fabs, H.sub_val, cle, clt, dec_eps, H.mul_val]
  have hl : decode (if (decode a).abs.lt (decode b).abs = true then cfabs b else cfabs a) =
      if (decode a).abs.lt (decode b).abs = true then (decode b).abs else (decode a).abs := by
    split <;> exact decode_fabs _
  rw [hl]; rfl

/-! ### C126, movement of lanes: bit for bit -/

/-- row `i` of a register quadruple -/
def Spec.regRow (m : M4 Word) (i : Nat) : Reg :=
  if i = 0 then m.x else if i = 1 then m.y else if i = 2 then m.z else m.w

/-- C126: the operations that only move lanes deliver, on every backend and whatever the register
holds (NaN payloads included), exactly the words their names say, and zeros elsewhere. -/
theorem C126_lanes (bk : Backend) (a b : Reg) (w x y z : Word) (m : M4 Word) (i : Nat) (hi : i < 4) :
    let I := Impl.of bk
    -- get / init / splat
    I.getX a = lane a 0 ∧ I.getY a = lane a 1 ∧ I.getZ a = lane a 2 ∧ I.getW a = lane a 3 ∧
    lane (I.init x y z w) i = [x, y, z, w][i]! ∧ lane I.initZero i = 0 ∧
    lane (I.splat x) i = x ∧ lane (I.splatX a) i = lane a 0 ∧ lane (I.splatY a) i = lane a 1 ∧
    lane (I.splatZ a) i = lane a 2 ∧ lane (I.splatW a) i = lane a 3 ∧
    -- rotations: lane `i` comes from lane `i + 3`, `i + 2`, `i + 1`
    lane (I.shuffleWXYZ a) i = lane a (i + 3) ∧ lane (I.shuffleZWXY a) i = lane a (i + 2) ∧
    lane (I.shuffleYZWX a) i = lane a (i + 1) ∧
    -- replacing the tail
    lane (I.zeroW a) i = (if i < 3 then lane a i else 0) ∧
    lane (I.zeroZW a) i = (if i < 2 then lane a i else 0) ∧
    lane (I.mergeW a x) i = (if i < 3 then lane a i else x) ∧
    -- concatenation of the high halves, of the low halves
    lane (I.mergeHigh a b) i = (if i < 2 then lane a (i + 2) else lane b i) ∧
    lane (I.mergeLow a b) i = (if i < 2 then lane a i else lane b (i - 2)) ∧
    -- matrix transposition
    (∀ j, j < 4 → lane (Spec.regRow (I.transpose m) i) j = lane (Spec.regRow m j) i) := by
  have h4 : i = 0 ∨ i = 1 ∨ i = 2 ∨ i = 3 := by omega
  cases bk <;> (refine ⟨rfl, rfl, rfl, rfl, ?_⟩; rcases h4 with rfl | rfl | rfl | rfl) <;>
    (refine ⟨rfl, rfl, rfl, rfl, rfl, rfl, rfl, rfl, rfl, rfl, rfl, rfl, rfl, rfl, rfl, ?_⟩
     intro j hj
     have hj4 : j = 0 ∨ j = 1 ∨ j = 2 ∨ j = 3 := by omega
     rcases hj4 with rfl | rfl | rfl | rfl <;> rfl)


/-- the value in lane `i` -/
def Spec.laneVal (r : Reg) (i : Nat) : F32 := decode (lane r i)

section
attribute [local irreducible] Bits.decode Fp.add Fp.mul Fp.neg

/-- C126: lane arithmetic.  On every backend, lane `i` of a sum, difference or product is the IEEE
result of the operand lanes; negation and the two sign-flip patterns flip exactly the signs they
name; rounding up and down is lane by lane; `madd` is `a*b + c` with one rounding (AVX) or two. -/
theorem C126_arith (bk : Backend) (a b c : Reg) (i : Nat) (hi : i < 4) :
    let I := Impl.of bk
    let v := Spec.laneVal
    v (I.add a b) i = (v a i).add (v b i) ∧ v (I.sub a b) i = (v a i).sub (v b i) ∧
    v (I.mul a b) i = (v a i).mul (v b i) ∧ v (I.neg a) i = (v a i).neg ∧
    v (I.flipSign0101 a) i = (if i % 2 = 1 then (v a i).neg else v a i) ∧
    v (I.flipSign1010 a) i = (if i % 2 = 0 then (v a i).neg else v a i) ∧
    v (I.ceil a) i = (v a i).ceil ∧ v (I.floor a) i = (v a i).floor ∧
    v (I.madd a b c) i = (match bk with
      | .sse _ true => (v a i).fma (v b i) (v c i)
      | _ => ((v a i).mul (v b i)).add (v c i)) := by
  have h4 : i = 0 ∨ i = 1 ∨ i = 2 ∨ i = 3 := by omega
  have hm : ∀ x : Word, decode (H.mul x wM1) = (decode x).neg := by
    intro x
    rw [H.mul_val, dec_m1]; exact Fp.mul_negOne32 _
  have hx0 : ∀ x : Word, decode (x ^^^ 0x00000000#32) = decode x := by intro x; rw [BitVec.xor_zero]
  have hxn := decode_neg
  intro I v
  refine ⟨?_, ?_, ?_, ?_, ?_, ?_, ?_, ?_, ?_⟩
  · cases bk <;> rcases h4 with rfl | rfl | rfl | rfl <;> exact H.add_val _ _
  · cases bk <;> rcases h4 with rfl | rfl | rfl | rfl <;> exact H.sub_val _ _
  · cases bk <;> rcases h4 with rfl | rfl | rfl | rfl <;> exact H.mul_val _ _
  · cases bk with
    | gcc => rcases h4 with rfl | rfl | rfl | rfl <;> exact hm _
    | _ => rcases h4 with rfl | rfl | rfl | rfl <;> exact hxn _
  · cases bk with
    | sse _ _ => rcases h4 with rfl | rfl | rfl | rfl; exacts [hx0 _, hxn _, hx0 _, hxn _]
    | neon => rcases h4 with rfl | rfl | rfl | rfl; exacts [hx0 _, hxn _, hx0 _, hxn _]
    | _ => rcases h4 with rfl | rfl | rfl | rfl; exacts [rfl, hxn _, rfl, hxn _]
  · cases bk with
    | sse _ _ => rcases h4 with rfl | rfl | rfl | rfl; exacts [hxn _, hx0 _, hxn _, hx0 _]
    | neon => rcases h4 with rfl | rfl | rfl | rfl; exacts [hxn _, hx0 _, hxn _, hx0 _]
    | _ => rcases h4 with rfl | rfl | rfl | rfl; exacts [hxn _, rfl, hxn _, rfl]
  · cases bk with
    | sse s _ => cases s <;> rcases h4 with rfl | rfl | rfl | rfl <;> exact H.ceil_val _
    | _ => rcases h4 with rfl | rfl | rfl | rfl <;> exact H.ceil_val _
  · cases bk with
    | sse s _ => cases s <;> rcases h4 with rfl | rfl | rfl | rfl <;> exact H.floor_val _
    | _ => rcases h4 with rfl | rfl | rfl | rfl <;> exact H.floor_val _
  · have h2 : ∀ x y z : Word, decode (H.add (H.mul x y) z) = ((decode x).mul (decode y)).add (decode z) := by
      intro x y z; rw [H.add_val, H.mul_val]
    cases bk with
    | sse s a =>
      cases a
      · rcases h4 with rfl | rfl | rfl | rfl <;> exact h2 _ _ _
      · rcases h4 with rfl | rfl | rfl | rfl <;> exact H.fma_val _ _ _
    | _ => rcases h4 with rfl | rfl | rfl | rfl <;> exact h2 _ _ _

end

/-- C126: comparisons.  On every backend, `lt`, `le`, `ge`, `gt` are true exactly when the relation
holds in all four lanes (never with a NaN); `neq` is the negation of `eq`; on the vector backends
`eq` is IEEE equality of all four lanes. -/
theorem C126_compare (bk : Backend) (a b : Reg) :
    let I := Impl.of bk
    let v := Spec.laneVal
    (I.cmpLt a b = true ↔ ∀ i, i < 4 → (v a i).lt (v b i) = true) ∧
    (I.cmpLe a b = true ↔ ∀ i, i < 4 → (v a i).le (v b i) = true) ∧
    (I.cmpGe a b = true ↔ ∀ i, i < 4 → (v b i).le (v a i) = true) ∧
    (I.cmpGt a b = true ↔ ∀ i, i < 4 → (v b i).lt (v a i) = true) ∧
    (I.cmpNeq a b = !I.cmpEq a b) ∧
    ((∀ d, bk ≠ .scalar d) → (I.cmpEq a b = true ↔ ∀ i, i < 4 → (v a i).feq (v b i) = true)) := by
  have all : ∀ p : Nat → Bool, (∀ i, i < 4 → p i = true) ↔ (p 0 && p 1 && p 2 && p 3) = true := by
    intro p
    simp only [Bool.and_eq_true]
    constructor
    · intro h; exact ⟨⟨⟨h 0 (by omega), h 1 (by omega)⟩, h 2 (by omega)⟩, h 3 (by omega)⟩
    · rintro ⟨⟨⟨h0, h1⟩, h2⟩, h3⟩ i hi
      have h4 : i = 0 ∨ i = 1 ∨ i = 2 ∨ i = 3 := by omega
      rcases h4 with rfl | rfl | rfl | rfl <;> assumption
  have set4 : ∀ c0 c1 c2 c3 : Bool, allSet ⟨mask c0, mask c1, mask c2, mask c3⟩ = (c0 && c1 && c2 && c3) := by
    intro c0 c1 c2 c3
    show ((mask c0 != 0) && (mask c1 != 0) && (mask c2 != 0) && (mask c3 != 0)) = _
    simp only [mask_ne]
  have clr4 : ∀ c0 c1 c2 c3 : Bool, anyClear ⟨mask c0, mask c1, mask c2, mask c3⟩ = !(c0 && c1 && c2 && c3) := by
    intro c0 c1 c2 c3
    show ((mask c0 == 0) || (mask c1 == 0) || (mask c2 == 0) || (mask c3 == 0)) = _
    simp only [mask_eq]
    cases c0 <;> cases c1 <;> cases c2 <;> cases c3 <;> rfl
  intro I v
  refine ⟨?_, ?_, ?_, ?_, ?_, ?_⟩
  · rw [all]
    cases bk with
    | sse _ _ => exact iff_of_eq (congrArg (· = true) (movemask_all _ _ _ _))
    | scalar _ => exact Iff.rfl
    | _ => exact iff_of_eq (congrArg (· = true) (set4 _ _ _ _))
  · rw [all]
    cases bk with
    | sse _ _ => exact iff_of_eq (congrArg (· = true) (movemask_all _ _ _ _))
    | scalar _ => exact Iff.rfl
    | _ => exact iff_of_eq (congrArg (· = true) (set4 _ _ _ _))
  · rw [all]
    cases bk with
    | sse _ _ => exact iff_of_eq (congrArg (· = true) (movemask_all _ _ _ _))
    | scalar _ => exact Iff.rfl
    | _ => exact iff_of_eq (congrArg (· = true) (set4 _ _ _ _))
  · rw [all]
    cases bk with
    | sse _ _ => exact iff_of_eq (congrArg (· = true) (movemask_all _ _ _ _))
    | scalar _ => exact Iff.rfl
    | _ => exact iff_of_eq (congrArg (· = true) (set4 _ _ _ _))
  · cases bk with
    | sse _ _ => rfl
    | gcc => rfl
    | neon => exact (clr4 _ _ _ _).trans (congrArg (! ·) (set4 _ _ _ _).symm)
    | scalar d =>
      show (!_ || !_ || !_ || !_) = !(_ && _ && _ && _)
      simp only [Bool.not_and]
  · intro hb
    rw [all]
    cases bk with
    | sse _ _ =>
      refine iff_of_eq (congrArg (· = true) ((movemask_none _ _ _ _).trans ?_))
      simp only [Bool.not_not]; rfl
    | scalar d => exact absurd rfl (hb d)
    | _ => exact iff_of_eq (congrArg (· = true) (set4 _ _ _ _))

/-- C126: memory.  `init_Nf` reads exactly the first `N` floats (and fails only if there are fewer),
zeroing the other lanes; `dup_Nf` overwrites exactly the first `N` floats with the first `N` lanes;
bit for bit, on every backend. -/
theorem C126_memory (bk : Backend) (r : Reg) (b : Buf Word) :
    let I := Impl.of bk
    (I.init4f b = if 4 ≤ b.length then some ⟨b[0]!, b[1]!, b[2]!, b[3]!⟩ else none) ∧
    (I.init3f b = if 3 ≤ b.length then some ⟨b[0]!, b[1]!, b[2]!, 0⟩ else none) ∧
    (I.init2f b = if 2 ≤ b.length then some ⟨b[0]!, b[1]!, 0, 0⟩ else none) ∧
    (I.dup4f r b = if 4 ≤ b.length then some ([r.x, r.y, r.z, r.w] ++ b.drop 4) else none) ∧
    (I.dup3f r b = if 3 ≤ b.length then some ([r.x, r.y, r.z] ++ b.drop 3) else none) ∧
    (I.dup2f r b = if 2 ≤ b.length then some ([r.x, r.y] ++ b.drop 2) else none) := by
  match b with
  | [] => cases bk <;> exact ⟨rfl, rfl, rfl, rfl, rfl, rfl⟩
  | [_] => cases bk <;> exact ⟨rfl, rfl, rfl, rfl, rfl, rfl⟩
  | [_, _] => cases bk <;> exact ⟨rfl, rfl, rfl, rfl, rfl, rfl⟩
  | [_, _, _] => cases bk <;> exact ⟨rfl, rfl, rfl, rfl, rfl, rfl⟩
  | p :: q :: s :: t :: l =>
    have hl : (4 ≤ (p :: q :: s :: t :: l).length) ∧ (3 ≤ (p :: q :: s :: t :: l).length) ∧
      (2 ≤ (p :: q :: s :: t :: l).length) := by simp only [List.length_cons]; omega
    have e4 : store4 r (p :: q :: s :: t :: l) = some (r.x :: r.y :: r.z :: r.w :: l) := by
      simp [store4, store]
    have e3 : memcpy3 r (p :: q :: s :: t :: l) = some (r.x :: r.y :: r.z :: t :: l) := by
      simp [memcpy3, store]
    have e2 : memcpy2 r (p :: q :: s :: t :: l) = some (r.x :: r.y :: s :: t :: l) := by
      simp [memcpy2, store]
    intro I
    rw [if_pos hl.1, if_pos hl.2.1, if_pos hl.2.2, if_pos hl.1, if_pos hl.2.1, if_pos hl.2.2]
    cases bk <;> exact ⟨rfl, rfl, rfl, e4, e3, e2⟩

/-! ### C126: the value-level model -/

/-- The registers of implementation `I` behave, value by value, like the four-lane model every
other theorem is about. -/
structure Spec.Refines (bk : Backend) (I : Impl) : Prop where
  add : ∀ a b, Spec.values (I.add a b) = Simd4f.add (Spec.values a) (Spec.values b)
  sub : ∀ a b, Spec.values (I.sub a b) = Simd4f.sub (Spec.values a) (Spec.values b)
  mul : ∀ a b, Spec.values (I.mul a b) = Simd4f.mul (Spec.values a) (Spec.values b)
  div : ∀ a b, Spec.values (I.div a b) = Simd4f.div bk (Spec.values a) (Spec.values b)
  sqrt : ∀ a, Spec.values (I.sqrt a) = Simd4f.sqrt bk (Spec.values a)
  /-- lanes holding a NaN are left out: the GCC and scalar code returns an infinity with the NaN's
  sign, which the model does not keep -/
  reciprocal : ∀ a i, i < 4 → (Spec.laneVal a i).isNaN = false →
    Spec.laneVal (I.reciprocal a) i = Simd4f.recip1 bk (Spec.laneVal a i)
  rsqrt : ∀ a, Spec.values (I.rsqrt a) = Simd4f.rsqrt bk (Spec.values a)
  cross3 : ∀ a b, Spec.values (I.cross3 a b) = Simd4f.cross3 bk (Spec.values a) (Spec.values b)
  dot3 : ∀ a b, Spec.values (I.dot3 a b) = Simd4f.dot3 bk (Spec.values a) (Spec.values b)
  dot3Scalar : ∀ a b, decode (I.dot3Scalar a b) = Simd4f.dot3Scalar bk (Spec.values a) (Spec.values b)
  min : ∀ a b, Spec.values (I.min a b) = Simd4f.min bk (Spec.values a) (Spec.values b)
  max : ∀ a b, Spec.values (I.max a b) = Simd4f.max bk (Spec.values a) (Spec.values b)
  init : ∀ x y z w, Spec.values (I.init x y z w) = Simd4f.init (decode x) (decode y) (decode z) (decode w)
  initZero : Spec.values I.initZero = Simd4f.initZero
  splat : ∀ x, Spec.values (I.splat x) = Simd4f.splat (decode x)
  splatX : ∀ a, Spec.values (I.splatX a) = Simd4f.splatX (Spec.values a)
  splatY : ∀ a, Spec.values (I.splatY a) = Simd4f.splatY (Spec.values a)
  splatZ : ∀ a, Spec.values (I.splatZ a) = Simd4f.splatZ (Spec.values a)
  splatW : ∀ a, Spec.values (I.splatW a) = Simd4f.splatW (Spec.values a)
  shuffleWXYZ : ∀ a, Spec.values (I.shuffleWXYZ a) = Simd4f.shuffleWXYZ (Spec.values a)
  shuffleZWXY : ∀ a, Spec.values (I.shuffleZWXY a) = Simd4f.shuffleZWXY (Spec.values a)
  shuffleYZWX : ∀ a, Spec.values (I.shuffleYZWX a) = Simd4f.shuffleYZWX (Spec.values a)
  zeroW : ∀ a, Spec.values (I.zeroW a) = Simd4f.zeroW (Spec.values a)
  zeroZW : ∀ a, Spec.values (I.zeroZW a) = Simd4f.zeroZW (Spec.values a)
  mergeW : ∀ a x, Spec.values (I.mergeW a x) = Simd4f.mergeW (Spec.values a) (decode x)
  mergeHigh : ∀ a b, Spec.values (I.mergeHigh a b) = Simd4f.mergeHigh (Spec.values a) (Spec.values b)
  mergeLow : ∀ a b, Spec.values (I.mergeLow a b) = Simd4f.mergeLow (Spec.values a) (Spec.values b)
  flipSign0101 : ∀ a, Spec.values (I.flipSign0101 a) = Simd4f.flipSign0101 (Spec.values a)
  flipSign1010 : ∀ a, Spec.values (I.flipSign1010 a) = Simd4f.flipSign1010 (Spec.values a)
  cmpEq : ∀ a b, I.cmpEq a b = Simd4f.cmpEq bk (Spec.values a) (Spec.values b)
  cmpNeq : ∀ a b, I.cmpNeq a b = Simd4f.cmpNeq bk (Spec.values a) (Spec.values b)
  cmpLt : ∀ a b, I.cmpLt a b = Simd4f.cmpLt (Spec.values a) (Spec.values b)
  cmpLe : ∀ a b, I.cmpLe a b = Simd4f.cmpLe (Spec.values a) (Spec.values b)
  cmpGe : ∀ a b, I.cmpGe a b = Simd4f.cmpGe (Spec.values a) (Spec.values b)
  cmpGt : ∀ a b, I.cmpGt a b = Simd4f.cmpGt (Spec.values a) (Spec.values b)
  neg : ∀ a, Spec.values (I.neg a) = Simd4f.neg bk (Spec.values a)
  ceil : ∀ a, Spec.values (I.ceil a) = Simd4f.ceil (Spec.values a)
  floor : ∀ a, Spec.values (I.floor a) = Simd4f.floor (Spec.values a)
  madd : ∀ a b c, Spec.values (I.madd a b c) =
    Simd4f.madd bk (Spec.values a) (Spec.values b) (Spec.values c)
  transpose : ∀ m, Spec.valuesM (I.transpose m) = Simd4x4f.transpose (Spec.valuesM m)

section
attribute [local irreducible] Bits.decode Fp.add Fp.mul Fp.neg Fp.sub Fp.div Fp.sqrt Fp.fma

theorem values_ext {r : Reg} {v : V4 F32} (h : ∀ i, i < 4 → Spec.laneVal r i = Simd4f.get v i) :
    Spec.values r = v := by
  apply V4.ext
  · exact h 0 (by omega)
  · exact h 1 (by omega)
  · exact h 2 (by omega)
  · exact h 3 (by omega)

theorem values_ext4 {r : Reg} {v : V4 F32} (h1 : decode r.x = v.x) (h2 : decode r.y = v.y)
    (h3 : decode r.z = v.z) (h4 : decode r.w = v.w) : Spec.values r = v := V4.ext h1 h2 h3 h4

theorem neg1_neg (bk : Backend) (v : F32) : Simd4f.neg1 bk v = Fp.neg v := by
  cases bk <;> simp [Simd4f.neg1, Fp.mul_negOne32]

theorem det_val (p q r s : Word) : decode (H.sub (H.mul p q) (H.mul r s)) =
    ((decode p).mul (decode q)).sub ((decode r).mul (decode s)) := by
  rw [H.sub_val, H.mul_val, H.mul_val]

theorem dot3Scalar_refines (bk : Backend) (a b : Reg) :
    decode ((Impl.of bk).dot3Scalar a b) = Simd4f.dot3Scalar bk (Spec.values a) (Spec.values b) := by
  cases bk with
  | sse s v =>
    cases s
    · have h : decode (H.add (H.add (H.mul a.x b.x &&& 0xffffffff#32) (H.mul a.z b.z &&& 0xffffffff#32))
          (H.add (H.mul a.y b.y &&& 0xffffffff#32) (H.mul a.w b.w &&& 0#32))) =
          Simd4f.dot3Scalar (.sse false v) (Spec.values a) (Spec.values b) := by
        rw [and_ones, and_ones, and_ones, BitVec.and_zero, H.add_val, H.add_val, H.add_val, H.mul_val, H.mul_val,
          H.mul_val, dec_zero]; rfl
      exact h
    · have h : decode (H.add (H.add (H.mul a.x b.x) (H.mul a.y b.y)) (H.add (H.mul a.z b.z) w0)) =
          Simd4f.dot3Scalar (.sse true v) (Spec.values a) (Spec.values b) := by
        rw [H.add_val, H.add_val, H.add_val, H.mul_val, H.mul_val, H.mul_val, dec_w0]; rfl
      exact h
  | _ =>
    have h : decode (H.add (H.add (H.mul a.x b.x) (H.mul a.y b.y)) (H.mul a.z b.z)) =
        ((((decode a.x).mul (decode b.x)).add ((decode a.y).mul (decode b.y))).add
          ((decode a.z).mul (decode b.z)) : F32) := by
      rw [H.add_val, H.add_val, H.mul_val, H.mul_val, H.mul_val]
    exact h

end

end Graphene

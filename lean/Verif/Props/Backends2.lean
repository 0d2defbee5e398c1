/-
  C126: the vector backends, instruction by instruction, compute the documented lane
  operations.
-/
import Verif.Props.Backends1

set_option exponentiation.threshold 3000

namespace Graphene
open Bits Ins
variable [Libm binary32] [H : Alu]

/-- the four values held by a register -/
def Spec.values (r : Reg) : V4 F32 := ⟨decode r.x, decode r.y, decode r.z, decode r.w⟩
/-- the sixteen values held by four registers -/
def Spec.valuesM (m : M4 Word) : M4 F32 :=
  ⟨Spec.values m.x, Spec.values m.y, Spec.values m.z, Spec.values m.w⟩

/-! ### the constants of the sources -/

theorem dec_w0 : decode w0 = (f0 : F32) := by rw [decode_w0, Fp.f0_eq]
theorem dec_w1 : decode w1 = (f1 : F32) := by kdecide
theorem dec_w2 : decode w2 = (f2 : F32) := by kdecide
theorem dec_w3 : decode w3 = (Scalar.lit 3 1 : F32) := by kdecide
theorem dec_half : decode wHalf = (Scalar.lit 1 2 : F32) := by kdecide
theorem dec_m1 : decode wM1 = (Scalar.lit (-1) 1 : F32) := by kdecide
theorem dec_eps : decode wEps = (fltEps : F32) := by kdecide
theorem dec_inf : decode wInf = (Scalar.inf : F32) := by kdecide

theorem dec_zero : decode (0#32) = (f0 : F32) := dec_w0
theorem two_sub_zero : Fp.sub (f2 : F32) f0 = f2 := by kdecide
theorem three_half : Fp.div (Fp.sub (Scalar.lit 3 1 : F32) f0) f2 = Scalar.lit 3 2 := by kdecide

/-! ### masks -/

theorem and_ones (a : Word) : a &&& 0xffffffff#32 = a := by
  have : (0xffffffff#32) = BitVec.allOnes 32 := by decide
  rw [this, BitVec.and_allOnes]
theorem and_mask (c : Bool) (a : Word) : mask c &&& a = if c then a else 0 := by
  cases c
  · simp [mask]
  · rw [BitVec.and_comm]; exact and_ones a
theorem andnot_mask (c : Bool) (a : Word) : ~~~(mask c) &&& a = if c then 0 else a := by
  cases c
  · have : ~~~(mask false) = 0xffffffff#32 := by decide
    rw [this, BitVec.and_comm]; exact and_ones a
  · have : ~~~(mask true) = 0#32 := by decide
    rw [this]; simp
theorem mask_ne (c : Bool) : (mask c != 0) = c := by cases c <;> decide
theorem mask_eq (c : Bool) : (mask c == 0) = !c := by cases c <;> decide

theorem movemask_all (c1 c2 c3 c4 : Bool) :
    (movemaskEpi8 ⟨mask c1, mask c2, mask c3, mask c4⟩ == 0xffff) = (c1 && c2 && c3 && c4) := by
  cases c1 <;> cases c2 <;> cases c3 <;> cases c4 <;> decide
theorem movemask_none (c1 c2 c3 c4 : Bool) :
    (movemaskEpi8 ⟨mask c1, mask c2, mask c3, mask c4⟩ == 0) = (!c1 && !c2 && !c3 && !c4) := by
  cases c1 <;> cases c2 <;> cases c3 <;> cases c4 <;> decide


/-! ### one lane -/

theorem vadd_val (a b : Reg) : Spec.values (vadd a b) = Simd4f.add (Spec.values a) (Spec.values b) := by
  simp only [Spec.values, vadd, lanes2, H.add_val]; rfl
theorem vsub_val (a b : Reg) : Spec.values (vsub a b) = Simd4f.sub (Spec.values a) (Spec.values b) := by
  simp only [Spec.values, vsub, lanes2, H.sub_val]; rfl
theorem vmul_val (a b : Reg) : Spec.values (vmul a b) = Simd4f.mul (Spec.values a) (Spec.values b) := by
  simp only [Spec.values, vmul, lanes2, H.mul_val]; rfl
theorem vdiv_val (bk : Backend) (h : ∀ a b : F32, Simd4f.div1 bk a b = Fp.div a b) (a b : Reg) :
    Spec.values (vdiv a b) = Simd4f.div bk (Spec.values a) (Spec.values b) := by
  simp only [Spec.values, vdiv, lanes2, H.div_val, Simd4f.div, Simd4f.map2, h]

theorem isInf_not_zero {x : F32} (h : x.isInf = true) : x.feq f0 = false := by
  rw [Fp.f0_eq]
  cases x <;> simp [Fp.isInf] at h
  rename_i s; cases s <;> rfl

theorem ceq_w0 (a : Word) : ceq a w0 = Fp.feq (decode a) f0 := by rw [ceq, dec_w0]

theorem frecps_val (a b : Word) : decode (frecps a b) = Simd4f.vrecps (decode a) (decode b) := by
  simp only [frecps, Simd4f.vrecps, H.sub_val, dec_w2, ceq_w0]
  by_cases h : ((decode a).feq f0 && (decode b).isInf || (decode b).feq f0 && (decode a).isInf) = true
  · have h' : (Scalar.feq (decode a) f0 && Scalar.isInf (decode b) ||
        Scalar.isInf (decode a) && Scalar.feq (decode b) f0) = true := by
      simpa [Bool.and_comm] using h
    rw [if_pos h, if_pos h', dec_w0, two_sub_zero]
  · have h' : ¬ (Scalar.feq (decode a) f0 && Scalar.isInf (decode b) ||
        Scalar.isInf (decode a) && Scalar.feq (decode b) f0) = true := by
      simpa [Bool.and_comm] using h
    rw [if_neg h, if_neg h', H.mul_val]; rfl

theorem frsqrts_val (a b : Word) : decode (frsqrts a b) = Simd4f.vrsqrts (decode a) (decode b) := by
  simp only [frsqrts, Simd4f.vrsqrts, H.sub_val, H.div_val, dec_w2, dec_w3, ceq_w0]
  by_cases h : ((decode a).feq f0 && (decode b).isInf || (decode b).feq f0 && (decode a).isInf) = true
  · have h' : (Scalar.feq (decode a) f0 && Scalar.isInf (decode b) ||
        Scalar.isInf (decode a) && Scalar.feq (decode b) f0) = true := by
      simpa [Bool.and_comm] using h
    rw [if_pos h, if_pos h', dec_w0, three_half]
  · have h' : ¬ (Scalar.feq (decode a) f0 && Scalar.isInf (decode b) ||
        Scalar.isInf (decode a) && Scalar.feq (decode b) f0) = true := by
      simpa [Bool.and_comm] using h
    rw [if_neg h, if_neg h', H.mul_val]; rfl

theorem sse_recip_val (s a : Bool) (v : Reg) :
    Spec.values (Sse.reciprocal v) = Simd4f.reciprocal (.sse s a) (Spec.values v) := by
  have one : ∀ x : Word, decode (H.mul (H.rcpe x)
      (H.sub w2 (H.mul x (~~~(mask (ceq x w0)) &&& H.rcpe x)))) = Simd4f.recip1 (.sse s a) (decode x) := by
    intro x
    simp only [H.mul_val, H.sub_val, H.rcpe_val, andnot_mask, ceq_w0, dec_w2, Simd4f.recip1]
    have e : decode (if (decode x).feq f0 then (0 : Word) else H.rcpe x) =
        if Scalar.feq (decode x) f0 then (f0 : F32) else Scalar.rcpEst (decode x) := by
      by_cases h : (decode x).feq f0 = true
      · rw [if_pos h, if_pos (show Scalar.feq (decode x) f0 = true from h)]; exact dec_w0
      · rw [if_neg h, if_neg (show ¬ Scalar.feq (decode x) f0 = true from h), H.rcpe_val]; rfl
    rw [e]; rfl
  simp only [Spec.values, Simd4f.reciprocal, Simd4f.map1, ← one]; rfl

theorem sse_rsqrt_val (s a : Bool) (v : Reg) :
    Spec.values (Sse.rsqrt v) = Simd4f.rsqrt (.sse s a) (Spec.values v) := by
  have one : ∀ x : Word, decode (H.mul (H.mul (H.rsqrte x) wHalf)
      (H.sub w3 (H.mul (H.rsqrte x) (H.mul x (H.rsqrte x))))) = Simd4f.rsqrt1 (.sse s a) (decode x) := by
    intro x
    simp only [H.mul_val, H.sub_val, H.rsqrte_val, dec_half, dec_w3, Simd4f.rsqrt1]; rfl
  simp only [Spec.values, Simd4f.rsqrt, Simd4f.map1, ← one]; rfl

theorem neon_recip_val (v : Reg) :
    Spec.values (Neon.reciprocal v) = Simd4f.reciprocal .neon (Spec.values v) := by
  have one : ∀ x : Word, decode (H.mul (frecps (H.mul (frecps (H.rcpe x) x) (H.rcpe x)) x)
      (H.mul (frecps (H.rcpe x) x) (H.rcpe x))) = Simd4f.recip1 .neon (decode x) := by
    intro x
    simp only [H.mul_val, frecps_val, H.rcpe_val, Simd4f.recip1]; rfl
  simp only [Spec.values, Simd4f.reciprocal, Simd4f.map1, ← one]; rfl

/-- one lane of `Neon.rsqrtIter` -/
def neonIter (v e : Word) : Word := H.mul e (frsqrts (H.mul e v) e)
theorem neonIter_val (v e : Word) : decode (neonIter v e) = Simd4f.neonRsqrtIter (decode v) (decode e) := by
  simp only [neonIter, H.mul_val, frsqrts_val, Simd4f.neonRsqrtIter]; rfl

theorem neon_rsqrt_val (v : Reg) : Spec.values (Neon.rsqrt v) = Simd4f.rsqrt .neon (Spec.values v) := by
  have one : ∀ x : Word, decode (neonIter x (neonIter x (neonIter x (H.rsqrte x)))) =
      Simd4f.rsqrt1 .neon (decode x) := by
    intro x
    simp only [neonIter_val, H.rsqrte_val, Simd4f.rsqrt1]; rfl
  simp only [Spec.values, Simd4f.rsqrt, Simd4f.map1, ← one]; rfl

theorem neon_sqrt_val (v : Reg) : Spec.values (Neon.sqrt v) = Simd4f.sqrt .neon (Spec.values v) := by
  have h1 := neon_rsqrt_val v
  have h2 := neon_recip_val (Neon.rsqrt v)
  rw [h1] at h2
  have one : ∀ (x r : Word), decode r = Simd4f.recip1 .neon (Simd4f.rsqrt1 .neon (decode x)) →
      decode (mask (x &&& x != 0) &&& r) = Simd4f.sqrt1 .neon (decode x) := by
    intro x r hr
    rw [and_mask, BitVec.and_self]
    have hz : (Scalar.feq (decode x) f0 && !Scalar.signbit (decode x)) = (x == 0) := by
      rw [Bool.eq_iff_iff, beq_iff_eq, ← decode_eq_zero]
      simp only [Fp.sc_feq, Fp.f0_eq, Bool.and_eq_true, Bool.not_eq_true']
      constructor
      · rintro ⟨z1, z2⟩
        obtain ⟨n1, _, k⟩ := Fp.feq_iff.1 z1
        generalize decode x = d at *
        cases d with
        | nan => simp [Fp.isNaN] at n1
        | inf s => cases s <;> exact absurd k (by decide +kernel)
        | fin s m h =>
          have z3 : s = false := z2
          subst z3
          simp only [Fp.key, Fp.sgn, Fp.zero, Bool.false_eq_true, if_false] at k
          exact fin_congr _ _ (by exact_mod_cast k)
      · intro e; rw [e]; exact ⟨by decide +kernel, rfl⟩
    simp only [Simd4f.sqrt1, hz]
    by_cases h0 : x = 0
    · subst h0; simp only [beq_self_eq_true, bne_self_eq_false, Bool.false_eq_true, if_false, if_true]
      exact dec_w0
    · simp only [bne_iff_ne, ne_eq, h0, not_false_eq_true, if_true, beq_iff_eq, if_false]; exact hr
  simp only [Spec.values, Simd4f.reciprocal, Simd4f.rsqrt, Simd4f.map1, V4.mk.injEq] at h2
  simp only [Spec.values, Simd4f.sqrt, Simd4f.map1, V4.mk.injEq]
  exact ⟨one _ _ h2.1, one _ _ h2.2.1, one _ _ h2.2.2.1, one _ _ h2.2.2.2⟩

end Graphene

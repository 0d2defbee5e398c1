/-
  C126: the vector backends, instruction by instruction, refine the value-level model.
-/
import Verif.Props.Backends3

set_option exponentiation.threshold 3000

namespace Graphene
open Bits Ins
variable [Libm binary32] [H : Alu]

section
attribute [local irreducible] Bits.decode Fp.add Fp.mul Fp.neg Fp.sub Fp.div Fp.sqrt Fp.fma Fp.ceil Fp.floor
  Fp.lt Fp.le Fp.feq

theorem all4 (p : Nat → Bool) : (∀ i, i < 4 → p i = true) ↔ (p 0 && p 1 && p 2 && p 3) = true := by
  simp only [Bool.and_eq_true]
  constructor
  · intro h; exact ⟨⟨⟨h 0 (by omega), h 1 (by omega)⟩, h 2 (by omega)⟩, h 3 (by omega)⟩
  · rintro ⟨⟨⟨h0, h1⟩, h2⟩, h3⟩ i hi
    have h4 : i = 0 ∨ i = 1 ∨ i = 2 ∨ i = 3 := by omega
    rcases h4 with rfl | rfl | rfl | rfl <;> assumption

theorem cmpEq_refines (bk : Backend) (a b : Reg) :
    (Impl.of bk).cmpEq a b = Simd4f.cmpEq bk (Spec.values a) (Spec.values b) := by
  have h := (C126_compare bk a b).2.2.2.2.2
  cases bk with
  | scalar d =>
    show (_ && _ && _ && _) = (_ && _ && _ && _)
    simp only [plain_approx]; rfl
  | _ =>
    have h' := h (by simp)
    rw [all4] at h'
    rw [Bool.eq_iff_iff, h']; exact Iff.rfl

theorem cross3_refines (bk : Backend) (a b : Reg) :
    Spec.values ((Impl.of bk).cross3 a b) = Simd4f.cross3 bk (Spec.values a) (Spec.values b) := by
  cases bk with
  | sse s v => exact values_ext4 (det_val _ _ _ _) (det_val _ _ _ _) (det_val _ _ _ _) (det_val _ _ _ _)
  | gcc => exact values_ext4 (det_val _ _ _ _) (det_val _ _ _ _) (det_val _ _ _ _) dec_w0
  | scalar d => exact values_ext4 (det_val _ _ _ _) (det_val _ _ _ _) (det_val _ _ _ _) dec_w0
  | neon =>
    have e : ∀ p q r s : Word, decode (H.sub (H.mul p q) (H.mul r s) &&& 0xffffffff#32) =
        ((decode p).mul (decode q)).sub ((decode r).mul (decode s)) := by
      intro p q r s; rw [and_ones]; exact det_val _ _ _ _
    have z : ∀ p : Word, decode (p &&& 0#32) = (f0 : F32) := by
      intro p; rw [BitVec.and_zero]; exact dec_w0
    exact values_ext4 (e _ _ _ _) (e _ _ _ _) (e _ _ _ _) (z _)

theorem minmax_refines (bk : Backend) (a b : Reg) :
    Spec.values ((Impl.of bk).min a b) = Simd4f.min bk (Spec.values a) (Spec.values b) ∧
    Spec.values ((Impl.of bk).max a b) = Simd4f.max bk (Spec.values a) (Spec.values b) := by
  cases bk with
  | neon => exact ⟨values_ext4 (neon_min_lane _ _) (neon_min_lane _ _) (neon_min_lane _ _) (neon_min_lane _ _),
      values_ext4 (neon_max_lane _ _) (neon_max_lane _ _) (neon_max_lane _ _) (neon_max_lane _ _)⟩
  | _ => exact ⟨values_ext4 (sel_lt _ _) (sel_lt _ _) (sel_lt _ _) (sel_lt _ _),
      values_ext4 (sel_gt _ _) (sel_gt _ _) (sel_gt _ _) (sel_gt _ _)⟩

theorem dot3_refines (bk : Backend) (a b : Reg) :
    Spec.values ((Impl.of bk).dot3 a b) = Simd4f.dot3 bk (Spec.values a) (Spec.values b) := by
  have h := dot3Scalar_refines bk a b
  cases bk with
  | sse s v => cases s <;> exact values_ext4 h h h h
  | _ => exact values_ext4 h h h h

theorem div_refines (bk : Backend) (a b : Reg) :
    Spec.values ((Impl.of bk).div a b) = Simd4f.div bk (Spec.values a) (Spec.values b) := by
  cases bk with
  | sse s v => exact vdiv_val (.sse s v) (fun _ _ => rfl) a b
  | gcc => exact vdiv_val .gcc (fun _ _ => rfl) a b
  | neon =>
    show Spec.values (vmul a (Neon.reciprocal b)) = _
    rw [vmul_val, neon_recip_val]; rfl
  | scalar d => exact values_ext4 (plain_div_lane d _ _) (plain_div_lane d _ _) (plain_div_lane d _ _) (plain_div_lane d _ _)

theorem sqrt_refines (bk : Backend) (a : Reg) :
    Spec.values ((Impl.of bk).sqrt a) = Simd4f.sqrt bk (Spec.values a) := by
  cases bk with
  | neon => exact neon_sqrt_val a
  | _ => exact values_ext4 (H.sqrt_val _) (H.sqrt_val _) (H.sqrt_val _) (H.sqrt_val _)

theorem rsqrt_refines (bk : Backend) (a : Reg) :
    Spec.values ((Impl.of bk).rsqrt a) = Simd4f.rsqrt bk (Spec.values a) := by
  cases bk with
  | sse s v => exact sse_rsqrt_val s v a
  | neon => exact neon_rsqrt_val a
  | gcc => exact values_ext4 (gcc_rsqrt_lane _) (gcc_rsqrt_lane _) (gcc_rsqrt_lane _) (gcc_rsqrt_lane _)
  | scalar d => exact values_ext4 (plain_rsqrt_lane d _) (plain_rsqrt_lane d _) (plain_rsqrt_lane d _) (plain_rsqrt_lane d _)

theorem recip_refines (bk : Backend) (a : Reg) (i : Nat) (hi : i < 4) (hn : (Spec.laneVal a i).isNaN = false) :
    Spec.laneVal ((Impl.of bk).reciprocal a) i = Simd4f.recip1 bk (Spec.laneVal a i) := by
  have h4 : i = 0 ∨ i = 1 ∨ i = 2 ∨ i = 3 := by omega
  cases bk with
  | sse s v =>
    have h := sse_recip_val s v a
    rcases h4 with rfl | rfl | rfl | rfl
    · exact congrArg V4.x h
    · exact congrArg V4.y h
    · exact congrArg V4.z h
    · exact congrArg V4.w h
  | neon =>
    have h := neon_recip_val a
    rcases h4 with rfl | rfl | rfl | rfl
    · exact congrArg V4.x h
    · exact congrArg V4.y h
    · exact congrArg V4.z h
    · exact congrArg V4.w h
  | gcc => rcases h4 with rfl | rfl | rfl | rfl <;> exact gcc_recip_lane .gcc (.inl rfl) _ hn
  | scalar d => rcases h4 with rfl | rfl | rfl | rfl <;> exact plain_recip_lane d _ hn

/-- C126: every macro of every backend, transcribed instruction by instruction, computes on the
decoded lanes the operation of the four-lane model, for every content of the registers and every
arithmetic unit with IEEE results. -/
theorem C126_refines (bk : Backend) : Spec.Refines bk (Impl.of bk) where
  add a b := values_ext4 ((C126_arith bk a b a 0 (by omega)).1) ((C126_arith bk a b a 1 (by omega)).1)
    ((C126_arith bk a b a 2 (by omega)).1) ((C126_arith bk a b a 3 (by omega)).1)
  sub a b := values_ext4 ((C126_arith bk a b a 0 (by omega)).2.1) ((C126_arith bk a b a 1 (by omega)).2.1)
    ((C126_arith bk a b a 2 (by omega)).2.1) ((C126_arith bk a b a 3 (by omega)).2.1)
  mul a b := values_ext4 ((C126_arith bk a b a 0 (by omega)).2.2.1) ((C126_arith bk a b a 1 (by omega)).2.2.1)
    ((C126_arith bk a b a 2 (by omega)).2.2.1) ((C126_arith bk a b a 3 (by omega)).2.2.1)
  div := div_refines bk
  sqrt := sqrt_refines bk
  reciprocal := recip_refines bk
  rsqrt := rsqrt_refines bk
  cross3 := cross3_refines bk
  dot3 := dot3_refines bk
  dot3Scalar := dot3Scalar_refines bk
  min a b := (minmax_refines bk a b).1
  max a b := (minmax_refines bk a b).2
  init _ _ _ _ := by cases bk <;> rfl
  initZero := by cases bk <;> exact values_ext4 dec_w0 dec_w0 dec_w0 dec_w0
  splat _ := by cases bk <;> rfl
  splatX _ := by cases bk <;> rfl
  splatY _ := by cases bk <;> rfl
  splatZ _ := by cases bk <;> rfl
  splatW _ := by cases bk <;> rfl
  shuffleWXYZ _ := by cases bk <;> rfl
  shuffleZWXY _ := by cases bk <;> rfl
  shuffleYZWX _ := by cases bk <;> rfl
  zeroW _ := by cases bk <;> exact values_ext4 rfl rfl rfl dec_w0
  zeroZW _ := by cases bk <;> exact values_ext4 rfl rfl dec_w0 dec_w0
  mergeW _ _ := by cases bk <;> rfl
  mergeHigh _ _ := by cases bk <;> rfl
  mergeLow _ _ := by cases bk <;> rfl
  flipSign0101 a := values_ext4 ((C126_arith bk a a a 0 (by omega)).2.2.2.2.1)
    ((C126_arith bk a a a 1 (by omega)).2.2.2.2.1) ((C126_arith bk a a a 2 (by omega)).2.2.2.2.1)
    ((C126_arith bk a a a 3 (by omega)).2.2.2.2.1)
  flipSign1010 a := values_ext4 ((C126_arith bk a a a 0 (by omega)).2.2.2.2.2.1)
    ((C126_arith bk a a a 1 (by omega)).2.2.2.2.2.1) ((C126_arith bk a a a 2 (by omega)).2.2.2.2.2.1)
    ((C126_arith bk a a a 3 (by omega)).2.2.2.2.2.1)
  cmpEq := cmpEq_refines bk
  cmpNeq a b := by
    rw [(C126_compare bk a b).2.2.2.2.1, cmpEq_refines]
    simp only [Simd4f.cmpEq, Simd4f.cmpNeq, Bool.not_and]
  cmpLt a b := by
    rw [Bool.eq_iff_iff, (C126_compare bk a b).1, all4]; exact Iff.rfl
  cmpLe a b := by
    rw [Bool.eq_iff_iff, (C126_compare bk a b).2.1, all4]; exact Iff.rfl
  cmpGe a b := by
    rw [Bool.eq_iff_iff, (C126_compare bk a b).2.2.1, all4]; exact Iff.rfl
  cmpGt a b := by
    rw [Bool.eq_iff_iff, (C126_compare bk a b).2.2.2.1, all4]; exact Iff.rfl
  neg a := by
    have e : ∀ i, i < 4 → _ := fun i hi => (C126_arith bk a a a i hi).2.2.2.1
    refine values_ext4 ((e 0 (by omega)).trans ?_) ((e 1 (by omega)).trans ?_) ((e 2 (by omega)).trans ?_)
      ((e 3 (by omega)).trans ?_) <;> exact (neg1_neg bk _).symm
  ceil a := values_ext4 ((C126_arith bk a a a 0 (by omega)).2.2.2.2.2.2.1)
    ((C126_arith bk a a a 1 (by omega)).2.2.2.2.2.2.1) ((C126_arith bk a a a 2 (by omega)).2.2.2.2.2.2.1)
    ((C126_arith bk a a a 3 (by omega)).2.2.2.2.2.2.1)
  floor a := values_ext4 ((C126_arith bk a a a 0 (by omega)).2.2.2.2.2.2.2.1)
    ((C126_arith bk a a a 1 (by omega)).2.2.2.2.2.2.2.1) ((C126_arith bk a a a 2 (by omega)).2.2.2.2.2.2.2.1)
    ((C126_arith bk a a a 3 (by omega)).2.2.2.2.2.2.2.1)
  madd a b c := by
    have e : ∀ i, i < 4 → _ := fun i hi => (C126_arith bk a b c i hi).2.2.2.2.2.2.2.2
    cases bk with
    | sse s v => cases v <;> exact values_ext4 (e 0 (by omega)) (e 1 (by omega)) (e 2 (by omega)) (e 3 (by omega))
    | _ => exact values_ext4 (e 0 (by omega)) (e 1 (by omega)) (e 2 (by omega)) (e 3 (by omega))
  transpose _ := by cases bk <;> rfl

end

/-! ### examples -/

/-- the arithmetic unit that rounds every IEEE result to its word exists -/
example : ∃ H : Alu, H.add w1 w1 = w2 := ⟨Alu.ieee, by kdecide⟩
/-- `rcpps`-style reciprocal of `+∞` lanes, a NaN lane and ordinary lanes: the hypothesis of the
`reciprocal` field holds for three of them -/
example : (Spec.laneVal ⟨w1, wInf, wEps, 0x7fc00001#32⟩ 1).isNaN = false ∧
    (Spec.laneVal ⟨w1, wInf, wEps, 0x7fc00001#32⟩ 3).isNaN = true := by decide +kernel
/-- `1.0f`, `-2.5f`, the smallest subnormal and a NaN, read from memory -/
example : decode 0x3f800000#32 = Fp.lit 1 1 ∧ decode 0xc0200000#32 = Fp.lit (-5) 2 ∧
    decode 0x00000001#32 = Fp.lit 1 (2 ^ 149) ∧ decode 0x7fc12345#32 = .nan := by decide +kernel

/-- the lanes of a register holding a NaN payload, moved by the SSE and the NEON code -/
example (s v : Bool) : lane ((Impl.of (.sse s v)).mergeHigh ⟨1#32, 2#32, 0x7fc12345#32, 4#32⟩ ⟨5#32, 6#32, 7#32, 8#32⟩) 0 = 0x7fc12345#32 ∧
    (Impl.of .neon).shuffleYZWX ⟨1#32, 2#32, 3#32, 4#32⟩ = ⟨2#32, 3#32, 4#32, 1#32⟩ := ⟨rfl, rfl⟩
/-- a buffer long enough for three floats, not for four -/
example : (Impl.of .gcc).init3f [1#32, 2#32, 3#32] = some ⟨1#32, 2#32, 3#32, 0#32⟩ ∧
    (Impl.of .gcc).init4f [1#32, 2#32, 3#32] = none := ⟨rfl, rfl⟩
/-- registers below one another in every lane, which the comparison accepts -/
example : ∀ i, i < 4 → (Spec.laneVal ⟨w0, w1, wEps, 0xff800000#32⟩ i).lt (Spec.laneVal ⟨w1, w2, w1, wInf⟩ i) = true := by
  intro i hi
  have h4 : i = 0 ∨ i = 1 ∨ i = 2 ∨ i = 3 := by omega
  rcases h4 with rfl | rfl | rfl | rfl <;> decide +kernel

end Graphene

/-
  The vector backends at the level of the instructions they are written in.

  Here a register is four 32-bit words and every operation of
  include/graphene-simd4f.h is transcribed macro by macro, in terms of the SSE, GCC-vector and
  NEON intrinsics it calls.  `decode` reads a word as an IEEE binary32 datum.  The theorems of
  Props/Backends4.lean (C126) relate these definitions to the value-level model of Model/Simd4f.lean
  that everything else is built on.

  The meaning given to each intrinsic is that of its vendor's documentation (Intel Intrinsics
  Guide, Arm Architecture Reference Manual pseudocode, GCC manual); it is part of the trusted
  base.  Arithmetic instructions are abstract (`Alu`): any words whose decoded value is the
  IEEE result are allowed, so NaN payloads and signs are not fixed.
-/
import Verif.Model.Fp
import Verif.Model.Simd4x4f

namespace Graphene

/-- One 32-bit lane of a register, or one `float` object in memory. -/
abbrev Word := BitVec 32

namespace Bits

/-- a 24-bit integer times a power of two in range is a binary32 magnitude -/
theorem rep_scaled (M e : Nat) (hM : M < 2 ^ 24) (he : e ≤ 253) : binary32.Rep (M * 2 ^ e) := by
  constructor
  · have : M * 2 ^ e < 2 ^ 24 * 2 ^ e := Nat.mul_lt_mul_of_pos_right hM (Nat.two_pow_pos e)
    rw [← Nat.pow_add] at this
    exact Nat.lt_of_lt_of_le this (Nat.pow_le_pow_right (by decide) (by simp only; omega))
  · rcases Nat.eq_zero_or_pos M with h0 | h0
    · subst h0; simp
    · have hlt : M * 2 ^ e < 2 ^ (24 + e) := by
        rw [Nat.pow_add]; exact Nat.mul_lt_mul_of_pos_right hM (Nat.two_pow_pos e)
      have hne : M * 2 ^ e ≠ 0 := Nat.ne_of_gt (Nat.mul_pos h0 (Nat.two_pow_pos e))
      have h1 : (M * 2 ^ e).log2 < 24 + e := (Nat.log2_lt hne).2 hlt
      have hle : binary32.ulpExp (M * 2 ^ e) ≤ e := by unfold Fmt.ulpExp; simp only; omega
      exact Nat.dvd_trans (Nat.pow_dvd_pow 2 hle) (Nat.dvd_mul_left _ _)

/-- The exponent field. -/
def expo (b : Word) : Nat := (b.extractLsb' 23 8).toNat
/-- The mantissa field. -/
def mant (b : Word) : Nat := (b.extractLsb' 0 23).toNat

theorem expo_lt (b : Word) : expo b < 256 := (b.extractLsb' 23 8).isLt
theorem mant_lt (b : Word) : mant b < 2 ^ 23 := (b.extractLsb' 0 23).isLt

/-- The IEEE-754 binary32 interchange format: sign bit 31, exponent bits 30-23, mantissa
bits 22-0; magnitudes in units of 2^-149. -/
def decode (b : Word) : F32 :=
  if _h255 : expo b = 255 then (if mant b = 0 then .inf b.msb else .nan)
  else if _h0 : expo b = 0 then
    .fin b.msb (mant b * 2 ^ 0) (rep_scaled _ 0 (by have := mant_lt b; omega) (by omega))
  else .fin b.msb ((2 ^ 23 + mant b) * 2 ^ (expo b - 1))
    (rep_scaled _ _ (by have := mant_lt b; omega) (by have := expo_lt b; omega))

/-- The word of a datum (one chosen NaN). -/
def encode : F32 → Word
  | .nan => 0x7fc00000#32
  | .inf s => if s then 0xff800000#32 else 0x7f800000#32
  | .fin s m _ =>
    BitVec.ofNat 32 ((if s then 2 ^ 31 else 0) + binary32.ulpExp m * 2 ^ 23 +
      m / 2 ^ binary32.ulpExp m)

end Bits
open Bits

/-- The arithmetic unit: its words are unspecified except through their value. -/
class Alu [Libm binary32] where
  add : Word → Word → Word
  sub : Word → Word → Word
  mul : Word → Word → Word
  div : Word → Word → Word
  fma : Word → Word → Word → Word
  sqrt : Word → Word
  ceil : Word → Word
  floor : Word → Word
  rcpe : Word → Word
  rsqrte : Word → Word
  add_val : ∀ a b, decode (add a b) = Fp.add (decode a) (decode b)
  sub_val : ∀ a b, decode (sub a b) = Fp.sub (decode a) (decode b)
  mul_val : ∀ a b, decode (mul a b) = Fp.mul (decode a) (decode b)
  div_val : ∀ a b, decode (div a b) = Fp.div (decode a) (decode b)
  fma_val : ∀ a b c, decode (fma a b c) = Fp.fma (decode a) (decode b) (decode c)
  sqrt_val : ∀ a, decode (sqrt a) = Fp.sqrt (decode a)
  ceil_val : ∀ a, decode (ceil a) = Fp.ceil (decode a)
  floor_val : ∀ a, decode (floor a) = Fp.floor (decode a)
  rcpe_val : ∀ a, decode (rcpe a) = Libm.rcpEst (decode a)
  rsqrte_val : ∀ a, decode (rsqrte a) = Libm.rsqrtEst (decode a)

/-- A four-lane register. -/
abbrev Reg := V4 Word
/-- A two-lane NEON register, `float32x2_t`. -/
structure Reg2 where
  x : Word
  y : Word

namespace Ins

/-! ### lanes -/

/-- lane `i` of a register, as `u.f[i]` of `graphene_simd4f_union_t` (simd4f.h:192-195),
`s[i]` of a GCC vector or `vgetq_lane`; `i` is taken modulo 4. -/
def lane (r : Reg) (i : Nat) : Word :=
  match i % 4 with
  | 0 => r.x
  | 1 => r.y
  | 2 => r.z
  | _ => r.w

/-- apply an operation in every lane -/
def lanes1 (f : Word → Word) (a : Reg) : Reg := ⟨f a.x, f a.y, f a.z, f a.w⟩
/-- apply an operation in every pair of lanes -/
def lanes2 (f : Word → Word → Word) (a b : Reg) : Reg := ⟨f a.x b.x, f a.y b.y, f a.z b.z, f a.w b.w⟩

/-- comparison results are all-ones or all-zeros lanes -/
def mask (c : Bool) : Word := if c then 0xffffffff#32 else 0x00000000#32

/-- C `a < b` on `float` -/
def clt (a b : Word) : Bool := Fp.lt (decode a) (decode b)
/-- C `a <= b` on `float` -/
def cle (a b : Word) : Bool := Fp.le (decode a) (decode b)
/-- C `a == b` on `float` -/
def ceq (a b : Word) : Bool := Fp.feq (decode a) (decode b)

/-- C `fabsf` -/
def cfabs (a : Word) : Word := a &&& 0x7fffffff#32
/-- C `copysignf` -/
def ccopysign (a b : Word) : Word := (a &&& 0x7fffffff#32) ||| (b &&& 0x80000000#32)
/-- C unary minus -/
def cneg (a : Word) : Word := a ^^^ 0x80000000#32

/-- `0.f` -/
def w0 : Word := 0x00000000#32
/-- `1.f` -/
def w1 : Word := 0x3f800000#32
/-- `2.f` -/
def w2 : Word := 0x40000000#32
/-- `3.f` -/
def w3 : Word := 0x40400000#32
/-- `0.5f` -/
def wHalf : Word := 0x3f000000#32
/-- `-1.f` -/
def wM1 : Word := 0xbf800000#32
/-- `FLT_EPSILON` -/
def wEps : Word := 0x34000000#32
/-- `INFINITY` -/
def wInf : Word := 0x7f800000#32

/-! ### memory -/

/-- read the `float` at `p[i]` -/
def load (b : Buf Word) (i : Nat) : Option Word := b[i]?
/-- write the `float` at `p[i]` -/
def store (b : Buf Word) (i : Nat) (w : Word) : Option (Buf Word) :=
  if i < b.length then some (b.set i w) else none
/-- a four-lane load: `_mm_loadu_ps`, `vld1q_f32` -/
def load4 (b : Buf Word) : Option Reg := do
  some ⟨← load b 0, ← load b 1, ← load b 2, ← load b 3⟩
/-- a four-lane store: `_mm_storeu_ps`, `vst1q_f32`, `memcpy` of 4 floats -/
def store4 (s : Reg) (b : Buf Word) : Option (Buf Word) := do
  let b ← store b 0 s.x
  let b ← store b 1 s.y
  let b ← store b 2 s.z
  store b 3 s.w
/-- `memcpy` of the first 3 floats of a register -/
def memcpy3 (s : Reg) (b : Buf Word) : Option (Buf Word) := do
  let b ← store b 0 s.x
  let b ← store b 1 s.y
  store b 2 s.z
/-- `memcpy` of the first 2 floats of a register -/
def memcpy2 (s : Reg) (b : Buf Word) : Option (Buf Word) := do
  let b ← store b 0 s.x
  store b 1 s.y

/-! ### SSE -/

/-- `_MM_SHUFFLE` of xmmintrin.h -/
def mmShuffle (d c b a : Nat) : Nat := d * 64 + c * 16 + b * 4 + a
/-- `_mm_shuffle_ps` -/
def shufflePs (a b : Reg) (imm : Nat) : Reg :=
  ⟨lane a (imm % 4), lane a (imm / 4 % 4), lane b (imm / 16 % 4), lane b (imm / 64 % 4)⟩
/-- `_mm_unpackhi_ps` -/
def unpackhiPs (a b : Reg) : Reg := ⟨a.z, b.z, a.w, b.w⟩
/-- `_mm_unpacklo_ps` -/
def unpackloPs (a b : Reg) : Reg := ⟨a.x, b.x, a.y, b.y⟩
/-- `_mm_movelh_ps` -/
def movelhPs (a b : Reg) : Reg := ⟨a.x, a.y, b.x, b.y⟩
/-- `_mm_movehl_ps` -/
def movehlPs (a b : Reg) : Reg := ⟨b.z, b.w, a.z, a.w⟩
/-- `_mm_setzero_ps` -/
def setzeroPs : Reg := ⟨w0, w0, w0, w0⟩
/-- `_mm_set1_ps` -/
def set1Ps (v : Word) : Reg := ⟨v, v, v, v⟩
/-- `_mm_and_ps` -/
def andPs (a b : Reg) : Reg := lanes2 (· &&& ·) a b
/-- `_mm_andnot_ps`: `~a & b` -/
def andnotPs (a b : Reg) : Reg := lanes2 (fun p q => ~~~p &&& q) a b
/-- `_mm_xor_ps` -/
def xorPs (a b : Reg) : Reg := lanes2 (· ^^^ ·) a b
/-- `_mm_min_ps`: the second operand unless the first is smaller -/
def minPs (a b : Reg) : Reg := lanes2 (fun p q => if clt p q then p else q) a b
/-- `_mm_max_ps`: the second operand unless the first is greater -/
def maxPs (a b : Reg) : Reg := lanes2 (fun p q => if clt q p then p else q) a b
/-- `_mm_cmpeq_ps` -/
def cmpeqPs (a b : Reg) : Reg := lanes2 (fun p q => mask (ceq p q)) a b
/-- `_mm_cmpneq_ps` (true on unordered) -/
def cmpneqPs (a b : Reg) : Reg := lanes2 (fun p q => mask (!ceq p q)) a b
/-- `_mm_cmplt_ps` -/
def cmpltPs (a b : Reg) : Reg := lanes2 (fun p q => mask (clt p q)) a b
/-- `_mm_cmple_ps` -/
def cmplePs (a b : Reg) : Reg := lanes2 (fun p q => mask (cle p q)) a b
/-- `_mm_cmpgt_ps` -/
def cmpgtPs (a b : Reg) : Reg := lanes2 (fun p q => mask (clt q p)) a b
/-- `_mm_cmpge_ps` -/
def cmpgePs (a b : Reg) : Reg := lanes2 (fun p q => mask (cle q p)) a b
/-- the sign bits of the four bytes of a word -/
def byteSigns (w : Word) : Nat :=
  (w.getLsbD 7).toNat + 2 * (w.getLsbD 15).toNat + 4 * (w.getLsbD 23).toNat + 8 * (w.getLsbD 31).toNat
/-- `_mm_movemask_epi8` -/
def movemaskEpi8 (r : Reg) : Nat :=
  byteSigns r.x + 16 * byteSigns r.y + 256 * byteSigns r.z + 4096 * byteSigns r.w

section
variable [Libm binary32] [H : Alu]

/-- `_mm_add_ps`, `vaddq_f32`, GCC vector `+` -/
def vadd (a b : Reg) : Reg := lanes2 H.add a b
/-- `_mm_sub_ps`, `vsubq_f32`, GCC vector `-` -/
def vsub (a b : Reg) : Reg := lanes2 H.sub a b
/-- `_mm_mul_ps`, `vmulq_f32`, GCC vector `*` -/
def vmul (a b : Reg) : Reg := lanes2 H.mul a b
/-- `_mm_div_ps`, GCC vector `/` -/
def vdiv (a b : Reg) : Reg := lanes2 H.div a b
/-- `_mm_add_ss`: adds lane 0, keeps the other lanes of `a` -/
def addSs (a b : Reg) : Reg := ⟨H.add a.x b.x, a.y, a.z, a.w⟩
/-- `_mm_fmadd_ps` -/
def fmaddPs (a b c : Reg) : Reg :=
  ⟨H.fma a.x b.x c.x, H.fma a.y b.y c.y, H.fma a.z b.z c.z, H.fma a.w b.w c.w⟩
/-- `_mm_dp_ps`: bits 4-7 of the immediate select the products (others are `+0`), summed as
`(t0 + t1) + (t2 + t3)`; bits 0-3 select the destination lanes (others are `+0`). -/
def dpPs (a b : Reg) (imm : Nat) : Reg :=
  let t (i : Nat) : Word := if imm / 2 ^ (4 + i) % 2 = 1 then H.mul (lane a i) (lane b i) else w0
  let s := H.add (H.add (t 0) (t 1)) (H.add (t 2) (t 3))
  let d (i : Nat) : Word := if imm / 2 ^ i % 2 = 1 then s else w0
  ⟨d 0, d 1, d 2, d 3⟩

/-! ### NEON -/

/-- `vrecpsq_f32`, one lane (Arm `FPRecipStep`): `2 - a*b`, the product of a zero and an
infinity counting as `+0` -/
def frecps (a b : Word) : Word :=
  let z (p q : Word) : Bool := ceq p w0 && Fp.isInf (decode q)
  H.sub w2 (if z a b || z b a then w0 else H.mul a b)
/-- `vrsqrtsq_f32`, one lane (Arm `FPRSqrtStep`): `(3 - a*b) / 2`, the product of a zero and an
infinity counting as `+0` -/
def frsqrts (a b : Word) : Word :=
  let z (p q : Word) : Bool := ceq p w0 && Fp.isInf (decode q)
  H.div (H.sub w3 (if z a b || z b a then w0 else H.mul a b)) w2
/-- `vpadd_f32`: pairwise sums -/
def vpadd (a b : Reg2) : Reg2 := ⟨H.add a.x a.y, H.add b.x b.y⟩
/-- `vadd_f32` -/
def vadd2 (a b : Reg2) : Reg2 := ⟨H.add a.x b.x, H.add a.y b.y⟩

end

/-- `vget_low_f32` -/
def vgetLow (a : Reg) : Reg2 := ⟨a.x, a.y⟩
/-- `vget_high_f32` -/
def vgetHigh (a : Reg) : Reg2 := ⟨a.z, a.w⟩
/-- `vcombine_f32` -/
def vcombine (lo hi : Reg2) : Reg := ⟨lo.x, lo.y, hi.x, hi.y⟩
/-- `vext_f32 (a, b, 1)` -/
def vext1 (a b : Reg2) : Reg2 := ⟨a.y, b.x⟩
/-- `vtstq_u32` -/
def vtst (a b : Reg) : Reg := lanes2 (fun p q => mask (p &&& q != 0)) a b
/-- `vandq_u32` -/
def vand (a b : Reg) : Reg := lanes2 (· &&& ·) a b
/-- `veorq_u32` -/
def veor (a b : Reg) : Reg := lanes2 (· ^^^ ·) a b
/-- one lane of `vminq_f32` (Arm `FPMin`): a NaN operand is returned, two zeros give the zero
with the "or" of the signs -/
def fmin1 (a b : Word) : Word :=
  if Fp.isNaN (decode a) then a else if Fp.isNaN (decode b) then b
  else if ceq a w0 && ceq b w0 then a ||| b
  else if clt a b then a else b
/-- one lane of `vmaxq_f32` (Arm `FPMax`): two zeros give the zero with the "and" of the signs -/
def fmax1 (a b : Word) : Word :=
  if Fp.isNaN (decode a) then a else if Fp.isNaN (decode b) then b
  else if ceq a w0 && ceq b w0 then a &&& b
  else if clt b a then a else b

/-! ### GCC vectors -/

/-- `__builtin_shuffle (a, b, mask)` (and clang's `__builtin_shufflevector`) -/
def bshuffle2 (a b : Reg) (m0 m1 m2 m3 : Nat) : Reg :=
  let s (i : Nat) : Word := if i % 8 < 4 then lane a i else lane b i
  ⟨s m0, s m1, s m2, s m3⟩
/-- `__builtin_shuffle (a, mask)` -/
def bshuffle1 (a : Reg) (m0 m1 m2 m3 : Nat) : Reg := ⟨lane a m0, lane a m1, lane a m2, lane a m3⟩
/-- `res[0] != 0 && …` over a comparison result -/
def allSet (r : Reg) : Bool := lane r 0 != 0 && lane r 1 != 0 && lane r 2 != 0 && lane r 3 != 0
/-- `mask[0] == 0 || …` over a comparison result -/
def anyClear (r : Reg) : Bool := lane r 0 == 0 || lane r 1 == 0 || lane r 2 == 0 || lane r 3 == 0

end Ins

/-- Everything include/graphene-simd4f.h (and `graphene_simd4x4f_transpose_in_place`) provides
as backend macros. -/
structure Impl where
  init : Word → Word → Word → Word → Reg
  initZero : Reg
  init4f : Buf Word → Option Reg
  init3f : Buf Word → Option Reg
  init2f : Buf Word → Option Reg
  dup4f : Reg → Buf Word → Option (Buf Word)
  dup3f : Reg → Buf Word → Option (Buf Word)
  dup2f : Reg → Buf Word → Option (Buf Word)
  getX : Reg → Word
  getY : Reg → Word
  getZ : Reg → Word
  getW : Reg → Word
  splat : Word → Reg
  splatX : Reg → Reg
  splatY : Reg → Reg
  splatZ : Reg → Reg
  splatW : Reg → Reg
  add : Reg → Reg → Reg
  sub : Reg → Reg → Reg
  mul : Reg → Reg → Reg
  div : Reg → Reg → Reg
  sqrt : Reg → Reg
  reciprocal : Reg → Reg
  rsqrt : Reg → Reg
  cross3 : Reg → Reg → Reg
  dot3 : Reg → Reg → Reg
  dot3Scalar : Reg → Reg → Word
  min : Reg → Reg → Reg
  max : Reg → Reg → Reg
  shuffleWXYZ : Reg → Reg
  shuffleZWXY : Reg → Reg
  shuffleYZWX : Reg → Reg
  zeroW : Reg → Reg
  zeroZW : Reg → Reg
  mergeW : Reg → Word → Reg
  mergeHigh : Reg → Reg → Reg
  mergeLow : Reg → Reg → Reg
  flipSign0101 : Reg → Reg
  flipSign1010 : Reg → Reg
  cmpEq : Reg → Reg → Bool
  cmpNeq : Reg → Reg → Bool
  cmpLt : Reg → Reg → Bool
  cmpLe : Reg → Reg → Bool
  cmpGe : Reg → Reg → Bool
  cmpGt : Reg → Reg → Bool
  neg : Reg → Reg
  ceil : Reg → Reg
  floor : Reg → Reg
  madd : Reg → Reg → Reg → Reg
  transpose : M4 Word → M4 Word

open Ins
variable [Libm binary32] [H : Alu]

namespace Sse

/-- `graphene_simd4f_init` (simd4f.h:202-205, MSVC 529-536) -/
def init (x y z w : Word) : Reg := ⟨x, y, z, w⟩
/-- `graphene_simd4f_init_3f` (simd4f.h:217-220, MSVC 544-545) -/
def init3f (v : Buf Word) : Option Reg := do some ⟨← load v 0, ← load v 1, ← load v 2, w0⟩
/-- `graphene_simd4f_init_2f` (simd4f.h:222-225, MSVC 547-548) -/
def init2f (v : Buf Word) : Option Reg := do some ⟨← load v 0, ← load v 1, w0, w0⟩

/-- `graphene_simd4f_reciprocal` (simd4f.h:303-312, MSVC 608-620) -/
def reciprocal (v : Reg) : Reg :=
  let zero := init w0 w0 w0 w0
  let two := init w2 w2 w2 w2
  let s := lanes1 H.rcpe v
  let m := vmul v (andnotPs (cmpeqPs v zero) s)
  vmul s (vsub two m)

/-- `graphene_simd4f_rsqrt` (simd4f.h:314-322, MSVC 622-633) -/
def rsqrt (v : Reg) : Reg :=
  let half := init wHalf wHalf wHalf wHalf
  let three := init w3 w3 w3 w3
  let s := lanes1 H.rsqrte v
  vmul (vmul s half) (vsub three (vmul s (vmul v s)))

/-- `graphene_simd4f_cross3` (simd4f.h:324-331, MSVC 635-648) -/
def cross3 (a b : Reg) : Reg :=
  let a_yzx := shufflePs a a (mmShuffle 3 0 2 1)
  let a_zxy := shufflePs a a (mmShuffle 3 1 0 2)
  let b_yzx := shufflePs b b (mmShuffle 3 0 2 1)
  let b_zxy := shufflePs b b (mmShuffle 3 1 0 2)
  vsub (vmul a_yzx b_zxy) (vmul a_zxy b_yzx)

/-- `graphene_simd4f_dot3` (simd4f.h:333-349, MSVC 650-669) -/
def dot3 (sse41 : Bool) (a b : Reg) : Reg :=
  if sse41 then dpPs a b 0x7f
  else
    let mask : Reg := ⟨0xffffffff#32, 0xffffffff#32, 0xffffffff#32, 0⟩
    let m := vmul a b
    let s0 := andPs m mask
    let s1 := vadd s0 (movehlPs s0 s0)
    let s2 := addSs s1 (shufflePs s1 s1 1)
    shufflePs s2 s2 0

/-- `graphene_simd4f_zero_w` (simd4f.h:383-387, MSVC 699-700) -/
def zeroW (v : Reg) : Reg :=
  let s := unpackhiPs v setzeroPs
  movelhPs v s
/-- `graphene_simd4f_merge_w` (simd4f.h:394-398, MSVC 705-706) -/
def mergeW (s : Reg) (v : Word) : Reg :=
  let t := unpackhiPs s (set1Ps v)
  movelhPs s t

/-- `graphene_simd4f_ceil` (simd4f.h:484-500, MSVC 827-839) -/
def ceil (sse41 : Bool) (s : Reg) : Reg :=
  if sse41 then lanes1 H.ceil s
  else init (H.ceil (lane s 0)) (H.ceil (lane s 1)) (H.ceil (lane s 2)) (H.ceil (lane s 3))
/-- `graphene_simd4f_floor` (simd4f.h:489-509, MSVC 841-853) -/
def floor (sse41 : Bool) (s : Reg) : Reg :=
  if sse41 then lanes1 H.floor s
  else init (H.floor (lane s 0)) (H.floor (lane s 1)) (H.floor (lane s 2)) (H.floor (lane s 3))

/-- `graphene_simd4f_madd` (simd4f.h:512-522, MSVC 855-867) -/
def madd (avx : Bool) (a b c : Reg) : Reg :=
  if avx then fmaddPs a b c else vadd (vmul a b) c

/-- `_MM_TRANSPOSE4_PS` of xmmintrin.h, used by `graphene_simd4x4f_transpose_in_place`
(simd4x4f.h:148-158) -/
def transpose (s : M4 Word) : M4 Word :=
  let t0 := unpackloPs s.x s.y
  let t2 := unpackloPs s.z s.w
  let t1 := unpackhiPs s.x s.y
  let t3 := unpackhiPs s.z s.w
  ⟨movelhPs t0 t2, movehlPs t2 t0, movelhPs t1 t3, movehlPs t3 t1⟩

/-- The SSE backend, GCC flavour (simd4f.h:190-523); the MSVC flavour (525-869) has the same
expression in every macro. -/
def impl (sse41 avx : Bool) : Impl where
  init := init
  -- simd4f.h:207-210
  initZero := setzeroPs
  -- simd4f.h:212-215
  init4f := load4
  init3f := init3f
  init2f := init2f
  -- simd4f.h:227-240
  dup4f := store4
  dup3f := memcpy3
  dup2f := memcpy2
  -- simd4f.h:242-251
  getX s := lane s 0
  getY s := lane s 1
  getZ s := lane s 2
  getW s := lane s 3
  -- simd4f.h:253-276
  splat := set1Ps
  splatX v := shufflePs v v (mmShuffle 0 0 0 0)
  splatY v := shufflePs v v (mmShuffle 1 1 1 1)
  splatZ v := shufflePs v v (mmShuffle 2 2 2 2)
  splatW v := shufflePs v v (mmShuffle 3 3 3 3)
  -- simd4f.h:278-301
  add := vadd
  sub := vsub
  mul := vmul
  div := vdiv
  sqrt := lanes1 H.sqrt
  reciprocal := reciprocal
  rsqrt := rsqrt
  cross3 := cross3
  dot3 := dot3 sse41
  -- simd4f.h:351-356
  dot3Scalar a b := lane (dot3 sse41 a b) 0
  -- simd4f.h:358-366
  min := minPs
  max := maxPs
  -- simd4f.h:368-381
  shuffleWXYZ v := shufflePs v v (mmShuffle 2 1 0 3)
  shuffleZWXY v := shufflePs v v (mmShuffle 1 0 3 2)
  shuffleYZWX v := shufflePs v v (mmShuffle 0 3 2 1)
  zeroW := zeroW
  -- simd4f.h:389-392
  zeroZW v := movelhPs v setzeroPs
  mergeW := mergeW
  -- simd4f.h:400-408
  mergeHigh a b := movehlPs b a
  mergeLow a b := movelhPs a b
  -- simd4f.h:415-435
  flipSign0101 v := xorPs v ⟨0x00000000#32, 0x80000000#32, 0x00000000#32, 0x80000000#32⟩
  flipSign1010 v := xorPs v ⟨0x80000000#32, 0x00000000#32, 0x80000000#32, 0x00000000#32⟩
  -- simd4f.h:437-471
  cmpEq a b := movemaskEpi8 (cmpneqPs a b) == 0
  cmpNeq a b := movemaskEpi8 (cmpneqPs a b) != 0
  cmpLt a b := movemaskEpi8 (cmpltPs a b) == 0xffff
  cmpLe a b := movemaskEpi8 (cmplePs a b) == 0xffff
  cmpGe a b := movemaskEpi8 (cmpgePs a b) == 0xffff
  cmpGt a b := movemaskEpi8 (cmpgtPs a b) == 0xffff
  -- simd4f.h:473-482
  neg s := xorPs s ⟨0x80000000#32, 0x80000000#32, 0x80000000#32, 0x80000000#32⟩
  ceil := ceil sse41
  floor := floor sse41
  madd := madd avx
  transpose := transpose

end Sse

namespace Gccv

/-- `graphene_simd4f_init` (simd4f.h:891-894) -/
def init (x y z w : Word) : Reg := ⟨x, y, z, w⟩
/-- `graphene_simd4f_init_zero` (simd4f.h:896-899) -/
def initZero : Reg := ⟨w0, w0, w0, w0⟩
/-- `graphene_simd4f_splat` (simd4f.h:937-940) -/
def splat (v : Word) : Reg := ⟨v, v, v, v⟩

/-- one initialiser of `graphene_simd4f_reciprocal` (simd4f.h:966-974) -/
def recipLane (v : Word) : Word := if clt wEps (cfabs v) then H.div w1 v else ccopysign wInf v
/-- one initialiser of `graphene_simd4f_rsqrt` (simd4f.h:986-998) -/
def rsqrtLane (v : Word) : Word := if !ceq v w0 then H.div w1 (H.sqrt v) else w0

/-- `graphene_simd4f_cross3` (simd4f.h:1005-1013) -/
def cross3 (a b : Reg) : Reg :=
  init (H.sub (H.mul (lane a 1) (lane b 2)) (H.mul (lane a 2) (lane b 1)))
       (H.sub (H.mul (lane a 2) (lane b 0)) (H.mul (lane a 0) (lane b 2)))
       (H.sub (H.mul (lane a 0) (lane b 1)) (H.mul (lane a 1) (lane b 0)))
       w0
/-- `graphene_simd4f_dot3` (simd4f.h:1015-1021) -/
def dot3 (a b : Reg) : Reg :=
  let res := H.add (H.add (H.mul (lane a 0) (lane b 0)) (H.mul (lane a 1) (lane b 1)))
    (H.mul (lane a 2) (lane b 2))
  init res res res res

/-- The GCC vector extension backend (simd4f.h:877-1195). -/
def impl : Impl where
  init := init
  initZero := initZero
  -- simd4f.h:901-914
  init4f v := do some ⟨← load v 0, ← load v 1, ← load v 2, ← load v 3⟩
  init3f v := do some ⟨← load v 0, ← load v 1, ← load v 2, w0⟩
  init2f v := do some ⟨← load v 0, ← load v 1, w0, w0⟩
  -- simd4f.h:916-929
  dup4f := store4
  dup3f := memcpy3
  dup2f := memcpy2
  -- simd4f.h:931-935
  getX s := lane s 0
  getY s := lane s 1
  getZ s := lane s 2
  getW s := lane s 3
  splat := splat
  -- simd4f.h:942-964
  splatX v := let val := lane v 0; ⟨val, val, val, val⟩
  splatY v := let val := lane v 1; ⟨val, val, val, val⟩
  splatZ v := let val := lane v 2; ⟨val, val, val, val⟩
  splatW v := let val := lane v 3; ⟨val, val, val, val⟩
  -- simd4f.h:1000-1003
  add := vadd
  sub := vsub
  mul := vmul
  div := vdiv
  -- simd4f.h:976-984
  sqrt v := ⟨H.sqrt (lane v 0), H.sqrt (lane v 1), H.sqrt (lane v 2), H.sqrt (lane v 3)⟩
  reciprocal v := ⟨recipLane (lane v 0), recipLane (lane v 1), recipLane (lane v 2), recipLane (lane v 3)⟩
  rsqrt v := ⟨rsqrtLane (lane v 0), rsqrtLane (lane v 1), rsqrtLane (lane v 2), rsqrtLane (lane v 3)⟩
  cross3 := cross3
  dot3 := dot3
  -- simd4f.h:1023-1026
  dot3Scalar a b := lane (dot3 a b) 0
  -- simd4f.h:1028-1046
  min a b :=
    let m (i : Nat) : Word := if clt (lane a i) (lane b i) then lane a i else lane b i
    init (m 0) (m 1) (m 2) (m 3)
  max a b :=
    let m (i : Nat) : Word := if clt (lane b i) (lane a i) then lane a i else lane b i
    init (m 0) (m 1) (m 2) (m 3)
  -- simd4f.h:1048-1086
  shuffleWXYZ v := bshuffle1 v 3 0 1 2
  shuffleZWXY v := bshuffle1 v 2 3 0 1
  shuffleYZWX v := bshuffle1 v 1 2 3 0
  zeroW v := bshuffle2 v initZero 0 1 2 4
  zeroZW v := bshuffle2 v initZero 0 1 4 4
  mergeW s v := bshuffle2 s (splat v) 0 1 2 4
  mergeHigh a b := bshuffle2 a b 2 3 6 7
  mergeLow a b := bshuffle2 a b 0 1 4 5
  -- simd4f.h:1088-1098
  flipSign0101 v := init (lane v 0) (cneg (lane v 1)) (lane v 2) (cneg (lane v 3))
  flipSign1010 v := init (cneg (lane v 0)) (lane v 1) (cneg (lane v 2)) (lane v 3)
  -- simd4f.h:1100-1165
  cmpEq a b := allSet (cmpeqPs a b)
  cmpNeq a b := !allSet (cmpeqPs a b)
  cmpLt a b := allSet (cmpltPs a b)
  cmpLe a b := allSet (cmplePs a b)
  cmpGe a b := allSet (cmpgePs a b)
  cmpGt a b := allSet (cmpgtPs a b)
  -- simd4f.h:1167-1172
  neg s := vmul s (splat wM1)
  -- simd4f.h:1174-1190
  ceil s := init (H.ceil (lane s 0)) (H.ceil (lane s 1)) (H.ceil (lane s 2)) (H.ceil (lane s 3))
  floor s := init (H.floor (lane s 0)) (H.floor (lane s 1)) (H.floor (lane s 2)) (H.floor (lane s 3))
  -- simd4f.h:1192-1195
  madd a b c := vadd (vmul a b) c
  -- simd4x4f.h:160-173
  transpose s :=
    ⟨init (lane s.x 0) (lane s.y 0) (lane s.z 0) (lane s.w 0),
     init (lane s.x 1) (lane s.y 1) (lane s.z 1) (lane s.w 1),
     init (lane s.x 2) (lane s.y 2) (lane s.z 2) (lane s.w 2),
     init (lane s.x 3) (lane s.y 3) (lane s.z 3) (lane s.w 3)⟩

end Gccv

namespace Neon

/-- `graphene_simd4f_init` (simd4f.h:1211-1215, MSVC 1544-1550) -/
def init (x y z w : Word) : Reg := ⟨x, y, z, w⟩
/-- `graphene_simd4f_splat` (simd4f.h:1266-1269, MSVC 1586) -/
def splat (v : Word) : Reg := ⟨v, v, v, v⟩

/-- `graphene_simd4f_init_2f` (simd4f.h:1233-1240, MSVC 1558-1567) -/
def init2f (v : Buf Word) : Option Reg := do
  let low : Reg2 := ⟨← load v 0, ← load v 1⟩
  let high : Reg2 := ⟨w0, w0⟩
  some (vcombine low high)

/-- `graphene_simd4f_reciprocal` (simd4f.h:1291-1296, MSVC 1596-1603) -/
def reciprocal (s : Reg) : Reg :=
  let est := lanes1 H.rcpe s
  let est := vmul (lanes2 frecps est s) est
  vmul (lanes2 frecps est s) est

/-- `_simd4f_rsqrt_iter` (simd4f.h:1319-1323, MSVC 1613-1619) -/
def rsqrtIter (v estimate : Reg) : Reg :=
  let est1 := vmul estimate v
  vmul estimate (lanes2 frsqrts est1 estimate)
/-- `graphene_simd4f_rsqrt` (simd4f.h:1325-1331, MSVC 1621-1629) -/
def rsqrt (s : Reg) : Reg :=
  let estimate := lanes1 H.rsqrte s
  let estimate := rsqrtIter s estimate
  let estimate := rsqrtIter s estimate
  rsqrtIter s estimate
/-- `graphene_simd4f_sqrt` (simd4f.h:1333-1339, MSVC 1631-1639) -/
def sqrt (s : Reg) : Reg :=
  let rsq := rsqrt s
  let rrsq := reciprocal rsq
  let tmp := s
  vand (vtst tmp tmp) rrsq

/-- `graphene_simd4f_cross3` (simd4f.h:1341-1355, MSVC 1641-1658) -/
def cross3 (a b : Reg) : Reg :=
  let mask : Reg := ⟨0xffffffff#32, 0xffffffff#32, 0xffffffff#32, 0⟩
  let a_low := vgetLow a
  let b_low := vgetLow b
  let a_yzx := vcombine (vext1 a_low (vgetHigh a)) a_low
  let b_yzx := vcombine (vext1 b_low (vgetHigh b)) b_low
  let s3 := vsub (vmul b_yzx a) (vmul a_yzx b)
  let s3_low := vgetLow s3
  let s3 := vcombine (vext1 s3_low (vgetHigh s3)) s3_low
  vand s3 mask

/-- `graphene_simd4f_dot3_scalar` (simd4f.h:1362-1367, MSVC 1662-1670) -/
def dot3Scalar (a b : Reg) : Word :=
  let m := vmul a b
  let s1 := vpadd (vgetLow m) (vgetLow m)
  (vadd2 s1 (vgetHigh m)).x

/-- The NEON backend, GCC flavour (simd4f.h:1197-1541); the MSVC flavour (1543-1900) has the
same expression in every macro. -/
def impl : Impl where
  init := init
  -- simd4f.h:1217-1220
  initZero := splat w0
  -- simd4f.h:1222-1231
  init4f := load4
  init3f v := do some (init (← load v 0) (← load v 1) (← load v 2) w0)
  init2f := init2f
  -- simd4f.h:1242-1259
  dup4f := store4
  dup3f s v := do
    let v ← store v 0 (lane s 0)
    let v ← store v 1 (lane s 1)
    store v 2 (lane s 2)
  dup2f s v := do
    let low := vgetLow s
    let v ← store v 0 low.x
    store v 1 low.y
  -- simd4f.h:1261-1264
  getX s := lane s 0
  getY s := lane s 1
  getZ s := lane s 2
  getW s := lane s 3
  splat := splat
  -- simd4f.h:1271-1289
  splatX s := splat (lane s 0)
  splatY s := splat (lane s 1)
  splatZ s := splat (lane s 2)
  splatW s := splat (lane s 3)
  -- simd4f.h:1298-1317
  add := vadd
  sub := vsub
  mul := vmul
  div a b := vmul a (reciprocal b)
  sqrt := sqrt
  reciprocal := reciprocal
  rsqrt := rsqrt
  cross3 := cross3
  -- simd4f.h:1357-1360
  dot3 a b := splat (dot3Scalar a b)
  dot3Scalar := dot3Scalar
  -- simd4f.h:1369-1377
  min := lanes2 fmin1
  max := lanes2 fmax1
  -- simd4f.h:1379-1427
  shuffleWXYZ v := init (lane v 3) (lane v 0) (lane v 1) (lane v 2)
  shuffleZWXY v := init (lane v 2) (lane v 3) (lane v 0) (lane v 1)
  shuffleYZWX v := init (lane v 1) (lane v 2) (lane v 3) (lane v 0)
  zeroW v := init (lane v 0) (lane v 1) (lane v 2) w0
  zeroZW v := init (lane v 0) (lane v 1) w0 w0
  mergeW s v := init (lane s 0) (lane s 1) (lane s 2) v
  mergeHigh a b := init (lane a 2) (lane a 3) (lane b 2) (lane b 3)
  mergeLow a b := init (lane a 0) (lane a 1) (lane b 0) (lane b 1)
  -- simd4f.h:1429-1451
  flipSign0101 s := veor s ⟨0x00000000#32, 0x80000000#32, 0x00000000#32, 0x80000000#32⟩
  flipSign1010 s := veor s ⟨0x80000000#32, 0x00000000#32, 0x80000000#32, 0x00000000#32⟩
  -- simd4f.h:1453-1505
  cmpEq a b := allSet (cmpeqPs a b)
  cmpNeq a b := anyClear (cmpeqPs a b)
  cmpLt a b := allSet (cmpltPs a b)
  cmpLe a b := allSet (cmplePs a b)
  cmpGe a b := allSet (cmpgePs a b)
  cmpGt a b := allSet (cmpgtPs a b)
  -- simd4f.h:1507-1517
  neg s := veor s ⟨0x80000000#32, 0x80000000#32, 0x80000000#32, 0x80000000#32⟩
  -- simd4f.h:1519-1535
  ceil s := init (H.ceil (lane s 0)) (H.ceil (lane s 1)) (H.ceil (lane s 2)) (H.ceil (lane s 3))
  floor s := init (H.floor (lane s 0)) (H.floor (lane s 1)) (H.floor (lane s 2)) (H.floor (lane s 3))
  -- simd4f.h:1537-1540
  madd a b c := vadd (vmul a b) c
  -- simd4x4f.h:175-188
  transpose s :=
    ⟨init (lane s.x 0) (lane s.y 0) (lane s.z 0) (lane s.w 0),
     init (lane s.x 1) (lane s.y 1) (lane s.z 1) (lane s.w 1),
     init (lane s.x 2) (lane s.y 2) (lane s.z 2) (lane s.w 2),
     init (lane s.x 3) (lane s.y 3) (lane s.z 3) (lane s.w 3)⟩

end Neon

namespace Plain

/-- `graphene_simd4f_init` (simd4f.c:1098-1106) -/
def init (x y z w : Word) : Reg := ⟨x, y, z, w⟩
/-- `graphene_simd4f_splat` (simd4f.c:1196-1201) -/
def splat (v : Word) : Reg := ⟨v, v, v, v⟩
/-- one initialiser of `graphene_simd4f_reciprocal` (simd4f.c:1231-1248) -/
def recipLane (ieeeDiv : Bool) (v : Word) : Word :=
  if ieeeDiv then H.div w1 v
  else if clt wEps (cfabs v) then H.div w1 v else ccopysign wInf v
/-- one initialiser of `graphene_simd4f_rsqrt` (simd4f.c:1262-1272) -/
def rsqrtLane (v : Word) : Word := if clt wEps (cfabs v) then H.div w1 (H.sqrt v) else w0
/-- one initialiser of `graphene_simd4f_div` (simd4f.c:1313-1324) -/
def divLane (a b : Word) : Word := if clt wEps (cfabs b) then H.div a b else w0
/-- `graphene_simd4f_dot3_scalar` (simd4f.c:1343-1348) -/
def dot3Scalar (a b : Reg) : Word :=
  H.add (H.add (H.mul a.x b.x) (H.mul a.y b.y)) (H.mul a.z b.z)
/-- `approx_equal` (simd4f.c:1433-1454) -/
def approxEqual (a b epsilon : Word) : Bool :=
  if Fp.isInf (decode a) && Fp.isInf (decode b) then true
  else
    let diff := cfabs (H.sub a b)
    if Fp.isNaN (decode diff) then true
    else if cle diff epsilon then true
    else
      let abs_a := cfabs a
      let abs_b := cfabs b
      let largest := if clt abs_a abs_b then abs_b else abs_a
      cle diff (H.mul largest epsilon)

/-- The scalar backend (simd4f.c:1096-1542, simd4x4f.c:62-88). -/
def impl (ieeeDiv : Bool) : Impl where
  init := init
  -- simd4f.c:1108-1130
  initZero := init w0 w0 w0 w0
  init4f v := do some (init (← load v 0) (← load v 1) (← load v 2) (← load v 3))
  init3f v := do some (init (← load v 0) (← load v 1) (← load v 2) w0)
  init2f v := do some (init (← load v 0) (← load v 1) w0 w0)
  -- simd4f.c:1132-1151
  dup4f := store4
  dup3f := memcpy3
  dup2f := memcpy2
  -- simd4f.c:1172-1194
  getX s := s.x
  getY s := s.y
  getZ s := s.z
  getW s := s.w
  splat := splat
  -- simd4f.c:1203-1229
  splatX v := ⟨v.x, v.x, v.x, v.x⟩
  splatY v := ⟨v.y, v.y, v.y, v.y⟩
  splatZ v := ⟨v.z, v.z, v.z, v.z⟩
  splatW v := ⟨v.w, v.w, v.w, v.w⟩
  -- simd4f.c:1274-1311
  add a b := ⟨H.add a.x b.x, H.add a.y b.y, H.add a.z b.z, H.add a.w b.w⟩
  sub a b := ⟨H.sub a.x b.x, H.sub a.y b.y, H.sub a.z b.z, H.sub a.w b.w⟩
  mul a b := ⟨H.mul a.x b.x, H.mul a.y b.y, H.mul a.z b.z, H.mul a.w b.w⟩
  div a b := ⟨divLane a.x b.x, divLane a.y b.y, divLane a.z b.z, divLane a.w b.w⟩
  -- simd4f.c:1250-1260
  sqrt v := ⟨H.sqrt v.x, H.sqrt v.y, H.sqrt v.z, H.sqrt v.w⟩
  reciprocal v := ⟨recipLane ieeeDiv v.x, recipLane ieeeDiv v.y, recipLane ieeeDiv v.z,
    recipLane ieeeDiv v.w⟩
  rsqrt v := ⟨rsqrtLane v.x, rsqrtLane v.y, rsqrtLane v.z, rsqrtLane v.w⟩
  -- simd4f.c:1326-1348
  cross3 a b := init (H.sub (H.mul a.y b.z) (H.mul a.z b.y)) (H.sub (H.mul a.z b.x) (H.mul a.x b.z))
    (H.sub (H.mul a.x b.y) (H.mul a.y b.x)) w0
  dot3 a b := splat (dot3Scalar a b)
  dot3Scalar := dot3Scalar
  -- simd4f.c:1350-1368
  min a b := init (if clt a.x b.x then a.x else b.x) (if clt a.y b.y then a.y else b.y)
    (if clt a.z b.z then a.z else b.z) (if clt a.w b.w then a.w else b.w)
  max a b := init (if clt b.x a.x then a.x else b.x) (if clt b.y a.y then a.y else b.y)
    (if clt b.z a.z then a.z else b.z) (if clt b.w a.w then a.w else b.w)
  -- simd4f.c:1370-1419
  shuffleWXYZ s := init s.w s.x s.y s.z
  shuffleZWXY s := init s.z s.w s.x s.y
  shuffleYZWX s := init s.y s.z s.w s.x
  zeroW s := init s.x s.y s.z w0
  zeroZW s := init s.x s.y w0 w0
  mergeW s v := init s.x s.y s.z v
  mergeHigh a b := init a.z a.w b.z b.w
  mergeLow a b := init a.x a.y b.x b.y
  -- simd4f.c:1421-1431
  flipSign0101 s := init s.x (cneg s.y) s.z (cneg s.w)
  flipSign1010 s := init (cneg s.x) s.y (cneg s.z) s.w
  -- simd4f.c:1456-1514
  cmpEq a b := approxEqual a.x b.x wEps && approxEqual a.y b.y wEps && approxEqual a.z b.z wEps &&
    approxEqual a.w b.w wEps
  cmpNeq a b := !approxEqual a.x b.x wEps || !approxEqual a.y b.y wEps ||
    !approxEqual a.z b.z wEps || !approxEqual a.w b.w wEps
  cmpLt a b := clt a.x b.x && clt a.y b.y && clt a.z b.z && clt a.w b.w
  cmpLe a b := cle a.x b.x && cle a.y b.y && cle a.z b.z && cle a.w b.w
  cmpGe a b := cle b.x a.x && cle b.y a.y && cle b.z a.z && cle b.w a.w
  cmpGt a b := clt b.x a.x && clt b.y a.y && clt b.z a.z && clt b.w a.w
  -- simd4f.c:1516-1540
  neg s := init (cneg s.x) (cneg s.y) (cneg s.z) (cneg s.w)
  ceil s := init (H.ceil s.x) (H.ceil s.y) (H.ceil s.z) (H.ceil s.w)
  floor s := init (H.floor s.x) (H.floor s.y) (H.floor s.z) (H.floor s.w)
  madd a b c := ⟨H.add (H.mul a.x b.x) c.x, H.add (H.mul a.y b.y) c.y, H.add (H.mul a.z b.z) c.z,
    H.add (H.mul a.w b.w) c.w⟩
  -- simd4x4f.c:64-88
  transpose m := ⟨⟨m.x.x, m.y.x, m.z.x, m.w.x⟩, ⟨m.x.y, m.y.y, m.z.y, m.w.y⟩,
    ⟨m.x.z, m.y.z, m.z.z, m.w.z⟩, ⟨m.x.w, m.y.w, m.z.w, m.w.w⟩⟩

end Plain

/-- The implementation the configured backend selects (include/graphene-simd4f.h:188-2014). -/
def Impl.of : Backend → Impl
  | .sse s a => Sse.impl s a
  | .gcc => Gccv.impl
  | .neon => Neon.impl
  | .scalar d => Plain.impl d

end Graphene

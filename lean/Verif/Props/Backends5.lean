/-
  C128: the inline vector and matrix functions, run on registers of words with the instructions
  of each backend, compute the values of the four-lane model; and what they compute depends on
  the values of their operands only.
-/
import Verif.Props.Backends4
import Verif.Model.Inline

set_option exponentiation.threshold 3000

namespace Graphene
open Bits Ins
variable [Libm binary32] [H : Alu]

section
attribute [local irreducible] Bits.decode Fp.add Fp.mul Fp.neg Fp.sub Fp.div Fp.sqrt Fp.fma Fp.lt Fp.le Fp.abs

theorem getX_val (bk : Backend) (r : Reg) : decode ((Impl.of bk).getX r) = (Spec.values r).x := by
  cases bk <;> rfl
theorem getY_val (bk : Backend) (r : Reg) : decode ((Impl.of bk).getY r) = (Spec.values r).y := by
  cases bk <;> rfl
theorem getZ_val (bk : Backend) (r : Reg) : decode ((Impl.of bk).getZ r) = (Spec.values r).z := by
  cases bk <;> rfl
theorem getW_val (bk : Backend) (r : Reg) : decode ((Impl.of bk).getW r) = (Spec.values r).w := by
  cases bk <;> rfl
theorem dup4_four (bk : Backend) (r : Reg) (a b c d : Word) :
    (Impl.of bk).dup4f r [a, b, c, d] = some [r.x, r.y, r.z, r.w] := by
  cases bk <;> simp [Impl.of, Sse.impl, Gccv.impl, Neon.impl, Plain.impl, store4, store]

theorem dec_m2 : decode Inline.wM2 = (Scalar.lit (-2) 1 : F32) := by kdecide
theorem dec_tweak : decode Inline.wTweak = (Scalar.lit 1 10000 : F32) := by kdecide

theorem cle_abs_eps (r : Word) : cle (cfabs r) wEps = (Scalar.abs (decode r) <=. (fltEps : F32)) := by
  rw [cle, decode_fabs, dec_eps]; rfl
theorem clt_abs_eps (r : Word) : clt (cfabs r) wEps = (Scalar.abs (decode r) <. (fltEps : F32)) := by
  rw [clt, decode_fabs, dec_eps]; rfl
theorem clt_eps (r : Word) : clt r wEps = (decode r <. (fltEps : F32)) := by rw [clt, dec_eps]; rfl

/-- C128: sums, dot products, lengths, normalisation, zero tests, interpolation, clamping and
extrema of four-lane vectors. -/
theorem C128_vectors (bk : Backend) (a b c : Reg) (f g : Word) :
    let I := Impl.of bk
    let A := Spec.values a
    let B := Spec.values b
    let C := Spec.values c
    Spec.values (Inline.sum I a) = Simd4f.sum A ∧
    decode (Inline.sumScalar I a) = Simd4f.sumScalar A ∧
    Spec.values (Inline.dot4 I a b) = Simd4f.dot4 A B ∧
    Spec.values (Inline.dot2 I a b) = Simd4f.dot2 A B ∧
    Spec.values (Inline.length4 I a) = Simd4f.length4 bk A ∧
    Spec.values (Inline.length3 I a) = Simd4f.length3 bk A ∧
    Spec.values (Inline.length2 I a) = Simd4f.length2 bk A ∧
    Spec.values (Inline.normalize4 I a) = Simd4f.normalize4 bk A ∧
    Spec.values (Inline.normalize3 I a) = Simd4f.normalize3 bk A ∧
    Spec.values (Inline.normalize2 I a) = Simd4f.normalize2 bk A ∧
    Inline.isZero4 I a = Simd4f.isZero4 bk A ∧
    Inline.isZero3 I a = Simd4f.isZero3 A ∧
    Inline.isZero2 I a = Simd4f.isZero2 A ∧
    Spec.values (Inline.interpolate I a b f) = Simd4f.interpolate A B (decode f) ∧
    Spec.values (Inline.clamp I a b c) = Simd4f.clamp bk A B C ∧
    Spec.values (Inline.clampScalar I a f g) = Simd4f.clampScalar bk A (decode f) (decode g) ∧
    Spec.values (Inline.minVal I a) = Simd4f.minVal bk A ∧
    Spec.values (Inline.maxVal I a) = Simd4f.maxVal bk A := by
  have R := C126_refines (H := H) bk
  have hs : ∀ v, Spec.values (Inline.sum (Impl.of bk) v) = Simd4f.sum (Spec.values v) := by
    intro v
    simp only [Inline.sum, R.add, R.splatX, R.splatY, R.splatZ, R.splatW]; rfl
  have h4 : ∀ v w, Spec.values (Inline.dot4 (Impl.of bk) v w) = Simd4f.dot4 (Spec.values v) (Spec.values w) := by
    intro v w
    simp only [Inline.dot4, hs, R.mul]; rfl
  have h2 : ∀ v w, Spec.values (Inline.dot2 (Impl.of bk) v w) = Simd4f.dot2 (Spec.values v) (Spec.values w) := by
    intro v w
    simp only [Inline.dot2, R.add, R.splatX, R.splatY, R.mul]; rfl
  have hc : ∀ v l h, Spec.values (Inline.clamp (Impl.of bk) v l h) =
      Simd4f.clamp bk (Spec.values v) (Spec.values l) (Spec.values h) := by
    intro v l h
    simp only [Inline.clamp, R.max, R.min]; rfl
  intro I A B C
  refine ⟨hs a, ?_, h4 a b, h2 a b, ?_, ?_, ?_, ?_, ?_, ?_, ?_, ?_, ?_, ?_, hc a b c, ?_, ?_, ?_⟩
  · simp only [Inline.sumScalar, I, getX_val, hs]; rfl
  · simp only [Inline.length4, I, R.sqrt, h4]; rfl
  · simp only [Inline.length3, I, R.sqrt, R.dot3]; rfl
  · simp only [Inline.length2, I, R.sqrt, h2]; rfl
  · simp only [Inline.normalize4, I, R.mul, R.rsqrt, h4]; rfl
  · simp only [Inline.normalize3, I, R.mul, R.rsqrt, R.dot3]; rfl
  · simp only [Inline.normalize2, I, R.mul, R.rsqrt, h2]; rfl
  · simp only [Inline.isZero4, I, R.cmpEq, R.initZero]; rfl
  · simp only [Inline.isZero3, I, cle_abs_eps, getX_val, getY_val, getZ_val]; rfl
  · simp only [Inline.isZero2, I, cle_abs_eps, getX_val, getY_val]; rfl
  · simp only [Inline.interpolate, I, R.add, R.mul, R.sub, R.splat, dec_w1]; rfl
  · simp only [Inline.clampScalar, I, hc, R.splat]; rfl
  · simp only [Inline.minVal, I, R.min, R.shuffleWXYZ, R.shuffleZWXY]; rfl
  · simp only [Inline.maxVal, I, R.max, R.shuffleWXYZ, R.shuffleZWXY]; rfl

theorem valuesM_mk (x y z w : Reg) : Spec.valuesM ⟨x, y, z, w⟩ =
    ⟨Spec.values x, Spec.values y, Spec.values z, Spec.values w⟩ := rfl

/-- C128: products of matrices and vectors, sums, constant matrices. -/
theorem C128_matrices (bk : Backend) (m n : M4 Word) (v : Reg) (x y z : Word) :
    let I := Impl.of bk
    let M := Spec.valuesM m
    let N := Spec.valuesM n
    let V := Spec.values v
    Spec.valuesM (Inline.identity I) = Simd4x4f.identity ∧
    Spec.values (Inline.msum I m) = Simd4x4f.sum M ∧
    Spec.values (Inline.vec4Mul I m v) = Simd4x4f.vec4Mul M V ∧
    Spec.values (Inline.vec3Mul I m v) = Simd4x4f.vec3Mul M V ∧
    Spec.values (Inline.point3Mul I m v) = Simd4x4f.point3Mul M V ∧
    Spec.values (Inline.invOrthoVec3Mul I m v) = Simd4x4f.invOrthoVec3Mul M V ∧
    Spec.values (Inline.invOrthoPoint3Mul I m v) = Simd4x4f.invOrthoPoint3Mul M V ∧
    Spec.valuesM (Inline.matrixMul I m n) = Simd4x4f.matrixMul M N ∧
    Spec.valuesM (Inline.translation I x y z) = Simd4x4f.translation (decode x) (decode y) (decode z) ∧
    Spec.valuesM (Inline.scale I x y z) = Simd4x4f.scale (decode x) (decode y) (decode z) ∧
    Spec.valuesM (Inline.madd I m n) = Simd4x4f.add M N ∧
    Spec.valuesM (Inline.msub I m n) = Simd4x4f.sub M N ∧
    Spec.valuesM (Inline.mmul I m n) = Simd4x4f.mul M N ∧
    Spec.valuesM (Inline.mdiv I m n) = Simd4x4f.div bk M N ∧
    Inline.isIdentity I m = Simd4x4f.isIdentity bk M ∧
    Inline.is2d I m = Simd4x4f.is2d M := by
  have R := C126_refines (H := H) bk
  have h4 : ∀ m v, Spec.values (Inline.vec4Mul (Impl.of bk) m v) =
      Simd4x4f.vec4Mul (Spec.valuesM m) (Spec.values v) := by
    intro m v
    simp only [Inline.vec4Mul, R.add, R.mul, R.splatX, R.splatY, R.splatZ, R.splatW]; rfl
  have h3 : ∀ m v, Spec.values (Inline.vec3Mul (Impl.of bk) m v) =
      Simd4x4f.vec3Mul (Spec.valuesM m) (Spec.values v) := by
    intro m v
    simp only [Inline.vec3Mul, R.add, R.mul, R.splatX, R.splatY, R.splatZ, R.zeroW]; rfl
  have hp : ∀ m v, Spec.values (Inline.point3Mul (Impl.of bk) m v) =
      Simd4x4f.point3Mul (Spec.valuesM m) (Spec.values v) := by
    intro m v
    simp only [Inline.point3Mul, R.add, R.mul, R.splatX, R.splatY, R.splatZ]; rfl
  intro I M N V
  refine ⟨?_, ?_, h4 m v, h3 m v, hp m v, ?_, ?_, ?_, ?_, ?_, ?_, ?_, ?_, ?_, ?_, ?_⟩
  · simp only [Inline.identity, Inline.minit, valuesM_mk, I, R.init, dec_w0, dec_w1]; rfl
  · simp only [Inline.msum, I, R.add]; rfl
  · simp only [Inline.invOrthoVec3Mul, I, h3, R.transpose, valuesM_mk, R.init, dec_w0]; rfl
  · simp only [Inline.invOrthoPoint3Mul, I, hp, R.transpose, R.sub, valuesM_mk, R.init, dec_w0]; rfl
  · simp only [Inline.matrixMul, Inline.minit, valuesM_mk, I, h4]; rfl
  · simp only [Inline.translation, Inline.minit, valuesM_mk, I, R.init, dec_w0, dec_w1]; rfl
  · simp only [Inline.scale, Inline.minit, valuesM_mk, I, R.init, dec_w0, dec_w1]; rfl
  · simp only [Inline.madd, valuesM_mk, I, R.add]; rfl
  · simp only [Inline.msub, valuesM_mk, I, R.sub]; rfl
  · simp only [Inline.mmul, valuesM_mk, I, R.mul]; rfl
  · simp only [Inline.mdiv, valuesM_mk, I, R.div]; rfl
  · simp only [Inline.isIdentity, I, R.cmpEq, R.init, dec_w0, dec_w1]; rfl
  · simp only [Inline.is2d, I, dup4_four, clt_abs_eps, clt_eps, getZ_val, getW_val, H.sub_val, decode_fabs, dec_w1]
    rfl

/-- C128: inverse and determinant. -/
theorem C128_inverse (bk : Backend) (m : M4 Word) :
    (Inline.inverse (Impl.of bk) m).map Spec.valuesM = Simd4x4f.inverse bk (Spec.valuesM m) ∧
    (let d := Inline.determinant (Impl.of bk) m
     (Spec.values d.1, Spec.values d.2)) = Simd4x4f.determinant bk (Spec.valuesM m) := by
  have R := C126_refines (H := H) bk
  constructor
  · have hg : ∀ r, cle wEps (cfabs ((Impl.of bk).getX r)) =
        (Scalar.abs (Spec.values r).x >=. (fltEps : F32)) := by
      intro r
      rw [cle, decode_fabs, dec_eps, getX_val]; rfl
    simp only [Inline.inverse, hg, R.sub, R.add, R.mul, R.mergeHigh, R.splatY, R.madd, R.shuffleWXYZ,
      R.shuffleYZWX, R.shuffleZWXY]
    unfold Simd4x4f.inverse
    rw [apply_ite (Option.map Spec.valuesM)]
    simp only [Option.map_some, Option.map_none, R.transpose, Inline.minit, valuesM_mk, R.sub, R.add, R.mul,
      R.mergeHigh, R.splatX, R.splatY, R.splat, R.div, R.madd, R.flipSign0101, R.flipSign1010, R.shuffleWXYZ,
      R.shuffleYZWX, R.shuffleZWXY, dec_w1]
    rfl
  · simp only [Inline.determinant, R.sub, R.add, R.mul,
      R.mergeHigh, R.splatX, R.splatY, R.splat, R.div, R.madd, R.shuffleWXYZ,
      R.shuffleYZWX, R.shuffleZWXY, dec_w1]
    rfl

attribute [local irreducible] Fp.lit Fp.convert in
/-- C128: the projections and the camera. -/
theorem C128_projections [Libm binary64] (bk : Backend) (m : M4 Word) (l r b t n f d : Word) (eye center up : Reg) :
    let I := Impl.of bk
    Spec.valuesM (Inline.initOrtho I l r b t n f) =
      Simd4x4f.initOrtho (decode l) (decode r) (decode b) (decode t) (decode n) (decode f) ∧
    Spec.valuesM (Inline.initFrustum I l r b t n f) =
      Simd4x4f.initFrustum (decode l) (decode r) (decode b) (decode t) (decode n) (decode f) ∧
    Spec.valuesM (Inline.perspective I m d) = Simd4x4f.perspective (Spec.valuesM m) (decode d) ∧
    (Inline.initLookAt I eye center up).map Spec.valuesM =
      some (Simd4x4f.initLookAt (δ := F64) bk (Spec.values eye) (Spec.values center) (Spec.values up)) := by
  have R := C126_refines (H := H) bk
  intro I
  refine ⟨?_, ?_, ?_, ?_⟩
  · simp only [Inline.initOrtho, I, valuesM_mk, R.init, H.sub_val, H.div_val, H.add_val, cneg, decode_neg, dec_w0,
      dec_w1, dec_w2, dec_m2]
    rfl
  · simp only [Inline.initFrustum, I, valuesM_mk, R.init, H.sub_val, H.div_val, H.add_val, H.mul_val, dec_w0,
      dec_m1, dec_w2, dec_m2]
    rfl
  · simp only [Inline.perspective, Inline.minit, I, valuesM_mk, R.mergeW, H.div_val, H.add_val, H.mul_val,
      dec_m1, getW_val, getZ_val]
    rfl
  · have hn : ∀ v, Spec.values (Inline.normalize3 (Impl.of bk) v) = Simd4f.normalize3 bk (Spec.values v) := by
      intro v
      simp only [Inline.normalize3, R.mul, R.rsqrt, R.dot3]; rfl
    have h1 : Spec.values (if clt ((Impl.of bk).getX ((Impl.of bk).dot3 ((Impl.of bk).sub center eye)
          ((Impl.of bk).sub center eye))) wEps then (Impl.of bk).init w0 w0 w1 w0
        else Inline.normalize3 (Impl.of bk) ((Impl.of bk).sub center eye)) =
        (if (Simd4f.dot3 bk (Simd4f.sub (Spec.values center) (Spec.values eye))
          (Simd4f.sub (Spec.values center) (Spec.values eye))).x <. (fltEps : F32) then Simd4f.init f0 f0 f1 f0
        else Simd4f.normalize3 bk (Simd4f.sub (Spec.values center) (Spec.values eye))) := by
      rw [clt_eps, getX_val, R.dot3, R.sub, apply_ite Spec.values, hn, R.init, R.sub, dec_w0, dec_w1]
    have e0 : ∀ a : Reg, decode (cneg a.x) = Fp.neg (Spec.values a).x ∧ decode (cneg a.y) = Fp.neg (Spec.values a).y ∧
        decode (cneg a.z) = Fp.neg (Spec.values a).z := fun a => ⟨decode_neg _, decode_neg _, decode_neg _⟩
    simp only [Inline.initLookAt, I, dup4_four, Simd4x4f.initLookAt]
    generalize hz : (if clt ((Impl.of bk).getX ((Impl.of bk).dot3 ((Impl.of bk).sub center eye)
          ((Impl.of bk).sub center eye))) wEps then (Impl.of bk).init w0 w0 w1 w0
        else Inline.normalize3 (Impl.of bk) ((Impl.of bk).sub center eye)) = z at h1 ⊢
    rw [← h1]
    clear hz h1
    simp only [clt_eps, getX_val, R.dot3, R.cross3]
    cases hc : (Simd4f.dot3 bk (Simd4f.cross3 bk (Spec.values z) (Spec.values up))
      (Simd4f.cross3 bk (Spec.values z) (Spec.values up))).x <. (fltEps : F32)
    · simp only [Bool.false_eq_true, if_false]
      have : (Option.map Spec.valuesM (some (⟨Inline.normalize3 (Impl.of bk) ((Impl.of bk).cross3 z up),
          (Impl.of bk).cross3 (Inline.normalize3 (Impl.of bk) ((Impl.of bk).cross3 z up)) z, (Impl.of bk).neg z,
          (Impl.of bk).init (cneg eye.x) (cneg eye.y) (cneg eye.z) w1⟩ : M4 Word))) =
          some ⟨Simd4f.normalize3 bk (Simd4f.cross3 bk (Spec.values z) (Spec.values up)),
            Simd4f.cross3 bk (Simd4f.normalize3 bk (Simd4f.cross3 bk (Spec.values z) (Spec.values up))) (Spec.values z),
            Simd4f.neg bk (Spec.values z),
            Simd4f.init (Fp.neg (Spec.values eye).x) (Fp.neg (Spec.values eye).y) (Fp.neg (Spec.values eye).z) f1⟩ := by
        simp only [Option.map_some, valuesM_mk, hn, R.cross3, R.neg, R.init, (e0 eye).1, (e0 eye).2.1, (e0 eye).2.2,
          dec_w1]
      exact this
    · simp only [if_true]
      have ht : Spec.values (if Fp.lt (Fp.abs (Fp.sub (Fp.convert binary64 (decode ((Impl.of bk).getZ up))) (Fp.lit 1 1)))
          (Fp.lit 1 8388608) = true then (Impl.of bk).init Inline.wTweak w0 w0 w0
          else (Impl.of bk).init w0 w0 Inline.wTweak w0) =
          (if (Scalar.abs ((FloatConv.widen (Spec.values up).z : F64) -. f1) <. fltEps) = true then
            Simd4f.init (Scalar.lit 1 10000) f0 f0 f0 else Simd4f.init f0 f0 (Scalar.lit 1 10000 : F32) f0) := by
        rw [apply_ite Spec.values, R.init, R.init, dec_w0, dec_tweak, getZ_val]; rfl
      generalize (if Fp.lt (Fp.abs (Fp.sub (Fp.convert binary64 (decode ((Impl.of bk).getZ up))) (Fp.lit 1 1)))
          (Fp.lit 1 8388608) = true then (Impl.of bk).init Inline.wTweak w0 w0 w0
          else (Impl.of bk).init w0 w0 Inline.wTweak w0) = tw at ht ⊢
      rw [← ht]
      clear ht
      have : (Option.map Spec.valuesM (some (
          let z' := Inline.normalize3 (Impl.of bk) ((Impl.of bk).add z tw)
          ⟨Inline.normalize3 (Impl.of bk) ((Impl.of bk).cross3 z' up),
          (Impl.of bk).cross3 (Inline.normalize3 (Impl.of bk) ((Impl.of bk).cross3 z' up)) z', (Impl.of bk).neg z',
          (Impl.of bk).init (cneg eye.x) (cneg eye.y) (cneg eye.z) w1⟩ : M4 Word))) =
          some (let Z := Simd4f.normalize3 bk (Simd4f.add (Spec.values z) (Spec.values tw))
            ⟨Simd4f.normalize3 bk (Simd4f.cross3 bk Z (Spec.values up)),
            Simd4f.cross3 bk (Simd4f.normalize3 bk (Simd4f.cross3 bk Z (Spec.values up))) Z,
            Simd4f.neg bk Z,
            Simd4f.init (Fp.neg (Spec.values eye).x) (Fp.neg (Spec.values eye).y) (Fp.neg (Spec.values eye).z) f1⟩) := by
        simp only [Option.map_some, valuesM_mk, hn, R.cross3, R.neg, R.init, (e0 eye).1, (e0 eye).2.1, (e0 eye).2.2,
          dec_w1, R.add]
      exact this

/-- the sixteen words of a matrix, row by row -/
def Spec.words (m : M4 Word) : List Word :=
  [m.x.x, m.x.y, m.x.z, m.x.w, m.y.x, m.y.y, m.y.z, m.y.w, m.z.x, m.z.y, m.z.z, m.z.w, m.w.x, m.w.y, m.w.z, m.w.w]

theorem fromFloat_short (bk : Backend) (b : Buf Word) (hb : b.length < 16) :
    Inline.initFromFloat (Impl.of bk) b = none := by
  have e := fun b => (C126_memory (H := H) bk ⟨w0, w0, w0, w0⟩ b).1
  simp only [Inline.initFromFloat, e, List.length_drop]
  by_cases h1 : 4 ≤ b.length <;> by_cases h2 : 4 ≤ b.length - 4 <;> by_cases h3 : 4 ≤ b.length - 8 <;>
    by_cases h4 : 4 ≤ b.length - 12 <;> simp [h1, h2, h3, h4] <;> omega

theorem toFloat_short (bk : Backend) (m : M4 Word) (b : Buf Word) (hb : b.length < 16) :
    Inline.toFloat (Impl.of bk) m b = none := by
  have e := fun r b => (C126_memory (H := H) bk r b).2.2.2.1
  simp only [Inline.toFloat, Inline.dup4fAt, e, List.drop_zero, List.take_zero, List.nil_append]
  by_cases h1 : 4 ≤ b.length
  · simp only [if_pos h1, Option.bind_eq_bind, Option.bind_some, List.length_drop, List.length_append, List.length_cons,
      List.length_nil]
    by_cases h2 : 4 ≤ 0 + 1 + 1 + 1 + 1 + (b.length - 4) - 4
    · simp only [if_pos h2, Option.bind_some, List.length_drop, List.length_append, List.length_cons,
        List.length_nil, List.length_take]
      by_cases h3 : 4 ≤ (min 4 (0 + 1 + 1 + 1 + 1 + (b.length - 4)) + (0 + 1 + 1 + 1 + 1 + (0 + 1 + 1 + 1 + 1 + (b.length - 4) - 4 - 4))) - 8
      · simp only [if_pos h3, Option.bind_some, List.length_drop, List.length_append, List.length_cons,
          List.length_nil, List.length_take]
        rw [if_neg (by omega)]; rfl
      · simp only [if_neg h3, Option.bind_none]
    · simp only [if_neg h2, Option.bind_none]
  · simp only [if_neg h1, Option.bind_eq_bind, Option.bind_none]

/-- C128: matrices in memory.  Reading takes the first sixteen floats, row by row; writing replaces
exactly the first sixteen; bit for bit on every backend, and each fails exactly when the buffer is
too short. -/
theorem C128_memory (bk : Backend) (m : M4 Word) (b : Buf Word) :
    let I := Impl.of bk
    (Inline.initFromFloat I b).map Spec.words = (if 16 ≤ b.length then some (b.take 16) else none) ∧
    Inline.toFloat I m b = (if 16 ≤ b.length then some (Spec.words m ++ b.drop 16) else none) := by
  by_cases hb : 16 ≤ b.length
  · obtain ⟨a0, b, rfl⟩ := List.exists_cons_of_length_pos (show 0 < b.length by omega)
    rw [List.length_cons] at hb
    obtain ⟨a1, b, rfl⟩ := List.exists_cons_of_length_pos (show 0 < b.length by omega)
    rw [List.length_cons] at hb
    obtain ⟨a2, b, rfl⟩ := List.exists_cons_of_length_pos (show 0 < b.length by omega)
    rw [List.length_cons] at hb
    obtain ⟨a3, b, rfl⟩ := List.exists_cons_of_length_pos (show 0 < b.length by omega)
    rw [List.length_cons] at hb
    obtain ⟨a4, b, rfl⟩ := List.exists_cons_of_length_pos (show 0 < b.length by omega)
    rw [List.length_cons] at hb
    obtain ⟨a5, b, rfl⟩ := List.exists_cons_of_length_pos (show 0 < b.length by omega)
    rw [List.length_cons] at hb
    obtain ⟨a6, b, rfl⟩ := List.exists_cons_of_length_pos (show 0 < b.length by omega)
    rw [List.length_cons] at hb
    obtain ⟨a7, b, rfl⟩ := List.exists_cons_of_length_pos (show 0 < b.length by omega)
    rw [List.length_cons] at hb
    obtain ⟨a8, b, rfl⟩ := List.exists_cons_of_length_pos (show 0 < b.length by omega)
    rw [List.length_cons] at hb
    obtain ⟨a9, b, rfl⟩ := List.exists_cons_of_length_pos (show 0 < b.length by omega)
    rw [List.length_cons] at hb
    obtain ⟨a10, b, rfl⟩ := List.exists_cons_of_length_pos (show 0 < b.length by omega)
    rw [List.length_cons] at hb
    obtain ⟨a11, b, rfl⟩ := List.exists_cons_of_length_pos (show 0 < b.length by omega)
    rw [List.length_cons] at hb
    obtain ⟨a12, b, rfl⟩ := List.exists_cons_of_length_pos (show 0 < b.length by omega)
    rw [List.length_cons] at hb
    obtain ⟨a13, b, rfl⟩ := List.exists_cons_of_length_pos (show 0 < b.length by omega)
    rw [List.length_cons] at hb
    obtain ⟨a14, b, rfl⟩ := List.exists_cons_of_length_pos (show 0 < b.length by omega)
    rw [List.length_cons] at hb
    obtain ⟨a15, b, rfl⟩ := List.exists_cons_of_length_pos (show 0 < b.length by omega)
    have e := fun b => (C126_memory (H := H) bk ⟨w0, w0, w0, w0⟩ b).1
    have d := fun r b => (C126_memory (H := H) bk r b).2.2.2.1
    have hl : 16 ≤ (a0 :: a1 :: a2 :: a3 :: a4 :: a5 :: a6 :: a7 :: a8 :: a9 :: a10 :: a11 :: a12 :: a13 :: a14 ::
      a15 :: b).length := by simp only [List.length_cons]; omega
    intro I
    rw [if_pos hl, if_pos hl]
    constructor
    · simp [Inline.initFromFloat, I, e, Spec.words]
    · simp [Inline.toFloat, Inline.dup4fAt, I, d, Spec.words]
  · intro I
    rw [if_neg hb, if_neg hb, fromFloat_short bk b (by omega), toFloat_short bk m b (by omega)]
    exact ⟨rfl, rfl⟩

/-- entry `(i, j)` of a matrix stored row by row -/
def Spec.entry (b : Buf Word) (i j : Nat) : F32 := decode (b[4 * i + j]!)

/-- C128, from memory to memory: two matrices read from buffers of sixteen floats, multiplied and
written out give, on every backend, the sums of rounded products in this association; nothing after
the sixteenth float is written. -/
theorem C128_product (bk : Backend) (a b out : Buf Word) (ha : 16 ≤ a.length) (hb : 16 ≤ b.length)
    (ho : 16 ≤ out.length) :
    ∃ m n res, Inline.initFromFloat (Impl.of bk) a = some m ∧ Inline.initFromFloat (Impl.of bk) b = some n ∧
      Inline.toFloat (Impl.of bk) (Inline.matrixMul (Impl.of bk) m n) out = some res ∧
      res.length = out.length ∧ res.drop 16 = out.drop 16 ∧
      ∀ i j, i < 4 → j < 4 →
        let A := Spec.entry a
        let B := Spec.entry b
        Spec.entry res i j =
          (((B 0 j).mul (A i 0)).add ((B 1 j).mul (A i 1))).add
            (((B 2 j).mul (A i 2)).add ((B 3 j).mul (A i 3))) := by
  have key : ∀ c : Buf Word, 16 ≤ c.length → ∃ k, Inline.initFromFloat (Impl.of bk) c = some k ∧
      Spec.words k = c.take 16 := by
    intro c hc
    have h := (C128_memory bk (Inline.identity (Impl.of bk)) c).1
    rw [if_pos hc] at h
    exact Option.map_eq_some_iff.1 h
  obtain ⟨m, hm, hmw⟩ := key a ha
  obtain ⟨n, hn, hnw⟩ := key b hb
  have hw := (C128_memory bk (Inline.matrixMul (Impl.of bk) m n) out).2
  rw [if_pos ho] at hw
  have hlen : ∀ k, (Spec.words k).length = 16 := fun _ => rfl
  refine ⟨m, n, _, hm, hn, hw, ?_, ?_, ?_⟩
  · rw [List.length_append, hlen, List.length_drop]; omega
  · rw [List.drop_append, hlen, List.drop_eq_nil_of_le (by rw [hlen])]; rfl
  · have ent : ∀ (c : Buf Word) k, Spec.words k = c.take 16 → 16 ≤ c.length → ∀ q, q < 16 →
        c[q]! = (Spec.words k)[q]! := by
      intro c k hk hc q hq
      rw [hk, List.getElem!_eq_getElem?_getD, List.getElem!_eq_getElem?_getD, List.getElem?_take_of_lt hq]
    have wr : ∀ (k : M4 Word) (t : Buf Word) q, q < 16 → (Spec.words k ++ t)[q]! = (Spec.words k)[q]! := by
      intro k t q hq
      rw [List.getElem!_eq_getElem?_getD, List.getElem!_eq_getElem?_getD,
        List.getElem?_append_left (by rw [hlen]; exact hq)]
    have hp := (C128_matrices bk m n m.x w0 w0 w0).2.2.2.2.2.2.2.1
    intro i j hi hj A B
    simp only [A, B, Spec.entry]
    rw [wr _ _ _ (by omega), ent a m hmw ha _ (by omega), ent a m hmw ha _ (by omega), ent a m hmw ha _ (by omega),
      ent a m hmw ha _ (by omega), ent b n hnw hb _ (by omega), ent b n hnw hb _ (by omega),
      ent b n hnw hb _ (by omega), ent b n hnw hb _ (by omega)]
    have h4 : ∀ n < 4, n = 0 ∨ n = 1 ∨ n = 2 ∨ n = 3 := by omega
    have hx := congrArg M4.x hp
    have hy := congrArg M4.y hp
    have hz := congrArg M4.z hp
    have hw' := congrArg M4.w hp
    rcases h4 i hi with rfl | rfl | rfl | rfl <;> rcases h4 j hj with rfl | rfl | rfl | rfl
    · exact congrArg V4.x hx
    · exact congrArg V4.y hx
    · exact congrArg V4.z hx
    · exact congrArg V4.w hx
    · exact congrArg V4.x hy
    · exact congrArg V4.y hy
    · exact congrArg V4.z hy
    · exact congrArg V4.w hy
    · exact congrArg V4.x hz
    · exact congrArg V4.y hz
    · exact congrArg V4.z hz
    · exact congrArg V4.w hz
    · exact congrArg V4.x hw'
    · exact congrArg V4.y hw'
    · exact congrArg V4.z hw'
    · exact congrArg V4.w hw'

end

/-- C128: two machines.  Whatever words the arithmetic units `H₁` and `H₂` choose for NaNs, and
whatever words represent the operands, matrices of equal values have products, inverses (including
whether they exist), determinants and identity tests of equal values. -/
theorem C128_values_only (H₁ H₂ : Alu) (bk : Backend) (m n m' n' : M4 Word)
    (hm : Spec.valuesM m = Spec.valuesM m') (hn : Spec.valuesM n = Spec.valuesM n') :
    let I := Impl.of (H := H₁) bk
    let J := Impl.of (H := H₂) bk
    Spec.valuesM (Inline.matrixMul I m n) = Spec.valuesM (Inline.matrixMul J m' n') ∧
    (Inline.inverse I m).map Spec.valuesM = (Inline.inverse J m').map Spec.valuesM ∧
    Spec.values (Inline.determinant I m).1 = Spec.values (Inline.determinant J m').1 ∧
    Spec.values (Inline.determinant I m).2 = Spec.values (Inline.determinant J m').2 ∧
    Inline.isIdentity I m = Inline.isIdentity J m' ∧
    Inline.is2d (H := H₁) I m = Inline.is2d (H := H₂) J m' := by
  have a := C128_matrices (H := H₁) bk m n m.x w0 w0 w0
  have b := C128_matrices (H := H₂) bk m' n' m.x w0 w0 w0
  have c := C128_inverse (H := H₁) bk m
  have d := C128_inverse (H := H₂) bk m'
  have e1 := a.2.2.2.2.2.2.2.1
  have e2 := b.2.2.2.2.2.2.2.1
  have f1 := a.2.2.2.2.2.2.2.2.2.2.2.2.2.2.1
  have f2 := b.2.2.2.2.2.2.2.2.2.2.2.2.2.2.1
  have g1 := a.2.2.2.2.2.2.2.2.2.2.2.2.2.2.2
  have g2 := b.2.2.2.2.2.2.2.2.2.2.2.2.2.2.2
  rw [hm] at e1 f1 g1 c
  rw [hn] at e1
  have hd := c.2.trans d.2.symm
  exact ⟨e1.trans e2.symm, c.1.trans d.1.symm, congrArg Prod.fst hd, congrArg Prod.snd hd, f1.trans f2.symm,
    g1.trans g2.symm⟩

/-! ### examples -/

/-- two matrices with the same values and different words: the NaNs differ -/
example : let m : M4 Word := ⟨⟨0x7fc00001#32, w0, w0, w0⟩, ⟨w0, w1, w0, w0⟩, ⟨w0, w0, w1, w0⟩, ⟨w0, w0, w0, w1⟩⟩
    let m' : M4 Word := ⟨⟨0xffc00002#32, w0, w0, w0⟩, ⟨w0, w1, w0, w0⟩, ⟨w0, w0, w1, w0⟩, ⟨w0, w0, w0, w1⟩⟩
    Spec.valuesM m = Spec.valuesM m' ∧ m ≠ m' := by decide +kernel
/-- the inverse of `diag (2, 2, 2, 2)` on the SSE registers of an IEEE unit exists -/
example : ((Inline.inverse (Impl.of (H := Alu.ieee) (.sse true false))
    ⟨⟨w2, w0, w0, w0⟩, ⟨w0, w2, w0, w0⟩, ⟨w0, w0, w2, w0⟩, ⟨w0, w0, w0, w2⟩⟩).map fun r => decode r.y.y) =
    some (Fp.lit 1 2) := by kdecide
/-- buffers of seventeen words satisfy the hypotheses of `C128_product` -/
example : 16 ≤ (List.replicate 17 w1 : Buf Word).length := by decide

end Graphene

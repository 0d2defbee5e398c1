/-
  The inline functions of include/graphene-simd4f.h and include/graphene-simd4x4f.h on the
  registers of Model/Intrinsics.lean: every call of a `graphene_simd4f_*` macro is a call of the
  corresponding field of `Impl`, every `float` expression is a chain of operations of the
  arithmetic unit, and every named local variable of the C text is a `let`.  A matrix object is
  four registers.

  The functions that call libm (`rotation`, `init_perspective`) are not transcribed here.
-/
import Verif.Model.Intrinsics

namespace Graphene
open Bits

namespace Inline
open Ins
variable (I : Impl)

/-- `-2.f` -/
def wM2 : Word := 0xc0000000#32
/-- `0.0001f` (simd4x4f.h:660, 662) -/
def wTweak : Word := 0x38d1b717#32

/-! ### include/graphene-simd4f.h:2030-2376 -/

/-- `graphene_simd4f_sum` (simd4f.h:2030-2040) -/
def sum (v : Reg) : Reg :=
  let x := I.splatX v
  let y := I.splatY v
  let z := I.splatZ v
  let w := I.splatW v
  I.add (I.add x y) (I.add z w)
/-- `graphene_simd4f_sum_scalar` (simd4f.h:2053-2057) -/
def sumScalar (v : Reg) : Word := I.getX (sum I v)
/-- `graphene_simd4f_dot4` (simd4f.h:2072-2077) -/
def dot4 (a b : Reg) : Reg := sum I (I.mul a b)
/-- `graphene_simd4f_dot2` (simd4f.h:2092-2101) -/
def dot2 (a b : Reg) : Reg :=
  let m := I.mul a b
  let x := I.splatX m
  let y := I.splatY m
  I.add x y
/-- `graphene_simd4f_length4` (simd4f.h:2114-2118) -/
def length4 (v : Reg) : Reg := I.sqrt (dot4 I v v)
/-- `graphene_simd4f_length3` (simd4f.h:2131-2135) -/
def length3 (v : Reg) : Reg := I.sqrt (I.dot3 v v)
/-- `graphene_simd4f_length2` (simd4f.h:2148-2152) -/
def length2 (v : Reg) : Reg := I.sqrt (dot2 I v v)
/-- `graphene_simd4f_normalize4` (simd4f.h:2165-2170) -/
def normalize4 (v : Reg) : Reg :=
  let invlen := I.rsqrt (dot4 I v v)
  I.mul v invlen
/-- `graphene_simd4f_normalize3` (simd4f.h:2183-2188) -/
def normalize3 (v : Reg) : Reg :=
  let invlen := I.rsqrt (I.dot3 v v)
  I.mul v invlen
/-- `graphene_simd4f_normalize2` (simd4f.h:2201-2206) -/
def normalize2 (v : Reg) : Reg :=
  let invlen := I.rsqrt (dot2 I v v)
  I.mul v invlen
/-- `graphene_simd4f_is_zero4` (simd4f.h:2219-2224) -/
def isZero4 (v : Reg) : Bool := I.cmpEq v I.initZero
/-- `graphene_simd4f_is_zero3` (simd4f.h:2237-2243) -/
def isZero3 (v : Reg) : Bool :=
  cle (cfabs (I.getX v)) wEps && cle (cfabs (I.getY v)) wEps && cle (cfabs (I.getZ v)) wEps
/-- `graphene_simd4f_is_zero2` (simd4f.h:2256-2261) -/
def isZero2 (v : Reg) : Bool := cle (cfabs (I.getX v)) wEps && cle (cfabs (I.getY v)) wEps
/-- `graphene_simd4f_interpolate` (simd4f.h:2276-2286) -/
def interpolate (a b : Reg) (f : Word) : Reg :=
  let one := I.splat w1
  let fv := I.splat f
  let oneMinusF := I.sub one fv
  I.add (I.mul oneMinusF a) (I.mul fv b)
/-- `graphene_simd4f_clamp` (simd4f.h:2301-2309) -/
def clamp (v lo hi : Reg) : Reg :=
  let tmp := I.max lo v
  I.min tmp hi
/-- `graphene_simd4f_clamp_scalar` (simd4f.h:2324-2332) -/
def clampScalar (v : Reg) (lo hi : Word) : Reg := clamp I v (I.splat lo) (I.splat hi)
/-- `graphene_simd4f_min_val` (simd4f.h:2345-2354) -/
def minVal (v : Reg) : Reg :=
  let s := I.min v (I.shuffleWXYZ v)
  I.min s (I.shuffleZWXY s)
/-- `graphene_simd4f_max_val` (simd4f.h:2367-2376) -/
def maxVal (v : Reg) : Reg :=
  let s := I.max v (I.shuffleWXYZ v)
  I.max s (I.shuffleZWXY s)

/-! ### include/graphene-simd4x4f.h -/

/-- `graphene_simd4x4f_init` (simd4x4f.h:72-86) -/
def minit (x y z w : Reg) : M4 Word := ⟨x, y, z, w⟩
/-- `graphene_simd4x4f_init_identity` (simd4x4f.h:96-103) -/
def identity : M4 Word :=
  minit (I.init w1 w0 w0 w0) (I.init w0 w1 w0 w0) (I.init w0 w0 w1 w0) (I.init w0 w0 w0 w1)
/-- `graphene_simd4x4f_init_from_float` (simd4x4f.h:115-123); `none` is an out-of-bounds read -/
def initFromFloat (f : Buf Word) : Option (M4 Word) := do
  let x ← I.init4f f
  let y ← I.init4f (f.drop 4)
  let z ← I.init4f (f.drop 8)
  let w ← I.init4f (f.drop 12)
  some ⟨x, y, z, w⟩
/-- `graphene_simd4f_dup_4f (s, v + n)` -/
def dup4fAt (s : Reg) (n : Nat) (v : Buf Word) : Option (Buf Word) := do
  let tl ← I.dup4f s (v.drop n)
  some (v.take n ++ tl)
/-- `graphene_simd4x4f_to_float` (simd4x4f.h:135-143); `none` is an out-of-bounds write -/
def toFloat (m : M4 Word) (v : Buf Word) : Option (Buf Word) := do
  let v ← dup4fAt I m.x 0 v
  let v ← dup4fAt I m.y 4 v
  let v ← dup4fAt I m.z 8 v
  dup4fAt I m.w 12 v
/-- `graphene_simd4x4f_sum` (simd4x4f.h:226-234) -/
def msum (a : M4 Word) : Reg :=
  let s := I.add a.x a.y
  let s := I.add s a.z
  let s := I.add s a.w
  s
/-- `graphene_simd4x4f_vec4_mul` (simd4x4f.h:269-284) -/
def vec4Mul (a : M4 Word) (b : Reg) : Reg :=
  let v := b
  let vx := I.splatX v
  let vy := I.splatY v
  let vz := I.splatZ v
  let vw := I.splatW v
  I.add (I.add (I.mul a.x vx) (I.mul a.y vy)) (I.add (I.mul a.z vz) (I.mul a.w vw))
/-- `graphene_simd4x4f_vec3_mul` (simd4x4f.h:320-334) -/
def vec3Mul (m : M4 Word) (v : Reg) : Reg :=
  let vx := I.splatX v
  let vy := I.splatY v
  let vz := I.splatZ v
  let r := I.add (I.add (I.mul m.x vx) (I.mul m.y vy)) (I.mul m.z vz)
  I.zeroW r
/-- `graphene_simd4x4f_point3_mul` (simd4x4f.h:372-386) -/
def point3Mul (m : M4 Word) (p : Reg) : Reg :=
  let v := p
  let vx := I.splatX v
  let vy := I.splatY v
  let vz := I.splatZ v
  I.add (I.add (I.mul m.x vx) (I.mul m.y vy)) (I.add (I.mul m.z vz) m.w)
/-- `graphene_simd4x4f_inv_ortho_vec3_mul` (simd4x4f.h:417-429) -/
def invOrthoVec3Mul (a : M4 Word) (b : Reg) : Reg :=
  let transpose := { a with w := I.init w0 w0 w0 w0 }
  let transpose := I.transpose transpose
  vec3Mul I transpose b
/-- `graphene_simd4x4f_inv_ortho_point3_mul` (simd4x4f.h:446-458) -/
def invOrthoPoint3Mul (a : M4 Word) (b : Reg) : Reg :=
  let translation := I.sub b a.w
  let transpose := { a with w := I.init w0 w0 w0 w0 }
  let transpose := I.transpose transpose
  point3Mul I transpose translation
/-- `graphene_simd4x4f_matrix_mul` (simd4x4f.h:486-545, the `#else` branch) -/
def matrixMul (a b : M4 Word) : M4 Word :=
  let x := vec4Mul I b a.x
  let y := vec4Mul I b a.y
  let z := vec4Mul I b a.z
  let w := vec4Mul I b a.w
  minit x y z w

/-- `graphene_simd4x4f_translation` (simd4x4f.h:782-792) -/
def translation (x y z : Word) : M4 Word :=
  minit (I.init w1 w0 w0 w0) (I.init w0 w1 w0 w0) (I.init w0 w0 w1 w0) (I.init x y z w1)
/-- `graphene_simd4x4f_scale` (simd4x4f.h:806-817) -/
def scale (x y z : Word) : M4 Word :=
  minit (I.init x w0 w0 w0) (I.init w0 y w0 w0) (I.init w0 w0 z w0) (I.init w0 w0 w0 w1)
/-- `graphene_simd4x4f_add` (simd4x4f.h:879-888) -/
def madd (a b : M4 Word) : M4 Word := ⟨I.add a.x b.x, I.add a.y b.y, I.add a.z b.z, I.add a.w b.w⟩
/-- `graphene_simd4x4f_sub` (simd4x4f.h:900-909) -/
def msub (a b : M4 Word) : M4 Word := ⟨I.sub a.x b.x, I.sub a.y b.y, I.sub a.z b.z, I.sub a.w b.w⟩
/-- `graphene_simd4x4f_mul` (simd4x4f.h:923-932) -/
def mmul (a b : M4 Word) : M4 Word := ⟨I.mul a.x b.x, I.mul a.y b.y, I.mul a.z b.z, I.mul a.w b.w⟩
/-- `graphene_simd4x4f_div` (simd4x4f.h:944-953) -/
def mdiv (a b : M4 Word) : M4 Word := ⟨I.div a.x b.x, I.div a.y b.y, I.div a.z b.z, I.div a.w b.w⟩

/-- `graphene_simd4x4f_inverse` (simd4x4f.h:966-1054); `none` is `return false` with `*res` not
written -/
def inverse (m : M4 Word) : Option (M4 Word) :=
  let r0 := m.x
  let r1 := m.y
  let r2 := m.z
  let r3 := m.w
  let r0_wxyz := I.shuffleWXYZ r0
  let r0_zwxy := I.shuffleZWXY r0
  let r0_yzwx := I.shuffleYZWX r0
  let r1_wxyz := I.shuffleWXYZ r1
  let r1_zwxy := I.shuffleZWXY r1
  let r1_yzwx := I.shuffleYZWX r1
  let r2_wxyz := I.shuffleWXYZ r2
  let r2_zwxy := I.shuffleZWXY r2
  let r2_yzwx := I.shuffleYZWX r2
  let r3_wxyz := I.shuffleWXYZ r3
  let r3_zwxy := I.shuffleZWXY r3
  let r3_yzwx := I.shuffleYZWX r3
  let r0_wxyz_x_r1 := I.mul r0_wxyz r1
  let r0_wxyz_x_r1_yzwx := I.mul r0_wxyz r1_yzwx
  let r0_wxyz_x_r1_zwxy := I.mul r0_wxyz r1_zwxy
  let r2_wxyz_x_r3 := I.mul r2_wxyz r3
  let r2_wxyz_x_r3_yzwx := I.mul r2_wxyz r3_yzwx
  let r2_wxyz_x_r3_zwxy := I.mul r2_wxyz r3_zwxy
  let ar1 := I.sub (I.shuffleWXYZ r2_wxyz_x_r3_zwxy) (I.shuffleZWXY r2_wxyz_x_r3)
  let ar2 := I.sub (I.shuffleZWXY r2_wxyz_x_r3_yzwx) r2_wxyz_x_r3_yzwx
  let ar3 := I.sub r2_wxyz_x_r3_zwxy (I.shuffleWXYZ r2_wxyz_x_r3)
  let br1 := I.sub (I.shuffleWXYZ r0_wxyz_x_r1_zwxy) (I.shuffleZWXY r0_wxyz_x_r1)
  let br2 := I.sub (I.shuffleZWXY r0_wxyz_x_r1_yzwx) r0_wxyz_x_r1_yzwx
  let br3 := I.sub r0_wxyz_x_r1_zwxy (I.shuffleWXYZ r0_wxyz_x_r1)
  let r0_sum := I.madd r0_yzwx ar3 (I.madd r0_zwxy ar2 (I.mul r0_wxyz ar1))
  let r1_sum := I.madd r1_wxyz ar1 (I.madd r1_zwxy ar2 (I.mul r1_yzwx ar3))
  let r2_sum := I.madd r2_yzwx br3 (I.madd r2_zwxy br2 (I.mul r2_wxyz br1))
  let r3_sum := I.madd r3_yzwx br3 (I.madd r3_zwxy br2 (I.mul r3_wxyz br1))
  let d0 := I.mul r1_sum r0
  let d1 := I.add d0 (I.mergeHigh d0 d0)
  let det := I.sub d1 (I.splatY d1)
  if cle wEps (cfabs (I.getX det)) then
    let invdet := I.splatX (I.div (I.splat w1) det)
    let o0 := I.mul (I.flipSign0101 r1_sum) invdet
    let o1 := I.mul (I.flipSign1010 r0_sum) invdet
    let o2 := I.mul (I.flipSign0101 r3_sum) invdet
    let o3 := I.mul (I.flipSign1010 r2_sum) invdet
    let mt := minit o0 o1 o2 o3
    some (I.transpose mt)
  else none

/-- `graphene_simd4x4f_determinant` (simd4x4f.h:1067-1117), with both results requested -/
def determinant (m : M4 Word) : Reg × Reg :=
  let r0 := m.x
  let r1 := m.y
  let r2 := m.z
  let r3 := m.w
  let r1_wxyz := I.shuffleWXYZ r1
  let r1_zwxy := I.shuffleZWXY r1
  let r1_yzwx := I.shuffleYZWX r1
  let r2_wxyz := I.shuffleWXYZ r2
  let r3_zwxy := I.shuffleZWXY r3
  let r3_yzwx := I.shuffleYZWX r3
  let r2_wxyz_x_r3 := I.mul r2_wxyz r3
  let r2_wxyz_x_r3_yzwx := I.mul r2_wxyz r3_yzwx
  let r2_wxyz_x_r3_zwxy := I.mul r2_wxyz r3_zwxy
  let ar1 := I.sub (I.shuffleWXYZ r2_wxyz_x_r3_zwxy) (I.shuffleZWXY r2_wxyz_x_r3)
  let ar2 := I.sub (I.shuffleZWXY r2_wxyz_x_r3_yzwx) r2_wxyz_x_r3_yzwx
  let ar3 := I.sub r2_wxyz_x_r3_zwxy (I.shuffleWXYZ r2_wxyz_x_r3)
  let r1_sum := I.madd r1_wxyz ar1 (I.madd r1_zwxy ar2 (I.mul r1_yzwx ar3))
  let d0 := I.mul r1_sum r0
  let d1 := I.add d0 (I.mergeHigh d0 d0)
  let det := I.sub d1 (I.splatY d1)
  let invdet := I.splatX (I.div (I.splat w1) det)
  (det, invdet)

/-- `graphene_simd4x4f_is_identity` (simd4x4f.h:1129-1141) -/
def isIdentity (m : M4 Word) : Bool :=
  let r0 := I.init w1 w0 w0 w0
  let r1 := I.init w0 w1 w0 w0
  let r2 := I.init w0 w0 w1 w0
  let r3 := I.init w0 w0 w0 w1
  I.cmpEq m.x r0 && I.cmpEq m.y r1 && I.cmpEq m.z r2 && I.cmpEq m.w r3

variable [Libm binary32] [H : Alu]

/-- `graphene_simd4x4f_is_2d` (simd4x4f.h:1155-1177) -/
def is2d (m : M4 Word) : Bool :=
  if !(clt (cfabs (I.getZ m.x)) wEps && clt (cfabs (I.getW m.x)) wEps) then false
  else if !(clt (cfabs (I.getZ m.y)) wEps && clt (cfabs (I.getW m.y)) wEps) then false
  else
    match I.dup4f m.z [w0, w0, w0, w0] with
    | some [f0, f1, f2, f3] =>
      if !(clt (cfabs f0) wEps && clt (cfabs f1) wEps && clt (H.sub w1 (cfabs f2)) wEps &&
          clt (cfabs f3) wEps) then false
      else if !(clt (cfabs (I.getZ m.w)) wEps && clt (H.sub w1 (cfabs (I.getW m.w))) wEps) then false
      else true
    | _ => false

/-- `graphene_simd4x4f_init_ortho` (simd4x4f.h:594-618) -/
def initOrtho (left right bottom top zNear zFar : Word) : M4 Word :=
  let deltaX := H.sub right left
  let deltaY := H.sub top bottom
  let deltaZ := H.sub zFar zNear
  let a := H.div w2 deltaX
  let b := H.div (cneg (H.add right left)) deltaX
  let c := H.div w2 deltaY
  let d := H.div (cneg (H.add top bottom)) deltaY
  let e := H.div wM2 deltaZ
  let f := H.div (cneg (H.add zFar zNear)) deltaZ
  ⟨I.init a w0 w0 w0, I.init w0 c w0 w0, I.init w0 w0 e w0, I.init b d f w1⟩

/-- `graphene_simd4x4f_init_frustum` (simd4x4f.h:695-716) -/
def initFrustum (left right bottom top zNear zFar : Word) : M4 Word :=
  let x := H.div (H.mul w2 zNear) (H.sub right left)
  let y := H.div (H.mul w2 zNear) (H.sub top bottom)
  let a := H.div (H.add right left) (H.sub right left)
  let b := H.div (H.add top bottom) (H.sub top bottom)
  let c := H.div (H.mul wM1 (H.add zFar zNear)) (H.sub zFar zNear)
  let d := H.div (H.mul (H.mul wM2 zFar) zNear) (H.sub zFar zNear)
  ⟨I.init x w0 w0 w0, I.init w0 y w0 w0, I.init a b c wM1, I.init w0 w0 d w0⟩

/-- `graphene_simd4x4f_perspective` (simd4x4f.h:727-769, the `#if 1` branch) -/
def perspective (m : M4 Word) (depth : Word) : M4 Word :=
  let m_xw := I.getW m.x
  let m_yw := I.getW m.y
  let m_zw := I.getW m.z
  let m_ww := I.getW m.w
  let p0 := H.add (I.getZ m.x) (H.mul (H.div wM1 depth) m_xw)
  let p1 := H.add (I.getZ m.y) (H.mul (H.div wM1 depth) m_yw)
  let p2 := H.add (I.getZ m.z) (H.mul (H.div wM1 depth) m_zw)
  let p3 := H.add (I.getZ m.w) (H.mul (H.div wM1 depth) m_ww)
  let p_x := I.mergeW m.x (H.add m_xw p0)
  let p_y := I.mergeW m.y (H.add m_yw p1)
  let p_z := I.mergeW m.z (H.add m_zw p2)
  let p_w := I.mergeW m.w (H.add m_ww p3)
  minit p_x p_y p_z p_w

/-- `graphene_simd4x4f_init_look_at` (simd4x4f.h:634-678).  The `double` expression of line 659
is evaluated on decoded values. -/
def initLookAt (eye center up : Reg) : Option (M4 Word) := do
  let direction := I.sub center eye
  let z_axis :=
    if clt (I.getX (I.dot3 direction direction)) wEps then I.init w0 w0 w1 w0
    else normalize3 I direction
  let cross := I.cross3 z_axis up
  let (z_axis, cross) :=
    if clt (I.getX (I.dot3 cross cross)) wEps then
      let tweak_z :=
        if Fp.lt (Fp.abs (Fp.sub (Fp.convert binary64 (decode (I.getZ up))) (Fp.lit 1 1))) (Fp.lit 1 8388608)
        then I.init wTweak w0 w0 w0
        else I.init w0 w0 wTweak w0
      let z_axis := I.add z_axis tweak_z
      let z_axis := normalize3 I z_axis
      (z_axis, I.cross3 z_axis up)
    else (z_axis, cross)
  let x_axis := normalize3 I cross
  let y_axis := I.cross3 x_axis z_axis
  let eye_v ← I.dup4f eye [w0, w0, w0, w0]
  some ⟨x_axis, y_axis, I.neg z_axis,
    I.init (cneg (← load eye_v 0)) (cneg (← load eye_v 1)) (cneg (← load eye_v 2)) w1⟩

end Inline
end Graphene

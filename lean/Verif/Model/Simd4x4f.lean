/-
  Model of include/graphene-simd4x4f.h and src/graphene-simd4x4f.c: the 4×4
  matrix type `graphene_simd4x4f_t`, stored as four row vectors.

  Functions that write a result through a pointer return it here; functions that
  return `bool` and write only on success return an `Option`.
-/
import Verif.Model.Simd4f

namespace Graphene

/-- `graphene_simd4x4f_t`: four rows (include/graphene-config.h.meson:113-119). -/
@[ext] structure M4 (α : Type) where
  x : V4 α
  y : V4 α
  z : V4 α
  w : V4 α
deriving DecidableEq

namespace Simd4x4f
variable {α : Type} [Scalar α]
open Simd4f (splatX splatY splatZ splatW)

/-- `graphene_simd4x4f_init` (simd4x4f.h:72-86). -/
def init (x y z w : V4 α) : M4 α := ⟨x, y, z, w⟩

/-- `graphene_simd4x4f_init_identity` (simd4x4f.h:96-103). -/
def identity : M4 α :=
  init (Simd4f.init f1 f0 f0 f0) (Simd4f.init f0 f1 f0 f0)
       (Simd4f.init f0 f0 f1 f0) (Simd4f.init f0 f0 f0 f1)

/-- `graphene_simd4x4f_init_from_float` (simd4x4f.h:115-123): reads 16 floats, row by row;
`none` is an out-of-bounds read. -/
def initFromFloat (f : Buf α) : Option (M4 α) := do
  let x ← Simd4f.init4f f
  let y ← Simd4f.init4f (f.drop 4)
  let z ← Simd4f.init4f (f.drop 8)
  let w ← Simd4f.init4f (f.drop 12)
  pure ⟨x, y, z, w⟩

/-- write a vector at an offset of a buffer (`graphene_simd4f_dup_4f (s, v + n)`). -/
def dup4fAt (s : V4 α) (n : Nat) (v : Buf α) : Option (Buf α) := do
  let tl ← Simd4f.dup4f s (v.drop n)
  pure (v.take n ++ tl)

/-- `graphene_simd4x4f_to_float` (simd4x4f.h:135-143): writes 16 floats;
`none` is an out-of-bounds write. -/
def toFloat (m : M4 α) (v : Buf α) : Option (Buf α) := do
  let v ← dup4fAt m.x 0 v
  let v ← dup4fAt m.y 4 v
  let v ← dup4fAt m.z 8 v
  dup4fAt m.w 12 v

/-- `graphene_simd4x4f_transpose_in_place` (simd4x4f.h:148-211; simd4x4f.c:64-88;
`_MM_TRANSPOSE4_PS` is the same permutation). -/
def transpose (s : M4 α) : M4 α :=
  ⟨⟨s.x.x, s.y.x, s.z.x, s.w.x⟩, ⟨s.x.y, s.y.y, s.z.y, s.w.y⟩,
   ⟨s.x.z, s.y.z, s.z.z, s.w.z⟩, ⟨s.x.w, s.y.w, s.z.w, s.w.w⟩⟩

/-- `graphene_simd4x4f_sum` (simd4x4f.h:226-234). -/
def sum (a : M4 α) : V4 α := Simd4f.add (Simd4f.add (Simd4f.add a.x a.y) a.z) a.w

/-- `graphene_simd4x4f_vec4_mul` (simd4x4f.h:269-284): row vector times matrix. -/
def vec4Mul (a : M4 α) (b : V4 α) : V4 α :=
  Simd4f.add (Simd4f.add (Simd4f.mul a.x (splatX b)) (Simd4f.mul a.y (splatY b)))
             (Simd4f.add (Simd4f.mul a.z (splatZ b)) (Simd4f.mul a.w (splatW b)))

/-- `graphene_simd4x4f_vec3_mul` (simd4x4f.h:320-334). -/
def vec3Mul (m : M4 α) (v : V4 α) : V4 α :=
  Simd4f.zeroW
    (Simd4f.add (Simd4f.add (Simd4f.mul m.x (splatX v)) (Simd4f.mul m.y (splatY v)))
                (Simd4f.mul m.z (splatZ v)))

/-- `graphene_simd4x4f_point3_mul` (simd4x4f.h:372-386). -/
def point3Mul (m : M4 α) (p : V4 α) : V4 α :=
  Simd4f.add (Simd4f.add (Simd4f.mul m.x (splatX p)) (Simd4f.mul m.y (splatY p)))
             (Simd4f.add (Simd4f.mul m.z (splatZ p)) m.w)

/-- `graphene_simd4x4f_inv_ortho_vec3_mul` (simd4x4f.h:417-429). -/
def invOrthoVec3Mul (a : M4 α) (b : V4 α) : V4 α :=
  let t := { a with w := Simd4f.init f0 f0 f0 f0 }
  vec3Mul (transpose t) b

/-- `graphene_simd4x4f_inv_ortho_point3_mul` (simd4x4f.h:446-458). -/
def invOrthoPoint3Mul (a : M4 α) (b : V4 α) : V4 α :=
  let translation := Simd4f.sub b a.w
  let t := { a with w := Simd4f.init f0 f0 f0 f0 }
  point3Mul (transpose t) translation

/-- `graphene_simd4x4f_matrix_mul` (simd4x4f.h:486-545, the `#else` branch). -/
def matrixMul (a b : M4 α) : M4 α :=
  init (vec4Mul b a.x) (vec4Mul b a.y) (vec4Mul b a.z) (vec4Mul b a.w)

/-- `graphene_simd4x4f_init_perspective` (simd4x4f.h:559-578).  `GRAPHENE_PI_2` is
`pi / 2`, which is exact in binary floating point. -/
def initPerspective (fovyRad aspect zNear zFar : α) : M4 α :=
  let deltaZ := zFar -. zNear
  let cotangent := Scalar.tan ((Scalar.pi /. f2) -. fovyRad *. Scalar.lit 1 2)
  let a := cotangent /. aspect
  let b := cotangent
  let c := Scalar.neg (zFar +. zNear) /. deltaZ
  let d := (Scalar.lit (-2) 1 *. zNear *. zFar) /. deltaZ
  ⟨Simd4f.init a f0 f0 f0, Simd4f.init f0 b f0 f0,
   Simd4f.init f0 f0 c (Scalar.lit (-1) 1), Simd4f.init f0 f0 d f0⟩

/-- `graphene_simd4x4f_init_ortho` (simd4x4f.h:594-618). -/
def initOrtho (left right bottom top zNear zFar : α) : M4 α :=
  let deltaX := right -. left
  let deltaY := top -. bottom
  let deltaZ := zFar -. zNear
  let a := f2 /. deltaX
  let b := Scalar.neg (right +. left) /. deltaX
  let c := f2 /. deltaY
  let d := Scalar.neg (top +. bottom) /. deltaY
  let e := Scalar.lit (-2) 1 /. deltaZ
  let f := Scalar.neg (zFar +. zNear) /. deltaZ
  ⟨Simd4f.init a f0 f0 f0, Simd4f.init f0 c f0 f0,
   Simd4f.init f0 f0 e f0, Simd4f.init b d f f1⟩

/-- `graphene_simd4x4f_init_look_at` (simd4x4f.h:634-678).  Line 659 computes
`fabs (up.z - 1.0) < FLT_EPSILON` in `double`. -/
def initLookAt {δ : Type} [Scalar δ] [FloatConv α δ] (bk : Backend) (eye center up : V4 α) : M4 α :=
  let direction := Simd4f.sub center eye
  let zAxis0 :=
    if (Simd4f.dot3 bk direction direction).x <. fltEps then Simd4f.init f0 f0 f1 f0
    else Simd4f.normalize3 bk direction
  let cross0 := Simd4f.cross3 bk zAxis0 up
  let zc : V4 α × V4 α :=
    if (Simd4f.dot3 bk cross0 cross0).x <. fltEps then
      let tweak :=
        if Scalar.abs ((FloatConv.widen up.z : δ) -. f1) <. fltEps then Simd4f.init (Scalar.lit 1 10000) f0 f0 f0
        else Simd4f.init f0 f0 (Scalar.lit 1 10000) f0
      let z := Simd4f.normalize3 bk (Simd4f.add zAxis0 tweak)
      (z, Simd4f.cross3 bk z up)
    else (zAxis0, cross0)
  let xAxis := Simd4f.normalize3 bk zc.2
  let yAxis := Simd4f.cross3 bk xAxis zc.1
  ⟨xAxis, yAxis, Simd4f.neg bk zc.1,
   Simd4f.init (Scalar.neg eye.x) (Scalar.neg eye.y) (Scalar.neg eye.z) f1⟩

/-- `graphene_simd4x4f_init_frustum` (simd4x4f.h:695-716). -/
def initFrustum (left right bottom top zNear zFar : α) : M4 α :=
  let x := (f2 *. zNear) /. (right -. left)
  let y := (f2 *. zNear) /. (top -. bottom)
  let a := (right +. left) /. (right -. left)
  let b := (top +. bottom) /. (top -. bottom)
  let c := (Scalar.lit (-1) 1 *. (zFar +. zNear)) /. (zFar -. zNear)
  let d := (Scalar.lit (-2) 1 *. zFar *. zNear) /. (zFar -. zNear)
  ⟨Simd4f.init x f0 f0 f0, Simd4f.init f0 y f0 f0,
   Simd4f.init a b c (Scalar.lit (-1) 1), Simd4f.init f0 f0 d f0⟩

/-- `graphene_simd4x4f_perspective` (simd4x4f.h:727-769, the `#if 1` branch). -/
def perspective (m : M4 α) (depth : α) : M4 α :=
  let k := Scalar.lit (-1) 1 /. depth
  let p0 := m.x.z +. k *. m.x.w
  let p1 := m.y.z +. k *. m.y.w
  let p2 := m.z.z +. k *. m.z.w
  let p3 := m.w.z +. k *. m.w.w
  init (Simd4f.mergeW m.x (m.x.w +. p0)) (Simd4f.mergeW m.y (m.y.w +. p1))
       (Simd4f.mergeW m.z (m.z.w +. p2)) (Simd4f.mergeW m.w (m.w.w +. p3))

/-- `graphene_simd4x4f_translation` (simd4x4f.h:782-792). -/
def translation (x y z : α) : M4 α :=
  init (Simd4f.init f1 f0 f0 f0) (Simd4f.init f0 f1 f0 f0)
       (Simd4f.init f0 f0 f1 f0) (Simd4f.init x y z f1)

/-- `graphene_simd4x4f_scale` (simd4x4f.h:806-816). -/
def scale (x y z : α) : M4 α :=
  init (Simd4f.init x f0 f0 f0) (Simd4f.init f0 y f0 f0)
       (Simd4f.init f0 f0 z f0) (Simd4f.init f0 f0 f0 f1)

/-- `graphene_simd4x4f_rotation` (simd4x4f.h:830-867). -/
def rotation (bk : Backend) (rad : α) (axis : V4 α) : M4 α :=
  let rad := Scalar.neg rad
  let axis := Simd4f.normalize3 bk axis
  let sine := Scalar.sin rad
  let cosine := Scalar.cos rad
  let x := axis.x
  let y := axis.y
  let z := axis.z
  let ab := x *. y *. (f1 -. cosine)
  let bc := y *. z *. (f1 -. cosine)
  let ca := z *. x *. (f1 -. cosine)
  let tx := x *. x
  let ty := y *. y
  let tz := z *. z
  init
    (Simd4f.init (tx +. cosine *. (f1 -. tx)) (ab -. z *. sine) (ca +. y *. sine) f0)
    (Simd4f.init (ab +. z *. sine) (ty +. cosine *. (f1 -. ty)) (bc -. x *. sine) f0)
    (Simd4f.init (ca -. y *. sine) (bc +. x *. sine) (tz +. cosine *. (f1 -. tz)) f0)
    (Simd4f.init f0 f0 f0 f1)

/-- `graphene_simd4x4f_add` (simd4x4f.h:879-888). -/
def add (a b : M4 α) : M4 α :=
  ⟨Simd4f.add a.x b.x, Simd4f.add a.y b.y, Simd4f.add a.z b.z, Simd4f.add a.w b.w⟩
/-- `graphene_simd4x4f_sub` (simd4x4f.h:900-909). -/
def sub (a b : M4 α) : M4 α :=
  ⟨Simd4f.sub a.x b.x, Simd4f.sub a.y b.y, Simd4f.sub a.z b.z, Simd4f.sub a.w b.w⟩
/-- `graphene_simd4x4f_mul` (simd4x4f.h:923-932): component-wise. -/
def mul (a b : M4 α) : M4 α :=
  ⟨Simd4f.mul a.x b.x, Simd4f.mul a.y b.y, Simd4f.mul a.z b.z, Simd4f.mul a.w b.w⟩
/-- `graphene_simd4x4f_div` (simd4x4f.h:944-953): component-wise. -/
def div (bk : Backend) (a b : M4 α) : M4 α :=
  ⟨Simd4f.div bk a.x b.x, Simd4f.div bk a.y b.y, Simd4f.div bk a.z b.z, Simd4f.div bk a.w b.w⟩

/-- `ar1` and `br1` of `graphene_simd4x4f_inverse` (simd4x4f.h:1001-1002, 1008-1009):
2×2 minors of a pair of rows. -/
def minor1 (ra rb : V4 α) : V4 α :=
  let a := Simd4f.shuffleWXYZ ra
  Simd4f.sub (Simd4f.shuffleWXYZ (Simd4f.mul a (Simd4f.shuffleZWXY rb)))
             (Simd4f.shuffleZWXY (Simd4f.mul a rb))
/-- `ar2` and `br2` (simd4x4f.h:1003-1004, 1010-1011). -/
def minor2 (ra rb : V4 α) : V4 α :=
  let a := Simd4f.shuffleWXYZ ra
  let p := Simd4f.mul a (Simd4f.shuffleYZWX rb)
  Simd4f.sub (Simd4f.shuffleZWXY p) p
/-- `ar3` and `br3` (simd4x4f.h:1005-1006, 1012-1013). -/
def minor3 (ra rb : V4 α) : V4 α :=
  let a := Simd4f.shuffleWXYZ ra
  Simd4f.sub (Simd4f.mul a (Simd4f.shuffleZWXY rb)) (Simd4f.shuffleWXYZ (Simd4f.mul a rb))

/-- `r1_sum` (simd4x4f.h:1019-1022, 1099-1102). -/
def r1Sum (bk : Backend) (m : M4 α) : V4 α :=
  Simd4f.madd bk (Simd4f.shuffleWXYZ m.y) (minor1 m.z m.w)
    (Simd4f.madd bk (Simd4f.shuffleZWXY m.y) (minor2 m.z m.w)
      (Simd4f.mul (Simd4f.shuffleYZWX m.y) (minor3 m.z m.w)))

/-- `det` (simd4x4f.h:1033-1035, 1105-1108). -/
def detVec (bk : Backend) (m : M4 α) : V4 α :=
  let d0 := Simd4f.mul (r1Sum bk m) m.x
  let d1 := Simd4f.add d0 (Simd4f.mergeHigh d0 d0)
  Simd4f.sub d1 (splatY d1)

/-- `r0_sum` (simd4x4f.h:1015-1018), `r2_sum` (1023-1026) and `r3_sum` (1027-1030) have
the same shape: a row against the minors of a pair of rows. -/
def rowSum (bk : Backend) (r ra rb : V4 α) : V4 α :=
  Simd4f.madd bk (Simd4f.shuffleYZWX r) (minor3 ra rb)
    (Simd4f.madd bk (Simd4f.shuffleZWXY r) (minor2 ra rb)
      (Simd4f.mul (Simd4f.shuffleWXYZ r) (minor1 ra rb)))

/-- `graphene_simd4x4f_inverse` (simd4x4f.h:966-1054); `none` is `return false` with
`*res` not written. -/
def inverse (bk : Backend) (m : M4 α) : Option (M4 α) :=
  let det := detVec bk m
  if Scalar.abs det.x >=. fltEps then
    let invdet := splatX (Simd4f.div bk (Simd4f.splat f1) det)
    let o0 := Simd4f.mul (Simd4f.flipSign0101 (r1Sum bk m)) invdet
    let o1 := Simd4f.mul (Simd4f.flipSign1010 (rowSum bk m.x m.z m.w)) invdet
    let o2 := Simd4f.mul (Simd4f.flipSign0101 (rowSum bk m.w m.x m.y)) invdet
    let o3 := Simd4f.mul (Simd4f.flipSign1010 (rowSum bk m.z m.x m.y)) invdet
    some (transpose (init o0 o1 o2 o3))
  else none

/-- `graphene_simd4x4f_determinant` (simd4x4f.h:1067-1117): determinant vector and
inverse determinant vector. -/
def determinant (bk : Backend) (m : M4 α) : V4 α × V4 α :=
  let det := detVec bk m
  (det, splatX (Simd4f.div bk (Simd4f.splat f1) det))

/-- `graphene_simd4x4f_is_identity` (simd4x4f.h:1129-1141). -/
def isIdentity (bk : Backend) (m : M4 α) : Bool :=
  Simd4f.cmpEq bk m.x (Simd4f.init f1 f0 f0 f0) && Simd4f.cmpEq bk m.y (Simd4f.init f0 f1 f0 f0) &&
  Simd4f.cmpEq bk m.z (Simd4f.init f0 f0 f1 f0) && Simd4f.cmpEq bk m.w (Simd4f.init f0 f0 f0 f1)

/-- `graphene_simd4x4f_is_2d` (simd4x4f.h:1155-1177). -/
def is2d (m : M4 α) : Bool :=
  if !(Scalar.abs m.x.z <. fltEps && Scalar.abs m.x.w <. fltEps) then false
  else if !(Scalar.abs m.y.z <. fltEps && Scalar.abs m.y.w <. fltEps) then false
  else if !(Scalar.abs m.z.x <. fltEps && Scalar.abs m.z.y <. fltEps &&
            (f1 -. Scalar.abs m.z.z) <. fltEps && Scalar.abs m.z.w <. fltEps) then false
  else if !(Scalar.abs m.w.z <. fltEps && (f1 -. Scalar.abs m.w.w) <. fltEps) then false
  else true

end Simd4x4f
end Graphene

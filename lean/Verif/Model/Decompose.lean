/-
  Model of the decomposition and interpolation functions of src/graphene-matrix.c
  (1843-2287).
-/
import Verif.Model.Quat

namespace Graphene

/-- Outcome of a C function that may return `false` or read an uninitialised object. -/
inductive Res (T : Type) where
  /-- an uninitialised object was read: undefined behaviour -/
  | ub
  /-- `return false` -/
  | fail
  | ok (v : T)

/-- the outputs of `matrix_decompose_2d`: `angle` is a `double`, in degrees; `m` is the
array `m_r` in the order `M_11, M_12, M_21, M_22` (matrix.c:1847-1850). -/
structure Decomp2D (α δ : Type) where
  translate : Vec2 α
  scale : Vec2 α
  angle : δ
  m : V4 α

/-- the outputs of `graphene_matrix_decompose`. -/
structure Decomp3D (α : Type) where
  translate : Vec3 α
  scale : Vec3 α
  rotate : Quat α
  shear : Vec3 α
  perspective : Vec4 α

namespace GMatrix
variable {α δ : Type} [Scalar α] [Scalar δ] [FloatConv α δ]

/-- `matrix_decompose_2d` (matrix.c:1852-1922); `none` is `return false`. -/
def decompose2d (m : M4 α) : Option (Decomp2D α δ) :=
  let r0x := getValue m 0 0
  let r0y := getValue m 1 0
  let r1x := getValue m 0 1
  let r1y := getValue m 1 1
  if Scalar.abs (r0x *. r1y -. r0y *. r1x) <. fltEps then none
  else
    let translate := Vec2.init (getValue m 3 0) (getValue m 3 1)
    let sx0 := Scalar.sqrt (r0x *. r0x +. r0y *. r0y)
    let sy0 := Scalar.sqrt (r1x *. r1x +. r1y *. r1y)
    let det := r0x *. r1y -. r0y *. r1x
    let sx := if (det <. f0) && (r0x <. r1y) then Scalar.neg sx0 else sx0
    let sy := if (det <. f0) && !(r0x <. r1y) then Scalar.neg sy0 else sy0
    let a0x := if !approxVal sx f0 then r0x *. (f1 /. sx) else r0x
    let a0y := if !approxVal sx f0 then r0y *. (f1 /. sy) else r0y
    let a1x := if !approxVal sy f0 then r1x *. (f1 /. sx) else r1x
    let a1y := if !approxVal sy f0 then r1y *. (f1 /. sy) else r1y
    let angle := Scalar.atan2 a0y a0x
    let res : V4 α :=
      if Scalar.abs angle >. fltEps then
        let sn : δ := FloatConv.widen (Scalar.neg a0y)
        let cs : δ := FloatConv.widen a0x
        let m11 : δ := FloatConv.widen a0x
        let m12 : δ := FloatConv.widen a0y
        let m21 : δ := FloatConv.widen a1x
        let m22 : δ := FloatConv.widen a1y
        ⟨FloatConv.narrow (cs *. m11 +. sn *. m21), FloatConv.narrow (cs *. m12 +. sn *. m22),
         FloatConv.narrow (Scalar.neg sn *. m11 +. cs *. m21),
         FloatConv.narrow (Scalar.neg sn *. m12 +. cs *. m22)⟩
      else ⟨a0x, a0y, a1x, a1y⟩
    some ⟨translate, Vec2.init sx sy, FloatConv.widen (radToDeg angle), res⟩

/-- `matrix_decompose_3d` (matrix.c:1924-2039).  A `NaN` determinant passes the test of
line 1961 but makes `graphene_matrix_inverse` fail, so that the uninitialised `tmp`
is read (1977-1978). -/
def decompose3d (bk : Backend) (m : M4 α) : Res (Decomp3D α) :=
  if approxVal m.w.w f0 then .fail
  else
    let n := match normalize m with
      | some n => n
      | none => m
    let perspV := Simd4f.init n.x.w n.y.w n.z.w n.w.w
    let l : M4 α := ⟨Simd4f.mergeW n.x f0, Simd4f.mergeW n.y f0, Simd4f.mergeW n.z f0,
      Simd4f.mergeW n.w f1⟩
    if approxVal (determinant bk l) f0 then .fail
    else
      let persp : Option (Vec4 α) :=
        if !Simd4f.isZero3 perspV then
          match inverse bk l with
          | none => none
          | some tmp => some (transformVec4 tmp ⟨perspV⟩)
        else some (Vec4.init f0 f0 f0 f1)
      match persp with
      | none => .ub
      | some persp =>
        let translate : Vec3 α := ⟨Simd4f.mergeW l.w f0⟩
        let w := Simd4f.init f0 f0 f0 l.w.w
        let sx := (Simd4f.length4 bk l.x).x
        let x := Simd4f.normalize4 bk l.x
        let shXY := (Simd4f.dot4 x l.y).x
        let y1 := Simd4f.sub l.y (Simd4f.mul x (Simd4f.splat shXY))
        let sy := (Simd4f.length4 bk y1).x
        let y := Simd4f.normalize4 bk y1
        let shXZ := (Simd4f.dot4 x l.z).x
        let z1 := Simd4f.sub l.z (Simd4f.mul x (Simd4f.splat shXZ))
        let shYZ := (Simd4f.dot4 y z1).x
        let z2 := Simd4f.sub z1 (Simd4f.mul y (Simd4f.splat shYZ))
        let sz := (Simd4f.length4 bk z2).x
        let z := Simd4f.normalize4 bk z2
        let shear := Vec3.init (shXY /. sy) (shXZ /. sz) (shYZ /. sz)
        let flip := (Simd4f.dot3 bk x (Simd4f.cross3 bk y z)).x <. f0
        let mone : α := Scalar.lit (-1) 1
        let scale :=
          if flip then Vec3.init (sx *. mone) (sy *. mone) (sz *. mone) else Vec3.init sx sy sz
        let local' : M4 α :=
          if flip then ⟨Simd4f.neg bk x, Simd4f.neg bk y, Simd4f.neg bk z, w⟩ else ⟨x, y, z, w⟩
        .ok ⟨translate, scale, Quat.initFromMatrix local', shear, persp⟩

/-- `graphene_matrix_decompose` (matrix.c:2060-2096). -/
def decompose (δ : Type) [Scalar δ] [FloatConv α δ] (bk : Backend) (m : M4 α) : Res (Decomp3D α) :=
  if isIdentity bk m then
    .ok ⟨⟨Simd4f.initZero⟩, ⟨Simd4f.init f1 f1 f1 f0⟩, Quat.initFromAngles f0 f0 f0,
         ⟨Simd4f.initZero⟩, ⟨Simd4f.initZero⟩⟩
  else if is2d m then
    match (decompose2d m : Option (Decomp2D α δ)) with
    | none => .fail
    | some d =>
      .ok ⟨⟨d.translate.value⟩, ⟨d.scale.value⟩,
           Quat.initFromAngles f0 f0 (FloatConv.narrow d.angle), Vec3.zero, Vec4.zero⟩
  else decompose3d bk m

/-- `DBL_EPSILON` = 2^-52. -/
def dblEps : δ := Scalar.lit 1 4503599627370496

/-- `graphene_flerp` (src/graphene-private.h:128-132). -/
def flerp (a b factor : δ) : δ := ((f1 -. factor) *. a) +. (factor *. b)

/-- the part of `graphene_matrix_interpolate` that combines two successful 2D
decompositions (matrix.c:2147-2211). -/
def recompose2d (bk : Backend) (a b : Decomp2D α δ) (factor : δ) : M4 α :=
  let flip := (((Vec2.getX a.scale) <. f0) && ((Vec2.getY b.scale) <. f0)) ||
    (((Vec2.getY a.scale) <. f0) && ((Vec2.getX b.scale) <. f0))
  let scaleA := if flip then Vec2.negate bk a.scale else a.scale
  let ra := if flip then
      a.angle +. (if a.angle <. f0 then Scalar.lit 180 1 else Scalar.lit (-180) 1)
    else a.angle
  let ra := if Scalar.abs ra <=. dblEps then Scalar.lit 360 1 else ra
  let rb := if Scalar.abs b.angle <=. dblEps then Scalar.lit 360 1 else b.angle
  let far := Scalar.abs (ra -. rb) >. Scalar.lit 180 1
  let ra' := if far && (ra >. rb) then ra -. Scalar.lit 360 1 else ra
  let rb' := if far && !(ra >. rb) then rb -. Scalar.lit 360 1 else rb
  let translate := Vec2.interpolate a.translate b.translate factor
  let scale := Vec2.interpolate scaleA b.scale factor
  let rot := flerp ra' rb' factor
  let v := Simd4f.interpolate a.m b.m (FloatConv.narrow factor)
  let m11 := v.x
  let m12 := v.y
  let m21 := v.z
  let m22 := v.w
  let tx := Vec2.getX translate
  let ty := Vec2.getY translate
  let r0 : M4 α :=
    ⟨Simd4f.init m11 m21 f0 f0, Simd4f.init m12 m22 f0 f0, Simd4f.init f0 f0 f1 f0,
     Simd4f.init (tx *. m11 +. ty *. m21) (tx *. m12 +. ty *. m22) f0 f1⟩
  let rad := degToRad (FloatConv.narrow rot)
  let s := Scalar.sin rad
  let c := Scalar.cos rad
  let rotM : M4 α :=
    ⟨Simd4f.init c (Scalar.neg s) f0 f0, Simd4f.init s c f0 f0,
     Simd4f.init f0 f0 f1 f0, Simd4f.init f0 f0 f0 f1⟩
  let r1 := Simd4x4f.matrixMul r0 rotM
  Simd4x4f.matrixMul r1 (Simd4x4f.scale (Vec2.getX scale) (Vec2.getY scale) f1)

/-- the part of `graphene_matrix_interpolate` that combines two successful 3D
decompositions (matrix.c:2239-2277). -/
def recompose3d (bk : Backend) (a b : Decomp3D α) (factor : δ) : M4 α :=
  let f := FloatConv.narrow factor
  let tmp := Simd4f.interpolate a.perspective.value b.perspective.value f
  let r : M4 α :=
    ⟨Simd4f.init f1 f0 f0 tmp.x, Simd4f.init f0 f1 f0 tmp.y,
     Simd4f.init f0 f0 f1 tmp.z, Simd4f.init f0 f0 f0 tmp.w⟩
  let t := Point3D.initFromVec3 (Vec3.interpolate a.translate b.translate factor)
  let r := translate r t
  let r := rotateQuaternion r (Quat.slerp a.rotate b.rotate f)
  let sh := (Vec3.interpolate a.shear b.shear factor).value
  let r := if !approxVal sh.z f0 then skewYZ bk r sh.z else r
  let r := if !approxVal sh.y f0 then skewXZ bk r sh.y else r
  let r := if !approxVal sh.x f0 then skewXY bk r sh.x else r
  let s := Point3D.initFromVec3 (Vec3.interpolate a.scale b.scale factor)
  if !approxVal s.x f1 || !approxVal s.y f1 || !approxVal s.z f1 then scale r s.x s.y s.z else r

/-- `graphene_matrix_interpolate` (matrix.c:2115-2279) with `res` distinct from `a` and `b`.
`success |= …` only stops when BOTH decompositions fail (2139-2144, 2231-2236); if exactly
one fails, its uninitialised outputs are read. -/
def interpolate (bk : Backend) (a b : M4 α) (factor : δ) : Res (M4 α) :=
  if is2d a && is2d b then
    match (decompose2d a : Option (Decomp2D α δ)), (decompose2d b : Option (Decomp2D α δ)) with
    | none, none => .ok initIdentity
    | some da, some db => .ok (recompose2d bk da db factor)
    | _, _ => .ub
  else
    match decompose3d bk a, decompose3d bk b with
    | .fail, .fail => .ok initIdentity
    | .ok da, .ok db => .ok (recompose3d bk da db factor)
    | _, _ => .ub

/-- `graphene_matrix_interpolate` on memory: `*res` is overwritten with the identity
(matrix.c:2126) before `*a` and `*b` are read. -/
def interpolateP (bk : Backend) (m : Mem (M4 α)) (a b : Nat) (factor : δ) (res : Nat) :
    Res (Mem (M4 α)) :=
  let m := m.upd res initIdentity
  match interpolate bk (m a) (m b) factor with
  | .ok r => .ok (m.upd res r)
  | .fail => .fail
  | .ub => .ub

end GMatrix
end Graphene

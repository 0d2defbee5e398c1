/-
  Model of src/graphene-euler.c, `graphene_quaternion_init_from_euler`
  (quaternion.c:546-553) and `graphene_matrix_rotate_euler` (matrix.c:1469-1477).
-/
import Verif.Model.Quat

namespace Graphene

/-- The 24 non-deprecated values of `graphene_euler_order_t`, in the order of the enum
(include/graphene-euler.h:97-122), which is also the order of the private enum that
indexes `order_parameters` (euler.c:110-142). -/
inductive RealOrder where
  | SXYZ | SXYX | SXZY | SXZX | SYZX | SYZY | SYXZ | SYXY | SZXY | SZXZ | SZYX | SZYZ
  | RZYX | RXYX | RYZX | RXZX | RXZY | RYZY | RZXY | RYXY | RYXZ | RZXZ | RXYZ | RZYZ
deriving DecidableEq, Repr

/-- `graphene_euler_order_t` (include/graphene-euler.h:85-123): the default, the six
deprecated values and the 24 current ones. -/
inductive EulerOrder where
  | default
  | XYZ | YZX | ZXY | XZY | YXZ | ZYX
  | real (o : RealOrder)
deriving DecidableEq, Repr

/-- `struct axis_param` (euler.c:144-154). -/
structure AxisParam where
  firstAxis : Nat
  parity : Bool
  repetition : Bool
  frame : Bool
deriving DecidableEq, Repr

/-- `order_parameters[ORDER_OFFSET (order)]` (euler.c:107, 157-189). -/
def RealOrder.params : RealOrder → AxisParam
  | .SXYZ => ⟨0, false, false, false⟩
  | .SXYX => ⟨0, false, true,  false⟩
  | .SXZY => ⟨0, true,  false, false⟩
  | .SXZX => ⟨0, true,  true,  false⟩
  | .SYZX => ⟨1, false, false, false⟩
  | .SYZY => ⟨1, false, true,  false⟩
  | .SYXZ => ⟨1, true,  false, false⟩
  | .SYXY => ⟨1, true,  true,  false⟩
  | .SZXY => ⟨2, false, false, false⟩
  | .SZXZ => ⟨2, false, true,  false⟩
  | .SZYX => ⟨2, true,  false, false⟩
  | .SZYZ => ⟨2, true,  true,  false⟩
  | .RZYX => ⟨0, false, false, true⟩
  | .RXYX => ⟨0, false, true,  true⟩
  | .RYZX => ⟨0, true,  false, true⟩
  | .RXZX => ⟨0, true,  true,  true⟩
  | .RXZY => ⟨1, false, false, true⟩
  | .RYZY => ⟨1, false, true,  true⟩
  | .RZXY => ⟨1, true,  false, true⟩
  | .RYXY => ⟨1, true,  true,  true⟩
  | .RYXZ => ⟨2, false, false, true⟩
  | .RZXZ => ⟨2, false, true,  true⟩
  | .RXYZ => ⟨2, true,  false, true⟩
  | .RZYZ => ⟨2, true,  true,  true⟩

/-- `next_axis` (euler.c:192). -/
def nextAxis : Nat → Nat
  | 0 => 1
  | 1 => 2
  | 2 => 0
  | _ => 1

/-- `j` (euler.c:209, 292). -/
def AxisParam.j (p : AxisParam) : Nat := nextAxis (p.firstAxis + (if p.parity then 1 else 0))
/-- `k` (euler.c:210, 293): `next_axis[i - parity + 1]`, an `int` expression that is
never negative. -/
def AxisParam.k (p : AxisParam) : Nat := nextAxis (p.firstAxis + 1 - (if p.parity then 1 else 0))

/-- `graphene_euler_get_real_order` (euler.c:410-441). -/
def EulerOrder.realOrder : EulerOrder → RealOrder
  | .XYZ => .SXYZ
  | .YXZ => .SYXZ
  | .ZXY => .SZXY
  | .ZYX => .SZYX
  | .YZX => .SYZX
  | .XZY => .SXZY
  | .default => .SXYZ
  | .real o => o

/-- `graphene_euler_t` (include/graphene-euler.h). -/
structure Euler (α : Type) where
  angles : Vec3 α
  order : EulerOrder

namespace Euler
variable {α : Type} [Scalar α]

/-- the store `M (m, r, c) = v` with `#define M(m, r, c) (m)[((c) << 2) + (r)]`
(euler.c:243), on an array seen as a function of `(r, c)`. -/
def setM (m : Nat → Nat → α) (r c : Nat) (v : α) : Nat → Nat → α :=
  fun r' c' => if r' = r ∧ c' = c then v else m r' c'

/-- the array `m` read by `graphene_matrix_init_from_float` (euler.c:281): element
`(c << 2) + r` is row `c`, column `r` of the matrix. -/
def ofM (m : Nat → Nat → α) : M4 α :=
  ⟨⟨m 0 0, m 1 0, m 2 0, m 3 0⟩, ⟨m 0 1, m 1 1, m 2 1, m 3 1⟩,
   ⟨m 0 2, m 1 2, m 2 2, m 3 2⟩, ⟨m 0 3, m 1 3, m 2 3, m 3 3⟩⟩

/-- `euler_to_matrix` (euler.c:201-282).  The sixteen elements are all stored, so the
initial content of the local array does not matter; it is `0.f` here, and the stores of
the last row and column (275-277) come first. -/
def angleMatrix (ai aj ak : α) (p : AxisParam) : M4 α :=
  let i := p.firstAxis
  let j := p.j
  let k := p.k
  let a1 := if p.frame then ak else ai
  let a3 := if p.frame then ai else ak
  let mone : α := Scalar.lit (-1) 1
  let ai := if p.parity then a1 *. mone else a1
  let aj := if p.parity then aj *. mone else aj
  let ak := if p.parity then a3 *. mone else a3
  let si := Scalar.sin ai
  let ci := Scalar.cos ai
  let sj := Scalar.sin aj
  let cj := Scalar.cos aj
  let sk := Scalar.sin ak
  let ck := Scalar.cos ak
  let cc := ci *. ck
  let cs := ci *. sk
  let sc := si *. ck
  let ss := si *. sk
  let m0 : Nat → Nat → α := fun r c => if r = 3 ∧ c = 3 then f1 else f0
  if p.repetition then
    let m := setM m0 i i cj
    let m := setM m i j (sj *. si)
    let m := setM m i k (sj *. ci)
    let m := setM m j i (sj *. sk)
    let m := setM m j j (Scalar.neg cj *. ss +. cc)
    let m := setM m j k (Scalar.neg cj *. cs -. sc)
    let m := setM m k i (Scalar.neg sj *. ck)
    let m := setM m k j (cj *. sc +. cs)
    let m := setM m k k (cj *. cc -. ss)
    ofM m
  else
    let m := setM m0 i i (cj *. ck)
    let m := setM m i j (sj *. sc -. cs)
    let m := setM m i k (sj *. cc +. ss)
    let m := setM m j i (cj *. sk)
    let m := setM m j j (sj *. ss +. cc)
    let m := setM m j k (sj *. cs -. sc)
    let m := setM m k i (Scalar.neg sj)
    let m := setM m k j (cj *. si)
    let m := setM m k k (cj *. ci)
    ofM m

/-- `matrix_to_euler` (euler.c:284-368). -/
def anglesOf (matrix : M4 α) (p : AxisParam) : α × α × α :=
  let i := p.firstAxis
  let j := p.j
  let k := p.k
  let M := fun r c => GMatrix.getValue matrix c r
  let mone : α := Scalar.lit (-1) 1
  let thr : α := Scalar.lit 16 1 *. fltEps
  let a : α × α × α :=
    if p.repetition then
      let sy := Scalar.sqrt (M i j *. M i j +. M i k *. M i j)
      if sy >=. thr then
        (Scalar.atan2 (M i j) (M i k), Scalar.atan2 sy (M i i),
         Scalar.atan2 (M j i) (M k i *. mone))
      else
        (Scalar.atan2 (M j k *. mone) (M j j), Scalar.atan2 sy (M i i), f0)
    else
      let cy := Scalar.sqrt (M i i *. M i i +. M j i *. M j i)
      if cy >=. thr then
        (Scalar.atan2 (M k j) (M k k), Scalar.atan2 (M k i *. mone) cy,
         Scalar.atan2 (M j i) (M i i))
      else
        (Scalar.atan2 (M j k *. mone) (M j j), Scalar.atan2 (M k i *. mone) cy, f0)
  let b : α × α × α :=
    if p.parity then (a.1 *. mone, a.2.1 *. mone, a.2.2 *. mone) else a
  if p.frame then (b.2.2, b.2.1, b.1) else b

/-- `graphene_euler_init_internal` (euler.c:456-467) and
`graphene_euler_init_from_radians` (661-669). -/
def initFromRadians (x y z : α) (order : EulerOrder) : Euler α :=
  ⟨Vec3.init x y z, .real order.realOrder⟩
/-- `graphene_euler_init_with_order` (euler.c:511-523). -/
def initWithOrder (x y z : α) (order : EulerOrder) : Euler α :=
  initFromRadians (degToRad x) (degToRad y) (degToRad z) order
/-- `graphene_euler_init` (euler.c:484-495). -/
def init (x y z : α) : Euler α := initWithOrder x y z .default
/-- `graphene_euler_init_from_matrix` (euler.c:540-555); `none` is `NULL`. -/
def initFromMatrix (bk : Backend) (m : Option (M4 α)) (order : EulerOrder) : Euler α :=
  match m with
  | none => initWithOrder f0 f0 f0 order
  | some m =>
    if GMatrix.isIdentity bk m then initWithOrder f0 f0 f0 order
    else
      let a := anglesOf m order.realOrder.params
      initFromRadians a.1 a.2.1 a.2.2 (.real order.realOrder)
/-- `graphene_euler_init_from_quaternion` (euler.c:572-585); `none` is `NULL`. -/
def initFromQuaternion (bk : Backend) (q : Option (Quat α)) (order : EulerOrder) : Euler α :=
  match q with
  | none => initWithOrder f0 f0 f0 order
  | some q => initFromMatrix bk (some q.toMatrix) (.real order.realOrder)
/-- `graphene_euler_init_from_vec3` (euler.c:604-617); `none` is `NULL`. -/
def initFromVec3 (v : Option (Vec3 α)) (order : EulerOrder) : Euler α :=
  ⟨match v with
   | some v => Vec3.scale v (Scalar.pi /. Scalar.lit 180 1)
   | none => Vec3.zero, .real order.realOrder⟩
/-- `graphene_euler_init_from_euler` (euler.c:634-644); `none` is `NULL`. -/
def initFromEuler (src : Option (Euler α)) : Euler α :=
  match src with
  | some s => s
  | none => init f0 f0 f0
/-- `euler_equal` (euler.c:671-679). -/
def equalV (bk : Backend) (a b : Euler α) : Bool :=
  Vec3.equalV bk a.angles b.angles && a.order = b.order
/-- `graphene_euler_equal` (euler.c:692-697). -/
def equal (bk : Backend) (m : Mem (Euler α)) (p1 p2 : Ptr) : Bool :=
  pointerEqual m p1 p2 (equalV bk)
/-- `graphene_euler_get_x` (euler.c:709-713). -/
def getX (e : Euler α) : α := radToDeg (Vec3.getX e.angles)
/-- `graphene_euler_get_y` (euler.c:725-729). -/
def getY (e : Euler α) : α := radToDeg (Vec3.getY e.angles)
/-- `graphene_euler_get_z` (euler.c:741-745). -/
def getZ (e : Euler α) : α := radToDeg (Vec3.getZ e.angles)
/-- `graphene_euler_get_order` (euler.c:763-770). -/
def getOrder (e : Euler α) : EulerOrder :=
  if e.order = .default then .real .SXYZ else e.order
/-- `graphene_euler_to_vec3` (euler.c:782-788). -/
def toVec3 (e : Euler α) : Vec3 α := Vec3.scale e.angles (Scalar.lit 180 1 /. Scalar.pi)
/-- `graphene_euler_get_alpha` (euler.c:803-845). -/
def getAlpha (e : Euler α) : α :=
  match e.order.realOrder with
  | .SXYZ | .SXYX | .SXZY | .SXZX | .RXYX | .RXZX | .RXZY | .RXYZ => Vec3.getX e.angles
  | .SYZX | .SYZY | .SYXZ | .SYXY | .RYZX | .RYZY | .RYXY | .RYXZ => Vec3.getY e.angles
  | .SZXY | .SZXZ | .SZYX | .SZYZ | .RZYX | .RZXY | .RZXZ | .RZYZ => Vec3.getZ e.angles
/-- `graphene_euler_get_beta` (euler.c:860-902). -/
def getBeta (e : Euler α) : α :=
  match e.order.realOrder with
  | .SYXZ | .SYXY | .SZXY | .SZXZ | .RZXY | .RYXY | .RYXZ | .RZXZ => Vec3.getX e.angles
  | .SXYZ | .SXYX | .SZYX | .SZYZ | .RZYX | .RXYX | .RXYZ | .RZYZ => Vec3.getY e.angles
  | .SYZX | .SYZY | .SXZY | .SXZX | .RYZX | .RXZX | .RXZY | .RYZY => Vec3.getZ e.angles
/-- `graphene_euler_get_gamma` (euler.c:917-959). -/
def getGamma (e : Euler α) : α :=
  match e.order.realOrder with
  | .SXYX | .SZYX | .SYZX | .SXZX | .RZYX | .RXYX | .RYZX | .RXZX => Vec3.getX e.angles
  | .SYZY | .SXZY | .SYXY | .SZXY | .RXZY | .RYZY | .RZXY | .RYXY => Vec3.getY e.angles
  | .SZYZ | .SYXZ | .SXYZ | .SZXZ | .RYXZ | .RZXZ | .RXYZ | .RZYZ => Vec3.getZ e.angles
/-- `graphene_euler_to_matrix` (euler.c:985-999). -/
def toMatrix (e : Euler α) : M4 α :=
  angleMatrix (getAlpha e) (getBeta e) (getGamma e) e.order.realOrder.params
/-- `graphene_euler_to_quaternion` (euler.c:1010-1050). -/
def toQuaternion (e : Euler α) : Quat α :=
  let half : α := Scalar.lit 1 2
  let ti := Vec3.getX e.angles *. half
  let tj := Vec3.getY e.angles *. half
  let tk := Vec3.getZ e.angles *. half
  let si := Scalar.sin ti
  let ci := Scalar.cos ti
  let sj := Scalar.sin tj
  let cj := Scalar.cos tj
  let sk := Scalar.sin tk
  let ck := Scalar.cos tk
  let cc := ci *. ck
  let cs := ci *. sk
  let sc := si *. ck
  let ss := si *. sk
  let p := e.order.realOrder.params
  let q : Quat α :=
    if p.repetition then
      ⟨cj *. (cs +. cc), sj *. (cc +. ss), sj *. (cs -. sc), cj *. (cc -. ss)⟩
    else
      ⟨cj *. sc -. sj *. cs, cj *. ss +. sj *. cc, cj *. cs -. sj *. sc, cj *. cc +. sj *. ss⟩
  if p.parity then { q with y := q.y *. Scalar.lit (-1) 1 } else q
/-- `graphene_euler_reorder` (euler.c:1067-1076). -/
def reorder (bk : Backend) (e : Euler α) (order : EulerOrder) : Euler α :=
  initFromQuaternion bk (some (toQuaternion e)) (.real order.realOrder)

end Euler

/-- `graphene_quaternion_init_from_euler` (quaternion.c:546-553). -/
def Quat.initFromEuler {α : Type} [Scalar α] (e : Euler α) : Quat α := e.toQuaternion
/-- `graphene_matrix_rotate_euler` (matrix.c:1469-1477): it goes through a quaternion. -/
def GMatrix.rotateEuler {α : Type} [Scalar α] (m : M4 α) (e : Euler α) : M4 α :=
  GMatrix.rotateQuaternion m (Quat.initFromEuler e)

end Graphene

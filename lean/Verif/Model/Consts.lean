/-
  The tables of static constants and the accessors that return pointers into them.
  Slot numbers are the `enum` values, the accessor functions only choose the slot.
-/
import Verif.Model.Once
import Verif.Model.Box2d
import Verif.Model.Box

namespace Graphene
namespace Consts
variable {α : Type} [Scalar α]

/-- `init_static_vec2_once` (vectors.c:483-501). -/
def vec2Table : List (Vec2 α) :=
  [⟨Simd4f.initZero⟩, ⟨Simd4f.init f1 f1 f0 f0⟩, ⟨Simd4f.init f1 f0 f0 f0⟩, ⟨Simd4f.init f0 f1 f0 f0⟩]
/-- `init_static_vec3_once` (vectors.c:1182-1202). -/
def vec3Table : List (Vec3 α) :=
  [⟨Simd4f.initZero⟩, ⟨Simd4f.init f1 f1 f1 f0⟩, ⟨Simd4f.init f1 f0 f0 f0⟩, ⟨Simd4f.init f0 f1 f0 f0⟩,
   ⟨Simd4f.init f0 f0 f1 f0⟩]
/-- `init_static_vec4_once` (vectors.c:1899-1921). -/
def vec4Table : List (Vec4 α) :=
  [⟨Simd4f.initZero⟩, ⟨Simd4f.splat f1⟩, ⟨Simd4f.init f1 f0 f0 f0⟩, ⟨Simd4f.init f0 f1 f0 f0⟩,
   ⟨Simd4f.init f0 f0 f1 f0⟩, ⟨Simd4f.init f0 f0 f0 f1⟩]
/-- `init_static_box_once` (box.c:724-757). -/
def boxTable : List (Box α) := [Box.zero, Box.one, Box.minusOne, Box.oneMinusOne, Box.infinite, Box.empty]
/-- `init_static_box_once` (box2d.c:903-930). -/
def box2dTable : List (Box2d α) :=
  [Box2d.zero, Box2d.one, Box2d.minusOne, Box2d.oneMinusOne, Box2d.infinite, Box2d.empty]

/-- The accessors of vec2: `graphene_vec2_zero`, `_one`, `_x_axis`, `_y_axis` (vectors.c:559-640). -/
inductive Vec2Const where | zero | one | xAxis | yAxis
/-- the slot each accessor returns the address of (vectors.c:483-490, 569-640). -/
def Vec2Const.slot : Vec2Const → Nat | .zero => 0 | .one => 1 | .xAxis => 2 | .yAxis => 3
/-- The accessors of vec3 (vectors.c:1260-1348). -/
inductive Vec3Const where | zero | one | xAxis | yAxis | zAxis
/-- the slot each accessor returns the address of (vectors.c:1182-1190, 1270-1348). -/
def Vec3Const.slot : Vec3Const → Nat | .zero => 0 | .one => 1 | .xAxis => 2 | .yAxis => 3 | .zAxis => 4
/-- The accessors of vec4 (vectors.c:1980-2088). -/
inductive Vec4Const where | zero | one | xAxis | yAxis | zAxis | wAxis
/-- the slot each accessor returns the address of (vectors.c:1899-1908, 1990-2088). -/
def Vec4Const.slot : Vec4Const → Nat
  | .zero => 0 | .one => 1 | .xAxis => 2 | .yAxis => 3 | .zAxis => 4 | .wAxis => 5
/-- The accessors of box and box2d (box.c:816-931, box2d.c:990-1104). -/
inductive BoxConst where | zero | one | minusOne | oneMinusOne | infinite | empty
/-- the slot each accessor returns the address of (box.c:724-733, 827-931; box2d.c:903-912, 1000-1104). -/
def BoxConst.slot : BoxConst → Nat
  | .zero => 0 | .one => 1 | .minusOne => 2 | .oneMinusOne => 3 | .infinite => 4 | .empty => 5

/-- entry `i` of a table, `d` beyond its end -/
def entry {V : Type} (t : List V) (d : V) (i : Nat) : V := t.getD i d

end Consts
end Graphene

/-
  What a box means in floating point: the set of points between its two corners, axis by axis,
  for the IEEE order on binary32 (infinite coordinates included, NaN coordinates are in no box).
-/
import Verif.Model.Box
import Verif.Model.Fp

namespace Graphene.Spec

/-- no coordinate is NaN -/
def NoNaN3 (p : Point3D F32) : Prop := p.x.isNaN = false ∧ p.y.isNaN = false ∧ p.z.isNaN = false
/-- no coordinate is NaN -/
def NoNaN2 (p : Point F32) : Prop := p.x.isNaN = false ∧ p.y.isNaN = false

/-- the points between the two corners of a box -/
def boxPts (b : Box F32) : Set (Point3D F32) :=
  {p | (b.min.value.x.le p.x = true ∧ p.x.le b.max.value.x = true) ∧
       (b.min.value.y.le p.y = true ∧ p.y.le b.max.value.y = true) ∧
       (b.min.value.z.le p.z = true ∧ p.z.le b.max.value.z = true)}
/-- the points between the two corners of a 2D box -/
def box2Pts (b : Box2d F32) : Set (Point F32) :=
  {p | (b.minmax.x.le p.x = true ∧ p.x.le b.minmax.z = true) ∧
       (b.minmax.y.le p.y = true ∧ p.y.le b.minmax.w = true)}

/-- none of the six bounds is NaN -/
def BoundsNoNaN (b : Box F32) : Prop :=
  (b.min.value.x.isNaN = false ∧ b.min.value.y.isNaN = false ∧ b.min.value.z.isNaN = false) ∧
  (b.max.value.x.isNaN = false ∧ b.max.value.y.isNaN = false ∧ b.max.value.z.isNaN = false)
/-- none of the four bounds is NaN -/
def Bounds2NoNaN (b : Box2d F32) : Prop :=
  b.minmax.x.isNaN = false ∧ b.minmax.y.isNaN = false ∧ b.minmax.z.isNaN = false ∧
  b.minmax.w.isNaN = false

/-- the unused fourth lanes of the two corners hold `+0.f`, as all box constructors from points
leave them -/
def Plain (b : Box F32) : Prop := b.min.value.w = Fp.zero false ∧ b.max.value.w = Fp.zero false
/-- the unused fourth lanes do not disturb comparisons with points: `min.w ≤ 0 ≤ max.w` -/
def Usable (b : Box F32) : Prop :=
  b.min.value.w.le (Fp.zero false) = true ∧ (Fp.zero false : F32).le b.max.value.w = true

/-- the corners are in order -/
def Ordered (b : Box F32) : Prop :=
  b.min.value.x.le b.max.value.x = true ∧ b.min.value.y.le b.max.value.y = true ∧
  b.min.value.z.le b.max.value.z = true
/-- the corners are in order -/
def Ordered2 (b : Box2d F32) : Prop :=
  b.minmax.x.le b.minmax.z = true ∧ b.minmax.y.le b.minmax.w = true

/-- the empty box: corners at +∞ and -∞ -/
def IsEmptyBox (b : Box F32) : Prop :=
  b.min.value.x = .inf false ∧ b.min.value.y = .inf false ∧ b.min.value.z = .inf false ∧
  b.max.value.x = .inf true ∧ b.max.value.y = .inf true ∧ b.max.value.z = .inf true
/-- the infinite box: corners at -∞ and +∞ -/
def IsInfiniteBox (b : Box F32) : Prop :=
  b.min.value.x = .inf true ∧ b.min.value.y = .inf true ∧ b.min.value.z = .inf true ∧
  b.max.value.x = .inf false ∧ b.max.value.y = .inf false ∧ b.max.value.z = .inf false
/-- the empty 2D box -/
def IsEmptyBox2 (b : Box2d F32) : Prop :=
  b.minmax.x = .inf false ∧ b.minmax.y = .inf false ∧ b.minmax.z = .inf true ∧
  b.minmax.w = .inf true
/-- the infinite 2D box -/
def IsInfiniteBox2 (b : Box2d F32) : Prop :=
  b.minmax.x = .inf true ∧ b.minmax.y = .inf true ∧ b.minmax.z = .inf false ∧
  b.minmax.w = .inf false

end Graphene.Spec

/-
  Properties C01, C02, C07: vectors, for any scalar interpretation (IEEE floats
  with NaN and infinities included) and every backend.
-/
import Verif.Proofs.FpLemmas
import Verif.Model.GMatrix

namespace Graphene
open Scalar

section generic
variable {α : Type} [Scalar α]

/-! ## C01 component-wise arithmetic -/

/-- C01 (vec2): every operation is the scalar operation on each component, on any
arithmetic; `divide` on the backends that have a hardware division. -/
theorem C01_vec2 {δ : Type} [FloatConv α δ] (a b : Vec2 α) (s x y : α) (f : δ) :
    ((Vec2.init x y).getX = x ∧ (Vec2.init x y).getY = y) ∧
    ((Vec2.initFromVec2 a).getX = a.getX ∧ (Vec2.initFromVec2 a).getY = a.getY) ∧
    ((a.add b).getX = a.getX +. b.getX ∧ (a.add b).getY = a.getY +. b.getY) ∧
    ((a.subtract b).getX = a.getX -. b.getX ∧ (a.subtract b).getY = a.getY -. b.getY) ∧
    ((a.multiply b).getX = a.getX *. b.getX ∧ (a.multiply b).getY = a.getY *. b.getY) ∧
    ((a.scale s).getX = a.getX *. s ∧ (a.scale s).getY = a.getY *. s) ∧
    (let t : α := FloatConv.narrow f
     (Vec2.interpolate a b f).getX = (lit 1 1 -. t) *. a.getX +. t *. b.getX ∧
     (Vec2.interpolate a b f).getY = (lit 1 1 -. t) *. a.getY +. t *. b.getY) ∧
    (∀ s1 s2, ((a.divide (.sse s1 s2) b).getX = a.getX /. b.getX ∧
      (a.divide (.sse s1 s2) b).getY = a.getY /. b.getY)) ∧
    ((a.divide .gcc b).getX = a.getX /. b.getX ∧ (a.divide .gcc b).getY = a.getY /. b.getY) := by
  refine ⟨?_, ?_, ?_, ?_, ?_, ?_, ?_, ?_, ?_⟩ <;> (try intro _) <;> (try intro _) <;>
    exact ⟨rfl, rfl⟩

/-- C01 (vec3). -/
theorem C01_vec3 {δ : Type} [FloatConv α δ] (a b : Vec3 α) (s x y z : α) (f : δ) :
    ((Vec3.init x y z).getX = x ∧ (Vec3.init x y z).getY = y ∧ (Vec3.init x y z).getZ = z) ∧
    ((Vec3.initFromVec3 a).getX = a.getX ∧ (Vec3.initFromVec3 a).getY = a.getY ∧
      (Vec3.initFromVec3 a).getZ = a.getZ) ∧
    ((a.add b).getX = a.getX +. b.getX ∧ (a.add b).getY = a.getY +. b.getY ∧
      (a.add b).getZ = a.getZ +. b.getZ) ∧
    ((a.subtract b).getX = a.getX -. b.getX ∧ (a.subtract b).getY = a.getY -. b.getY ∧
      (a.subtract b).getZ = a.getZ -. b.getZ) ∧
    ((a.multiply b).getX = a.getX *. b.getX ∧ (a.multiply b).getY = a.getY *. b.getY ∧
      (a.multiply b).getZ = a.getZ *. b.getZ) ∧
    ((a.scale s).getX = a.getX *. s ∧ (a.scale s).getY = a.getY *. s ∧
      (a.scale s).getZ = a.getZ *. s) ∧
    (let t : α := FloatConv.narrow f
     (Vec3.interpolate a b f).getX = (lit 1 1 -. t) *. a.getX +. t *. b.getX ∧
     (Vec3.interpolate a b f).getY = (lit 1 1 -. t) *. a.getY +. t *. b.getY ∧
     (Vec3.interpolate a b f).getZ = (lit 1 1 -. t) *. a.getZ +. t *. b.getZ) ∧
    (∀ s1 s2, ((a.divide (.sse s1 s2) b).getX = a.getX /. b.getX ∧
      (a.divide (.sse s1 s2) b).getY = a.getY /. b.getY ∧
      (a.divide (.sse s1 s2) b).getZ = a.getZ /. b.getZ)) ∧
    ((a.divide .gcc b).getX = a.getX /. b.getX ∧ (a.divide .gcc b).getY = a.getY /. b.getY ∧
      (a.divide .gcc b).getZ = a.getZ /. b.getZ) := by
  refine ⟨?_, ?_, ?_, ?_, ?_, ?_, ?_, ?_, ?_⟩ <;> (try intro _) <;> (try intro _) <;>
    exact ⟨rfl, rfl, rfl⟩

/-- C01 (vec4). -/
theorem C01_vec4 {δ : Type} [FloatConv α δ] (a b : Vec4 α) (s x y z w : α) (f : δ) :
    ((Vec4.init x y z w).getX = x ∧ (Vec4.init x y z w).getY = y ∧ (Vec4.init x y z w).getZ = z ∧
      (Vec4.init x y z w).getW = w) ∧
    ((Vec4.initFromVec4 a).getX = a.getX ∧ (Vec4.initFromVec4 a).getY = a.getY ∧
      (Vec4.initFromVec4 a).getZ = a.getZ ∧ (Vec4.initFromVec4 a).getW = a.getW) ∧
    ((a.add b).getX = a.getX +. b.getX ∧ (a.add b).getY = a.getY +. b.getY ∧
      (a.add b).getZ = a.getZ +. b.getZ ∧ (a.add b).getW = a.getW +. b.getW) ∧
    ((a.subtract b).getX = a.getX -. b.getX ∧ (a.subtract b).getY = a.getY -. b.getY ∧
      (a.subtract b).getZ = a.getZ -. b.getZ ∧ (a.subtract b).getW = a.getW -. b.getW) ∧
    ((a.multiply b).getX = a.getX *. b.getX ∧ (a.multiply b).getY = a.getY *. b.getY ∧
      (a.multiply b).getZ = a.getZ *. b.getZ ∧ (a.multiply b).getW = a.getW *. b.getW) ∧
    ((a.scale s).getX = a.getX *. s ∧ (a.scale s).getY = a.getY *. s ∧
      (a.scale s).getZ = a.getZ *. s ∧ (a.scale s).getW = a.getW *. s) ∧
    (let t : α := FloatConv.narrow f
     (Vec4.interpolate a b f).getX = (lit 1 1 -. t) *. a.getX +. t *. b.getX ∧
     (Vec4.interpolate a b f).getY = (lit 1 1 -. t) *. a.getY +. t *. b.getY ∧
     (Vec4.interpolate a b f).getZ = (lit 1 1 -. t) *. a.getZ +. t *. b.getZ ∧
     (Vec4.interpolate a b f).getW = (lit 1 1 -. t) *. a.getW +. t *. b.getW) ∧
    (∀ s1 s2, ((a.divide (.sse s1 s2) b).getX = a.getX /. b.getX ∧
      (a.divide (.sse s1 s2) b).getY = a.getY /. b.getY ∧
      (a.divide (.sse s1 s2) b).getZ = a.getZ /. b.getZ ∧
      (a.divide (.sse s1 s2) b).getW = a.getW /. b.getW)) ∧
    ((a.divide .gcc b).getX = a.getX /. b.getX ∧ (a.divide .gcc b).getY = a.getY /. b.getY ∧
      (a.divide .gcc b).getZ = a.getZ /. b.getZ ∧ (a.divide .gcc b).getW = a.getW /. b.getW) := by
  refine ⟨?_, ?_, ?_, ?_, ?_, ?_, ?_, ?_, ?_⟩ <;> (try intro _) <;> (try intro _) <;>
    exact ⟨rfl, rfl, rfl, rfl⟩

/-- C01: conversions between the vector types keep the components they share and fill
the others with the given values (`+0` or the documented constant). -/
theorem C01_conversions (v2 : Vec2 α) (v3 : Vec3 α) (v4 : Vec4 α) (z w : α) :
    ((Vec4.initFromVec3 v3 w).getX = v3.getX ∧ (Vec4.initFromVec3 v3 w).getY = v3.getY ∧
      (Vec4.initFromVec3 v3 w).getZ = v3.getZ ∧ (Vec4.initFromVec3 v3 w).getW = w) ∧
    ((Vec4.initFromVec2 v2 z w).getX = v2.getX ∧ (Vec4.initFromVec2 v2 z w).getY = v2.getY ∧
      (Vec4.initFromVec2 v2 z w).getZ = z ∧ (Vec4.initFromVec2 v2 z w).getW = w) ∧
    (v3.getXY.getX = v3.getX ∧ v3.getXY.getY = v3.getY) ∧
    (v3.getXY0.getX = v3.getX ∧ v3.getXY0.getY = v3.getY ∧ v3.getXY0.getZ = lit 0 1) ∧
    (v3.getXYZ0.getX = v3.getX ∧ v3.getXYZ0.getY = v3.getY ∧ v3.getXYZ0.getZ = v3.getZ ∧
      v3.getXYZ0.getW = lit 0 1) ∧
    (v4.getXY.getX = v4.getX ∧ v4.getXY.getY = v4.getY) ∧
    (v4.getXYZ.getX = v4.getX ∧ v4.getXYZ.getY = v4.getY ∧ v4.getXYZ.getZ = v4.getZ) :=
  ⟨⟨rfl, rfl, rfl, rfl⟩, ⟨rfl, rfl, rfl, rfl⟩, ⟨rfl, rfl⟩, ⟨rfl, rfl, rfl⟩, ⟨rfl, rfl, rfl, rfl⟩,
    ⟨rfl, rfl⟩, ⟨rfl, rfl, rfl⟩⟩

/-- `r` is the smaller of two ordered scalars, the second one on a tie; of two zeros it may be
either (they may differ in sign) -/
def Spec.Smaller (r a b : α) : Prop :=
  r = (if a <. b then a else b) ∨ (feq a (lit 0 1) = true ∧ feq b (lit 0 1) = true ∧ (r = a ∨ r = b))
/-- `r` is the larger of two ordered scalars, the second one on a tie; of two zeros it may be
either (they may differ in sign) -/
def Spec.Larger (r a b : α) : Prop :=
  r = (if b <. a then a else b) ∨ (feq a (lit 0 1) = true ∧ feq b (lit 0 1) = true ∧ (r = a ∨ r = b))

theorem min1_noNaN (bk : Backend) {a b : α} (ha : isNaN a = false) (hb : isNaN b = false) :
    Spec.Smaller (Simd4f.min1 bk a b) a b := by
  unfold Spec.Smaller
  cases bk <;> simp only [Simd4f.min1, cMin, ha, hb, true_or, Bool.false_eq_true, if_false]
  split
  · rename_i h
    rw [Bool.and_eq_true] at h
    refine .inr ⟨h.1, h.2, ?_⟩
    split <;> simp
  · exact .inl rfl
theorem max1_noNaN (bk : Backend) {a b : α} (ha : isNaN a = false) (hb : isNaN b = false) :
    Spec.Larger (Simd4f.max1 bk a b) a b := by
  unfold Spec.Larger
  cases bk <;> simp only [Simd4f.max1, cMax, ha, hb, true_or, Bool.false_eq_true, if_false]
  split
  · rename_i h
    rw [Bool.and_eq_true] at h
    refine .inr ⟨h.1, h.2, ?_⟩
    split <;> simp
  · exact .inl rfl

/-- C01: `min` and `max` select per component, on every backend, when the component is
not NaN (with a NaN operand the result depends on the backend). -/
theorem C01_min_max (bk : Backend) (a b : Vec2 α) (c d : Vec3 α) (e g : Vec4 α) :
    (isNaN a.getX = false → isNaN b.getX = false →
      Spec.Smaller (Vec2.min bk a b).getX a.getX b.getX ∧
      Spec.Larger (Vec2.max bk a b).getX a.getX b.getX) ∧
    (isNaN a.getY = false → isNaN b.getY = false →
      Spec.Smaller (Vec2.min bk a b).getY a.getY b.getY ∧
      Spec.Larger (Vec2.max bk a b).getY a.getY b.getY) ∧
    (isNaN c.getX = false → isNaN d.getX = false →
      Spec.Smaller (Vec3.min bk c d).getX c.getX d.getX ∧
      Spec.Larger (Vec3.max bk c d).getX c.getX d.getX) ∧
    (isNaN c.getY = false → isNaN d.getY = false →
      Spec.Smaller (Vec3.min bk c d).getY c.getY d.getY ∧
      Spec.Larger (Vec3.max bk c d).getY c.getY d.getY) ∧
    (isNaN c.getZ = false → isNaN d.getZ = false →
      Spec.Smaller (Vec3.min bk c d).getZ c.getZ d.getZ ∧
      Spec.Larger (Vec3.max bk c d).getZ c.getZ d.getZ) ∧
    (isNaN e.getX = false → isNaN g.getX = false →
      Spec.Smaller (Vec4.min bk e g).getX e.getX g.getX ∧
      Spec.Larger (Vec4.max bk e g).getX e.getX g.getX) ∧
    (isNaN e.getY = false → isNaN g.getY = false →
      Spec.Smaller (Vec4.min bk e g).getY e.getY g.getY ∧
      Spec.Larger (Vec4.max bk e g).getY e.getY g.getY) ∧
    (isNaN e.getZ = false → isNaN g.getZ = false →
      Spec.Smaller (Vec4.min bk e g).getZ e.getZ g.getZ ∧
      Spec.Larger (Vec4.max bk e g).getZ e.getZ g.getZ) ∧
    (isNaN e.getW = false → isNaN g.getW = false →
      Spec.Smaller (Vec4.min bk e g).getW e.getW g.getW ∧
      Spec.Larger (Vec4.max bk e g).getW e.getW g.getW) := by
  refine ⟨?_, ?_, ?_, ?_, ?_, ?_, ?_, ?_, ?_⟩ <;> intro h1 h2 <;>
    exact ⟨min1_noNaN bk h1 h2, max1_noNaN bk h1 h2⟩

end generic

/-- C01: negation flips the sign of every component, on every backend (the GCC backend
multiplies by `-1.f`, which is exact), in IEEE arithmetic. -/
theorem C01_negate [Libm binary32] (bk : Backend) (a : Vec2 F32) (b : Vec3 F32) (c : Vec4 F32) :
    ((a.negate bk).getX = Fp.neg a.getX ∧ (a.negate bk).getY = Fp.neg a.getY) ∧
    ((b.negate bk).getX = Fp.neg b.getX ∧ (b.negate bk).getY = Fp.neg b.getY ∧
      (b.negate bk).getZ = Fp.neg b.getZ) ∧
    ((c.negate bk).getX = Fp.neg c.getX ∧ (c.negate bk).getY = Fp.neg c.getY ∧
      (c.negate bk).getZ = Fp.neg c.getZ ∧ (c.negate bk).getW = Fp.neg c.getW) := by
  have h : ∀ v : F32, Simd4f.neg1 bk v = Fp.neg v := by
    intro v; cases bk <;> simp [Simd4f.neg1, Fp.mul_negOne32]
  exact ⟨⟨h _, h _⟩, ⟨h _, h _, h _⟩, h _, h _, h _, h _⟩

/-- C01: appending `1` or `w` gives exactly that fourth component. -/
theorem C01_xyzw [Libm binary32] (v : Vec3 F32) (w : F32) :
    (v.getXYZ1.getW = lit 1 1 ∧ Fp.feq (v.getXYZW w).getW w = !w.isNaN) ∧
    (v.getX.isNaN = false → Fp.feq v.getXYZ1.getX v.getX = true ∧
      Fp.feq (v.getXYZW w).getX v.getX = true) ∧
    (v.getY.isNaN = false → Fp.feq v.getXYZ1.getY v.getY = true ∧
      Fp.feq (v.getXYZW w).getY v.getY = true) ∧
    (v.getZ.isNaN = false → Fp.feq v.getXYZ1.getZ v.getZ = true ∧
      Fp.feq (v.getXYZW w).getZ v.getZ = true) := by
  have z : ∀ x : F32, Fp.feq (Fp.add (Fp.zero false) x) x = !x.isNaN := by
    intro x
    cases x with
    | nan => rfl
    | inf s => simp [Fp.zero, Fp.add, Fp.feq]
    | fin s m h =>
      rw [Fp.zero_add_fin]
      split
      · subst m; cases s <;> simp [Fp.feq, Fp.key, Fp.zero, Fp.sgn]
      · simp [Fp.feq]
  have z' : ∀ x : F32, x.isNaN = false → Fp.feq (Fp.add x (Fp.zero false)) x = true := by
    intro x hx
    cases x with
    | nan => simp at hx
    | inf s => simp [Fp.zero, Fp.add, Fp.feq]
    | fin s m h =>
      rw [Fp.add_zero_fin]
      split
      · subst m; cases s <;> simp [Fp.feq, Fp.key, Fp.zero, Fp.sgn]
      · simp [Fp.feq]
  have e0 : (f0 : F32) = Fp.zero false := Fp.f0_eq
  refine ⟨⟨?_, ?_⟩, fun h => ?_, fun h => ?_, fun h => ?_⟩
  · show Fp.add (f0 : F32) f1 = _
    rw [e0, show (f1 : F32) = Fp.lit 1 1 from rfl, Fp.lit_one32, Fp.zero_add_fin,
      if_neg (Nat.two_pow_pos _).ne']
    exact Fp.lit_one32.symm
  · show Fp.feq (Fp.add (f0 : F32) w) w = _
    rw [e0]; exact z w
  all_goals
    constructor
    · show Fp.feq (Fp.add _ (f0 : F32)) _ = _
      rw [e0]; exact z' _ h
    · show Fp.feq (Fp.add _ (f0 : F32)) _ = _
      rw [e0]; exact z' _ h

end Graphene

/-
  Properties C02 (float arrays) and C07 (hidden lanes), for any scalar interpretation.
-/
import Verif.Proofs.FpLemmas
import Verif.Model.GMatrix

namespace Graphene
open Scalar
variable {α : Type} [Scalar α]

/-! ## C02 float-array round trips -/

/-- C02 (vec2). A 2-element (or longer) array is accepted, a shorter one is out of bounds;
exactly two elements are written, the rest is untouched; reading them back gives the
same components, in an object indistinguishable from one initialised with those two numbers. -/
theorem C02_vec2 (v : Vec2 α) (buf : Buf α) :
    ((∃ out, v.toFloat buf = some out) ↔ 2 ≤ buf.length) ∧
    ((∃ u, Vec2.initFromFloat buf = some u) ↔ 2 ≤ buf.length) ∧
    (∀ out, v.toFloat buf = some out →
      out = [v.getX, v.getY] ++ buf.drop 2 ∧
      ∃ u, Vec2.initFromFloat out = some u ∧ u.getX = v.getX ∧ u.getY = v.getY) ∧
    (∀ u, Vec2.initFromFloat buf = some u → buf.take 2 = [u.getX, u.getY] ∧ u = Vec2.init u.getX u.getY) := by
  rcases buf with _ | ⟨a, _ | ⟨b, tl⟩⟩ <;>
    simp [Vec2.toFloat, Vec2.initFromFloat, Simd4f.dup2f, Simd4f.init2f, Vec2.getX, Vec2.getY,
      Simd4f.get, Vec2.init, Simd4f.init]

/-- C02 (vec3). -/
theorem C02_vec3 (v : Vec3 α) (buf : Buf α) :
    ((∃ out, v.toFloat buf = some out) ↔ 3 ≤ buf.length) ∧
    ((∃ u, Vec3.initFromFloat buf = some u) ↔ 3 ≤ buf.length) ∧
    (∀ out, v.toFloat buf = some out →
      out = [v.getX, v.getY, v.getZ] ++ buf.drop 3 ∧
      ∃ u, Vec3.initFromFloat out = some u ∧ u.getX = v.getX ∧ u.getY = v.getY ∧
        u.getZ = v.getZ) ∧
    (∀ u, Vec3.initFromFloat buf = some u → buf.take 3 = [u.getX, u.getY, u.getZ] ∧
      u = Vec3.init u.getX u.getY u.getZ) := by
  rcases buf with _ | ⟨a, _ | ⟨b, _ | ⟨c, tl⟩⟩⟩ <;>
    simp [Vec3.toFloat, Vec3.initFromFloat, Simd4f.dup3f, Simd4f.init3f, Vec3.getX, Vec3.getY,
      Vec3.getZ, Simd4f.get, Vec3.init, Simd4f.init]

/-- C02 (vec4). -/
theorem C02_vec4 (v : Vec4 α) (buf : Buf α) :
    ((∃ out, v.toFloat buf = some out) ↔ 4 ≤ buf.length) ∧
    ((∃ u, Vec4.initFromFloat buf = some u) ↔ 4 ≤ buf.length) ∧
    (∀ out, v.toFloat buf = some out →
      out = [v.getX, v.getY, v.getZ, v.getW] ++ buf.drop 4 ∧ Vec4.initFromFloat out = some v) ∧
    (∀ u, Vec4.initFromFloat buf = some u → buf.take 4 = [u.getX, u.getY, u.getZ, u.getW]) := by
  rcases buf with _ | ⟨a, _ | ⟨b, _ | ⟨c, _ | ⟨d, tl⟩⟩⟩⟩ <;>
    simp [Vec4.toFloat, Vec4.initFromFloat, Simd4f.dup4f, Simd4f.init4f, Vec4.getX, Vec4.getY,
      Vec4.getZ, Vec4.getW, Simd4f.get]

omit [Scalar α] in
theorem list16 (l : Buf α) (h : 16 ≤ l.length) :
    ∃ a0 a1 a2 a3 a4 a5 a6 a7 a8 a9 a10 a11 a12 a13 a14 a15 tl,
      l = a0 :: a1 :: a2 :: a3 :: a4 :: a5 :: a6 :: a7 :: a8 :: a9 :: a10 :: a11 :: a12 :: a13 ::
        a14 :: a15 :: tl := by
  rcases l with _ | ⟨b0, _ | ⟨b1, _ | ⟨b2, _ | ⟨b3, _ | ⟨b4, _ | ⟨b5, _ | ⟨b6, _ | ⟨b7, _ |
    ⟨b8, _ | ⟨b9, _ | ⟨b10, _ | ⟨b11, _ | ⟨b12, _ | ⟨b13, _ | ⟨b14, _ | ⟨b15, tl⟩⟩⟩⟩⟩⟩⟩⟩⟩⟩⟩⟩⟩⟩⟩⟩
  iterate 16 · simp at h
  exact ⟨_, _, _, _, _, _, _, _, _, _, _, _, _, _, _, _, _, rfl⟩

/-- the sixteen elements of a matrix, row by row -/
def Spec.entries (m : M4 α) : List α :=
  (List.range 4).flatMap fun r => (List.range 4).map fun c => GMatrix.getValue m r c

/-- C02 (matrix): sixteen elements, row by row. -/
theorem C02_matrix (m : M4 α) (buf : Buf α) :
    ((∃ out, GMatrix.toFloat m buf = some out) ↔ 16 ≤ buf.length) ∧
    ((∃ u : M4 α, GMatrix.initFromFloat buf = some u) ↔ 16 ≤ buf.length) ∧
    (∀ out, GMatrix.toFloat m buf = some out →
      out = Spec.entries m ++ buf.drop 16 ∧ GMatrix.initFromFloat out = some m) ∧
    (∀ u : M4 α, GMatrix.initFromFloat buf = some u → buf.take 16 = Spec.entries u) := by
  by_cases h : 16 ≤ buf.length
  · obtain ⟨a0, a1, a2, a3, a4, a5, a6, a7, a8, a9, a10, a11, a12, a13, a14, a15, tl, rfl⟩ :=
      list16 buf h
    simp [GMatrix.toFloat, Simd4x4f.toFloat, Simd4x4f.dup4fAt, Simd4f.dup4f, GMatrix.initFromFloat,
      Simd4x4f.initFromFloat, Simd4f.init4f, Spec.entries, GMatrix.getValue, GMatrix.getRow,
      Simd4f.get, List.range_succ]
  · have h1 : GMatrix.toFloat m buf = none := by
      simp only [GMatrix.toFloat, Simd4x4f.toFloat, Simd4x4f.dup4fAt]
      rcases buf with _ | ⟨b0, _ | ⟨b1, _ | ⟨b2, _ | ⟨b3, _ | ⟨b4, _ | ⟨b5, _ | ⟨b6, _ | ⟨b7, _ |
        ⟨b8, _ | ⟨b9, _ | ⟨b10, _ | ⟨b11, _ | ⟨b12, _ | ⟨b13, _ | ⟨b14, _ | ⟨b15, tl⟩⟩⟩⟩⟩⟩⟩⟩⟩⟩⟩⟩⟩⟩⟩⟩ <;>
        first
          | rfl
          | (exfalso; apply h; simp; done)
    have h2 : (GMatrix.initFromFloat buf : Option (M4 α)) = none := by
      simp only [GMatrix.initFromFloat, Simd4x4f.initFromFloat]
      rcases buf with _ | ⟨b0, _ | ⟨b1, _ | ⟨b2, _ | ⟨b3, _ | ⟨b4, _ | ⟨b5, _ | ⟨b6, _ | ⟨b7, _ |
        ⟨b8, _ | ⟨b9, _ | ⟨b10, _ | ⟨b11, _ | ⟨b12, _ | ⟨b13, _ | ⟨b14, _ | ⟨b15, tl⟩⟩⟩⟩⟩⟩⟩⟩⟩⟩⟩⟩⟩⟩⟩⟩ <;>
        first
          | rfl
          | (exfalso; apply h; simp; done)
    simp [h1, h2, h]

/-- non-vacuity: a three-element array holding a vec2 -/
example [Libm binary32] : (Vec2.init (.nan : F32) (Fp.zero true)).toFloat [lit 5 1, lit 6 1, lit 7 1] =
    some [.nan, Fp.zero true, lit 7 1] := rfl

/-! ## C07 hidden lanes never leak -/

/-- same visible components (vec2) -/
def Spec.Same2 (a b : Vec2 α) : Prop := a.getX = b.getX ∧ a.getY = b.getY
/-- same visible components (vec3) -/
def Spec.Same3 (a b : Vec3 α) : Prop := a.getX = b.getX ∧ a.getY = b.getY ∧ a.getZ = b.getZ

/-- C07 (vec2): two vectors with the same visible components are indistinguishable. -/
theorem C07_vec2 {δ : Type} [FloatConv α δ] (bk : Backend) (a a' b b' : Vec2 α)
    (ha : Spec.Same2 a a') (hb : Spec.Same2 b b') (s : α) (f : δ) :
    Vec2.dot a b = Vec2.dot a' b' ∧ Vec2.length bk a = Vec2.length bk a' ∧
    Vec2.near a b s = Vec2.near a' b' s ∧
    Spec.Same2 (Vec2.normalize bk a) (Vec2.normalize bk a') ∧
    Spec.Same2 (Vec2.add a b) (Vec2.add a' b') ∧
    Spec.Same2 (Vec2.subtract a b) (Vec2.subtract a' b') ∧
    Spec.Same2 (Vec2.multiply a b) (Vec2.multiply a' b') ∧
    Spec.Same2 (Vec2.divide bk a b) (Vec2.divide bk a' b') ∧
    Spec.Same2 (Vec2.min bk a b) (Vec2.min bk a' b') ∧
    Spec.Same2 (Vec2.max bk a b) (Vec2.max bk a' b') ∧
    Spec.Same2 (Vec2.scale a s) (Vec2.scale a' s) ∧
    Spec.Same2 (Vec2.negate bk a) (Vec2.negate bk a') ∧
    Spec.Same2 (Vec2.interpolate a b f) (Vec2.interpolate a' b' f) ∧
    (∀ buf, Vec2.toFloat a buf = Vec2.toFloat a' buf) ∧
    (∀ z w, Vec4.initFromVec2 a z w = Vec4.initFromVec2 a' z w) := by
  obtain ⟨⟨x, y, z, w⟩⟩ := a
  obtain ⟨⟨x', y', z', w'⟩⟩ := a'
  obtain ⟨⟨p, q, r, t⟩⟩ := b
  obtain ⟨⟨p', q', r', t'⟩⟩ := b'
  simp only [Spec.Same2, Vec2.getX, Vec2.getY, Simd4f.get] at ha hb
  obtain ⟨rfl, rfl⟩ := ha
  obtain ⟨rfl, rfl⟩ := hb
  have hl : Vec2.length bk ⟨⟨x, y, z, w⟩⟩ = Vec2.length bk ⟨⟨x, y, z', w'⟩⟩ := rfl
  have hn : Spec.Same2 (Vec2.normalize bk ⟨⟨x, y, z, w⟩⟩) (Vec2.normalize bk ⟨⟨x, y, z', w'⟩⟩) := by
    unfold Vec2.normalize; rw [hl]; split <;> exact ⟨rfl, rfl⟩
  refine ⟨rfl, rfl, rfl, hn, ⟨rfl, rfl⟩, ⟨rfl, rfl⟩, ⟨rfl, rfl⟩, ⟨rfl, rfl⟩, ⟨rfl, rfl⟩, ⟨rfl, rfl⟩,
    ⟨rfl, rfl⟩, ⟨rfl, rfl⟩, ⟨rfl, rfl⟩, fun buf => ?_, fun _ _ => rfl⟩
  rcases buf with _ | ⟨a, _ | ⟨b, tl⟩⟩ <;> rfl

/-- C07 (vec3). -/
theorem C07_vec3 {δ : Type} [FloatConv α δ] (bk : Backend) (a a' b b' : Vec3 α)
    (ha : Spec.Same3 a a') (hb : Spec.Same3 b b') (s : α) (f : δ) :
    Vec3.dot bk a b = Vec3.dot bk a' b' ∧ Vec3.length bk a = Vec3.length bk a' ∧
    Vec3.near bk a b s = Vec3.near bk a' b' s ∧
    Spec.Same3 (Vec3.normalize bk a) (Vec3.normalize bk a') ∧
    Spec.Same3 (Vec3.cross bk a b) (Vec3.cross bk a' b') ∧
    Spec.Same3 (Vec3.add a b) (Vec3.add a' b') ∧
    Spec.Same3 (Vec3.subtract a b) (Vec3.subtract a' b') ∧
    Spec.Same3 (Vec3.multiply a b) (Vec3.multiply a' b') ∧
    Spec.Same3 (Vec3.divide bk a b) (Vec3.divide bk a' b') ∧
    Spec.Same3 (Vec3.min bk a b) (Vec3.min bk a' b') ∧
    Spec.Same3 (Vec3.max bk a b) (Vec3.max bk a' b') ∧
    Spec.Same3 (Vec3.scale a s) (Vec3.scale a' s) ∧
    Spec.Same3 (Vec3.negate bk a) (Vec3.negate bk a') ∧
    Spec.Same3 (Vec3.interpolate a b f) (Vec3.interpolate a' b' f) ∧
    (∀ buf, Vec3.toFloat a buf = Vec3.toFloat a' buf) ∧
    Vec3.getXY a = Vec3.getXY a' ∧ Vec3.getXY0 a = Vec3.getXY0 a' ∧
    Vec3.getXYZ0 a = Vec3.getXYZ0 a' ∧ Vec3.getXYZ1 a = Vec3.getXYZ1 a' ∧
    (∀ w, Vec3.getXYZW a w = Vec3.getXYZW a' w) ∧
    (∀ w, Vec4.initFromVec3 a w = Vec4.initFromVec3 a' w) := by
  obtain ⟨⟨x, y, z, w⟩⟩ := a
  obtain ⟨⟨x', y', z', w'⟩⟩ := a'
  obtain ⟨⟨p, q, r, t⟩⟩ := b
  obtain ⟨⟨p', q', r', t'⟩⟩ := b'
  simp only [Spec.Same3, Vec3.getX, Vec3.getY, Vec3.getZ, Simd4f.get] at ha hb
  obtain ⟨rfl, rfl, rfl⟩ := ha
  obtain ⟨rfl, rfl, rfl⟩ := hb
  have hd : ∀ (u v : V4 α) (c d : α), Simd4f.dot3Scalar bk { u with w := c } { v with w := d } =
      Simd4f.dot3Scalar bk u v := by
    intro u v c d; rcases bk with ⟨_ | _, _⟩ | _ | _ | _ <;> rfl
  have hl : Vec3.length bk ⟨⟨x, y, z, w⟩⟩ = Vec3.length bk ⟨⟨x, y, z, w'⟩⟩ := by
    rcases bk with ⟨_ | _, _⟩ | _ | _ | _ <;> rfl
  have hn : Spec.Same3 (Vec3.normalize bk ⟨⟨x, y, z, w⟩⟩) (Vec3.normalize bk ⟨⟨x, y, z, w'⟩⟩) := by
    unfold Vec3.normalize; rw [hl]; split
    · rcases bk with ⟨_ | _, _⟩ | _ | _ | _ <;> exact ⟨rfl, rfl, rfl⟩
    · exact ⟨rfl, rfl, rfl⟩
  refine ⟨?_, hl, ?_, hn, ?_, ⟨rfl, rfl, rfl⟩, ⟨rfl, rfl, rfl⟩, ⟨rfl, rfl, rfl⟩, ⟨rfl, rfl, rfl⟩,
    ⟨rfl, rfl, rfl⟩, ⟨rfl, rfl, rfl⟩, ⟨rfl, rfl, rfl⟩, ⟨rfl, rfl, rfl⟩, ⟨rfl, rfl, rfl⟩,
    fun buf => ?_, rfl, rfl, rfl, rfl, fun _ => rfl, fun _ => rfl⟩
  · rcases bk with ⟨_ | _, _⟩ | _ | _ | _ <;> rfl
  · rcases bk with ⟨_ | _, _⟩ | _ | _ | _ <;> rfl
  · rcases bk with ⟨_ | _, _⟩ | _ | _ | _ <;> exact ⟨rfl, rfl, rfl⟩
  · rcases buf with _ | ⟨a, _ | ⟨b, _ | ⟨c, tl⟩⟩⟩ <;> rfl

/-- non-vacuity: two vec3 with the same components and different garbage lanes -/
example [Libm binary32] : Spec.Same3 (⟨⟨lit 1 1, lit 2 1, .nan, .nan⟩⟩ : Vec3 F32)
    ⟨⟨lit 1 1, lit 2 1, .nan, .inf true⟩⟩ ∧
    (⟨⟨lit 1 1, lit 2 1, .nan, .nan⟩⟩ : Vec3 F32) ≠ ⟨⟨lit 1 1, lit 2 1, .nan, .inf true⟩⟩ :=
  ⟨⟨rfl, rfl, rfl⟩, by simp⟩

end Graphene

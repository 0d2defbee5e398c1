/-
  C127, continued: vectors, boxes, spheres, planes, rays, triangles, quaternions and matrices.
-/
import Verif.Props.Aliasing1
import Verif.Proofs.RectLemmas

namespace Graphene
open Scalar Flat

variable {α : Type} [Scalar α] {δ : Type} [Scalar δ] [FloatConv α δ]

theorem vec2Normalize_put (bk : Backend) (m : Cells α) (v res : Nat) :
    vec2Normalize bk m v res = stV m res (Vec2.normalize bk (Obj.get m v)).value := by
  simp only [vec2Normalize, Vec2.normalize]; split <;> rfl
theorem vec3Normalize_put (bk : Backend) (m : Cells α) (v res : Nat) :
    vec3Normalize bk m v res = stV m res (Vec3.normalize bk (Obj.get m v)).value := by
  simp only [vec3Normalize, Vec3.normalize]; split <;> rfl
theorem vec4Normalize_put (bk : Backend) (m : Cells α) (v res : Nat) :
    vec4Normalize bk m v res = stV m res (Vec4.normalize bk (Obj.get m v)).value := by
  simp only [vec4Normalize, Vec4.normalize]; split <;> rfl

/-- C127 for vectors: each function is one assignment of a register, so `a`, `b` and `res` may be
any objects, the same or overlapping. -/
theorem C127_vec2 (bk : Backend) (m : Cells α) (a b res : Nat) (f : δ) (k : α) :
    Spec.Stored m res (Vec2.add (Obj.get m a) (Obj.get m b)) (vecBin Simd4f.add m a b res)
    ∧ Spec.Stored m res (Vec2.subtract (Obj.get m a) (Obj.get m b)) (vecBin Simd4f.sub m a b res)
    ∧ Spec.Stored m res (Vec2.multiply (Obj.get m a) (Obj.get m b)) (vecBin Simd4f.mul m a b res)
    ∧ Spec.Stored m res (Vec2.divide bk (Obj.get m a) (Obj.get m b)) (vecBin (Simd4f.div bk) m a b res)
    ∧ Spec.Stored m res (Vec2.min bk (Obj.get m a) (Obj.get m b)) (vecBin (Simd4f.min bk) m a b res)
    ∧ Spec.Stored m res (Vec2.max bk (Obj.get m a) (Obj.get m b)) (vecBin (Simd4f.max bk) m a b res)
    ∧ Spec.Stored m res (Vec2.interpolate (Obj.get m a) (Obj.get m b) f)
        (vecBin (fun x y => Simd4f.interpolate x y (FloatConv.narrow f)) m a b res)
    ∧ Spec.Stored m res (Vec2.scale (Obj.get m a) k) (vecUn (fun x => Simd4f.mul x (Simd4f.splat k)) m a res)
    ∧ Spec.Stored m res (Vec2.negate bk (Obj.get m a)) (vecUn (Simd4f.neg bk) m a res)
    ∧ Spec.Stored m res (Vec2.normalize bk (Obj.get m a)) (vec2Normalize bk m a res) := by
  refine ⟨?_, ?_, ?_, ?_, ?_, ?_, ?_, ?_, ?_, by rw [vec2Normalize_put]; stored⟩ <;> (simp only [vecBin, vecUn]; stored)

/-- C127 for 3D vectors. -/
theorem C127_vec3 (bk : Backend) (m : Cells α) (a b res : Nat) (f : δ) (k : α) :
    Spec.Stored m res (Vec3.add (Obj.get m a) (Obj.get m b)) (vecBin Simd4f.add m a b res)
    ∧ Spec.Stored m res (Vec3.subtract (Obj.get m a) (Obj.get m b)) (vecBin Simd4f.sub m a b res)
    ∧ Spec.Stored m res (Vec3.multiply (Obj.get m a) (Obj.get m b)) (vecBin Simd4f.mul m a b res)
    ∧ Spec.Stored m res (Vec3.divide bk (Obj.get m a) (Obj.get m b)) (vecBin (Simd4f.div bk) m a b res)
    ∧ Spec.Stored m res (Vec3.cross bk (Obj.get m a) (Obj.get m b)) (vecBin (Simd4f.cross3 bk) m a b res)
    ∧ Spec.Stored m res (Vec3.min bk (Obj.get m a) (Obj.get m b)) (vecBin (Simd4f.min bk) m a b res)
    ∧ Spec.Stored m res (Vec3.max bk (Obj.get m a) (Obj.get m b)) (vecBin (Simd4f.max bk) m a b res)
    ∧ Spec.Stored m res (Vec3.interpolate (Obj.get m a) (Obj.get m b) f)
        (vecBin (fun x y => Simd4f.interpolate x y (FloatConv.narrow f)) m a b res)
    ∧ Spec.Stored m res (Vec3.scale (Obj.get m a) k) (vecUn (fun x => Simd4f.mul x (Simd4f.splat k)) m a res)
    ∧ Spec.Stored m res (Vec3.negate bk (Obj.get m a)) (vecUn (Simd4f.neg bk) m a res)
    ∧ Spec.Stored m res (Vec3.getXY0 (Obj.get m a)) (vecUn Simd4f.zeroZW m a res)
    ∧ Spec.Stored m res (Vec3.normalize bk (Obj.get m a)) (vec3Normalize bk m a res) := by
  refine ⟨?_, ?_, ?_, ?_, ?_, ?_, ?_, ?_, ?_, ?_, ?_, by rw [vec3Normalize_put]; stored⟩ <;> (simp only [vecBin, vecUn]; stored)

/-- C127 for 4D vectors. -/
theorem C127_vec4 (bk : Backend) (m : Cells α) (a b res : Nat) (f : δ) (k : α) :
    Spec.Stored m res (Vec4.add (Obj.get m a) (Obj.get m b)) (vecBin Simd4f.add m a b res)
    ∧ Spec.Stored m res (Vec4.subtract (Obj.get m a) (Obj.get m b)) (vecBin Simd4f.sub m a b res)
    ∧ Spec.Stored m res (Vec4.multiply (Obj.get m a) (Obj.get m b)) (vecBin Simd4f.mul m a b res)
    ∧ Spec.Stored m res (Vec4.divide bk (Obj.get m a) (Obj.get m b)) (vecBin (Simd4f.div bk) m a b res)
    ∧ Spec.Stored m res (Vec4.min bk (Obj.get m a) (Obj.get m b)) (vecBin (Simd4f.min bk) m a b res)
    ∧ Spec.Stored m res (Vec4.max bk (Obj.get m a) (Obj.get m b)) (vecBin (Simd4f.max bk) m a b res)
    ∧ Spec.Stored m res (Vec4.interpolate (Obj.get m a) (Obj.get m b) f)
        (vecBin (fun x y => Simd4f.interpolate x y (FloatConv.narrow f)) m a b res)
    ∧ Spec.Stored m res (Vec4.scale (Obj.get m a) k) (vecUn (fun x => Simd4f.mul x (Simd4f.splat k)) m a res)
    ∧ Spec.Stored m res (Vec4.negate bk (Obj.get m a)) (vecUn (Simd4f.neg bk) m a res)
    ∧ Spec.Stored m res (Vec4.normalize bk (Obj.get m a)) (vec4Normalize bk m a res) := by
  refine ⟨?_, ?_, ?_, ?_, ?_, ?_, ?_, ?_, ?_, by rw [vec4Normalize_put]; stored⟩ <;> (simp only [vecBin, vecUn]; stored)

/-- C127 for boxes: either box, or the box and a vector of it, may be the result. -/
theorem C127_boxes (bk : Backend) (m : Cells α) (a b v p res : Nat) (k : α)
    (ha : Spec.SameOrApart a 8 res 8) (hb : Spec.SameOrApart b 8 res 8) :
    Spec.Stored m res (Obj.get m a : Box α) (boxInitFromBox m res a)
    ∧ Spec.Stored m res (Box.expandVec3 bk (Obj.get m a) (Obj.get m v)) (boxExpandVec3 bk m a v res)
    ∧ Spec.Stored m res (Box.expand bk (Obj.get m a) (Obj.get m p)) (boxExpand bk m a p res)
    ∧ Spec.Stored m res (Box.expandScalar (Obj.get m a) k) (boxExpandScalar m a k res)
    ∧ Spec.Stored m res (Box.union bk (Obj.get m a) (Obj.get m b)) (boxUnion bk m a b res)
    ∧ ((boxIntersection bk m a b res).1 = (Box.intersection bk (Obj.get m a) (Obj.get m b)).1
      ∧ Spec.Stored m res (Box.intersection bk (Obj.get m a) (Obj.get m b)).2 (boxIntersection bk m a b res).2) := by
  simp only [Spec.SameOrApart] at ha hb
  refine ⟨?_, ?_, ?_, ?_, ?_, ?_, ?_⟩
  · simp only [boxInitFromBox]; stored
  · simp only [boxExpandVec3, boxExpandSimd4f]; stored
  · simp only [boxExpand, boxExpandSimd4f]; stored
  · simp only [boxExpandScalar]; stored
  · simp only [boxUnion]; stored
  · simp only [boxIntersection, Box.intersection]; split <;> split <;> first | rfl | (exfalso; rename_i h1 h2; exact h2 h1) | (exfalso; rename_i h1 h2; exact h1 h2)
  · simp only [boxIntersection, Box.intersection]
    have e : (Obj.get m a : Box α).min.value = ldV m a ∧ (Obj.get m a : Box α).max.value = ldV m (a + 4)
      ∧ (Obj.get m b : Box α).min.value = ldV m b ∧ (Obj.get m b : Box α).max.value = ldV m (b + 4) :=
      ⟨rfl, rfl, rfl, rfl⟩
    rw [e.1, e.2.1, e.2.2.1, e.2.2.2]
    split <;> stored

/-- C127, the corners of a box into two points that do not overlap the box or each other. -/
theorem C127_box_minmax (m : Cells α) (a p q : Nat) (hp : Spec.Disjoint p 3 a 8) (hq : Spec.Disjoint q 3 p 3) :
    (Obj.get (boxGetMinmax m a p q) p : Point3D α) = Box.getMin (Obj.get m a)
    ∧ (Obj.get (boxGetMinmax m a p q) q : Point3D α) = Box.getMax (Obj.get m a) := by
  simp only [Spec.Disjoint] at hp hq
  simp only [boxGetMinmax, point3dFromSimd4f]
  constructor <;> cells <;> rfl

/-- C127 for 2D boxes: any objects. -/
theorem C127_boxes2d (bk : Backend) (m : Cells α) (a b v p res : Nat) (k : α) :
    Spec.Stored m res (Box2d.expandVec2 bk (Obj.get m a) (Obj.get m v)) (box2dExpandVec2 bk m a v res)
    ∧ Spec.Stored m res (Box2d.expand bk (Obj.get m a) (Obj.get m p)) (box2dExpand bk m a p res)
    ∧ Spec.Stored m res (Box2d.expandScalar (Obj.get m a) k) (box2dExpandScalar m a k res)
    ∧ Spec.Stored m res (Box2d.scaleOffset bk (Obj.get m a) (some (Obj.get m v)) (some (Obj.get m p)))
        (box2dScaleOffset bk m a v p res)
    ∧ Spec.Stored m res (Box2d.union bk (Obj.get m a) (Obj.get m b)) (box2dUnion bk m a b res)
    ∧ ((box2dIntersection bk m a b res).1 = (Box2d.intersection bk (Obj.get m a) (Obj.get m b)).1
      ∧ Spec.Stored m res (Box2d.intersection bk (Obj.get m a) (Obj.get m b)).2 (box2dIntersection bk m a b res).2) := by
  have e : ∀ c, (Obj.get m c : Box2d α).minV = Simd4f.mergeLow (ldV m c) Simd4f.initZero
      ∧ (Obj.get m c : Box2d α).maxV = Simd4f.mergeHigh (ldV m c) Simd4f.initZero := fun c => ⟨rfl, rfl⟩
  refine ⟨?_, ?_, ?_, ?_, ?_, ?_, ?_⟩
  · simp only [box2dExpandVec2, box2dExpandSimd4f, box2dFromSimd4f]; stored
  · simp only [box2dExpand, box2dExpandSimd4f, box2dFromSimd4f]; stored
  · simp only [box2dExpandScalar, box2dFromSimd4f]; stored
  · simp only [box2dScaleOffset]; stored
  · simp only [box2dUnion, box2dFromSimd4f]; stored
  · simp only [box2dIntersection, Box2d.intersection, e]; split <;> rfl
  · simp only [box2dIntersection, Box2d.intersection, e, box2dFromSimd4f]
    split <;> stored

/-- C127, the corners of a 2D box into two points that do not overlap each other. -/
theorem C127_box2d_minmax (m : Cells α) (a p q : Nat) (hq : Spec.Disjoint q 2 p 2) :
    (Obj.get (box2dGetMinmax m a p q) p : Point α) = Box2d.getMin (Obj.get m a)
    ∧ (Obj.get (box2dGetMinmax m a p q) q : Point α) = Box2d.getMax (Obj.get m a) := by
  simp only [Spec.Disjoint] at hq
  simp only [box2dGetMinmax]
  constructor <;> cells <;> rfl

/-- C127 for spheres, planes and rays: the result may be the operand. -/
theorem C127_solids (bk : Backend) (m : Cells α) (s p q o d r res : Nat)
    (hq : Spec.SameOrApart q 5 res 5) (hd : Spec.Disjoint d 4 res 4)
    (hr : Spec.SameOrApart r 8 res 8) :
    Spec.Stored m res (Sphere.translateInto (Obj.get m s) (Obj.get m p) (Obj.get m res)) (sphereTranslate m s p res)
    ∧ Spec.Stored m res (Obj.get m q : Plane α) (planeInitFromPlane m res q)
    ∧ Spec.Stored m res (Plane.normalize bk (Obj.get m q)) (planeNormalize bk m q res)
    ∧ Spec.Stored m res (Plane.negate bk (Obj.get m q)) (planeNegate bk m q res)
    ∧ Spec.Stored m res (Ray.initFromVec3 bk (some (Obj.get m o)) (some (Obj.get m d))) (rayInitFromVec3 bk m res o d)
    ∧ Spec.Stored m res (Ray.initFromRay bk (Obj.get m r)) (rayInitFromRay bk m res r) := by
  simp only [Spec.SameOrApart, Spec.Disjoint] at hq hd hr
  refine ⟨?_, ?_, ?_, ?_, ?_, ?_⟩
  · simp only [sphereTranslate]; stored
  · simp only [planeInitFromPlane]; stored
  · simp only [planeNormalize, vec3Normalize_put]; stored
  · simp only [planeNegate]; stored
  · simp only [rayInitFromVec3, vec3Normalize_put]; stored
  · simp only [rayInitFromRay, rayInitFromVec3, vec3Normalize_put]; stored

/-- C127 for `graphene_plane_transform`: any objects. -/
theorem C127_plane_transform (bk : Backend) (m : Cells α) (p mat res : Nat) (nm : Option Nat) (v : Plane α)
    (h : Plane.transform bk (Obj.get m p) (Obj.get m mat) (nm.map (Obj.get m ·)) = some v) :
    ∃ m', planeTransform bk m p mat nm res = some m' ∧ Spec.Stored m res v m' := by
  refine ⟨st (stV m res v.normal.value) (res + 4) v.constant, ?_, ?_⟩
  · simp only [planeTransform, h]; rfl
  · stored

/-- C127 for `graphene_triangle_get_uv`: right when the result does not overlap the triangle, the point or the texture
coordinates. -/
theorem C127_get_uv (bk : Backend) (m : Cells α) (t p ua ub uc res : Nat) (ht : Spec.Disjoint t 12 res 4)
    (hp : Spec.Disjoint p 3 res 4) (ha : Spec.Disjoint ua 4 res 4) (hb : Spec.Disjoint ub 4 res 4) (hc : Spec.Disjoint uc 4 res 4) :
    (triangleGetUv bk m t p ua ub uc res).1
        = (Triangle.getUv bk (Obj.get m t) (some (Obj.get m p)) (Obj.get m ua) (Obj.get m ub) (Obj.get m uc)).1
    ∧ Spec.Stored m res
        (Triangle.getUv bk (Obj.get m t) (some (Obj.get m p)) (Obj.get m ua) (Obj.get m ub) (Obj.get m uc)).2
        (triangleGetUv bk m t p ua ub uc res).2 := by
  simp only [Spec.Disjoint] at ht hp ha hb hc
  have et : (Obj.get (stV m res (Simd4f.init f0 f0 f0 f0)) t : Triangle α) = Obj.get m t := by cells
  have ep : (Obj.get (stV m res (Simd4f.init f0 f0 f0 f0)) p : Point3D α) = Obj.get m p := by cells
  simp only [triangleGetUv, Triangle.getUv, et, ep]
  cases h : Triangle.getBarycoords bk (Obj.get m t : Triangle α) (some (Obj.get m p)) with
  | none => exact ⟨rfl, by stored⟩
  | some bc =>
    refine ⟨rfl, ?_⟩
    dsimp only
    stored

/-- C127 delimited: a result that is also the first texture coordinate has been set to zero before it is read, so the contribution
of `uv_a` is lost. -/
theorem C127_get_uv_own_operand (bk : Backend) (m : Cells α) (t p ub uc res : Nat) (ht : Spec.Disjoint t 12 res 4)
    (hp : Spec.Disjoint p 3 res 4) (hb : Spec.Disjoint ub 4 res 4) (hc : Spec.Disjoint uc 4 res 4) :
    (Obj.get (triangleGetUv bk m t p res ub uc res).2 res : Vec2 α)
      = (Triangle.getUv bk (Obj.get m t) (some (Obj.get m p)) (Vec2.init f0 f0) (Obj.get m ub) (Obj.get m uc)).2 := by
  simp only [Spec.Disjoint] at ht hp hb hc
  have et : (Obj.get (stV m res (Simd4f.init f0 f0 f0 f0)) t : Triangle α) = Obj.get m t := by cells
  have ep : (Obj.get (stV m res (Simd4f.init f0 f0 f0 f0)) p : Point3D α) = Obj.get m p := by cells
  simp only [triangleGetUv, Triangle.getUv, et, ep]
  cases h : Triangle.getBarycoords bk (Obj.get m t : Triangle α) (some (Obj.get m p)) with
  | none => cells; rfl
  | some bc => dsimp only; cells; rfl

/-- C127 for quaternions: any objects for those that read everything first, the operand itself or another object for the inverse. -/
theorem C127_quaternions (bk : Backend) (m : Cells α) (a b res : Nat) (k : α) (ha : Spec.SameOrApart a 4 res 4) :
    Spec.Stored m res (Quat.invert (Obj.get m a)) (quatInvert m a res)
    ∧ Spec.Stored m res (Quat.normalize bk (Obj.get m a)) (quatNormalize bk m a res)
    ∧ Spec.Stored m res (Quat.multiply (Obj.get m a) (Obj.get m b)) (quatMultiply m a b res)
    ∧ Spec.Stored m res (Quat.scale (Obj.get m a) k) (quatScale m a k res)
    ∧ Spec.Stored m res (Quat.add (Obj.get m a) (Obj.get m b)) (quatAdd m a b res)
    ∧ Spec.Stored m res (Quat.slerp (Obj.get m a) (Obj.get m b) k) (quatSlerp m a b k res) := by
  simp only [Spec.SameOrApart] at ha
  simp only [quatInvert, quatNormalize, quatMultiply, quatScale, quatAdd, quatSlerp, quatFromSimd4f, quatV]
  refine ⟨?_, ?_, ?_, ?_, ?_, ?_⟩ <;> stored

omit [Scalar α] in
theorem put_m4_stored (m : Cells α) (r : Nat) (v : M4 α) : Spec.Stored m r v (Obj.put m r v) := by stored

/-- C127 for matrices: products, transposes, sums, perspective and normalisation may be written over an operand. -/
theorem C127_matrices (bk : Backend) (m : Cells α) (a b res : Nat) (k : α)
    (ha : Spec.SameOrApart a 16 res 16) (hb : Spec.SameOrApart b 16 res 16) :
    Spec.Stored m res (GMatrix.multiply (Obj.get m a) (Obj.get m b)) (matrixMul m a b res)
    ∧ Spec.Stored m res (GMatrix.transpose (Obj.get m a)) (transpose m a res)
    ∧ Spec.Stored m res (GMatrix.perspective (Obj.get m a) k) (matrixPerspective m a k res)
    ∧ Spec.Stored m res (Simd4x4f.add (Obj.get m a) (Obj.get m b)) (rowwise Simd4f.add m a b res)
    ∧ Spec.Stored m res (Simd4x4f.sub (Obj.get m a) (Obj.get m b)) (rowwise Simd4f.sub m a b res)
    ∧ Spec.Stored m res (Simd4x4f.mul (Obj.get m a) (Obj.get m b)) (rowwise Simd4f.mul m a b res)
    ∧ Spec.Stored m res (Simd4x4f.div bk (Obj.get m a) (Obj.get m b)) (rowwise (Simd4f.div bk) m a b res) := by
  simp only [Spec.SameOrApart] at ha hb
  refine ⟨?_, ?_, ?_, ?_, ?_, ?_, ?_⟩
  · simp only [matrixMul]; exact put_m4_stored _ _ _
  · simp only [transpose, transposeInPlace]; stored
  · simp only [matrixPerspective]
    have e : (Obj.get (Obj.put m res (Obj.get m a : M4 α)) res : M4 α) = Obj.get m a := (put_m4_stored _ _ _).1
    rw [e]
    refine ⟨(put_m4_stored _ _ _).1, fun i hi => ?_⟩
    rw [(put_m4_stored _ _ _).2 i hi, (put_m4_stored _ _ _).2 i hi]
  all_goals simp only [rowwise]; stored

/-- C127, `graphene_matrix_inverse` and `graphene_matrix_normalize`: a result, or a refusal that
leaves the result object as it was. -/
theorem C127_inverse_normalize (bk : Backend) (m : Cells α) (a res : Nat) (ha : Spec.SameOrApart a 16 res 16) :
    (∀ v, GMatrix.inverse bk (Obj.get m a) = some v →
      (matrixInverse bk m a res).1 = true ∧ Spec.Stored m res v (matrixInverse bk m a res).2)
    ∧ (GMatrix.inverse bk (Obj.get m a) = none → matrixInverse bk m a res = (false, m))
    ∧ (∀ v, GMatrix.normalize (Obj.get m a) = some v → Spec.Stored m res v (matrixNormalize m a res))
    ∧ (GMatrix.normalize (Obj.get m a : M4 α) = none → matrixNormalize m a res = m) := by
  simp only [Spec.SameOrApart] at ha
  simp only [GMatrix.inverse, matrixInverse]
  refine ⟨fun v h => ?_, fun h => ?_, fun v h => ?_, fun h => ?_⟩
  · rw [h]; exact ⟨rfl, put_m4_stored _ _ _⟩
  · rw [h]
  · simp only [GMatrix.normalize] at h
    have g : Simd4f.get (ldV m (a + 12)) 3 = (ldV m (a + 12)).w := rfl
    simp only [matrixNormalize, g]
    have e : (Obj.get m a : M4 α).w = ldV m (a + 12) := rfl
    rw [e] at h
    split at h
    · cases h
    · rename_i hz
      rw [if_neg hz]
      obtain rfl := Option.some.inj h
      stored
  · simp only [GMatrix.normalize] at h
    have g : Simd4f.get (ldV m (a + 12)) 3 = (ldV m (a + 12)).w := rfl
    simp only [matrixNormalize, g]
    have e : (Obj.get m a : M4 α).w = ldV m (a + 12) := rfl
    rw [e] at h
    split at h
    · rename_i hz
      rw [if_pos hz]
    · cases h

/-- in place: the expansions of a box one after the other -/
theorem boxExpandAll_stored (bk : Backend) (res : Nat) (vs : List (Vec3 α)) (m : Cells α) :
    Spec.Stored m res (vs.foldl (Box.expandVec3 bk) (Obj.get m res)) (boxExpandAll bk m res vs) := by
  induction vs generalizing m with
  | nil => exact ⟨rfl, fun _ _ => rfl⟩
  | cons v vs ih =>
    have h : Spec.Stored m res (Box.expandVec3 bk (Obj.get m res) v) (boxExpandSimd4f bk m res v.value res) := by
      simp only [boxExpandSimd4f]; stored
    obtain ⟨h1, h2⟩ := ih (boxExpandSimd4f bk m res v.value res)
    rw [h.1] at h1
    exact ⟨h1, fun i hi => (h2 i hi).trans (h.2 i hi)⟩

/-- C127 for the transformations of a matrix: the image may overwrite the shape (a matrix is not a shape, so it does not overlap the
result where it is read again after a store). -/
theorem C127_transforms (bk : Backend) (m : Cells α) (a v p q r s b y res : Nat)
    (hs : Spec.SameOrApart s 5 res 5) (has : Spec.Disjoint a 16 res 5) :
    Spec.Stored m res (GMatrix.transformVec4 (Obj.get m a) (Obj.get m v)) (vec4Mul m a v res)
    ∧ Spec.Stored m res (GMatrix.transformVec3 (Obj.get m a) (Obj.get m v)) (vec3Mul m a v res)
    ∧ Spec.Stored m res (GMatrix.transformPoint (Obj.get m a) (Obj.get m p)) (transformPoint m a p res)
    ∧ Spec.Stored m res (GMatrix.transformPoint3D (Obj.get m a) (Obj.get m q)) (transformPoint3D m a q res)
    ∧ Spec.Stored m res (GMatrix.transformBounds bk (Obj.get m a) (Obj.get m r)) (transformBounds bk m a r res)
    ∧ Spec.Stored m res (GMatrix.transformSphere bk (Obj.get m a) (Obj.get m s)) (transformSphere bk m a s res)
    ∧ Spec.Stored m res (GMatrix.transformBox bk (Obj.get m a) (Obj.get m b)) (transformBox bk m a b res)
    ∧ Spec.Stored m res (GMatrix.transformRay bk (Obj.get m a) (Obj.get m y)) (transformRay bk m a y res) := by
  simp only [Spec.SameOrApart, Spec.Disjoint] at hs has
  refine ⟨?_, ?_, ?_, ?_, ?_, ?_, ?_, ?_⟩
  · simp only [vec4Mul]; stored
  · simp only [vec3Mul]; stored
  · simp only [transformPoint]; stored
  · simp only [transformPoint3D]; stored
  · simp only [transformBounds, rectInit_put]
    exact put_rect_stored _ _ _
  · simp only [transformSphere, point3Mul]; stored
  · have h := boxExpandAll_stored bk res
      ((Box.getVertices (Obj.get m b : Box α)).map fun v => (⟨Simd4x4f.point3Mul (Obj.get m a) v.value⟩ : Vec3 α))
      (Obj.put m res (Box.empty : Box α))
    have e : (Obj.get (Obj.put m res (Box.empty : Box α)) res : Box α) = Box.empty := by cells
    rw [e] at h
    refine ⟨h.1, fun i hi => (h.2 i hi).trans ?_⟩
    simp only [Obj.size] at hi; cells
  · simp only [transformRay]; stored

/-- C127 for the skews, which work in place: only one row is written. -/
theorem C127_skews (bk : Backend) (m : Cells α) (a : Nat) (k : α) :
    Spec.Stored m a (GMatrix.skewXY bk (Obj.get m a) k) (skewXY bk m a k)
    ∧ Spec.Stored m a (GMatrix.skewXZ bk (Obj.get m a) k) (skewXZ bk m a k)
    ∧ Spec.Stored m a (GMatrix.skewYZ bk (Obj.get m a) k) (skewYZ bk m a k) := by
  simp only [skewXY, skewXZ, skewYZ]
  refine ⟨?_, ?_, ?_⟩ <;> stored

/-! ### non-vacuity: results on top of operands, where the stores really change the operand -/
section examples
/-- a memory holding its own addresses -/
noncomputable def ownAddresses : Cells ℝ := fun i => (i : ℝ)

/-- a vector replaced by its sum with the next one -/
example : (Obj.get (vecBin Simd4f.add ownAddresses 4 8 4) 4 : Vec4 ℝ) = ⟨⟨12, 14, 16, 18⟩⟩ := by
  rw [(C127_vec4 (δ := ℝ) .gcc ownAddresses 4 8 4 0 0).1.1]
  simp [Vec4.add, Simd4f.add, Simd4f.map2, Obj.get, ldV, ownAddresses]; norm_num

/-- a rectangle replaced by its union with another, and the cell after it untouched -/
example : (Obj.get (rectUnion ownAddresses 4 0 4) 4 : Rect ℝ) = Rect.union ⟨⟨4, 5⟩, ⟨6, 7⟩⟩ ⟨⟨0, 1⟩, ⟨2, 3⟩⟩
    ∧ rectUnion ownAddresses 4 0 4 8 = 8 := by
  have h := (C127_rects (δ := ℝ) ownAddresses 4 0 4 0 4 0 0 0 0 0).2.2.2.2.2.2.2.1
  refine ⟨h.1.trans ?_, (h.2 8 (by simp [Obj.size])).trans ?_⟩
  · simp [Obj.get, ownAddresses]
  · simp [ownAddresses]

/-- the hypotheses for an in-place interpolation, and a matrix multiplied by itself in place -/
example : Spec.SameOrApart 4 2 4 2 ∧ Spec.SameOrApart 6 2 4 2 ∧ Spec.SameOrApart 0 16 0 16 ∧ Spec.Disjoint 20 3 0 5 := by
  simp [Spec.SameOrApart, Spec.Disjoint]

/-- a point moved half way to another, in place -/
example : (Obj.get (pointInterpolate ownAddresses 4 6 (1 / 2 : ℝ) 4) 4 : Point ℝ)
    = Point.interpolate ⟨4, 5⟩ ⟨6, 7⟩ (1 / 2 : ℝ) := by
  rw [(C127_componentwise (δ := ℝ) ownAddresses 4 6 4 (1 / 2) 0 (by simp [Spec.SameOrApart]) (by simp [Spec.SameOrApart])).1.1]
  simp [Obj.get, ownAddresses]

/-- a matrix replaced by its transpose -/
example : (Obj.get (transpose ownAddresses 0 0) 0 : M4 ℝ)
    = ⟨⟨0, 4, 8, 12⟩, ⟨1, 5, 9, 13⟩, ⟨2, 6, 10, 14⟩, ⟨3, 7, 11, 15⟩⟩ := by
  rw [(C127_matrices .gcc ownAddresses 0 0 0 0 (Or.inl rfl) (Or.inl rfl)).2.1.1]
  simp [GMatrix.transpose, Simd4x4f.transpose, Obj.get, ldV, ownAddresses]

/-- the exchange of two corners of a quad really loses a corner -/
example : (Obj.get (quadInit ownAddresses 0 2 0 4 6) 0 : Quad ℝ) ≠ Quad.init ⟨2, 3⟩ ⟨0, 1⟩ ⟨4, 5⟩ ⟨6, 7⟩ := by
  have h := C127_quad_own_corners ownAddresses 0
  simp only [Nat.zero_add] at h
  rw [h]
  simp [Quad.init, Obj.get, ownAddresses]
end examples

end Graphene

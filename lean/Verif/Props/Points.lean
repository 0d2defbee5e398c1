/-
  Properties C12–C16: points and sizes.
-/
import Verif.Props.Vectors4
import Verif.Proofs.FpLemmas
import Verif.Model.Rect
import Mathlib.Analysis.InnerProductSpace.PiL2

namespace Graphene
open Simd4f

/-! ## C12 distances -/

/-- the point of the Euclidean plane a `Point` denotes -/
noncomputable def Spec.e2 (p : Point ℝ) : EuclideanSpace ℝ (Fin 2) := !₂[p.x, p.y]
/-- the point of Euclidean space a `Point3D` denotes -/
noncomputable def Spec.e3 (p : Point3D ℝ) : EuclideanSpace ℝ (Fin 3) := !₂[p.x, p.y, p.z]

theorem e2_inj {a b : Point ℝ} : Spec.e2 a = Spec.e2 b ↔ a = b := by
  constructor
  · intro h
    have h0 := congrFun (congrArg WithLp.ofLp h) 0
    have h1 := congrFun (congrArg WithLp.ofLp h) 1
    simp [Spec.e2] at h0 h1
    ext <;> assumption
  · rintro rfl; rfl
theorem e3_inj {a b : Point3D ℝ} : Spec.e3 a = Spec.e3 b ↔ a = b := by
  constructor
  · intro h
    have h0 := congrFun (congrArg WithLp.ofLp h) 0
    have h1 := congrFun (congrArg WithLp.ofLp h) 1
    have h2 := congrFun (congrArg WithLp.ofLp h) 2
    simp [Spec.e3] at h0 h1 h2
    ext <;> assumption
  · rintro rfl; rfl

theorem point_distance_dist (bk : Backend) (a b : Point ℝ) :
    (Point.distance bk a b).1 = dist (Spec.e2 a) (Spec.e2 b) := by
  rw [EuclideanSpace.dist_eq]
  simp only [Point.distance, length2_real, Fin.sum_univ_two, Real.dist_eq, sq_abs, Spec.e2]
  simp [Point.diff, Simd4f.sub, map2, Simd4f.init, Simd4f.get, splat, sq]

theorem point3d_distance_dist (bk : Backend) (a b : Point3D ℝ) :
    (Point3D.distance bk a b).1 = dist (Spec.e3 a) (Spec.e3 b) := by
  rw [EuclideanSpace.dist_eq]
  simp only [Point3D.distance, vec3_length, Fin.sum_univ_three, Real.dist_eq, sq_abs, Spec.e3]
  simp [Point3D.toVec3, Vec3.subtract, Simd4f.sub, map2, Simd4f.init, Simd4f.get, Vec3.getX, Vec3.getY,
    Vec3.getZ, sq]

/-- C12 (point): the distance (of objects at any addresses) is the Euclidean distance: a
metric; the squared distance is its square; the deltas, written exactly when the two
addresses differ, are the absolute coordinate differences. -/
theorem C12_point (bk : Backend) (m : Mem (Point ℝ)) (a b c : Nat) :
    (Point.distanceP bk m a b).1 = dist (Spec.e2 (m a)) (Spec.e2 (m b)) ∧
    0 ≤ (Point.distanceP bk m a b).1 ∧
    ((Point.distanceP bk m a b).1 = 0 ↔ m a = m b) ∧
    (Point.distanceP bk m a b).1 = (Point.distanceP bk m b a).1 ∧
    (Point.distanceP bk m a c).1 ≤ (Point.distanceP bk m a b).1 + (Point.distanceP bk m b c).1 ∧
    Point.distanceSquaredP m a b = (Point.distanceP bk m a b).1 ^ 2 ∧
    (a ≠ b → (Point.distanceP bk m a b).2 =
      some (|(m a).x - (m b).x|, |(m a).y - (m b).y|)) := by
  have key : ∀ a b, (Point.distanceP bk m a b).1 = dist (Spec.e2 (m a)) (Spec.e2 (m b)) := by
    intro a b
    unfold Point.distanceP
    split
    · rename_i h; subst h; simp
    · exact point_distance_dist bk _ _
  refine ⟨key a b, by rw [key]; positivity, by rw [key, dist_eq_zero, e2_inj],
    by rw [key, key, dist_comm], by rw [key, key, key]; exact dist_triangle _ _ _, ?_, ?_⟩
  · rw [key]
    unfold Point.distanceSquaredP
    split
    · rename_i h; subst h; simp
    · rw [EuclideanSpace.dist_eq, Real.sq_sqrt (by positivity)]
      simp [Point.distanceSquared, Point.diff, Simd4f.sub, map2, Simd4f.init, Simd4f.get, splat,
        Fin.sum_univ_two, Real.dist_eq, Spec.e2, sq]
  · intro h
    simp [Point.distanceP, h, Point.distance, Point.diff, greal]

/-- C12 (point3d). -/
theorem C12_point3d (bk : Backend) (a b c : Point3D ℝ) :
    (Point3D.distance bk a b).1 = dist (Spec.e3 a) (Spec.e3 b) ∧
    0 ≤ (Point3D.distance bk a b).1 ∧
    ((Point3D.distance bk a b).1 = 0 ↔ a = b) ∧
    (Point3D.distance bk a b).1 = (Point3D.distance bk b a).1 ∧
    (Point3D.distance bk a c).1 ≤ (Point3D.distance bk a b).1 + (Point3D.distance bk b c).1 ∧
    Spec.v3 (Point3D.distance bk a b).2 = ![|a.x - b.x|, |a.y - b.y|, |a.z - b.z|] := by
  have key := point3d_distance_dist bk
  refine ⟨key a b, by rw [key]; positivity, by rw [key, dist_eq_zero, e3_inj],
    by rw [key, key, dist_comm], by rw [key, key, key]; exact dist_triangle _ _ _, ?_⟩
  simp [Point3D.distance, Point3D.toVec3, Spec.v3, greal]

/-- C12: the vector operations of `point3d` are those of the coordinate vector. -/
theorem C12_point3d_vector (bk : Backend) (a b : Point3D ℝ) (s : ℝ) :
    Point3D.scale a s = ⟨a.x * s, a.y * s, a.z * s⟩ ∧
    Point3D.dot bk a b = a.x * b.x + a.y * b.y + a.z * b.z ∧
    Point3D.length bk a = dist (Spec.e3 a) (Spec.e3 ⟨0, 0, 0⟩) ∧
    Point3D.cross bk a b = ⟨a.y * b.z - a.z * b.y, a.z * b.x - a.x * b.z, a.x * b.y - a.y * b.x⟩ ∧
    Spec.v3 (Point3D.toVec3 a) = ![a.x, a.y, a.z] ∧
    (∀ v : Vec3 ℝ, Point3D.initFromVec3 v = ⟨v.getX, v.getY, v.getZ⟩) ∧
    (∀ v : Vec2 ℝ, Point.initFromVec2 v = ⟨v.getX, v.getY⟩) ∧
    (∀ p : Point ℝ, (Point.toVec2 p).getX = p.x ∧ (Point.toVec2 p).getY = p.y) ∧
    (∀ x : Size ℝ, Size.scale x s = ⟨x.width * s, x.height * s⟩) := by
  refine ⟨?_, ?_, ?_, ?_, ?_, fun _ => rfl, fun _ => rfl, fun _ => ⟨rfl, rfl⟩, fun _ => rfl⟩
  · simp [Point3D.scale, Point3D.initFromSimd4f, Point3D.vec, greal]
  · simp [Point3D.dot, Point3D.vec, greal]
  · rw [EuclideanSpace.dist_eq]
    simp [Point3D.length, length3_real, Point3D.vec, Simd4f.init, Simd4f.get, splat,
      Fin.sum_univ_three, Real.dist_eq, Spec.e3, sq]
  · simp [Point3D.cross, Point3D.initFromSimd4f, Point3D.vec, greal]
  · simp [Point3D.toVec3, Spec.v3, greal]

/-- C04 (point3d): normalising a non-zero point (squared length above the scalar
backend's guard, if that is the backend) gives the unit vector in its direction. -/
theorem C04_point3d (bk : Backend) (p : Point3D ℝ)
    (h0 : p ≠ ⟨0, 0, 0⟩) (hok : rsqrtOk bk (Point3D.dot bk p p)) :
    Spec.UnitOf ![(p.normalize bk).x, (p.normalize bk).y, (p.normalize bk).z] ![p.x, p.y, p.z] := by
  obtain ⟨x, y, z⟩ := p
  have hs : 0 < x * x + y * y + z * z := by
    by_contra hc
    apply h0
    have hx := mul_self_nonneg x
    have hy := mul_self_nonneg y
    have hz := mul_self_nonneg z
    have : x = 0 := by nlinarith
    have : y = 0 := by nlinarith
    have : z = 0 := by nlinarith
    simp [*]
  have hok' : rsqrtOk bk (x * x + y * y + z * z) := by
    simpa [Point3D.dot, Point3D.vec, greal] using hok
  have hr := rsqrt1_ok hs hok'
  have e : Point3D.normalize bk ⟨x, y, z⟩ =
      ⟨x * (√(x * x + y * y + z * z))⁻¹, y * (√(x * x + y * y + z * z))⁻¹,
        z * (√(x * x + y * y + z * z))⁻¹⟩ := by
    simp [Point3D.normalize, Point3D.initFromSimd4f, Point3D.vec, Simd4f.init, normalize3,
      Simd4f.rsqrt, map1, splat, hr, Simd4f.mul, map2, Simd4f.dot3]
  rw [e]
  refine ⟨?_, (√(x * x + y * y + z * z))⁻¹, by positivity, ?_⟩
  · simp only [Fin.sum_univ_three, Matrix.cons_val_zero, Matrix.cons_val_one, Matrix.cons_val,
      mul_pow, inv_sqrt_sq hs]
    rw [← mul_inv_cancel₀ hs.ne']; ring
  · intro i; fin_cases i <;> simp [mul_comm]

/-! ## C13 interpolation over ℝ -/

/-- `r` is the affine interpolation of `a` and `b`: the first at 0, the second at 1, between
them for factors in `[0,1]` -/
def Spec.Lerp (r : ℝ → ℝ) (a b : ℝ) : Prop :=
  r 0 = a ∧ r 1 = b ∧ ∀ f, 0 ≤ f → f ≤ 1 → min a b ≤ r f ∧ r f ≤ max a b

theorem lerp_spec (a b : ℝ) : Spec.Lerp (fun f => (1 - f) * a + f * b) a b := by
  refine ⟨by simp, by simp, fun f h0 h1 => ?_⟩
  constructor
  · have ha := min_le_left a b
    have hb := min_le_right a b
    nlinarith
  · have ha := le_max_left a b
    have hb := le_max_right a b
    nlinarith

/-- C13: points, sizes, rectangles (in normalised form) and vectors. -/
theorem C13_interpolate (p q : Point ℝ) (s t : Point3D ℝ) (u v : Size ℝ) (r r' : Rect ℝ)
    (a b : Vec2 ℝ) (c d : Vec3 ℝ) (e g : Vec4 ℝ) :
    Spec.Lerp (fun f => (Point.interpolate p q f).x) p.x q.x ∧
    Spec.Lerp (fun f => (Point.interpolate p q f).y) p.y q.y ∧
    Spec.Lerp (fun f => (Point3D.interpolate s t f).x) s.x t.x ∧
    Spec.Lerp (fun f => (Point3D.interpolate s t f).y) s.y t.y ∧
    Spec.Lerp (fun f => (Point3D.interpolate s t f).z) s.z t.z ∧
    Spec.Lerp (fun f => (Size.interpolate u v f).width) u.width v.width ∧
    Spec.Lerp (fun f => (Size.interpolate u v f).height) u.height v.height ∧
    Spec.Lerp (fun f => (Rect.interpolate r r' f).origin.x) r.getX r'.getX ∧
    Spec.Lerp (fun f => (Rect.interpolate r r' f).origin.y) r.getY r'.getY ∧
    Spec.Lerp (fun f => (Rect.interpolate r r' f).size.width) r.getWidth r'.getWidth ∧
    Spec.Lerp (fun f => (Rect.interpolate r r' f).size.height) r.getHeight r'.getHeight ∧
    Spec.Lerp (fun f => (Vec2.interpolate a b f).getX) a.getX b.getX ∧
    Spec.Lerp (fun f => (Vec2.interpolate a b f).getY) a.getY b.getY ∧
    Spec.Lerp (fun f => (Vec3.interpolate c d f).getX) c.getX d.getX ∧
    Spec.Lerp (fun f => (Vec3.interpolate c d f).getY) c.getY d.getY ∧
    Spec.Lerp (fun f => (Vec3.interpolate c d f).getZ) c.getZ d.getZ ∧
    Spec.Lerp (fun f => (Vec4.interpolate e g f).getX) e.getX g.getX ∧
    Spec.Lerp (fun f => (Vec4.interpolate e g f).getY) e.getY g.getY ∧
    Spec.Lerp (fun f => (Vec4.interpolate e g f).getZ) e.getZ g.getZ ∧
    Spec.Lerp (fun f => (Vec4.interpolate e g f).getW) e.getW g.getW := by
  refine ⟨?_, ?_, ?_, ?_, ?_, ?_, ?_, ?_, ?_, ?_, ?_, ?_, ?_, ?_, ?_, ?_, ?_, ?_, ?_, ?_⟩ <;>
    simp only [Point.interpolate, Point3D.interpolate, Size.interpolate, Rect.interpolate,
      Rect.getX, Rect.getY, Rect.getWidth, Rect.getHeight, flerpf_real, Vec2.interpolate,
      Vec3.interpolate, Vec4.interpolate, Simd4f.interpolate, Vec2.getX, Vec2.getY, Vec3.getX,
      Vec3.getY, Vec3.getZ, Vec4.getX, Vec4.getY, Vec4.getZ, Vec4.getW, Simd4f.get, Simd4f.add,
      Simd4f.sub, Simd4f.mul, Simd4f.splat, map2, RealScalar.add_eq, RealScalar.sub_eq,
      RealScalar.mul_eq, RealScalar.f1_eq, RealScalar.narrow_eq] <;>
    exact lerp_spec _ _

/-! ## C14 exact endpoints in floating point -/
section
variable [Libm binary32] [Libm binary64]

omit [Libm binary32] [Libm binary64] in
theorem sub_self_fin {f : Fmt} (s : Bool) (m : Nat) (h : f.Rep m) :
    Fp.sub (.fin s m h) (.fin s m h) = Fp.zero false := by
  simp only [Fp.sub, Fp.neg, Fp.add, Fp.sgn_not]
  cases s <;> simp [Fp.ofInt]

omit [Libm binary32] [Libm binary64] in
theorem flerpf_fp [Libm binary64] (a b : F32) (t : F64) :
    flerpf a b t = Fp.convert binary32 (Fp.add (Fp.mul (Fp.sub (Fp.lit 1 1) t)
      (Fp.convert binary64 a)) (Fp.mul t (Fp.convert binary64 b))) := by
  have w : ∀ x : F32, (FloatConv.widen x : F64) = Fp.convert binary64 x := fun _ => rfl
  have n : ∀ x : F64, (FloatConv.narrow x : F32) = Fp.convert binary32 x := fun _ => rfl
  rw [flerpf, n, w, w, Fp.sc_add, Fp.sc_mul, Fp.sc_mul, Fp.sc_sub, Fp.sc_lit]

omit [Libm binary32] [Libm binary64] in
theorem one_sub_zero64 : Fp.sub (Fp.lit 1 1 : F64) (Fp.zero false) = Fp.lit 1 1 := by
  rw [Fp.lit_one64]
  show Fp.add _ (Fp.zero true) = _
  rw [Fp.add_zero_fin, if_neg (Nat.two_pow_pos _).ne']

omit [Libm binary32] [Libm binary64] in
theorem one_sub_one64 : Fp.sub (Fp.lit 1 1 : F64) (Fp.lit 1 1) = Fp.zero false := by
  rw [Fp.lit_one64]; exact sub_self_fin _ _ _

omit [Libm binary32] [Libm binary64] in
theorem feq_self_fin {a : F32} (h : a.isFin = true) : Fp.feq a a = true := by
  cases a <;> simp_all [Fp.isFin, Fp.feq]

omit [Libm binary32] [Libm binary64] in
theorem narrow_zero (s : Bool) : (Fp.convert binary32 (Fp.zero s : F64)) = Fp.zero s := by
  simp only [Fp.convert, Fp.zero, Nat.zero_mul]
  exact Fp.ofMag_zero _ (Nat.two_pow_pos _)

omit [Libm binary32] in
theorem flerpf_zero (a b : F32) (ha : a.isFin = true) (hb : b.isFin = true) :
    Fp.feq (flerpf a b (Fp.zero false : F64)) a = true := by
  cases a with
  | nan => simp [Fp.isFin] at ha
  | inf s => simp [Fp.isFin] at ha
  | fin s m h =>
    cases b with
    | nan => simp [Fp.isFin] at hb
    | inf s => simp [Fp.isFin] at hb
    | fin t n hn =>
      rw [flerpf_fp]
      rw [one_sub_zero64, Fp.one_mul64, Fp.widen_fin, Fp.widen_fin, Fp.zero_mul_fin, Fp.add_zero_fin]
      split
      · rename_i h0
        have hm : m = 0 := by simpa using h0
        subst hm
        rw [narrow_zero]; cases s <;> simp [Fp.feq, Fp.key, Fp.zero, Fp.sgn]
      · rw [← Fp.widen_fin h, Fp.narrow_widen]; exact feq_self_fin rfl

omit [Libm binary32] in
theorem flerpf_one (a b : F32) (ha : a.isFin = true) (hb : b.isFin = true) :
    Fp.feq (flerpf a b (Fp.lit 1 1 : F64)) b = true := by
  cases a with
  | nan => simp [Fp.isFin] at ha
  | inf s => simp [Fp.isFin] at ha
  | fin s m h =>
    cases b with
    | nan => simp [Fp.isFin] at hb
    | inf s => simp [Fp.isFin] at hb
    | fin t n hn =>
      rw [flerpf_fp]
      rw [one_sub_one64, Fp.one_mul64, Fp.widen_fin, Fp.widen_fin, Fp.zero_mul_fin, Fp.zero_add_fin]
      split
      · rename_i h0
        have hm : n = 0 := by simpa using h0
        subst hm
        rw [narrow_zero]; cases t <;> simp [Fp.feq, Fp.key, Fp.zero, Fp.sgn]
      · rw [← Fp.widen_fin hn, Fp.narrow_widen]; exact feq_self_fin rfl

/-- C14: with finite operands, factor 0 gives a value C-equal to the first operand, factor 1
to the second: no rounding error at all (rectangles: in their normalised form). -/
theorem C14_endpoints :
    (∀ a b : Point F32, a.x.isFin = true → a.y.isFin = true → b.x.isFin = true → b.y.isFin = true →
      (Fp.feq (Point.interpolate a b (Scalar.lit 0 1 : F64)).x a.x = true ∧
       Fp.feq (Point.interpolate a b (Scalar.lit 0 1 : F64)).y a.y = true) ∧
      (Fp.feq (Point.interpolate a b (Scalar.lit 1 1 : F64)).x b.x = true ∧
       Fp.feq (Point.interpolate a b (Scalar.lit 1 1 : F64)).y b.y = true)) ∧
    (∀ a b : Point3D F32, a.x.isFin = true → a.y.isFin = true → a.z.isFin = true →
      b.x.isFin = true → b.y.isFin = true → b.z.isFin = true →
      (Fp.feq (Point3D.interpolate a b (Scalar.lit 0 1 : F64)).x a.x = true ∧
       Fp.feq (Point3D.interpolate a b (Scalar.lit 0 1 : F64)).y a.y = true ∧
       Fp.feq (Point3D.interpolate a b (Scalar.lit 0 1 : F64)).z a.z = true) ∧
      (Fp.feq (Point3D.interpolate a b (Scalar.lit 1 1 : F64)).x b.x = true ∧
       Fp.feq (Point3D.interpolate a b (Scalar.lit 1 1 : F64)).y b.y = true ∧
       Fp.feq (Point3D.interpolate a b (Scalar.lit 1 1 : F64)).z b.z = true)) ∧
    (∀ a b : Size F32, a.width.isFin = true → a.height.isFin = true → b.width.isFin = true →
      b.height.isFin = true →
      (Fp.feq (Size.interpolate a b (Scalar.lit 0 1 : F64)).width a.width = true ∧
       Fp.feq (Size.interpolate a b (Scalar.lit 0 1 : F64)).height a.height = true) ∧
      (Fp.feq (Size.interpolate a b (Scalar.lit 1 1 : F64)).width b.width = true ∧
       Fp.feq (Size.interpolate a b (Scalar.lit 1 1 : F64)).height b.height = true)) ∧
    (∀ a b : Rect F32, a.getX.isFin = true → a.getY.isFin = true → a.getWidth.isFin = true →
      a.getHeight.isFin = true → b.getX.isFin = true → b.getY.isFin = true →
      b.getWidth.isFin = true → b.getHeight.isFin = true →
      (Fp.feq (Rect.interpolate a b (Scalar.lit 0 1 : F64)).origin.x a.getX = true ∧
       Fp.feq (Rect.interpolate a b (Scalar.lit 0 1 : F64)).origin.y a.getY = true ∧
       Fp.feq (Rect.interpolate a b (Scalar.lit 0 1 : F64)).size.width a.getWidth = true ∧
       Fp.feq (Rect.interpolate a b (Scalar.lit 0 1 : F64)).size.height a.getHeight = true) ∧
      (Fp.feq (Rect.interpolate a b (Scalar.lit 1 1 : F64)).origin.x b.getX = true ∧
       Fp.feq (Rect.interpolate a b (Scalar.lit 1 1 : F64)).origin.y b.getY = true ∧
       Fp.feq (Rect.interpolate a b (Scalar.lit 1 1 : F64)).size.width b.getWidth = true ∧
       Fp.feq (Rect.interpolate a b (Scalar.lit 1 1 : F64)).size.height b.getHeight = true)) := by
  have e0 : (Scalar.lit 0 1 : F64) = Fp.zero false := Fp.lit_zero
  have e1 : (Scalar.lit 1 1 : F64) = Fp.lit 1 1 := rfl
  rw [e0, e1]
  refine ⟨fun a b h1 h2 h3 h4 => ?_, fun a b h1 h2 h3 h4 h5 h6 => ?_, fun a b h1 h2 h3 h4 => ?_,
    fun a b h1 h2 h3 h4 h5 h6 h7 h8 => ?_⟩
  · exact ⟨⟨flerpf_zero _ _ h1 h3, flerpf_zero _ _ h2 h4⟩, flerpf_one _ _ h1 h3, flerpf_one _ _ h2 h4⟩
  · exact ⟨⟨flerpf_zero _ _ h1 h4, flerpf_zero _ _ h2 h5, flerpf_zero _ _ h3 h6⟩,
      flerpf_one _ _ h1 h4, flerpf_one _ _ h2 h5, flerpf_one _ _ h3 h6⟩
  · exact ⟨⟨flerpf_zero _ _ h1 h3, flerpf_zero _ _ h2 h4⟩, flerpf_one _ _ h1 h3, flerpf_one _ _ h2 h4⟩
  · exact ⟨⟨flerpf_zero _ _ h1 h5, flerpf_zero _ _ h2 h6, flerpf_zero _ _ h3 h7, flerpf_zero _ _ h4 h8⟩,
      flerpf_one _ _ h1 h5, flerpf_one _ _ h2 h6, flerpf_one _ _ h3 h7, flerpf_one _ _ h4 h8⟩

/-- non-vacuity: finite coordinates -/
example : (Fp.lit 1 10 : F32).isFin = true ∧ (Fp.lit (-7) 3 : F32).isFin = true := by
  decide +kernel

end

/-! ## C15 per-axis tolerance -/

/-- C15: `near` at distinct addresses holds exactly when every coordinate differs by less
than the tolerance; the same address is always near; `equal` uses `FLT_EPSILON`. -/
theorem C15_near (m : Mem (Point ℝ)) (m3 : Mem (Point3D ℝ)) (ms : Mem (Size ℝ)) (a b : Nat)
    (hab : a ≠ b) (ε : ℝ) :
    (Point.nearP m a b ε = true ↔ |(m a).x - (m b).x| < ε ∧ |(m a).y - (m b).y| < ε) ∧
    (Point3D.nearP m3 a b ε = true ↔ |(m3 a).x - (m3 b).x| < ε ∧ |(m3 a).y - (m3 b).y| < ε ∧
      |(m3 a).z - (m3 b).z| < ε) ∧
    Point.nearP m a a ε = true ∧ Point3D.nearP m3 a a ε = true ∧
    (Point.equal m (some a) (some b) = true ↔
      |(m a).x - (m b).x| < eps ∧ |(m a).y - (m b).y| < eps) ∧
    (Point3D.equal m3 (some a) (some b) = true ↔ |(m3 a).x - (m3 b).x| < eps ∧
      |(m3 a).y - (m3 b).y| < eps ∧ |(m3 a).z - (m3 b).z| < eps) ∧
    (Size.equal ms (some a) (some b) = true ↔
      |(ms a).width - (ms b).width| < eps ∧ |(ms a).height - (ms b).height| < eps) := by
  refine ⟨?_, ?_, ?_, ?_, ?_, ?_, ?_⟩ <;>
    simp [Point.nearP, Point3D.nearP, Point.equal, Point3D.equal, Size.equal, pointerEqual, hab,
      Point.near, Point3D.near, Point.equalV, Point3D.equalV, Size.equalV, Point.diff, Point3D.vec,
      Simd4f.sub, map2, Simd4f.init, Simd4f.get, and_assoc]

example : ∃ m : Mem (Point ℝ), Point.nearP m 0 1 1 = true ∧ m 0 ≠ m 1 :=
  ⟨fun i => if i = 0 then ⟨0, 0⟩ else ⟨1 / 2, 0⟩, by
    simp [Point.nearP, Point.near, Point.diff, greal]; norm_num, by simp⟩

/-! ## C16 viewport normalisation -/

/-- C16: every coordinate is in `[-1,1]` or NaN, for all float inputs. -/
theorem C16_range [Libm binary32] (p : Point3D F32) (vp : Rect F32) (zn zf : F32) :
    let r := Point3D.normalizeViewport p vp zn zf
    ∀ c ∈ [r.x, r.y, r.z], c.isNaN = true ∨
      ((Fp.lit (-1) 1 : F32).le c = true ∧ c.le (Fp.lit 1 1) = true) := by
  have hn1 : (Fp.lit (-1) 1 : F32).isNaN = false := by rw [Fp.lit_negOne32]; rfl
  have hp1 : (Fp.lit 1 1 : F32).isNaN = false := by rw [Fp.lit_one32]; rfl
  have hle : (Fp.lit (-1) 1 : F32).le (Fp.lit 1 1) = true := by decide +kernel
  have key : ∀ v : F32, (cClamp v (Fp.lit (-1) 1) (Fp.lit 1 1)).isNaN = true ∨
      ((Fp.lit (-1) 1 : F32).le (cClamp v (Fp.lit (-1) 1) (Fp.lit 1 1)) = true ∧
        (cClamp v (Fp.lit (-1) 1) (Fp.lit 1 1)).le (Fp.lit 1 1) = true) := by
    intro v
    unfold cClamp
    simp only [Fp.sc_lt]
    split
    · exact .inr ⟨Fp.le_refl hn1, hle⟩
    · split
      · exact .inr ⟨hle, Fp.le_refl hp1⟩
      · rename_i h1 h2
        cases hv : v.isNaN
        · right
          exact ⟨Fp.le_of_not_lt hv hn1 (by simpa using h1), Fp.le_of_not_lt hp1 hv (by simpa using h2)⟩
        · exact .inl rfl
  intro r c hc
  simp only [List.mem_cons, List.not_mem_nil, or_false] at hc
  rcases hc with rfl | rfl | rfl <;> exact key _

/-- C16: in exact arithmetic each coordinate is the affine map of the viewport onto
`[-1,1]`, clamped; inside the viewport there is no clamping, the near corner goes to
`-1` and the far corner to `1`. -/
theorem C16_affine (p : Point3D ℝ) (vp : Rect ℝ) (zn zf : ℝ)
    (hw : 0 < vp.size.width) (hh : 0 < vp.size.height) (hz : zn < zf) :
    let r := Point3D.normalizeViewport p vp zn zf
    (vp.origin.x ≤ p.x → p.x ≤ vp.origin.x + vp.size.width →
      r.x = 2 * (p.x - vp.origin.x) / vp.size.width - 1) ∧
    (vp.origin.y ≤ p.y → p.y ≤ vp.origin.y + vp.size.height →
      r.y = 2 * (p.y - vp.origin.y) / vp.size.height - 1) ∧
    (zn ≤ p.z → p.z ≤ zf → r.z = 2 * (p.z - zn) / (zf - zn) - 1) ∧
    (p.x ≤ vp.origin.x → r.x = -1) ∧ (vp.origin.x + vp.size.width ≤ p.x → r.x = 1) ∧
    (p.y ≤ vp.origin.y → r.y = -1) ∧ (vp.origin.y + vp.size.height ≤ p.y → r.y = 1) ∧
    (p.z ≤ zn → r.z = -1) ∧ (zf ≤ p.z → r.z = 1) := by
  have key : ∀ v o w : ℝ, 0 < w →
      (o ≤ v → v ≤ o + w → cClamp ((v - o) / w * 2 - 1) (-1) 1 = 2 * (v - o) / w - 1) ∧
      (v ≤ o → cClamp ((v - o) / w * 2 - 1) (-1) 1 = -1) ∧
      (o + w ≤ v → cClamp ((v - o) / w * 2 - 1) (-1) 1 = 1) := by
    intro v o w hw
    have e : (v - o) / w * 2 - 1 = 2 * (v - o) / w - 1 := by ring
    unfold cClamp
    simp only [RealScalar.lt_eq]
    refine ⟨fun h1 h2 => ?_, fun h => ?_, fun h => ?_⟩
    · have a1 : 0 ≤ (v - o) / w := div_nonneg (by linarith) hw.le
      have a2 : (v - o) / w ≤ 1 := by rw [div_le_one hw]; linarith
      rw [if_neg (by linarith), if_neg (by linarith), e]
    · have a1 : (v - o) / w ≤ 0 := div_nonpos_of_nonpos_of_nonneg (by linarith) hw.le
      split
      · rfl
      · rw [if_neg (by linarith)]; linarith
    · have a1 : 1 ≤ (v - o) / w := by rw [one_le_div hw]; linarith
      rw [if_neg (by linarith)]
      split
      · rfl
      · linarith
  have kx := key p.x vp.origin.x vp.size.width hw
  have ky := key p.y vp.origin.y vp.size.height hh
  have kz := key p.z zn (zf - zn) (by linarith)
  have zz : zn + (zf - zn) = zf := by ring
  rw [zz] at kz
  intro r
  have ex : r.x = cClamp ((p.x - vp.origin.x) / vp.size.width * 2 - 1) (-1) 1 := by
    simp [r, Point3D.normalizeViewport]
  have ey : r.y = cClamp ((p.y - vp.origin.y) / vp.size.height * 2 - 1) (-1) 1 := by
    simp [r, Point3D.normalizeViewport]
  have ez : r.z = cClamp ((p.z - zn) / (zf - zn) * 2 - 1) (-1) 1 := by
    simp [r, Point3D.normalizeViewport]
  rw [ex, ey, ez]
  exact ⟨kx.1, ky.1, kz.1, kx.2.1, kx.2.2, ky.2.1, ky.2.2, kz.2.1, kz.2.2⟩

example : (0 : ℝ) < (⟨⟨0, 0⟩, ⟨640, 480⟩⟩ : Rect ℝ).size.width ∧ (1 : ℝ) < 100 := by norm_num

end Graphene

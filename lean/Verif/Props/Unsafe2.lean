/-
  C143: further straight-line functions under every permitted compilation: determinants, positions along a ray, distances from a plane,
  interpolation, rotation matrices.
-/
import Verif.Props.Unsafe1
import Verif.Props.Float15

namespace Graphene
open Fp
open FExpr Spec

variable [Libm binary32]

/-- shows the source expression and evaluates a measure of it -/
local macro "det_syntax" : tactic => `(tactic|
  simp only [GMatrix.determinant, Simd4x4f.determinant, Simd4x4f.detVec, Simd4x4f.r1Sum, Simd4x4f.minor1, Simd4x4f.minor2, Simd4x4f.minor3,
    Simd4f.madd, Simd4f.add, Simd4f.sub, Simd4f.mul, Simd4f.map2, Simd4f.splatY, Simd4f.splat, Simd4f.mergeHigh, Simd4f.shuffleWXYZ,
    Simd4f.shuffleZWXY, Simd4f.shuffleYZWX, Simd4f.get,
    arg2, arg3, arg4, argLanes, argM, argQ, argP, argP3, FExpr.s_add, FExpr.s_sub, FExpr.s_mul, FExpr.s_f0, FExpr.s_f1,
    show ∀ a b c : FExpr, Scalar.fma a b c = FExpr.fma a b c from fun _ _ _ => rfl,
    FExpr.Plain, FExpr.size, FExpr.unit, FExpr.real])

theorem FExpr.det_source (bk : Backend) (m : M4 F32) :
    eval (inputs (compsM m)) (GMatrix.determinant bk (argM 0)) = GMatrix.determinant bk m := by
  match bk with
  | .sse _ true | .sse _ false | .gcc | .neon | .scalar _ => rfl

theorem FExpr.det_real (bk : Backend) (m : M4 F32) :
    real (fun i => (inputs (compsM m) i).val) (GMatrix.determinant bk (argM 0)) = -(rmat m).det := by
  rw [← rmat_exactMat, ← detVec_real bk]
  match bk with
  | .sse _ true | .sse _ false | .gcc | .neon | .scalar _ => rfl

/-- Determinants of matrices on a grid: 24 products of four entries, exact under every compilation. -/
theorem C143_determinant_exact {bk : Backend} {m : M4 F32} {k : Nat} {B : ℝ} (hm : Spec.OnGrid (compsM m) k B)
    (hs : 24 * B ^ 4 * 2 ^ (4 * k) ≤ 2 ^ 24) (hu : 4 * k ≤ 149) {code : FExpr} (h : Emits (GMatrix.determinant bk (argM 0)) code) :
    Is (eval (inputs (compsM m)) code) (-(rmat m).det) := by
  rw [← det_real bk m]
  have e := C142_exact (z := 0) (ys := []) hm ⟨by simp, by simp, by simp, hm.unit⟩ h
  rw [List.append_nil] at e
  match bk with
  | .sse _ true | .sse _ false | .gcc | .neon | .scalar _ =>
    refine e ?_ ?_ ?_
    · det_syntax; simp
    · det_syntax; simp [two, compsM, lanes4]
      refine _root_.le_trans (_root_.le_of_eq ?_) hs
      ring
    · det_syntax; simp [two, compsM, lanes4]; omega

/-- The relative error of a determinant: `n / 2^23` of the sum of the 24 products of magnitudes, here bounded by `24 B^4`. -/
theorem C143_determinant_accurate {bk : Backend} {m : M4 F32} (hf : ∀ x ∈ compsM m, x.isFin = true) {B : ℝ} (hB : 1 ≤ B)
    (hm : ∀ x ∈ compsM m, |x.val| ≤ B) (hB' : 24 * B ^ 4 ≤ 2 ^ 125) {code : FExpr} (h : Emits (GMatrix.determinant bk (argM 0)) code)
    (hn : ops code ≤ 1024) :
    (eval (inputs (compsM m)) code).isFin = true ∧
    |(eval (inputs (compsM m)) code).val - -(rmat m).det| ≤ ops code / 2 ^ 23 * (24 * B ^ 4) + ops code / 2 ^ 147 * (24 * B ^ 4) := by
  have key : ∀ i, |(inputs (compsM m) i).val| ≤ B := by
    intro i
    unfold inputs
    by_cases hi : i < (compsM m).length
    · rw [List.getD_eq_getElem?_getD, List.getElem?_eq_getElem hi]; exact hm _ (List.getElem_mem hi)
    · rw [List.getD_eq_getElem?_getD, List.getElem?_eq_none (by omega)]
      simp [val_zero]; linarith
  match bk with
  | .sse _ true | .sse _ false | .gcc | .neon | .scalar _ =>
    refine accurate_of hf h ?_ hn (det_real _ m) ?_ ?_ hB'
    · det_syntax; simp
    · refine (size_mono (termsMags _) (B' := fun _ => B) (L' := absLit) key (fun _ _ => le_rfl) _).trans ?_
      det_syntax
      refine _root_.le_of_eq ?_; ring
    · refine (size_mono (terms1Mags _) (B' := fun _ => B) (L' := oneLit) (fun i => max_le hB (key i)) (fun _ _ => le_rfl) _).trans ?_
      det_syntax
      refine _root_.le_of_eq ?_; ring

/-! ## Positions, distances, rotations, interpolation

All inputs on one grid `1 / 2^k` with magnitudes at most `B`. -/

/-- the inputs of a list on one grid -/
theorem FExpr.exactOne {l : List F32} {k z : Nat} {B : ℝ} (hl : Spec.OnGrid l k B) {source code : FExpr} (h : Emits source code)
    (p : Plain source) (hs : size (fun _ => B) (gridLit z) source * 2 ^ unit (fun _ => k) z source ≤ 2 ^ 24)
    (hu : unit (fun _ => k) z source ≤ 149) : Is (eval (inputs l) code) (real (fun i => (inputs l i).val) source) := by
  have e := C142_exact (z := z) (ys := []) hl ⟨by simp, by simp, by simp, hl.unit⟩ h p
  rw [List.append_nil, show two l.length B B = fun _ => B from by funext i; simp [two],
    show two l.length k k = fun _ => k from by funext i; simp [two]] at e
  exact e hs hu

local macro "other_syntax" : tactic => `(tactic|
  simp only [Plane.distance, Ray.getPositionAt, Vec3.dot, Vec3.add, Vec3.scale, Point3D.initFromVec3, Point3D.initFromSimd4f, Point3D.toVec3, Point3D.init, Vec3.getX, Vec3.getY, Vec3.getZ, Vec3.init,
    Simd4f.dot3Scalar, Simd4f.add, Simd4f.sub, Simd4f.mul, Simd4f.map2, Simd4f.splat, Simd4f.get, Simd4f.init, Simd4f.interpolate, Quat.toMatrix,
    arg2, arg3, arg4, argLanes, argM, argQ, argP, argP3, FExpr.s_add, FExpr.s_sub, FExpr.s_mul, FExpr.s_f0, FExpr.s_f1,
    show (f2 : FExpr) = FExpr.lit 2 1 from rfl,
    FExpr.Plain, FExpr.size, FExpr.unit, FExpr.real])

/-- The source expressions are the functions. -/
theorem C143_source (bk : Backend) (n o d : Vec3 F32) (c t : F32) (p : Point3D F32) (q : Quat F32) (a b : V4 F32) (m : M4 F32) :
    eval (inputs (compsM m)) (GMatrix.determinant bk (argM 0)) = GMatrix.determinant bk m ∧
    eval (inputs (comps3 n ++ [c] ++ compsP3 p)) (Plane.distance bk ⟨arg3 0, var 3⟩ (argP3 4)) = Plane.distance bk ⟨n, c⟩ p ∧
    (let r := Ray.getPositionAt ⟨arg3 0, arg3 3⟩ (var 6)
     let ev := eval (inputs (comps3 o ++ comps3 d ++ [t]))
     (⟨ev r.x, ev r.y, ev r.z⟩ : Point3D F32) = Ray.getPositionAt ⟨o, d⟩ t) ∧
    (∀ i < 4, ∀ j < 4, eval (inputs (compsQ q)) (GMatrix.getValue (Quat.toMatrix (argQ 0)) i j) = GMatrix.getValue (Quat.toMatrix q) i j) ∧
    (∀ i < 4, eval (inputs (lanes4 a ++ lanes4 b ++ [t])) (Simd4f.get (Simd4f.interpolate (argLanes 0) (argLanes 4) (var 8)) i) =
      Simd4f.get (Simd4f.interpolate a b t) i) := by
  refine ⟨det_source bk m, ?_, rfl, ?_, ?_⟩
  · match bk with
    | .sse true _ | .sse false _ | .gcc | .neon | .scalar _ => rfl
  · intro i hi j hj; interval_cases i <;> interval_cases j <;> rfl
  · intro i hi; interval_cases i <;> rfl

/-- Distances from a plane. -/
theorem C143_distance_exact {bk : Backend} {n : Vec3 F32} {c : F32} {p : Point3D F32} {k : Nat} {B : ℝ}
    (hl : Spec.OnGrid (comps3 n ++ [c] ++ compsP3 p) k B) (hs : (3 * B ^ 2 + B) * 2 ^ (2 * k) + 1 ≤ 2 ^ 24) (hu : 2 * k ≤ 149)
    {code : FExpr} (h : Emits (Plane.distance bk ⟨arg3 0, var 3⟩ (argP3 4)) code) :
    Is (eval (inputs (comps3 n ++ [c] ++ compsP3 p)) code)
      (n.value.x.val * p.x.val + n.value.y.val * p.y.val + n.value.z.val * p.z.val + c.val) := by
  have e := exactOne (z := 2 * k) hl h
  have i : ((2 : ℝ) ^ (2 * k))⁻¹ * 2 ^ (2 * k) = 1 := inv_mul_cancel₀ (by positivity)
  match bk with
  | .sse true _ | .sse false _ | .gcc | .neon | .scalar _ =>
    refine (e ?_ ?_ ?_).congr ?_
    · other_syntax; simp
    · other_syntax; simp [gridLit, ← two_mul]
      have e2 : max (2 * k) k = 2 * k := by omega
      try rw [e2]
      generalize (2 : ℝ) ^ (2 * k) = P at *; nlinarith
    · other_syntax; simp; omega
    · other_syntax; simp [inputs, comps3, compsP3]; try ring

/-- Positions along a ray. -/
theorem C143_position_exact {o d : Vec3 F32} {t : F32} {k : Nat} {B : ℝ}
    (hl : Spec.OnGrid (comps3 o ++ comps3 d ++ [t]) k B) (hs : (B ^ 2 + B) * 2 ^ (2 * k) ≤ 2 ^ 24) (hu : 2 * k ≤ 149) {cx cy cz : FExpr}
    (hx : Emits (Ray.getPositionAt ⟨arg3 0, arg3 3⟩ (var 6)).x cx) (hy : Emits (Ray.getPositionAt ⟨arg3 0, arg3 3⟩ (var 6)).y cy)
    (hz : Emits (Ray.getPositionAt ⟨arg3 0, arg3 3⟩ (var 6)).z cz) :
    let ev := eval (inputs (comps3 o ++ comps3 d ++ [t]))
    Is (ev cx) (o.value.x.val + t.val * d.value.x.val) ∧ Is (ev cy) (o.value.y.val + t.val * d.value.y.val) ∧
    Is (ev cz) (o.value.z.val + t.val * d.value.z.val) := by
  have e2 : max (k + k) k = 2 * k := by omega
  refine ⟨(exactOne (z := 0) hl hx ?_ ?_ ?_).congr ?_, (exactOne (z := 0) hl hy ?_ ?_ ?_).congr ?_, (exactOne (z := 0) hl hz ?_ ?_ ?_).congr ?_⟩
  all_goals other_syntax
  all_goals first
    | (simp; done)
    | (rw [e2]; generalize (2 : ℝ) ^ (2 * k) = P at *; nlinarith)
    | omega
    | (simp [inputs, comps3]; ring)

/-- Matrices of quaternions: entry by entry the textbook formula. -/
theorem C143_rotation_exact {q : Quat F32} {k : Nat} {B : ℝ} (hl : Spec.OnGrid (compsQ q) k B)
    (hs : (4 * B ^ 2 + 1) * 2 ^ (2 * k) + 1 ≤ 2 ^ 24) (hu : 2 * k ≤ 149) {i j : Nat} (hi : i < 3) (hj : j < 3) {code : FExpr}
    (h : Emits (GMatrix.getValue (Quat.toMatrix (argQ 0)) i j) code) :
    let x := q.x.val; let y := q.y.val; let z := q.z.val; let w := q.w.val
    Is (eval (inputs (compsQ q)) code)
      ((![![1 - 2 * (y * y + z * z), 2 * (x * y + w * z), 2 * (x * z - w * y)],
          ![2 * (x * y - w * z), 1 - 2 * (x * x + z * z), 2 * (y * z + w * x)],
          ![2 * (x * z + w * y), 2 * (y * z - w * x), 1 - 2 * (x * x + y * y)]] : Matrix (Fin 3) (Fin 3) ℝ) ⟨i, hi⟩ ⟨j, hj⟩) := by
  intro x y z w
  rw [getValue_lt _ (by omega) (by omega)] at h
  have e := exactOne (z := 0) hl h
  have b0 : 0 ≤ B ^ 2 * 2 ^ (2 * k) := by positivity
  have p1 : (1 : ℝ) ≤ 2 ^ (2 * k) := one_le_pow₀ (by norm_num)
  interval_cases i <;> interval_cases j <;> simp only [GMatrix.getRow] at e ⊢ <;> refine (e ?_ ?_ ?_).congr ?_
  all_goals other_syntax
  all_goals first
    | (simp; done)
    | (simp [gridLit, ← two_mul]; generalize (2 : ℝ) ^ (2 * k) = P at *; nlinarith)
    | (simp; omega)
    | (simp [inputs, compsQ, x, y, z, w]; done)

/-- Interpolation, lane `i`. -/
theorem C143_interpolate_exact {a b : V4 F32} {t : F32} {k : Nat} {B : ℝ} (hl : Spec.OnGrid (lanes4 a ++ lanes4 b ++ [t]) k B)
    (hs : (2 * B ^ 2 + B) * 2 ^ (2 * k) ≤ 2 ^ 24) (hu : 2 * k ≤ 149) {i : Nat} (hi : i < 4) {code : FExpr}
    (h : Emits (Simd4f.get (Simd4f.interpolate (argLanes 0) (argLanes 4) (var 8)) i) code) :
    Is (eval (inputs (lanes4 a ++ lanes4 b ++ [t])) code)
      ((1 - t.val) * (Simd4f.get a i).val + t.val * (Simd4f.get b i).val) := by
  have e := exactOne (z := 0) hl h
  interval_cases i <;> refine (e ?_ ?_ ?_).congr ?_
  all_goals other_syntax
  all_goals first
    | (simp; done)
    | (simp [gridLit, ← two_mul]; generalize (2 : ℝ) ^ (2 * k) = P at *; nlinarith)
    | (simp; omega)
    | (simp [inputs, lanes4]; done)

/-! ## The hypotheses are met -/

theorem FExpr.onGrid_list (zs : List ℤ) (k : Nat) (hk : k ≤ 149) (B : ℝ) (hB : 1 ≤ B * 2 ^ k) (hB' : B * 2 ^ k ≤ 2 ^ 24)
    (h : ∀ z ∈ zs, |(z : ℝ)| ≤ B * 2 ^ k) : Spec.OnGrid (zs.map fun z => (Fp.lit z (2 ^ k) : F32)) k B := by
  have key : ∀ w ∈ zs, (Fp.lit w (2 ^ k) : F32).isFin = true ∧ (Fp.lit w (2 ^ k) : F32).val = (w : ℝ) / 2 ^ k ∧
      |(Fp.lit w (2 ^ k) : F32).val| ≤ B := by
    intro w hw
    have wn : w.natAbs ≤ 2 ^ 24 := by
      have e : ((w.natAbs : ℕ) : ℝ) = |(w : ℝ)| := by rw [← Int.cast_abs, Int.abs_eq_natAbs]; simp
      exact_mod_cast e ▸ (h w hw).trans hB'
    have l := lit_dyadic w k wn hk
    refine ⟨l.1, l.2, ?_⟩
    rw [l.2, abs_div, abs_of_pos (by positivity : (0 : ℝ) < 2 ^ k), div_le_iff₀ (by positivity)]
    exact h w hw
  refine ⟨fun u hu => ?_, fun u hu => ?_, fun u hu => ?_, hB⟩ <;> obtain ⟨w, hw, rfl⟩ := List.mem_map.1 hu
  · exact (key w hw).1
  · exact ⟨w, (key w hw).2.1⟩
  · exact (key w hw).2.2

/-- an integer matrix, and its determinant under any compilation -/
example {code : FExpr} (h : Emits (GMatrix.determinant .gcc (argM 0)) code) :
    let m : M4 F32 := ⟨⟨Fp.lit 28 1, Fp.lit (-3) 1, Fp.lit 7 1, Fp.lit 1 1⟩, ⟨Fp.lit 0 1, Fp.lit 5 1, Fp.lit (-28) 1, Fp.lit 2 1⟩,
      ⟨Fp.lit 9 1, Fp.lit 11 1, Fp.lit 4 1, Fp.lit 0 1⟩, ⟨Fp.lit 1 1, Fp.lit 1 1, Fp.lit (-6) 1, Fp.lit 13 1⟩⟩
    Is (eval (inputs (compsM m)) code) (-(rmat m).det) := by
  intro m
  have g :=
    onGrid_list [28, -3, 7, 1, 0, 5, -28, 2, 9, 11, 4, 0, 1, 1, -6, 13] 0 (by decide) 28 (by norm_num) (by norm_num) (by
      intro z hz; simp only [List.mem_cons, List.not_mem_nil, or_false] at hz
      rcases hz with rfl | rfl | rfl | rfl | rfl | rfl | rfl | rfl | rfl | rfl | rfl | rfl | rfl | rfl | rfl | rfl <;> norm_num)
  simp only [List.map, pow_zero] at g
  exact C143_determinant_exact (m := m) g (by norm_num) (by decide) h

/-- a quarter of the way along a ray, and the plane and quaternion cases, share one grid: quarters up to 100 -/
example : ∃ l : List F32, l.length = 7 ∧ Spec.OnGrid l 2 100 ∧ (3 * (100 : ℝ) ^ 2 + 100) * 2 ^ (2 * 2) + 1 ≤ 2 ^ 24 ∧
    (4 * (100 : ℝ) ^ 2 + 1) * 2 ^ (2 * 2) + 1 ≤ 2 ^ 24 :=
  ⟨_, by simp, onGrid_list [400, -13, 7, 1, 22, 0, 399] 2 (by decide) 100 (by norm_num) (by norm_num) (by
      intro z hz; simp only [List.mem_cons, List.not_mem_nil, or_false] at hz
      rcases hz with rfl | rfl | rfl | rfl | rfl | rfl | rfl <;> norm_num), by norm_num, by norm_num⟩

/-- the determinant's expression has few operations, so the accuracy theorem applies to it and to fused variants -/
example : ops (GMatrix.determinant (.sse true true) (argM 0)) ≤ 1024 ∧ ops (GMatrix.determinant .gcc (argM 0)) ≤ 1024 := by decide +kernel

end Graphene

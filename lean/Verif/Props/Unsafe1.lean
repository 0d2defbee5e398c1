/-
  C142: what the compiler's freedom (`-funsafe-math-optimizations`, contraction) can and cannot change.
-/
import Verif.Proofs.UnsafeLemmas
import Verif.Proofs.KDecide
import Mathlib.Tactic.IntervalCases
import Mathlib.Algebra.BigOperators.Group.Finset.Basic
import Verif.Model.Quat
import Verif.Model.Ray
import Verif.Model.Plane

namespace Graphene
open Fp
namespace FExpr

/-! ## Arguments and their symbolic counterparts -/

/-- the values of the variables: the components of the arguments, in order -/
def inputs (l : List F32) (i : Nat) : F32 := l.getD i (Fp.zero false)

/-- the symbolic vector with three components, the variables from `o`; the fourth lane is not an argument -/
def arg3 (o : Nat) : Vec3 FExpr := ⟨⟨var o, var (o + 1), var (o + 2), junk⟩⟩
def arg2 (o : Nat) : Vec2 FExpr := ⟨⟨var o, var (o + 1), junk, junk⟩⟩
def argLanes (o : Nat) : V4 FExpr := ⟨var o, var (o + 1), var (o + 2), var (o + 3)⟩
def arg4 (o : Nat) : Vec4 FExpr := ⟨argLanes o⟩
def argM (o : Nat) : M4 FExpr := ⟨argLanes o, argLanes (o + 4), argLanes (o + 8), argLanes (o + 12)⟩
def argQ (o : Nat) : Quat FExpr := ⟨var o, var (o + 1), var (o + 2), var (o + 3)⟩
def argP (o : Nat) : Point FExpr := ⟨var o, var (o + 1)⟩
def argP3 (o : Nat) : Point3D FExpr := ⟨var o, var (o + 1), var (o + 2)⟩

def lanes4 (v : V4 F32) : List F32 := [v.x, v.y, v.z, v.w]
def comps2 (v : Vec2 F32) : List F32 := [v.value.x, v.value.y]
def comps3 (v : Vec3 F32) : List F32 := [v.value.x, v.value.y, v.value.z]
def comps4 (v : Vec4 F32) : List F32 := lanes4 v.value
def compsM (m : M4 F32) : List F32 := lanes4 m.x ++ lanes4 m.y ++ lanes4 m.z ++ lanes4 m.w
def compsQ (q : Quat F32) : List F32 := [q.x, q.y, q.z, q.w]
def compsP (p : Point F32) : List F32 := [p.x, p.y]
def compsP3 (p : Point3D F32) : List F32 := [p.x, p.y, p.z]

end FExpr

open FExpr


/-- The expressions are the source: evaluating the syntax of each function in the order written is the function (so the rest of the
development, which evaluates as written, is the case in which the compiler changes nothing). -/
theorem C142_source [Libm binary32] (bk : Backend) (a2 b2 : Vec2 F32) (a b : Vec3 F32) (a4 b4 : Vec4 F32) (m n : M4 F32) (p q : Quat F32)
    (s : Point F32) (t : Point3D F32) :
    eval (inputs (comps2 a2 ++ comps2 b2)) (Vec2.dot (arg2 0) (arg2 2)) = Vec2.dot a2 b2 ∧
    eval (inputs (comps3 a ++ comps3 b)) (Vec3.dot bk (arg3 0) (arg3 3)) = Vec3.dot bk a b ∧
    eval (inputs (comps4 a4 ++ comps4 b4)) (Vec4.dot (arg4 0) (arg4 4)) = Vec4.dot a4 b4 ∧
    (∀ i < 3, eval (inputs (comps3 a ++ comps3 b)) (Simd4f.get (Vec3.cross bk (arg3 0) (arg3 3)).value i) =
      Simd4f.get (Vec3.cross bk a b).value i) ∧
    (∀ i < 3, eval (inputs (compsM m ++ comps3 a)) (Simd4f.get (GMatrix.transformVec3 (argM 0) (arg3 16)).value i) =
      Simd4f.get (GMatrix.transformVec3 m a).value i) ∧
    (∀ i < 4, eval (inputs (compsM m ++ comps4 a4)) (Simd4f.get (GMatrix.transformVec4 (argM 0) (arg4 16)).value i) =
      Simd4f.get (GMatrix.transformVec4 m a4).value i) ∧
    (let r := GMatrix.transformPoint (argM 0) (argP 16)
     (⟨eval (inputs (compsM m ++ compsP s)) r.x, eval (inputs (compsM m ++ compsP s)) r.y⟩ : Point F32) =
      GMatrix.transformPoint m s) ∧
    (let r := GMatrix.transformPoint3D (argM 0) (argP3 16)
     let ev := eval (inputs (compsM m ++ compsP3 t))
     (⟨ev r.x, ev r.y, ev r.z⟩ : Point3D F32) = GMatrix.transformPoint3D m t) ∧
    (∀ i < 4, ∀ j < 4, eval (inputs (compsM m ++ compsM n)) (GMatrix.getValue (GMatrix.multiply (argM 0) (argM 16)) i j) =
      GMatrix.getValue (GMatrix.multiply m n) i j) ∧
    (let r := Quat.multiply (argQ 0) (argQ 4)
     let ev := eval (inputs (compsQ p ++ compsQ q))
     (⟨ev r.x, ev r.y, ev r.z, ev r.w⟩ : Quat F32) = Quat.multiply p q) := by
  refine ⟨rfl, ?_, rfl, ?_, ?_, ?_, rfl, rfl, ?_, rfl⟩
  · match bk with
    | .sse true _ | .sse false _ | .gcc | .neon | .scalar _ => rfl
  · intro i hi
    match bk with
    | .sse _ _ | .gcc | .neon | .scalar _ => interval_cases i <;> rfl
  · intro i hi; interval_cases i <;> rfl
  · intro i hi; interval_cases i <;> rfl
  · intro i hi j hj; interval_cases i <;> interval_cases j <;> rfl

/-! ## Exactness: on a grid, every build gives the exact value -/

/-- every number of the list is finite, a multiple of `1 / 2^k`, and at most `B` in magnitude; `B` is at least one unit -/
structure Spec.OnGrid (l : List F32) (k : Nat) (B : ℝ) : Prop where
  fin : ∀ x ∈ l, x.isFin = true
  int : ∀ x ∈ l, ∃ z : ℤ, x.val = z / 2 ^ k
  le : ∀ x ∈ l, |x.val| ≤ B
  unit : 1 ≤ B * 2 ^ k

/-- bits and bounds of two arguments, the first with `n` components -/
def FExpr.two {β : Type} (n : Nat) (x y : β) (i : Nat) : β := if i < n then x else y

theorem FExpr.gridTwo {xs ys : List F32} {k l : Nat} {A B : ℝ} (hx : Spec.OnGrid xs k A) (hy : Spec.OnGrid ys l B) :
    GridEnv (inputs (xs ++ ys)) (two xs.length k l) (two xs.length A B) := by
  have z : (Fp.zero false : F32).isFin = true ∧ (Fp.zero false : F32).val = 0 := ⟨rfl, by simp [val_zero]⟩
  have hA : 0 ≤ A := by
    have := hx.unit
    by_contra h
    have : A * 2 ^ k ≤ 0 := mul_nonpos_of_nonpos_of_nonneg (by linarith) (by positivity)
    linarith
  have hB : 0 ≤ B := by
    have := hy.unit
    by_contra h
    have : B * 2 ^ l ≤ 0 := mul_nonpos_of_nonpos_of_nonneg (by linarith) (by positivity)
    linarith
  have key : ∀ i, (i < xs.length ∧ inputs (xs ++ ys) i ∈ xs) ∨ (¬ i < xs.length ∧ (inputs (xs ++ ys) i ∈ ys ∨ inputs (xs ++ ys) i = Fp.zero false)) := by
    intro i
    unfold inputs
    by_cases h : i < xs.length
    · left; refine ⟨h, ?_⟩
      rw [List.getD_eq_getElem?_getD, List.getElem?_append_left h, List.getElem?_eq_getElem h]; exact List.getElem_mem h
    · right; refine ⟨h, ?_⟩
      rw [List.getD_eq_getElem?_getD, List.getElem?_append_right (by omega)]
      by_cases h2 : i - xs.length < ys.length
      · left; rw [List.getElem?_eq_getElem h2]; exact List.getElem_mem h2
      · right; rw [List.getElem?_eq_none (by omega)]; rfl
  constructor <;> intro i
  · rcases key i with ⟨-, h⟩ | ⟨-, h | h⟩
    · exact hx.fin _ h
    · exact hy.fin _ h
    · rw [h]; exact z.1
  · rcases key i with ⟨h1, h⟩ | ⟨h1, h | h⟩
    · simp only [two, h1, if_true]; exact hx.int _ h
    · simp only [two, h1, if_false]; exact hy.int _ h
    · rw [h]; exact ⟨0, by rw [z.2]; simp⟩
  · rcases key i with ⟨h1, h⟩ | ⟨h1, h | h⟩
    · simp only [two, h1, if_true]; exact hx.le _ h
    · simp only [two, h1, if_false]; exact hy.le _ h
    · rw [h, z.2]; simp only [two, h1, if_false, abs_zero]; exact hB
  · unfold two; split
    · exact hx.unit
    · exact hy.unit

theorem FExpr.s_add (a b : FExpr) : Scalar.add a b = FExpr.add a b := rfl
theorem FExpr.s_sub (a b : FExpr) : Scalar.sub a b = FExpr.sub a b := rfl
theorem FExpr.s_mul (a b : FExpr) : Scalar.mul a b = FExpr.mul a b := rfl
theorem FExpr.s_f0 : (f0 : FExpr) = FExpr.lit 0 1 := rfl
theorem FExpr.s_f1 : (f1 : FExpr) = FExpr.lit 1 1 := rfl

/-- shows the source expression and evaluates a measure of it -/
local macro "syntax_of" : tactic => `(tactic|
  simp only [Vec3.dot, Vec2.dot, Vec4.dot, Simd4f.dot3Scalar, Simd4f.dot2, Simd4f.dot4, Simd4f.sum, Simd4f.get, Simd4f.add, Simd4f.sub,
    Simd4f.mul, Simd4f.map2, Simd4f.splatX, Simd4f.splatY, Simd4f.splatZ, Simd4f.splatW, Simd4f.splat, Simd4f.zeroW, Simd4f.init,
    Vec3.cross, Simd4f.cross3, GMatrix.transformVec3, GMatrix.transformVec4, GMatrix.transformPoint, GMatrix.transformPoint3D,
    GMatrix.multiply, Simd4x4f.matrixMul, Simd4x4f.init, Simd4x4f.vec4Mul, Simd4x4f.vec3Mul, Simd4x4f.point3Mul, Quat.multiply,
    arg2, arg3, arg4, argLanes, argM, argQ, argP, argP3, FExpr.s_add, FExpr.s_sub, FExpr.s_mul, FExpr.s_f0, FExpr.s_f1,
    FExpr.Plain, FExpr.size, FExpr.unit, FExpr.real])

/-- closes the size condition of a lane -/
local macro "size_of" : tactic => `(tactic|
  (syntax_of; simp [two, comps2, comps3, comps4, compsM, compsQ, compsP, compsP3, lanes4, gridLit, inputs]))

/-- Any straight-line code: on a grid on which the terms fit 24 bits, everything the compiler may emit gives the exact value. -/
theorem C142_exact {xs ys : List F32} {k l z : Nat} {A B : ℝ} (hx : Spec.OnGrid xs k A) (hy : Spec.OnGrid ys l B) {source code : FExpr}
    (h : Emits source code) (p : Plain source)
    (hs : size (two xs.length A B) (gridLit z) source * 2 ^ unit (two xs.length k l) z source ≤ 2 ^ 24)
    (hu : unit (two xs.length k l) z source ≤ 149) :
    Is (eval (inputs (xs ++ ys)) code) (real (fun i => (inputs (xs ++ ys) i).val) source) :=
  Emits.exact (gridTwo hx hy) h p hs hu

/-- Dot products: whatever the compiler emits, on every backend, is exact. -/
theorem C142_dot3_exact {bk : Backend} {a b : Vec3 F32} {k l : Nat} {A B : ℝ} (ha : Spec.OnGrid (comps3 a) k A)
    (hb : Spec.OnGrid (comps3 b) l B) (hs : 3 * (A * B) * 2 ^ (k + l) + 1 ≤ 2 ^ 24) (hu : k + l ≤ 149)
    {code : FExpr} (h : Emits (Vec3.dot bk (arg3 0) (arg3 3)) code) :
    Is (eval (inputs (comps3 a ++ comps3 b)) code)
      (a.value.x.val * b.value.x.val + a.value.y.val * b.value.y.val + a.value.z.val * b.value.z.val) := by
  have e := C142_exact (z := k + l) ha hb h
  have p : ((2 : ℝ) ^ (k + l))⁻¹ * 2 ^ (k + l) = 1 := inv_mul_cancel₀ (by positivity)
  match bk with
  | .sse true _ | .sse false _ | .gcc | .neon | .scalar _ =>
    refine (e (by syntax_of; simp) ?_ ?_).congr ?_
    · size_of; generalize (2 : ℝ) ^ (k + l) = P at *; linarith
    · size_of; exact hu
    · size_of; try ring

theorem C142_dot2_exact {a b : Vec2 F32} {k l : Nat} {A B : ℝ} (ha : Spec.OnGrid (comps2 a) k A) (hb : Spec.OnGrid (comps2 b) l B)
    (hs : 2 * (A * B) * 2 ^ (k + l) ≤ 2 ^ 24) (hu : k + l ≤ 149) {code : FExpr} (h : Emits (Vec2.dot (arg2 0) (arg2 2)) code) :
    Is (eval (inputs (comps2 a ++ comps2 b)) code) (a.value.x.val * b.value.x.val + a.value.y.val * b.value.y.val) := by
  refine (C142_exact (z := 0) ha hb h (by syntax_of; simp) ?_ ?_).congr ?_
  · size_of; generalize (2 : ℝ) ^ (k + l) = P at *; linarith
  · size_of; exact hu
  · size_of

theorem C142_dot4_exact {a b : Vec4 F32} {k l : Nat} {A B : ℝ} (ha : Spec.OnGrid (comps4 a) k A) (hb : Spec.OnGrid (comps4 b) l B)
    (hs : 4 * (A * B) * 2 ^ (k + l) ≤ 2 ^ 24) (hu : k + l ≤ 149) {code : FExpr} (h : Emits (Vec4.dot (arg4 0) (arg4 4)) code) :
    Is (eval (inputs (comps4 a ++ comps4 b)) code) (a.value.x.val * b.value.x.val + a.value.y.val * b.value.y.val +
      a.value.z.val * b.value.z.val + a.value.w.val * b.value.w.val) := by
  refine (C142_exact (z := 0) ha hb h (by syntax_of; simp) ?_ ?_).congr ?_
  · size_of; generalize (2 : ℝ) ^ (k + l) = P at *; linarith
  · size_of; exact hu
  · size_of; try ring

theorem C142_cross_exact {bk : Backend} {a b : Vec3 F32} {k l : Nat} {A B : ℝ} (ha : Spec.OnGrid (comps3 a) k A)
    (hb : Spec.OnGrid (comps3 b) l B) (hs : 2 * (A * B) * 2 ^ (k + l) ≤ 2 ^ 24) (hu : k + l ≤ 149) {cx cy cz : FExpr}
    (hx : Emits (Vec3.cross bk (arg3 0) (arg3 3)).value.x cx) (hy : Emits (Vec3.cross bk (arg3 0) (arg3 3)).value.y cy)
    (hz : Emits (Vec3.cross bk (arg3 0) (arg3 3)).value.z cz) :
    Is (eval (inputs (comps3 a ++ comps3 b)) cx) (a.value.y.val * b.value.z.val - a.value.z.val * b.value.y.val) ∧
    Is (eval (inputs (comps3 a ++ comps3 b)) cy) (a.value.z.val * b.value.x.val - a.value.x.val * b.value.z.val) ∧
    Is (eval (inputs (comps3 a ++ comps3 b)) cz) (a.value.x.val * b.value.y.val - a.value.y.val * b.value.x.val) := by
  have ex := C142_exact (z := 0) ha hb hx
  have ey := C142_exact (z := 0) ha hb hy
  have ez := C142_exact (z := 0) ha hb hz
  match bk with
  | .sse _ _ | .gcc | .neon | .scalar _ =>
    refine ⟨(ex (by syntax_of; simp) ?_ ?_).congr ?_, (ey (by syntax_of; simp) ?_ ?_).congr ?_, (ez (by syntax_of; simp) ?_ ?_).congr ?_⟩
    all_goals size_of
    all_goals try rw [_root_.add_comm l k, max_self]
    all_goals first
      | (generalize (2 : ℝ) ^ (k + l) = P at *; linarith)
      | omega
      | ring

variable [Libm binary32]

/-- Matrix times vector, lane `i`. -/
theorem C142_transform_exact {m : M4 F32} {v : Vec4 F32} {k l : Nat} {A B : ℝ} (hm : Spec.OnGrid (compsM m) k A)
    (hv : Spec.OnGrid (comps4 v) l B) (hs : 4 * (A * B) * 2 ^ (k + l) ≤ 2 ^ 24) (hu : k + l ≤ 149) {i : Nat} (hi : i < 4) {code : FExpr}
    (h : Emits (Simd4f.get (GMatrix.transformVec4 (argM 0) (arg4 16)).value i) code) :
    Is (eval (inputs (compsM m ++ comps4 v)) code)
      ((Simd4f.get m.x i).val * v.value.x.val + (Simd4f.get m.y i).val * v.value.y.val + (Simd4f.get m.z i).val * v.value.z.val +
        (Simd4f.get m.w i).val * v.value.w.val) := by
  have e := C142_exact (z := 0) hm hv h
  interval_cases i <;> refine (e (by syntax_of; simp) ?_ ?_).congr ?_
  all_goals size_of
  all_goals first
    | (generalize (2 : ℝ) ^ (k + l) = P at *; linarith)
    | omega
    | ring

/-- Directions (`transform_vec3`), lane `i`. -/
theorem C142_direction_exact {m : M4 F32} {v : Vec3 F32} {k l : Nat} {A B : ℝ} (hm : Spec.OnGrid (compsM m) k A)
    (hv : Spec.OnGrid (comps3 v) l B) (hs : 3 * (A * B) * 2 ^ (k + l) ≤ 2 ^ 24) (hu : k + l ≤ 149) {i : Nat} (hi : i < 3) {code : FExpr}
    (h : Emits (Simd4f.get (GMatrix.transformVec3 (argM 0) (arg3 16)).value i) code) :
    Is (eval (inputs (compsM m ++ comps3 v)) code)
      ((Simd4f.get m.x i).val * v.value.x.val + (Simd4f.get m.y i).val * v.value.y.val + (Simd4f.get m.z i).val * v.value.z.val) := by
  have e := C142_exact (z := 0) hm hv h
  interval_cases i <;> refine (e (by syntax_of; simp) ?_ ?_).congr ?_
  all_goals size_of
  all_goals first
    | (generalize (2 : ℝ) ^ (k + l) = P at *; linarith)
    | omega

/-- Points of the plane and of space. -/
theorem C142_point_exact {m : M4 F32} {p : Point F32} {q : Point3D F32} {k l : Nat} {A B : ℝ} (hm : Spec.OnGrid (compsM m) k A)
    (hp : Spec.OnGrid (compsP p) l B) (hq : Spec.OnGrid (compsP3 q) l B) (hs : (3 * (A * B) + 2 * A) * 2 ^ (k + l) ≤ 2 ^ 24) (hu : k + l ≤ 149)
    {cx cy dx dy dz : FExpr}
    (hx : Emits (GMatrix.transformPoint (argM 0) (argP 16)).x cx) (hy : Emits (GMatrix.transformPoint (argM 0) (argP 16)).y cy)
    (gx : Emits (GMatrix.transformPoint3D (argM 0) (argP3 16)).x dx) (gy : Emits (GMatrix.transformPoint3D (argM 0) (argP3 16)).y dy)
    (gz : Emits (GMatrix.transformPoint3D (argM 0) (argP3 16)).z dz) :
    Is (eval (inputs (compsM m ++ compsP p)) cx) (m.x.x.val * p.x.val + m.y.x.val * p.y.val + m.w.x.val) ∧
    Is (eval (inputs (compsM m ++ compsP p)) cy) (m.x.y.val * p.x.val + m.y.y.val * p.y.val + m.w.y.val) ∧
    Is (eval (inputs (compsM m ++ compsP3 q)) dx) (m.x.x.val * q.x.val + m.y.x.val * q.y.val + m.z.x.val * q.z.val + m.w.x.val) ∧
    Is (eval (inputs (compsM m ++ compsP3 q)) dy) (m.x.y.val * q.x.val + m.y.y.val * q.y.val + m.z.y.val * q.z.val + m.w.y.val) ∧
    Is (eval (inputs (compsM m ++ compsP3 q)) dz) (m.x.z.val * q.x.val + m.y.z.val * q.y.val + m.z.z.val * q.z.val + m.w.z.val) := by
  have hA : 0 ≤ A := (abs_nonneg _).trans (hm.le m.x.x (by simp [compsM, lanes4]))
  have hB : 0 ≤ B := (abs_nonneg _).trans (hp.le p.x (by simp [compsP]))
  have hP : (0 : ℝ) < 2 ^ (k + l) := by positivity
  have i0 : ((2 : ℝ) ^ l)⁻¹ ≤ 1 := inv_le_one_of_one_le₀ (one_le_pow₀ (by norm_num))
  have ix : ((2 : ℝ) ^ l)⁻¹ * A ≤ A := by nlinarith
  have iy : A * ((2 : ℝ) ^ l)⁻¹ * 2 ^ (k + l) ≤ A * 2 ^ (k + l) := by
    refine mul_le_mul_of_nonneg_right ?_ hP.le; linarith
  have ab : 0 ≤ A * B * 2 ^ (k + l) := by positivity
  have a0 : 0 ≤ A * 2 ^ (k + l) := by positivity
  refine ⟨(C142_exact (z := l) hm hp hx (by syntax_of; simp) ?_ ?_).congr ?_, (C142_exact (z := l) hm hp hy (by syntax_of; simp) ?_ ?_).congr ?_,
    (C142_exact (z := l) hm hq gx (by syntax_of; simp) ?_ ?_).congr ?_, (C142_exact (z := l) hm hq gy (by syntax_of; simp) ?_ ?_).congr ?_,
    (C142_exact (z := l) hm hq gz (by syntax_of; simp) ?_ ?_).congr ?_⟩
  all_goals size_of
  all_goals first
    | omega
    | (generalize (2 : ℝ) ^ (k + l) = P at *; generalize ((2 : ℝ) ^ l)⁻¹ = Q at *; linarith)
    | ring

theorem FExpr.getValue_lt {α : Type} [Scalar α] (m : M4 α) {i j : Nat} (hi : i < 4) (hj : j < 4) :
    GMatrix.getValue m i j = Simd4f.get (GMatrix.getRow m i).value j := by
  have h1 : ¬ i > 3 := by omega
  have h2 : ¬ j > 3 := by omega
  simp [GMatrix.getValue, h1, h2]

/-- Products of matrices, every entry. -/
theorem C142_multiply_exact {m n : M4 F32} {k l : Nat} {A B : ℝ} (hm : Spec.OnGrid (compsM m) k A) (hn : Spec.OnGrid (compsM n) l B)
    (hs : 4 * (A * B) * 2 ^ (k + l) ≤ 2 ^ 24) (hu : k + l ≤ 149) {i j : Nat} (hi : i < 4) (hj : j < 4) {code : FExpr}
    (h : Emits (GMatrix.getValue (GMatrix.multiply (argM 0) (argM 16)) i j) code) :
    Is (eval (inputs (compsM m ++ compsM n)) code)
      ((GMatrix.getValue m i 0).val * (GMatrix.getValue n 0 j).val + (GMatrix.getValue m i 1).val * (GMatrix.getValue n 1 j).val +
        (GMatrix.getValue m i 2).val * (GMatrix.getValue n 2 j).val + (GMatrix.getValue m i 3).val * (GMatrix.getValue n 3 j).val) := by
  rw [getValue_lt _ hi hj] at h
  rw [getValue_lt _ hi (by decide), getValue_lt _ hi (by decide), getValue_lt _ hi (by decide), getValue_lt _ hi (by decide),
    getValue_lt _ (by decide) hj, getValue_lt _ (by decide) hj, getValue_lt _ (by decide) hj, getValue_lt _ (by decide) hj]
  have e := C142_exact (z := 0) hm hn h
  interval_cases i <;> interval_cases j <;> simp only [GMatrix.getRow] at e ⊢ <;> refine (e (by syntax_of; simp) ?_ ?_).congr ?_
  all_goals size_of
  all_goals try rw [_root_.add_comm l k]
  all_goals first
    | (generalize (2 : ℝ) ^ (k + l) = P at *; linarith)
    | omega
    | ring

/-- Products of quaternions. -/
theorem C142_quaternion_exact {p q : Quat F32} {k l : Nat} {A B : ℝ} (hp : Spec.OnGrid (compsQ p) k A) (hq : Spec.OnGrid (compsQ q) l B)
    (hs : 4 * (A * B) * 2 ^ (k + l) ≤ 2 ^ 24) (hu : k + l ≤ 149) {cx cy cz cw : FExpr}
    (hx : Emits (Quat.multiply (argQ 0) (argQ 4)).x cx) (hy : Emits (Quat.multiply (argQ 0) (argQ 4)).y cy)
    (hz : Emits (Quat.multiply (argQ 0) (argQ 4)).z cz) (hw : Emits (Quat.multiply (argQ 0) (argQ 4)).w cw) :
    let ev := eval (inputs (compsQ p ++ compsQ q))
    Is (ev cx) (p.x.val * q.w.val + p.w.val * q.x.val + p.y.val * q.z.val - p.z.val * q.y.val) ∧
    Is (ev cy) (p.y.val * q.w.val + p.w.val * q.y.val + p.z.val * q.x.val - p.x.val * q.z.val) ∧
    Is (ev cz) (p.z.val * q.w.val + p.w.val * q.z.val + p.x.val * q.y.val - p.y.val * q.x.val) ∧
    Is (ev cw) (p.w.val * q.w.val - p.x.val * q.x.val - p.y.val * q.y.val - p.z.val * q.z.val) := by
  refine ⟨(C142_exact (z := 0) hp hq hx (by syntax_of; simp) ?_ ?_).congr ?_, (C142_exact (z := 0) hp hq hy (by syntax_of; simp) ?_ ?_).congr ?_,
    (C142_exact (z := 0) hp hq hz (by syntax_of; simp) ?_ ?_).congr ?_, (C142_exact (z := 0) hp hq hw (by syntax_of; simp) ?_ ?_).congr ?_⟩
  all_goals size_of
  all_goals first
    | (generalize (2 : ℝ) ^ (k + l) = P at *; linarith)
    | omega
    | ring

/-- A consequence: on the grid a vectorised build, a scalar build, a build with fused multiply-adds and a build that reorders agree. -/
theorem C142_builds_agree {bk bk' : Backend} {a b : Vec3 F32} {k l : Nat} {A B : ℝ} (ha : Spec.OnGrid (comps3 a) k A)
    (hb : Spec.OnGrid (comps3 b) l B) (hs : 3 * (A * B) * 2 ^ (k + l) + 1 ≤ 2 ^ 24) (hu : k + l ≤ 149) {code code' : FExpr}
    (h : Emits (Vec3.dot bk (arg3 0) (arg3 3)) code) (h' : Emits (Vec3.dot bk' (arg3 0) (arg3 3)) code') :
    Fp.feq (eval (inputs (comps3 a ++ comps3 b)) code) (eval (inputs (comps3 a ++ comps3 b)) code') = true := by
  have x := C142_dot3_exact ha hb hs hu h
  have y := C142_dot3_exact ha hb hs hu h'
  rw [feq_iff_val (isNaN_of_isFin x.fin) (isNaN_of_isFin y.fin), x.val, y.val]

/-! ## Accuracy: off the grid, every build stays near the exact value -/

theorem FExpr.inputs_fin {l : List F32} (h : ∀ x ∈ l, x.isFin = true) (i : Nat) : (inputs l i).isFin = true := by
  unfold inputs
  by_cases hi : i < l.length
  · rw [List.getD_eq_getElem?_getD, List.getElem?_eq_getElem hi]; exact h _ (List.getElem_mem hi)
  · rw [List.getD_eq_getElem?_getD, List.getElem?_eq_none (by omega)]; rfl

/-- Any straight-line code of at most 1024 operations. -/
theorem C142_accurate {l : List F32} (hf : ∀ x ∈ l, x.isFin = true) {source code : FExpr} (h : Emits source code) (p : Plain source)
    (hn : ops code ≤ 1024) (hm : terms1 (inputs l) source ≤ 2 ^ 125) :
    (eval (inputs l) code).isFin = true ∧ |(eval (inputs l) code).val - real (fun i => (inputs l i).val) source| ≤
      ops code / 2 ^ 23 * terms (inputs l) source + ops code / 2 ^ 147 * terms1 (inputs l) source :=
  Emits.close (inputs_fin hf) h p hn hm

/-- the same with the measures replaced by bounds -/
theorem FExpr.accurate_of {l : List F32} (hf : ∀ x ∈ l, x.isFin = true) {source code : FExpr} (h : Emits source code) (p : Plain source)
    (hn : ops code ≤ 1024) {x T T1 : ℝ} (hx : real (fun i => (inputs l i).val) source = x) (hT : terms (inputs l) source ≤ T)
    (hT1 : terms1 (inputs l) source ≤ T1) (hm : T1 ≤ 2 ^ 125) :
    (eval (inputs l) code).isFin = true ∧ |(eval (inputs l) code).val - x| ≤ ops code / 2 ^ 23 * T + ops code / 2 ^ 147 * T1 := by
  have a := C142_accurate hf h p hn (hT1.trans hm)
  rw [hx] at a
  refine ⟨a.1, a.2.trans (add_le_add ?_ ?_)⟩ <;> gcongr

/-- the magnitude, counted as at least one -/
noncomputable def Spec.big (x : F32) : ℝ := max 1 |x.val|

/-- evaluates the measures of the accuracy theorem -/
local macro "terms_of" : tactic => `(tactic|
  (try simp only [terms, terms1]
   syntax_of
   simp [comps2, comps3, comps4, compsM, compsQ, compsP, compsP3, lanes4, gridLit, oneLit, absLit, inputs, Spec.big]))

theorem C142_dot3_accurate {bk : Backend} {a b : Vec3 F32} (hf : ∀ x ∈ comps3 a ++ comps3 b, x.isFin = true)
    {code : FExpr} (h : Emits (Vec3.dot bk (arg3 0) (arg3 3)) code) (hn : ops code ≤ 1024)
    (hm : Spec.big a.value.x * Spec.big b.value.x + Spec.big a.value.y * Spec.big b.value.y +
      Spec.big a.value.z * Spec.big b.value.z + 1 ≤ 2 ^ 125) :
    (eval (inputs (comps3 a ++ comps3 b)) code).isFin = true ∧
    |(eval (inputs (comps3 a ++ comps3 b)) code).val -
      (a.value.x.val * b.value.x.val + a.value.y.val * b.value.y.val + a.value.z.val * b.value.z.val)| ≤
      ops code / 2 ^ 23 * (|a.value.x.val| * |b.value.x.val| + |a.value.y.val| * |b.value.y.val| + |a.value.z.val| * |b.value.z.val|) +
      ops code / 2 ^ 147 * (Spec.big a.value.x * Spec.big b.value.x + Spec.big a.value.y * Spec.big b.value.y +
        Spec.big a.value.z * Spec.big b.value.z + 1) := by
  match bk with
  | .sse true _ | .sse false _ | .gcc | .neon | .scalar _ =>
    refine accurate_of hf h (by syntax_of; simp) hn ?_ ?_ ?_ hm
    all_goals terms_of
    all_goals linarith

theorem C142_cross_accurate {bk : Backend} {a b : Vec3 F32} (hf : ∀ x ∈ comps3 a ++ comps3 b, x.isFin = true)
    {code : FExpr} (h : Emits (Vec3.cross bk (arg3 0) (arg3 3)).value.x code) (hn : ops code ≤ 1024)
    (hm : Spec.big a.value.y * Spec.big b.value.z + Spec.big a.value.z * Spec.big b.value.y ≤ 2 ^ 125) :
    (eval (inputs (comps3 a ++ comps3 b)) code).isFin = true ∧
    |(eval (inputs (comps3 a ++ comps3 b)) code).val - (a.value.y.val * b.value.z.val - a.value.z.val * b.value.y.val)| ≤
      ops code / 2 ^ 23 * (|a.value.y.val| * |b.value.z.val| + |a.value.z.val| * |b.value.y.val|) +
      ops code / 2 ^ 147 * (Spec.big a.value.y * Spec.big b.value.z + Spec.big a.value.z * Spec.big b.value.y) := by
  match bk with
  | .sse _ _ | .gcc | .neon | .scalar _ =>
    refine accurate_of hf h (by syntax_of; simp) hn ?_ ?_ ?_ hm
    all_goals terms_of
    all_goals linarith

/-- Matrix times vector, lane `i`: off by at most `n / 2^23` of the sum of the magnitudes of the products, plus underflow. -/
theorem C142_transform_accurate {m : M4 F32} {v : Vec4 F32} (hf : ∀ x ∈ compsM m ++ comps4 v, x.isFin = true) {i : Nat} (hi : i < 4)
    {code : FExpr} (h : Emits (Simd4f.get (GMatrix.transformVec4 (argM 0) (arg4 16)).value i) code) (hn : ops code ≤ 1024)
    (hm : Spec.big (Simd4f.get m.x i) * Spec.big v.value.x + Spec.big (Simd4f.get m.y i) * Spec.big v.value.y +
      Spec.big (Simd4f.get m.z i) * Spec.big v.value.z + Spec.big (Simd4f.get m.w i) * Spec.big v.value.w ≤ 2 ^ 125) :
    (eval (inputs (compsM m ++ comps4 v)) code).isFin = true ∧
    |(eval (inputs (compsM m ++ comps4 v)) code).val -
      ((Simd4f.get m.x i).val * v.value.x.val + (Simd4f.get m.y i).val * v.value.y.val + (Simd4f.get m.z i).val * v.value.z.val +
        (Simd4f.get m.w i).val * v.value.w.val)| ≤
      ops code / 2 ^ 23 * (|(Simd4f.get m.x i).val| * |v.value.x.val| + |(Simd4f.get m.y i).val| * |v.value.y.val| +
        |(Simd4f.get m.z i).val| * |v.value.z.val| + |(Simd4f.get m.w i).val| * |v.value.w.val|) +
      ops code / 2 ^ 147 * (Spec.big (Simd4f.get m.x i) * Spec.big v.value.x + Spec.big (Simd4f.get m.y i) * Spec.big v.value.y +
        Spec.big (Simd4f.get m.z i) * Spec.big v.value.z + Spec.big (Simd4f.get m.w i) * Spec.big v.value.w) := by
  interval_cases i <;> refine accurate_of hf h (by syntax_of; simp) hn ?_ ?_ ?_ hm
  all_goals terms_of
  all_goals linarith

/-- Points of space; the abscissa (the other coordinates are `C142_accurate` too). -/
theorem C142_point_accurate {m : M4 F32} {q : Point3D F32} (hf : ∀ x ∈ compsM m ++ compsP3 q, x.isFin = true)
    {code : FExpr} (h : Emits (GMatrix.transformPoint3D (argM 0) (argP3 16)).x code) (hn : ops code ≤ 1024)
    (hm : Spec.big m.x.x * Spec.big q.x + Spec.big m.y.x * Spec.big q.y + Spec.big m.z.x * Spec.big q.z + Spec.big m.w.x ≤ 2 ^ 125) :
    (eval (inputs (compsM m ++ compsP3 q)) code).isFin = true ∧
    |(eval (inputs (compsM m ++ compsP3 q)) code).val -
      (m.x.x.val * q.x.val + m.y.x.val * q.y.val + m.z.x.val * q.z.val + m.w.x.val)| ≤
      ops code / 2 ^ 23 * (|m.x.x.val| * |q.x.val| + |m.y.x.val| * |q.y.val| + |m.z.x.val| * |q.z.val| + |m.w.x.val|) +
      ops code / 2 ^ 147 * (Spec.big m.x.x * Spec.big q.x + Spec.big m.y.x * Spec.big q.y + Spec.big m.z.x * Spec.big q.z +
        Spec.big m.w.x) := by
  refine accurate_of hf h (by syntax_of; simp) hn ?_ ?_ ?_ hm
  all_goals terms_of
  all_goals linarith

/-- Products of matrices, every entry. -/
theorem C142_multiply_accurate {m n : M4 F32} (hf : ∀ x ∈ compsM m ++ compsM n, x.isFin = true) {i j : Nat} (hi : i < 4) (hj : j < 4)
    {code : FExpr} (h : Emits (GMatrix.getValue (GMatrix.multiply (argM 0) (argM 16)) i j) code) (hn : ops code ≤ 1024)
    (hm : ∑ k ∈ Finset.range 4, Spec.big (GMatrix.getValue m i k) * Spec.big (GMatrix.getValue n k j) ≤ 2 ^ 125) :
    (eval (inputs (compsM m ++ compsM n)) code).isFin = true ∧
    |(eval (inputs (compsM m ++ compsM n)) code).val -
      ∑ k ∈ Finset.range 4, (GMatrix.getValue m i k).val * (GMatrix.getValue n k j).val| ≤
      ops code / 2 ^ 23 * ∑ k ∈ Finset.range 4, |(GMatrix.getValue m i k).val| * |(GMatrix.getValue n k j).val| +
      ops code / 2 ^ 147 * ∑ k ∈ Finset.range 4, Spec.big (GMatrix.getValue m i k) * Spec.big (GMatrix.getValue n k j) := by
  rw [getValue_lt _ hi hj] at h
  simp only [Finset.sum_range_succ, Finset.sum_range_zero, _root_.zero_add] at hm ⊢
  rw [getValue_lt _ hi (by decide), getValue_lt _ hi (by decide), getValue_lt _ hi (by decide), getValue_lt _ hi (by decide),
    getValue_lt _ (by decide) hj, getValue_lt _ (by decide) hj, getValue_lt _ (by decide) hj, getValue_lt _ (by decide) hj] at hm ⊢
  interval_cases i <;> interval_cases j <;> simp only [GMatrix.getRow] at h hm ⊢ <;>
    refine accurate_of hf h (by syntax_of; simp) hn ?_ ?_ ?_ hm
  all_goals terms_of
  all_goals linarith

/-! ## The hypotheses are met -/

/-- vectors of integers up to 2000, and of multiples of 1/64 up to 30, are on a grid -/
theorem FExpr.onGrid_ints (x y z : ℤ) (k : Nat) (hk : k ≤ 149) (B : ℝ) (hB : 1 ≤ B * 2 ^ k) (hB' : B * 2 ^ k ≤ 2 ^ 24) (hx : |(x : ℝ)| ≤ B * 2 ^ k) (hy : |(y : ℝ)| ≤ B * 2 ^ k)
    (hz : |(z : ℝ)| ≤ B * 2 ^ k) : Spec.OnGrid (comps3 ⟨⟨Fp.lit x (2 ^ k), Fp.lit y (2 ^ k), Fp.lit z (2 ^ k), Fp.lit 0 1⟩⟩) k B := by
  have key : ∀ w : ℤ, |(w : ℝ)| ≤ B * 2 ^ k → (Fp.lit w (2 ^ k) : F32).isFin = true ∧ (Fp.lit w (2 ^ k) : F32).val = (w : ℝ) / 2 ^ k ∧
      |(Fp.lit w (2 ^ k) : F32).val| ≤ B := by
    intro w hw
    have wn : w.natAbs ≤ 2 ^ 24 := by
      have e : ((w.natAbs : ℕ) : ℝ) = |(w : ℝ)| := by rw [← Int.cast_abs, Int.abs_eq_natAbs]; simp
      exact_mod_cast e ▸ hw.trans hB'
    have l := lit_dyadic w k wn hk
    refine ⟨l.1, l.2, ?_⟩
    rw [l.2, abs_div, abs_of_pos (by positivity : (0 : ℝ) < 2 ^ k), div_le_iff₀ (by positivity)]
    exact hw
  refine ⟨fun u hu => ?_, fun u hu => ?_, fun u hu => ?_, hB⟩ <;>
    simp only [comps3, List.mem_cons, List.not_mem_nil, or_false] at hu <;> rcases hu with rfl | rfl | rfl
  · exact (key x hx).1
  · exact (key y hy).1
  · exact (key z hz).1
  · exact ⟨x, (key x hx).2.1⟩
  · exact ⟨y, (key y hy).2.1⟩
  · exact ⟨z, (key z hz).2.1⟩
  · exact (key x hx).2.2
  · exact (key y hy).2.2
  · exact (key z hz).2.2

/-- two such vectors, and a reordered and contracted dot product: `fma z z' (fma y y' (x * x'))` is exact -/
example : Is (eval (inputs (comps3 ⟨⟨Fp.lit 1999 (2 ^ 0), Fp.lit (-7) (2 ^ 0), Fp.lit 1000 (2 ^ 0), Fp.lit 0 1⟩⟩ ++
      comps3 ⟨⟨Fp.lit 1919 (2 ^ 6), Fp.lit (-1) (2 ^ 6), Fp.lit 3 (2 ^ 6), Fp.lit 0 1⟩⟩))
    (fma (var 2) (var 5) (fma (var 1) (var 4) (mul (var 0) (var 3))))) (1999 * (1919 / 64) + 7 / 64 + 1000 * (3 / 64)) := by
  refine (C142_dot3_exact (bk := .gcc) (k := 0) (l := 6) (A := 2000) (B := 30) (onGrid_ints _ _ _ 0 ?_ _ ?_ ?_ ?_ ?_ ?_)
    (onGrid_ints _ _ _ 6 ?_ _ ?_ ?_ ?_ ?_ ?_) ?_ (by decide) (.step (.step (.step (.step .source (.root (.add_comm _ _)))
      (.add_right _ (.root (.add_comm _ _)))) (.add_right _ (.root (.contract _ _ _)))) (.root (.contract _ _ _)))).congr ?_
  all_goals try norm_num
  have l := fun n h => lit_dyadic n 0 h (by decide)
  have r := fun n h => lit_dyadic n 6 h (by decide)
  simp only [pow_zero] at l
  norm_num at l r
  rw [(l 1999 (by decide)).2, (l (-7) (by decide)).2, (l 1000 (by decide)).2, (r 1919 (by decide)).2, (r (-1) (by decide)).2, (r 3 (by decide)).2]
  norm_num

/-- off the grid the same rewriting changes the last bit -/
example : Fp.feq (eval (inputs [Fp.lit 1 10, Fp.lit 1 10, Fp.lit 1 10, Fp.lit 1 3, Fp.lit 1 7, Fp.lit 1 9])
      (fma (var 2) (var 5) (fma (var 1) (var 4) (mul (var 0) (var 3)))))
    (eval (inputs [Fp.lit 1 10, Fp.lit 1 10, Fp.lit 1 10, Fp.lit 1 3, Fp.lit 1 7, Fp.lit 1 9]) (Vec3.dot .gcc (arg3 0) (arg3 3))) = false := by
  kdecide

/-! ## What the freedom does change -/

/-- The syntax of the first component of a cross product, with the second product contracted: `fma (-a.z) b.y (a.y * b.z)`. -/
def FExpr.contracted : FExpr := fma (neg (var 2)) (var 4) (mul (var 1) (var 5))

omit [Libm binary32] in
/-- Contraction is one of the permitted rewritings of the cross product. -/
theorem C142_contracts : Emits (Vec3.cross .gcc (arg3 0) (arg3 3)).value.x contracted := by
  refine .step (.step (.step (.step (b := sub (mul (var 1) (var 5)) (mul (var 2) (var 4))) .source (.root (.sub_add _ _)))
    (.root (.add_comm _ _))) (.add_left _ (.root (.neg_mul _ _)))) (.root (.contract _ _ _))

/-- A vector crossed with itself: zero in every lane when evaluated as written (`C142_source`), not zero when contracted. -/
theorem C142_cross_self_contracted : ∃ v : Vec3 F32, (∀ x ∈ comps3 v, x.isFin = true) ∧
    Fp.feq (Vec3.cross .gcc v v).value.x (Fp.zero false) = true ∧
    Fp.feq (eval (inputs (comps3 v ++ comps3 v)) contracted) (Fp.zero false) = false := by
  refine ⟨⟨⟨Fp.lit 0 1, Fp.lit 1 3, Fp.lit 1 5, Fp.lit 0 1⟩⟩, ?_⟩
  kdecide

end Graphene

/-
  C149: rays against triangles under every permitted compilation, on a grid.
-/
import Verif.Props.Unsafe4
import Verif.Props.Rays2
import Verif.Props.Float4

namespace Graphene
open Fp
open FExpr
open Spec

/-! ## The source expressions

Inputs: the vertices at 0, 3, 6, the origin of the ray at 9, its direction at 12. -/

def FExpr.tEdge1 : Vec3 FExpr := Vec3.subtract (arg3 3) (arg3 0)
def FExpr.tEdge2 : Vec3 FExpr := Vec3.subtract (arg3 6) (arg3 0)
def FExpr.tDiff : Vec3 FExpr := Vec3.subtract (arg3 9) (arg3 0)
/-- `DdN` before the sign is known (ray.c:638) -/
def FExpr.ddnSource (bk : Backend) : FExpr := Vec3.dot bk (arg3 12) (Vec3.cross bk tEdge1 tEdge2)

/-- the expressions compared after the sign is known: `DdN`, `DdQxE2`, `DdE1xQ`, their sum, `QdN` -/
structure FExpr.TriCode where
  n : FExpr
  q1 : FExpr
  q2 : FExpr
  sum : FExpr
  t : FExpr

/-- the constant `sign` -/
def FExpr.signLit (pos : Bool) : FExpr := if pos then .lit 1 1 else .lit (-1) 1

/-- the source expressions in the branch `pos` of the test of the sign (ray.c:646-680) -/
def FExpr.triSource (bk : Backend) (pos : Bool) : TriCode where
  n := if pos then ddnSource bk else .neg (ddnSource bk)
  q1 := .mul (signLit pos) (Vec3.dot bk (arg3 12) (Vec3.cross bk tDiff tEdge2))
  q2 := .mul (signLit pos) (Vec3.dot bk (arg3 12) (Vec3.cross bk tEdge1 tDiff))
  sum := .add (.mul (signLit pos) (Vec3.dot bk (arg3 12) (Vec3.cross bk tDiff tEdge2))) (.mul (signLit pos) (Vec3.dot bk (arg3 12) (Vec3.cross bk tEdge1 tDiff)))
  t := .mul (.neg (signLit pos)) (Vec3.dot bk tDiff (Vec3.cross bk tEdge1 tEdge2))

/-- each compared expression may be emitted differently -/
structure FExpr.TriEmits (source code : TriCode) : Prop where
  n : Emits source.n code.n
  q1 : Emits source.q1 code.q1
  q2 : Emits source.q2 code.q2
  sum : Emits source.sum code.sum
  t : Emits source.t code.t

variable [Libm binary32]

/-- the inputs -/
def FExpr.triPlace (r : Ray F32) (tr : Triangle F32) : List F32 := comps3 tr.a ++ comps3 tr.b ++ comps3 tr.c ++ comps3 r.origin
def FExpr.triInputs (r : Ray F32) (tr : Triangle F32) : List F32 := triPlace r tr ++ comps3 r.direction

/-- `graphene_ray_intersect_triangle` (ray.c:606-691) by emitted code; `recip`: the quotient turned into a product with the reciprocal. -/
def FExpr.triHitBy (n0 : FExpr) (code : Bool → TriCode) (recip : Bool) (r : Ray F32) (tr : Triangle F32) : IntersectionKind × Option F32 :=
  let ev := eval (inputs (triInputs r tr))
  if approxVal (ev n0) f0 then (.none, Option.none)
  else
    let pos := ev n0 >. f0
    let c := code pos
    if ev c.q1 <. f0 then (.none, Option.none)
    else if ev c.q2 <. f0 then (.none, Option.none)
    else if ev c.sum >. ev c.n then (.none, Option.none)
    else if ev c.t <. f0 then (.none, Option.none)
    else (if pos then .leave else .enter, some (if recip then ev c.t *. (f1 /. ev c.n) else ev c.t /. ev c.n))

/-- With nothing rewritten, it is the function. -/
theorem C149_source (bk : Backend) (r : Ray F32) (tr : Triangle F32) :
    triHitBy (ddnSource bk) (triSource bk) false r tr = r.intersectTriangle bk tr := by
  have e : eval (inputs (triInputs r tr)) (ddnSource bk) = Vec3.dot bk r.direction (Vec3.cross bk (Vec3.subtract tr.b tr.a) (Vec3.subtract tr.c tr.a)) := by
    match bk with
    | .sse true _ | .sse false _ | .gcc | .neon | .scalar _ => rfl
  unfold triHitBy Ray.intersectTriangle
  simp only [e]
  cases h : (Vec3.dot bk r.direction (Vec3.cross bk (Vec3.subtract tr.b tr.a) (Vec3.subtract tr.c tr.a)) >. f0)
  · match bk with
    | .sse true _ | .sse false _ | .gcc | .neon | .scalar _ => rfl
  · match bk with
    | .sse true _ | .sse false _ | .gcc | .neon | .scalar _ => rfl

/-! ## The exact ray and triangle -/

noncomputable def Spec.realV (v : Vec3 F32) : Vec3 ℝ := ⟨⟨v.value.x.val, v.value.y.val, v.value.z.val, 0⟩⟩
/-- the ray with the same coordinates, in real numbers -/
noncomputable def Spec.realRay (r : Ray F32) : Ray ℝ := ⟨realV r.origin, realV r.direction⟩
/-- the triangle with the same coordinates, in real numbers -/
noncomputable def Spec.realTri (t : Triangle F32) : Triangle ℝ := ⟨realV t.a, realV t.b, realV t.c⟩

/-- Vertices and origin on one grid, the direction on another, fine enough for the determinants to fit. -/
structure Spec.TriGrid (r : Ray F32) (tr : Triangle F32) (k j : Nat) (B D : ℝ) : Prop where
  place : OnGrid (triPlace r tr) k B
  dir : OnGrid (comps3 r.direction) j D
  fits : (48 * (B ^ 2 * D) + 2) * 2 ^ (2 * k + j) ≤ 2 ^ 24
  fits' : (48 * B ^ 3 + 1) * 2 ^ (3 * k) ≤ 2 ^ 24
  bits : 2 * k + j ≤ 22

local macro "tri_syntax" : tactic => `(tactic|
  simp only [ddnSource, triSource, signLit, tEdge1, tEdge2, tDiff, Vec3.dot, Vec3.cross, Vec3.subtract, Simd4f.cross3,
    Simd4f.dot3Scalar, Simd4f.add, Simd4f.sub, Simd4f.mul, Simd4f.map2, Simd4f.splat, Simd4f.get, Simd4f.init, if_true, if_false, Bool.false_eq_true,
    arg3, FExpr.s_add, FExpr.s_sub, FExpr.s_mul, FExpr.s_f0, FExpr.Plain, FExpr.size, FExpr.unit, FExpr.real])

/-- the sign as a number -/
def Spec.sgnOf (pos : Bool) : ℝ := if pos then 1 else -1

/-- The real values of the sources. -/
theorem FExpr.tri_real (bk : Backend) (r : Ray F32) (tr : Triangle F32) (pos : Bool) :
    let v := fun e => real (fun i => (inputs (triInputs r tr) i).val) e
    let R := realRay r
    let T := realTri tr
    let e1 := Vec3.subtract T.b T.a
    let e2 := Vec3.subtract T.c T.a
    let q := Vec3.subtract R.origin T.a
    let N := Vec3.dot bk R.direction (Vec3.cross bk e1 e2)
    v (ddnSource bk) = N ∧ v (triSource bk pos).n = sgnOf pos * N ∧
    v (triSource bk pos).q1 = sgnOf pos * Vec3.dot bk R.direction (Vec3.cross bk q e2) ∧
    v (triSource bk pos).q2 = sgnOf pos * Vec3.dot bk R.direction (Vec3.cross bk e1 q) ∧
    v (triSource bk pos).sum = sgnOf pos * Vec3.dot bk R.direction (Vec3.cross bk q e2) + sgnOf pos * Vec3.dot bk R.direction (Vec3.cross bk e1 q) ∧
    v (triSource bk pos).t = -sgnOf pos * Vec3.dot bk q (Vec3.cross bk e1 e2) := by
  match bk, pos with
  | .sse true _, true | .sse false _, true | .gcc, true | .neon, true | .scalar _, true
  | .sse true _, false | .sse false _, false | .gcc, false | .neon, false | .scalar _, false =>
    intro v R T e1 e2 q N
    refine ⟨?_, ?_, ?_, ?_, ?_, ?_⟩
    all_goals
      simp only [v, R, T, e1, e2, q, N, realRay, realTri, realV, sgnOf]
      tri_syntax
      simp [inputs, triInputs, triPlace, comps3]
      try ring1

set_option maxHeartbeats 4000000 in
/-- The sources are exact on the grid. -/
theorem FExpr.tri_sources (bk : Backend) (pos : Bool) {r : Ray F32} {tr : Triangle F32} {k j : Nat} {B D : ℝ} (h : TriGrid r tr k j B D) :
    let K := two (triPlace r tr).length k j
    let S := two (triPlace r tr).length B D
    let Fit := fun (z : Nat) (e : FExpr) => Plain e ∧ size S (gridLit z) e * 2 ^ unit K z e ≤ 2 ^ 24 ∧ unit K z e ≤ 149
    (Fit (2 * k + j) (ddnSource bk) ∧ unit K (2 * k + j) (ddnSource bk) ≤ 22) ∧ Fit (2 * k + j) (triSource bk pos).n ∧ Fit (2 * k + j) (triSource bk pos).q1 ∧ Fit (2 * k + j) (triSource bk pos).q2 ∧
    Fit (2 * k + j) (triSource bk pos).sum ∧ Fit (3 * k) (triSource bk pos).t := by
  obtain ⟨hp, hdir, hs, hs', hb⟩ := h
  have B0 : 0 ≤ B := (abs_nonneg _).trans (hp.le tr.a.value.x (by simp [triPlace, comps3]))
  have D0 : 0 ≤ D := (abs_nonneg _).trans (hdir.le r.direction.value.x (by simp [comps3]))
  have i : ((2 : ℝ) ^ (2 * k + j))⁻¹ ≤ 1 := inv_le_one_of_one_le₀ (one_le_pow₀ (by norm_num))
  have i' : ((2 : ℝ) ^ (3 * k))⁻¹ ≤ 1 := inv_le_one_of_one_le₀ (one_le_pow₀ (by norm_num))
  have m1 : j + (k + k) = 2 * k + j := by omega
  have m2 : k + (k + k) = 3 * k := by omega
  have key : ∀ (S : ℝ) (n : Nat), 0 ≤ S → S ≤ 48 * (B ^ 2 * D) + 2 → n ≤ 2 * k + j → S * 2 ^ n ≤ 2 ^ 24 := by
    intro S n h0 h1 h2
    exact (mul_le_mul h1 (pow_le_pow_right₀ (by norm_num) h2) (by positivity) (h0.trans h1)).trans hs
  have key' : ∀ (S : ℝ) (n : Nat), 0 ≤ S → S ≤ 48 * B ^ 3 + 1 → n ≤ 3 * k → S * 2 ^ n ≤ 2 ^ 24 := by
    intro S n h0 h1 h2
    exact (mul_le_mul h1 (pow_le_pow_right₀ (by norm_num) h2) (by positivity) (h0.trans h1)).trans hs'
  have P1 : 0 ≤ B ^ 2 * D := by positivity
  have P2 : 0 ≤ B ^ 3 := by positivity
  have len : (triPlace r tr).length = 12 := rfl
  rw [len]
  match bk, pos with
  | .sse true _, true | .sse false _, true | .gcc, true | .neon, true | .scalar _, true
  | .sse true _, false | .sse false _, false | .gcc, false | .neon, false | .scalar _, false =>
    intro K S Fit
    refine ⟨⟨⟨?_, ?_, ?_⟩, ?_⟩, ⟨?_, ?_, ?_⟩, ⟨?_, ?_, ?_⟩, ⟨?_, ?_, ?_⟩, ⟨?_, ?_, ?_⟩, ⟨?_, ?_, ?_⟩⟩
    all_goals (try simp only [K, S])
    all_goals tri_syntax
    all_goals simp [two, gridLit, m1, m2]
    all_goals first | omega | skip
    all_goals (try rw [show (16777216 : ℝ) = 2 ^ 24 by norm_num])
    all_goals first
      | (refine key _ _ ?_ ?_ ?_
         rotate_left 2
         · omega
         · positivity
         · linarith)
      | (refine key' _ _ ?_ ?_ ?_
         rotate_left 2
         · omega
         · positivity
         · linarith)

/-- the sign of an exact value -/
theorem FExpr.is_neg {a : F32} {x : ℝ} (h : Is a x) : (a <. f0) = true ↔ x < 0 := by
  rw [← h.val, f0_eq]; exact (lt_iff_val (isNaN_of_isFin h.fin) rfl).trans (by rw [val_zero])

theorem FExpr.is_pos {a : F32} {x : ℝ} (h : Is a x) : (f0 <. a) = true ↔ 0 < x := by
  rw [← h.val, f0_eq]; exact (lt_iff_val rfl (isNaN_of_isFin h.fin)).trans (by rw [val_zero])

theorem FExpr.is_lt {a b : F32} {x y : ℝ} (h : Is a x) (g : Is b y) : (a <. b) = true ↔ x < y := by
  rw [← h.val, ← g.val]; exact lt_iff_val (isNaN_of_isFin h.fin) (isNaN_of_isFin g.fin)

/-- a quotient of exact values, or the product with the rounded reciprocal -/
theorem FExpr.quotient_near {a n : F32} {A N : ℝ} (ha : Is a A) (hn : Is n N) (hA : |A| ≤ 2 ^ 24) (h1 : 1 / 2 ^ 22 ≤ N) (h2 : N ≤ 2 ^ 24) (recip : Bool) :
    let q := if recip then a *. (f1 /. n) else a /. n
    q.isFin = true ∧ |q.val - A / N| ≤ 1 / 2 ^ 22 * |A / N| + 1 / 2 ^ 148 := by
  have N0 : 0 < N := lt_of_lt_of_le (by norm_num) h1
  have mx := le_max32
  have n0 : n.val ≠ 0 := by rw [hn.val]; exact N0.ne'
  have iN : 0 < 1 / N := by positivity
  have iN2 : 1 / N ≤ 2 ^ 22 := by rw [div_le_iff₀ N0]; norm_num at h1 ⊢; linarith
  have iN3 : 1 / 2 ^ 24 ≤ 1 / N := one_div_le_one_div_of_le N0 h2
  have e : A / N = A * (1 / N) := by rw [mul_one_div]
  have qa : |A / N| = |A| * (1 / N) := by rw [e, _root_.abs_mul, abs_of_pos iN]
  have A0 := abs_nonneg A
  have qb : |A| * (1 / N) ≤ 2 ^ 24 * 2 ^ 22 := mul_le_mul hA iN2 iN.le (by norm_num)
  have q0 : 0 ≤ |A| * (1 / N) := by positivity
  cases recip
  · intro q
    have r := rnd_div ha.fin hn.fin n0
    rw [ha.val, hn.val] at r
    have f := r.isFin hp32 (by rw [qa]; refine (qb.trans ?_).trans mx; norm_num)
    refine ⟨f, (r.err_add f).trans ?_⟩
    rw [u32, eta32]
    have := abs_nonneg (A / N)
    norm_num; linarith
  · show (Fp.mul a (f1 /. n)).isFin = true ∧ |(Fp.mul a (f1 /. n)).val - A / N| ≤ _
    have one : (f1 : F32).isFin = true ∧ (f1 : F32).val = 1 := by
      have := lit_dyadic 1 0 (by decide) (by decide)
      rw [pow_zero] at this
      exact ⟨this.1, by rw [show (f1 : F32) = Fp.lit 1 1 from rfl, this.2]; norm_num⟩
    have r := rnd_div one.1 hn.fin n0
    rw [one.2, hn.val] at r
    have f := r.isFin hp32 (by rw [abs_of_pos iN]; refine (iN2.trans ?_).trans mx; norm_num)
    have re := r.err_add f
    rw [u32, eta32, abs_of_pos iN] at re
    change |(f1 /. n).val - 1 / N| ≤ _ at re
    change (f1 /. n).isFin = true at f
    generalize (f1 /. n) = ρ at *
    have re2 : |ρ.val - 1 / N| ≤ 1 / 2 ^ 23 * (1 / N) := by
      refine re.trans ?_
      norm_num at iN3 iN ⊢; linarith
    have k := _root_.abs_le.1 re2
    have ρb : |ρ.val| ≤ 2 * (1 / N) := by rw [_root_.abs_le]; constructor <;> norm_num at k iN ⊢ <;> linarith [k.1, k.2]
    have m := rnd_mul ha.fin f
    rw [ha.val] at m
    have mb : |A * ρ.val| ≤ 2 * (|A| * (1 / N)) := by
      rw [_root_.abs_mul]
      have := mul_le_mul_of_nonneg_left ρb A0
      linarith
    have mf := m.isFin hp32 (by refine (mb.trans ?_).trans mx; norm_num at qb ⊢; linarith)
    have me := m.err_add mf
    rw [u32, eta32] at me
    refine ⟨mf, ?_⟩
    refine (abs_sub_le _ (A * ρ.val) _).trans ?_
    have d : |A * ρ.val - A / N| ≤ 1 / 2 ^ 23 * (|A| * (1 / N)) := by
      rw [e, ← mul_sub, _root_.abs_mul]
      have := mul_le_mul_of_nonneg_left re2 A0
      linarith
    rw [qa]
    norm_num at me mb d ⊢
    linarith

/-- the function over the real numbers -/
theorem Spec.real_triangle (bk : Backend) (R : Ray ℝ) (T : Triangle ℝ) :
    let e1 := Vec3.subtract T.b T.a
    let e2 := Vec3.subtract T.c T.a
    let q := Vec3.subtract R.origin T.a
    let N := Vec3.dot bk R.direction (Vec3.cross bk e1 e2)
    let X := sgnOf (decide (0 < N)) * Vec3.dot bk R.direction (Vec3.cross bk q e2)
    let Y := sgnOf (decide (0 < N)) * Vec3.dot bk R.direction (Vec3.cross bk e1 q)
    let A := -sgnOf (decide (0 < N)) * Vec3.dot bk q (Vec3.cross bk e1 e2)
    R.intersectTriangle bk T =
      if |N| < eps then (.none, none) else if X < 0 then (.none, none) else if Y < 0 then (.none, none)
      else if sgnOf (decide (0 < N)) * N < X + Y then (.none, none) else if A < 0 then (.none, none)
      else (if 0 < N then .leave else .enter, some (A / (sgnOf (decide (0 < N)) * N))) := by
  intro e1 e2 q N X Y A
  have h : R.intersectTriangle bk T =
      if |N| < eps then (.none, none) else
      let ks : IntersectionKind × ℝ × ℝ := if 0 < N then (.leave, 1, N) else (.enter, -1, -N)
      if ks.2.1 * Vec3.dot bk R.direction (Vec3.cross bk q e2) < 0 then (.none, none) else
      if ks.2.1 * Vec3.dot bk R.direction (Vec3.cross bk e1 q) < 0 then (.none, none) else
      if ks.2.2 < ks.2.1 * Vec3.dot bk R.direction (Vec3.cross bk q e2) + ks.2.1 * Vec3.dot bk R.direction (Vec3.cross bk e1 q) then (.none, none) else
      if -ks.2.1 * Vec3.dot bk q (Vec3.cross bk e1 e2) < 0 then (.none, none) else (ks.1, some (-ks.2.1 * Vec3.dot bk q (Vec3.cross bk e1 e2) / ks.2.2)) := by
    simp only [Ray.intersectTriangle, RealScalar.sub_eq, RealScalar.f0_eq, RealScalar.f1_eq, RealScalar.lt_eq,
      RealScalar.mul_eq, RealScalar.add_eq, RealScalar.neg_eq, RealScalar.div_eq, RealScalar.lit_eq,
      approxVal_real, sub_zero, e1, e2, q, N]
    norm_num
  rw [h]
  simp only [X, Y, A, sgnOf]
  by_cases c : 0 < N
  · simp [c]
  · simp [c]

/-- Rays and triangles on a grid, whatever the compiler emits: the same verdict as in real numbers, and a close distance. -/
theorem C149_exact {bk : Backend} {r : Ray F32} {tr : Triangle F32} {k j : Nat} {B D : ℝ} (hg : TriGrid r tr k j B D)
    {n0 : FExpr} {code : Bool → TriCode} {recip : Bool} (h0 : Emits (ddnSource bk) n0) (hc : ∀ pos, TriEmits (triSource bk pos) (code pos)) :
    let hit := triHitBy n0 code recip r tr
    let exact := Ray.intersectTriangle bk (realRay r) (realTri tr)
    hit.1 = exact.1 ∧ (hit.2 = none ↔ exact.2 = none) ∧
    ∀ t, exact.2 = some t → ∃ t', hit.2 = some t' ∧ t'.isFin = true ∧ |t'.val - t| ≤ 1 / 2 ^ 22 * |t| + 1 / 2 ^ 148 := by
  intro hit exact
  have re := real_triangle bk (realRay r) (realTri tr)
  set e1 := Vec3.subtract (realTri tr).b (realTri tr).a
  set e2 := Vec3.subtract (realTri tr).c (realTri tr).a
  set q := Vec3.subtract (realRay r).origin (realTri tr).a
  set N := Vec3.dot bk (realRay r).direction (Vec3.cross bk e1 e2) with hN
  have use := fun (z : Nat) (src c : FExpr) (em : Emits src c) (f : Plain src ∧ _ ∧ _) =>
    C142_exact (z := z) hg.place hg.dir em f.1 f.2.1 f.2.2
  obtain ⟨⟨sN, uN⟩, -⟩ := tri_sources bk true hg
  have vN : real (fun i => (inputs (triInputs r tr) i).val) (ddnSource bk) = N := (tri_real bk r tr true).1
  have iN : Is (eval (inputs (triInputs r tr)) n0) N := by
    have := use _ _ _ h0 sN
    rw [← vN]; exact this
  -- the determinant is a dyadic, bounded
  obtain ⟨-, ⟨w, hw⟩, bN⟩ := grid_exact (gridTwo hg.place hg.dir) sN.1 sN.2.1 sN.2.2
  have hw : N = w / 2 ^ unit (two (triPlace r tr).length k j) (2 * k + j) (ddnSource bk) := by rw [← vN]; exact hw
  have bound : ∀ {src : FExpr} {z : Nat} {x : ℝ}, (Plain src ∧ size (two (triPlace r tr).length B D) (gridLit z) src * 2 ^ unit (two (triPlace r tr).length k j) z src ≤ 2 ^ 24 ∧ unit (two (triPlace r tr).length k j) z src ≤ 149) →
      real (fun i => (inputs (triInputs r tr) i).val) src = x → |x| ≤ 2 ^ 24 := by
    intro src z x f e
    obtain ⟨-, -, b⟩ := grid_exact (gridTwo hg.place hg.dir) f.1 f.2.1 f.2.2
    rw [← e]
    refine (show _ ≤ _ from b).trans (le_trans ?_ f.2.1)
    exact le_mul_of_one_le_right (size_nonneg (gridMags (gridTwo hg.place hg.dir) z) src) (one_le_pow₀ (by norm_num))
  have N24 : |N| ≤ 2 ^ 24 := bound sN vN
  have gap : N = 0 ∨ 1 / 2 ^ 22 ≤ |N| := by
    rcases eq_or_ne w 0 with h | h
    · left; rw [hw, h]; simp
    · right
      rw [hw, abs_div, abs_of_pos (by positivity : (0 : ℝ) < 2 ^ _)]
      have : (1 : ℝ) ≤ |(w : ℝ)| := by exact_mod_cast Int.one_le_abs h
      exact (one_div_le_one_div_of_le (by positivity) (pow_le_pow_right₀ (by norm_num) uN)).trans (div_le_div_of_nonneg_right this (by positivity))
  have ap : approxVal (eval (inputs (triInputs r tr)) n0) f0 = true ↔ |N| < eps := by
    have m := approxVal_means (eval (inputs (triInputs r tr)) n0) f0 (by simp [iN.fin, f0_eq])
    simp only [List.mem_singleton, forall_eq, iN.val, f0_eq, val_zero, sub_zero] at m
    constructor
    · intro h
      have := m.1 (by rwa [f0_eq] at h)
      unfold eps; norm_num at this ⊢; exact this
    · intro h
      rcases gap with g | g
      · rw [f0_eq]; exact m.2 (by rw [g]; norm_num)
      · unfold eps at h; norm_num at g h; linarith
  have sgn : (eval (inputs (triInputs r tr)) n0 >. f0) = decide (0 < N) := by
    rw [Bool.eq_iff_iff, decide_eq_true_iff]; exact is_pos iN
  change hit.1 = (Ray.intersectTriangle bk (realRay r) (realTri tr)).1 ∧ (hit.2 = none ↔ (Ray.intersectTriangle bk (realRay r) (realTri tr)).2 = none) ∧
    ∀ t, (Ray.intersectTriangle bk (realRay r) (realTri tr)).2 = some t → _
  rw [re]
  simp only [hit, triHitBy, sgn]
  by_cases cz : |N| < eps
  · rw [if_pos cz, if_pos (ap.2 cz)]; simp
  rw [if_neg cz, if_neg (fun h => cz (ap.1 h))]
  have big : 1 / 2 ^ 22 ≤ |N| := gap.resolve_left (by rintro h; apply cz; rw [h, abs_zero]; exact eps_pos)
  have N1 : sgnOf (decide (0 < N)) * N = |N| := by
    by_cases c : 0 < N
    · simp [sgnOf, c, abs_of_pos c]
    · simp [sgnOf, c, abs_of_nonpos (not_lt.1 c)]
  obtain ⟨-, fn, f1', f2, fs, ft⟩ := tri_sources bk (decide (0 < N)) hg
  obtain ⟨-, vn, v1, v2, vs, vt⟩ := tri_real bk r tr (decide (0 < N))
  change real (fun i => (inputs (triInputs r tr) i).val) _ = _ at vn v1 v2 vs vt
  have hcd := hc (decide (0 < N))
  have jn := use _ _ _ hcd.n fn
  have j1 := use _ _ _ hcd.q1 f1'
  have j2 := use _ _ _ hcd.q2 f2
  have js := use _ _ _ hcd.sum fs
  have jt := use _ _ _ hcd.t ft
  have At := bound ft vt
  change Is (eval (inputs (triInputs r tr)) _) (real (fun i => (inputs (triInputs r tr) i).val) _) at jn j1 j2 js jt
  rw [vn] at jn
  rw [v1] at j1
  rw [v2] at j2
  rw [vs] at js
  rw [vt] at jt
  have b1 := is_neg j1
  have b2 := is_neg j2
  have b3 := is_lt jn js
  have b4 := is_neg jt
  have qn := quotient_near jt (N1 ▸ jn) At big N24 recip
  dsimp only at qn
  rw [← N1] at qn
  have side : (if decide (0 < N) = true then IntersectionKind.leave else IntersectionKind.enter) = if 0 < N then .leave else .enter := by simp
  rw [side]
  generalize Vec3.dot bk (realRay r).direction (Vec3.cross bk q e2) = X at *
  generalize Vec3.dot bk (realRay r).direction (Vec3.cross bk e1 q) = Y at *
  generalize Vec3.dot bk q (Vec3.cross bk e1 e2) = Q at *
  generalize sgnOf (decide (0 < N)) = σ at *
  simp only [b1, b2, b3, b4]
  split
  · simp
  split
  · simp
  split
  · simp
  split
  · simp
  refine ⟨rfl, by simp, ?_⟩
  intro t ht
  obtain rfl := Option.some.inj ht
  exact ⟨_, rfl, qn.1, qn.2⟩

/-- the determinant of the test: the direction along the normal of the triangle -/
noncomputable def Spec.alongNormal (r : Ray ℝ) (t : Triangle ℝ) : ℝ :=
  (vtx r.direction).x * (triCross t).getX + (vtx r.direction).y * (triCross t).getY + (vtx r.direction).z * (triCross t).getZ

/-- On the grid it is zero or far above the threshold of the test. -/
theorem FExpr.tri_gap {r : Ray F32} {tr : Triangle F32} {k j : Nat} {B D : ℝ} (hg : TriGrid r tr k j B D) :
    alongNormal (realRay r) (realTri tr) = 0 ∨ 1 / 2 ^ 22 ≤ |alongNormal (realRay r) (realTri tr)| := by
  obtain ⟨⟨sN, uN⟩, -⟩ := tri_sources .gcc true hg
  have vN : real (fun i => (inputs (triInputs r tr) i).val) (ddnSource .gcc) = alongNormal (realRay r) (realTri tr) := by
    refine (tri_real .gcc r tr true).1.trans ?_
    simp only [alongNormal, triCross, ccw, vtx, Vec3.getX, Vec3.getY, Vec3.getZ, Simd4f.get, Vec3.dot, Simd4f.dot3Scalar_real, Vec3.cross, Simd4f.cross3_real, Vec3.subtract,
      Simd4f.sub, Simd4f.map2, RealScalar.sub_eq]
  obtain ⟨-, ⟨w, hw⟩, -⟩ := grid_exact (gridTwo hg.place hg.dir) sN.1 sN.2.1 sN.2.2
  have hw : alongNormal (realRay r) (realTri tr) = w / 2 ^ unit (two (triPlace r tr).length k j) (2 * k + j) (ddnSource .gcc) := by rw [← vN]; exact hw
  rcases eq_or_ne w 0 with h | h
  · left; rw [hw, h]; simp
  · right
    rw [hw, abs_div, abs_of_pos (by positivity : (0 : ℝ) < 2 ^ _)]
    have : (1 : ℝ) ≤ |(w : ℝ)| := by exact_mod_cast Int.one_le_abs h
    exact (one_div_le_one_div_of_le (by positivity) (pow_le_pow_right₀ (by norm_num) uN)).trans (div_le_div_of_nonneg_right this (by positivity))

/-- Whatever the compiler emits: a ray not parallel to the plane of the triangle is reported to hit it exactly when it meets it, edges and vertices
included, from the side that the verdict names, at nearly the right distance; a parallel one never is. -/
theorem C149_meets {bk : Backend} {r : Ray F32} {tr : Triangle F32} {k j : Nat} {B D : ℝ} (hg : TriGrid r tr k j B D)
    {n0 : FExpr} {code : Bool → TriCode} {recip : Bool} (h0 : Emits (ddnSource bk) n0) (hc : ∀ pos, TriEmits (triSource bk pos) (code pos)) :
    let hit := triHitBy n0 code recip r tr
    let n := alongNormal (realRay r) (realTri tr)
    (n = 0 → hit = (.none, none)) ∧
    (n ≠ 0 → (hit.1 ≠ .none ↔ ∃ t, 0 ≤ t ∧ rayAt (realRay r) t ∈ triPts (realTri tr))) ∧
    (hit.1 = .enter → n < 0) ∧ (hit.1 = .leave → 0 < n) ∧
    ∀ t', hit.2 = some t' → ∃ t, 0 ≤ t ∧ rayAt (realRay r) t ∈ triPts (realTri tr) ∧ (∀ u, rayAt (realRay r) u ∈ triPts (realTri tr) → u = t) ∧
      t'.isFin = true ∧ |t'.val - t| ≤ 1 / 2 ^ 22 * |t| + 1 / 2 ^ 148 := by
  intro hit n
  obtain ⟨k1, k2, k3⟩ := C149_exact (recip := recip) hg h0 hc
  obtain ⟨c1, c2, c3, c4⟩ := C51_triangle bk (realRay r) (realTri tr)
  change (eps ≤ |n| → _) at c1
  change (|n| < eps → _) at c4
  have gap : n = 0 ∨ 1 / 2 ^ 22 ≤ |n| := tri_gap hg
  change hit.1 = _ at k1
  change (hit.2 = none ↔ _) at k2
  have kind : ∀ K, hit.1 = K → K ≠ .none → K = .enter ∧ n < 0 ∨ K = .leave ∧ 0 < n := by
    intro K hK hK'
    rw [k1] at hK
    rcases e : Ray.intersectTriangle bk (realRay r) (realTri tr) with ⟨K', _ | t⟩
    · have := c3 _ e
      rw [e] at hK
      exact absurd (hK.symm.trans this) hK'
    · rw [e] at hK
      change K' = K at hK
      exact hK ▸ (c2 _ _ e).2.2.2
  refine ⟨?_, ?_, ?_, ?_, ?_⟩
  · intro z
    have e := c4 (by rw [z, abs_zero]; exact eps_pos)
    rw [e] at k1 k2
    exact Prod.ext k1 (k2.2 rfl)
  · intro z
    rw [← c1 (le_trans (by unfold eps; norm_num) (gap.resolve_left z)), k1, Ray.intersectsTriangle, decide_eq_true_iff]
  · intro h
    rcases kind _ h (by decide) with h | h
    · exact h.2
    · exact absurd h.1 (by decide)
  · intro h
    rcases kind _ h (by decide) with h | h
    · exact absurd h.1 (by decide)
    · exact h.2
  · intro t' ht
    rcases e : Ray.intersectTriangle bk (realRay r) (realTri tr) with ⟨K', _ | t⟩
    · have := k2.2 (by rw [e])
      rw [ht] at this; simp at this
    · obtain ⟨a, b, c, -⟩ := c2 _ _ e
      obtain ⟨t'', h1, h2, h3⟩ := k3 t (by rw [e])
      change hit.2 = _ at h1
      obtain rfl := Option.some.inj (ht.symm.trans h1)
      exact ⟨t, a, b, c, h2, h3⟩

/-! ## The hypotheses are met -/

/-- a ray through a point of the longest edge of a right triangle, seven away from the plane -/
theorem FExpr.tri_scene : ∃ (r : Ray F32) (tr : Triangle F32), TriGrid r tr 0 0 7 1 ∧ alongNormal (realRay r) (realTri tr) = 16 ∧
    rayAt (realRay r) 7 ∈ triPts (realTri tr) := by
  have v := fun z : ℤ => fun hz : z.natAbs ≤ 2 ^ 24 => (lit_dyadic z 0 hz (by decide)).2
  simp only [pow_zero] at v
  refine ⟨⟨⟨⟨Fp.lit 1 1, Fp.lit 3 1, Fp.lit (-7) 1, Fp.lit 0 1⟩⟩, ⟨⟨Fp.lit 0 1, Fp.lit 0 1, Fp.lit 1 1, Fp.lit 0 1⟩⟩⟩,
    ⟨⟨⟨Fp.lit 0 1, Fp.lit 0 1, Fp.lit 0 1, Fp.lit 0 1⟩⟩, ⟨⟨Fp.lit 4 1, Fp.lit 0 1, Fp.lit 0 1, Fp.lit 0 1⟩⟩, ⟨⟨Fp.lit 0 1, Fp.lit 4 1, Fp.lit 0 1, Fp.lit 0 1⟩⟩⟩,
    ⟨?_, ?_, ?_, ?_, ?_⟩, ?_, ?_⟩
  · have g := onGrid_list [0, 0, 0, 4, 0, 0, 0, 4, 0, 1, 3, -7] 0 (by decide) 7 (by norm_num) (by norm_num) (by
      intro z hz; simp only [List.mem_cons, List.not_mem_nil, or_false] at hz
      rcases hz with rfl | rfl | rfl | rfl | rfl | rfl | rfl | rfl | rfl | rfl | rfl | rfl <;> norm_num)
    norm_num only [List.map] at g
    exact g
  · have g := onGrid_list [0, 0, 1] 0 (by decide) 1 (by norm_num) (by norm_num) (by
      intro z hz; simp only [List.mem_cons, List.not_mem_nil, or_false] at hz
      rcases hz with rfl | rfl | rfl <;> norm_num)
    norm_num only [List.map] at g
    exact g
  · norm_num
  · norm_num
  · decide
  · simp only [alongNormal, triCross, ccw, vtx, Vec3.getX, Vec3.getY, Vec3.getZ, Simd4f.get, realRay, realTri, realV,
      v 1 (by decide), v 0 (by decide), v 4 (by decide)]
    norm_num
  · refine ⟨0, 1 / 4, 3 / 4, by norm_num, by norm_num, by norm_num, by norm_num, ?_, ?_, ?_⟩ <;>
      simp only [rayAt, vtx, realRay, realTri, realV, v 1 (by decide), v 0 (by decide), v 4 (by decide), v 3 (by decide), v (-7) (by decide)] <;> norm_num

/-- every build reports the hit on the edge, from behind -/
example {bk : Backend} {n0 : FExpr} {code : Bool → TriCode} {recip : Bool} (h0 : Emits (ddnSource bk) n0) (hc : ∀ pos, TriEmits (triSource bk pos) (code pos)) :
    ∃ (r : Ray F32) (tr : Triangle F32), (triHitBy n0 code recip r tr).1 = .leave := by
  obtain ⟨r, tr, h, e, m⟩ := tri_scene
  refine ⟨r, tr, ?_⟩
  obtain ⟨-, h2, h3, -, -⟩ := C149_meets (recip := recip) h h0 hc
  rw [e] at h2 h3
  have := (h2 (by norm_num)).2 ⟨7, by norm_num, m⟩
  cases g : (triHitBy n0 code recip r tr).1
  · exact absurd g this
  · have := h3 g; norm_num at this
  · rfl

end Graphene

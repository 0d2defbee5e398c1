/-
  C148: rays against spheres under every permitted compilation, on a grid.
-/
import Verif.Props.Unsafe6
import Verif.Proofs.Sqrt

namespace Graphene
open Fp
open FExpr
open Spec

variable [Libm binary32]

/-- the vector from the origin of the ray to the centre -/
def FExpr.toCentre : Vec3 FExpr := Vec3.subtract (arg3 3) (arg3 0)

/-- the source of `tca` (ray.c:401) -/
def FExpr.tcaSource (bk : Backend) : FExpr := Vec3.dot bk toCentre (arg3 7)
/-- the source of `d2` (ray.c:404) -/
def FExpr.d2Source (bk : Backend) : FExpr := Scalar.sub (Vec3.dot bk toCentre toCentre) (Scalar.mul (tcaSource bk) (tcaSource bk))
/-- the source of `radius2` (ray.c:406) -/
def FExpr.r2Source : FExpr := Scalar.mul (var 6) (var 6)
/-- the source of the argument of the square root (ray.c:411) -/
def FExpr.rootSource (bk : Backend) : FExpr := Scalar.sub r2Source (d2Source bk)

/-- the inputs: origin, centre, radius, direction -/
def FExpr.hitInputs (r : Ray F32) (s : Sphere F32) : List F32 := (comps3 r.origin ++ comps3 s.center ++ [s.radius]) ++ comps3 r.direction

/-- `graphene_ray_intersect_sphere` (ray.c:385-442) with emitted code for `tca` (in `t0` and `t1`), `d2`, `radius2` and the argument of
the root -/
def FExpr.hitBy (tcode dcode rcode hcode : FExpr) (r : Ray F32) (s : Sphere F32) : IntersectionKind × F32 :=
  let ev := eval (inputs (hitInputs r s))
  if ev dcode >. ev rcode then (.none, f0)
  else
    let thc := Scalar.sqrt (ev hcode)
    let t0 := ev tcode -. thc
    let t1 := ev tcode +. thc
    if t0 <. f0 && t1 <. f0 then (.none, f0)
    else if t0 <. f0 then (.leave, t1)
    else (.enter, t0)

/-- With nothing rewritten, it is the function. -/
theorem C148_source (bk : Backend) (r : Ray F32) (s : Sphere F32) :
    hitBy (tcaSource bk) (d2Source bk) r2Source (rootSource bk) r s = r.intersectSphere bk s := by
  match bk with
  | .sse true _ | .sse false _ | .gcc | .neon | .scalar _ => rfl

/-- the exact `(c - o) · d` -/
noncomputable def Spec.rayT (r : Ray F32) (s : Sphere F32) : ℝ :=
  (s.center.value.x.val - r.origin.value.x.val) * r.direction.value.x.val + (s.center.value.y.val - r.origin.value.y.val) * r.direction.value.y.val +
    (s.center.value.z.val - r.origin.value.z.val) * r.direction.value.z.val

/-- the exact `|c - o|²` -/
noncomputable def Spec.rayV (r : Ray F32) (s : Sphere F32) : ℝ :=
  (s.center.value.x.val - r.origin.value.x.val) ^ 2 + (s.center.value.y.val - r.origin.value.y.val) ^ 2 + (s.center.value.z.val - r.origin.value.z.val) ^ 2

omit [Libm binary32] in
/-- The root of a representable square is exact. -/
theorem FExpr.sqrt_square {a c : F32} (ha : a.isFin = true) (hc : c.isFin = true) (h0 : 0 ≤ c.val) (h : a.val = c.val ^ 2) : (Fp.sqrt a).val = c.val := by
  rcases h0.eq_or_lt with z | p
  · have h' : a.val = 0 := by rw [h, ← z]; ring
    have q := (sqrt_err hs32 ht32 ha h'.ge).2
    rw [h', Real.sqrt_zero, MulZeroClass.mul_zero, _root_.sub_zero] at q
    rw [← z]; exact abs_eq_zero.1 (le_antisymm q (abs_nonneg _))
  · obtain ⟨N, -, -, eN, rN⟩ := sqrt_rnd ha (by rw [h]; positivity)
    obtain ⟨m, -, em⟩ := units_of hc h0
    have hu := unit_pos binary32
    have e : N = m * m := by
      rw [h, em] at eN
      have : (N : ℝ) = m * m := by field_simp at eN; linarith
      exact_mod_cast this
    have es : N.sqrt = m := by rw [e]; exact Nat.sqrt_eq m
    rw [es, if_pos e.symm] at rN
    refine (Rnd.is rN (c := c) ⟨hc, ?_⟩).val.trans ?_
    · rw [em]; push_cast; ring
    · rw [em]; push_cast; ring

local macro "hit_syntax" : tactic => `(tactic|
  simp only [tcaSource, d2Source, r2Source, rootSource, toCentre, Vec3.dot, Vec3.subtract,
    Simd4f.dot3Scalar, Simd4f.add, Simd4f.sub, Simd4f.mul, Simd4f.map2, Simd4f.splat, Simd4f.get, Simd4f.init,
    arg3, FExpr.s_add, FExpr.s_sub, FExpr.s_mul, FExpr.s_f0, FExpr.Plain, FExpr.size, FExpr.unit, FExpr.real])

/-- The hypotheses: coordinates and radius on one grid, the direction on another, fine enough for the terms to fit. -/
structure Spec.HitGrid (r : Ray F32) (s : Sphere F32) (k j : Nat) (B D : ℝ) : Prop where
  place : OnGrid (comps3 r.origin ++ comps3 s.center ++ [s.radius]) k B
  dir : OnGrid (comps3 r.direction) j D
  fits : (13 * B ^ 2 + (6 * (B * D) + 1) ^ 2 + 1) * 2 ^ (2 * (k + j)) ≤ 2 ^ 22
  bits : 2 * (k + j) ≤ 149

set_option maxHeartbeats 2000000 in
/-- The four values, by any emitted code. -/
theorem C148_values {bk : Backend} {r : Ray F32} {s : Sphere F32} {k j : Nat} {B D : ℝ} (h : HitGrid r s k j B D) {tcode dcode rcode hcode : FExpr}
    (ht : Emits (tcaSource bk) tcode) (hd : Emits (d2Source bk) dcode) (hr : Emits r2Source rcode) (hh : Emits (rootSource bk) hcode) :
    let ev := eval (inputs (hitInputs r s))
    Is (ev tcode) (rayT r s) ∧ Is (ev dcode) (rayV r s - rayT r s ^ 2) ∧ Is (ev rcode) (s.radius.val ^ 2) ∧
    Is (ev hcode) (s.radius.val ^ 2 - (rayV r s - rayT r s ^ 2)) := by
  intro ev
  obtain ⟨hp, hdir, hs, hu⟩ := h
  have e := fun {source code : FExpr} => C142_exact (z := k + j) (source := source) (code := code) hp hdir
  have i : ((2 : ℝ) ^ (k + j))⁻¹ ≤ 1 := inv_le_one_of_one_le₀ (one_le_pow₀ (by norm_num))
  have i0 : (0 : ℝ) ≤ ((2 : ℝ) ^ (k + j))⁻¹ := by positivity
  have P1 : (1 : ℝ) ≤ 2 ^ (2 * (k + j)) := one_le_pow₀ (by norm_num)
  have Pk : ∀ n, n ≤ 2 * (k + j) → (2 : ℝ) ^ n ≤ 2 ^ (2 * (k + j)) := fun n hn => pow_le_pow_right₀ (by norm_num) hn
  have B0 : 0 ≤ B := (abs_nonneg _).trans (hp.le s.radius (by simp))
  have D0 : 0 ≤ D := (abs_nonneg _).trans (hdir.le r.direction.value.x (by simp [comps3]))
  have BD : 0 ≤ B * D := mul_nonneg B0 D0
  have key : ∀ (S : ℝ) (n : Nat), 0 ≤ S → S ≤ 13 * B ^ 2 + (6 * (B * D) + 1) ^ 2 + 1 → n ≤ 2 * (k + j) → S * 2 ^ n ≤ 2 ^ 24 := by
    intro S n h0 h1 h2
    refine (mul_le_mul h1 (Pk n h2) (by positivity) (h0.trans h1)).trans (hs.trans (by norm_num))
  have x1 : 6 * (B * D) + 1 ≤ (6 * (B * D) + 1) ^ 2 := by nlinarith
  have x2 : ((B + B) * D + (B + B) * D + ((B + B) * D + ((2 : ℝ) ^ (k + j))⁻¹)) * ((B + B) * D + (B + B) * D + ((B + B) * D + ((2 : ℝ) ^ (k + j))⁻¹)) ≤
      (6 * (B * D) + 1) ^ 2 := by
    rw [_root_.sq]
    refine mul_self_le_mul_self (by positivity) ?_
    linarith
  have x3 : (6 * (B * D)) * (6 * (B * D)) ≤ (6 * (B * D) + 1) ^ 2 := by nlinarith
  have B2 : 0 ≤ B ^ 2 := by positivity
  unfold rayT rayV
  simp only [comps3, List.length_append, List.length_cons, List.length_nil] at e
  norm_num only at e
  match bk with
  | .sse true _ | .sse false _ | .gcc | .neon | .scalar _ =>
    refine ⟨(e ht ?_ ?_ ?_).congr ?_, (e hd ?_ ?_ ?_).congr ?_, (e hr ?_ ?_ ?_).congr ?_, (e hh ?_ ?_ ?_).congr ?_⟩
    all_goals hit_syntax
    all_goals simp [two, gridLit, inputs]
    all_goals first | omega | (constructor <;> omega) | ring1 | skip
    all_goals
      rw [show (16777216 : ℝ) = 2 ^ 24 by norm_num]
      refine key _ _ ?_ ?_ ?_
      · positivity
      · linarith
      · omega

/-- a rounded root against a number whose square is not too close -/
theorem FExpr.root_compare {θ σ a M g : ℝ} (h : |θ - σ| ≤ 1 / 2 ^ 24 * σ) (hσ : 0 ≤ σ) (ha : 0 ≤ a) (hM : σ ^ 2 ≤ M) (hM' : a ^ 2 ≤ M)
    (hg : M / 2 ^ 23 < g) : (σ ^ 2 + g ≤ a ^ 2 → θ < a) ∧ (a ^ 2 + g ≤ σ ^ 2 → a < θ) := by
  have k := _root_.abs_le.1 h
  have m : σ * a ≤ M := by nlinarith [sq_nonneg (σ - a)]
  constructor
  · intro q
    by_contra n
    rw [not_lt] at n
    have e : (a - σ) * (a + σ) ≤ 1 / 2 ^ 24 * σ * (a + σ) := mul_le_mul_of_nonneg_right (by linarith [k.2]) (by linarith)
    norm_num at e hg
    nlinarith
  · intro q
    by_contra n
    rw [not_lt] at n
    have e : (σ - a) * (a + σ) ≤ 1 / 2 ^ 24 * σ * (a + σ) := mul_le_mul_of_nonneg_right (by linarith [k.1]) (by linarith)
    norm_num at e hg
    nlinarith

/-- the sign of a rounded sum is the sign of the sum -/
theorem FExpr.sum_neg {a b : F32} (ha : a.isFin = true) (hb : b.isFin = true) (h : (Fp.add a b).isFin = true) :
    (Fp.add a b <. f0) = true ↔ a.val + b.val < 0 := by
  have e := add_err ha hb h
  rw [u32] at e
  have k := _root_.abs_le.1 e
  have i : (Fp.add a b <. f0) = true ↔ (Fp.add a b).val < 0 := by
    rw [f0_eq]; exact (lt_iff_val (isNaN_of_isFin h) rfl).trans (by rw [val_zero])
  rw [i]
  constructor
  · intro q
    by_contra n
    rw [not_lt] at n
    rw [abs_of_nonneg n] at k
    norm_num at k; linarith [k.1]
  · intro q
    rw [abs_of_neg q] at k
    norm_num at k; linarith [k.2]

omit [Libm binary32] in
theorem FExpr.hit_bounds {r : Ray F32} {s : Sphere F32} {k j : Nat} {B D : ℝ} (hg : HitGrid r s k j B D) :
    ∃ M : ℝ, rayT r s ^ 2 ≤ M ∧ s.radius.val ^ 2 - (rayV r s - rayT r s ^ 2) ≤ M ∧ M / 2 ^ 23 < 1 / 2 ^ (2 * k) ∧
      (rayV r s ≠ s.radius.val ^ 2 → 1 / 2 ^ (2 * k) ≤ |rayV r s - s.radius.val ^ 2|) ∧ |rayT r s| ≤ 2 ^ 11 ∧ M ≤ 2 ^ 22 := by
  obtain ⟨hp, hdir, hs, hu⟩ := hg
  have P1 : (1 : ℝ) ≤ 2 ^ (2 * (k + j)) := one_le_pow₀ (by norm_num)
  have B0 : 0 ≤ B := (abs_nonneg _).trans (hp.le s.radius (by simp))
  have D0 : 0 ≤ D := (abs_nonneg _).trans (hdir.le r.direction.value.x (by simp [comps3]))
  have BD : 0 ≤ B * D := mul_nonneg B0 D0
  have ax : ∀ c o d : F32, c ∈ comps3 r.origin ++ comps3 s.center ++ [s.radius] → o ∈ comps3 r.origin ++ comps3 s.center ++ [s.radius] →
      d ∈ comps3 r.direction → |(c.val - o.val) * d.val| ≤ 2 * (B * D) := by
    intro c o d hc ho hd
    rw [_root_.abs_mul, show 2 * (B * D) = (B + B) * D by ring]
    exact mul_le_mul ((abs_sub _ _).trans (add_le_add (hp.le c hc) (hp.le o ho))) (hdir.le d hd) (abs_nonneg _) (by linarith)
  have a1 := _root_.abs_le.1 (ax s.center.value.x r.origin.value.x r.direction.value.x (by simp [comps3]) (by simp [comps3]) (by simp [comps3]))
  have a2 := _root_.abs_le.1 (ax s.center.value.y r.origin.value.y r.direction.value.y (by simp [comps3]) (by simp [comps3]) (by simp [comps3]))
  have a3 := _root_.abs_le.1 (ax s.center.value.z r.origin.value.z r.direction.value.z (by simp [comps3]) (by simp [comps3]) (by simp [comps3]))
  have T1 : |rayT r s| ≤ 6 * (B * D) := by
    unfold rayT; rw [_root_.abs_le]; constructor <;> linarith [a1.1, a1.2, a2.1, a2.2, a3.1, a3.2]
  have T2 : rayT r s ^ 2 ≤ (6 * (B * D)) ^ 2 := by rw [← sq_abs]; exact pow_le_pow_left₀ (abs_nonneg _) T1 2
  have R2 : s.radius.val ^ 2 ≤ B ^ 2 := by rw [← sq_abs]; exact pow_le_pow_left₀ (abs_nonneg _) (hp.le s.radius (by simp)) 2
  have V0 : 0 ≤ rayV r s := by unfold rayV; positivity
  have B2 : 0 ≤ B ^ 2 := by positivity
  have hS : 13 * B ^ 2 + (6 * (B * D) + 1) ^ 2 + 1 ≤ 2 ^ 22 / 2 ^ (2 * (k + j)) := by rw [le_div_iff₀ (by positivity)]; exact hs
  have hM22 : (2 : ℝ) ^ 22 / 2 ^ (2 * (k + j)) ≤ 2 ^ 22 := div_le_self (by positivity) P1
  refine ⟨2 ^ 22 / 2 ^ (2 * (k + j)), ?_, ?_, ?_, ?_, ?_, hM22⟩
  · nlinarith
  · nlinarith
  · have e : (2 : ℝ) ^ 22 / 2 ^ (2 * (k + j)) / 2 ^ 23 = 1 / 2 ^ (2 * k) * (1 / 2 * (1 / 2 ^ (2 * j))) := by
      rw [Nat.mul_add, pow_add]; field_simp
    rw [e]
    have q : (1 : ℝ) / 2 ^ (2 * j) ≤ 1 := by rw [div_le_one (by positivity)]; exact one_le_pow₀ (by norm_num)
    have q0 : (0 : ℝ) < 1 / 2 ^ (2 * k) := by positivity
    nlinarith
  · obtain ⟨ox, eox⟩ := hp.int r.origin.value.x (by simp [comps3])
    obtain ⟨oy, eoy⟩ := hp.int r.origin.value.y (by simp [comps3])
    obtain ⟨oz, eoz⟩ := hp.int r.origin.value.z (by simp [comps3])
    obtain ⟨cx, ecx⟩ := hp.int s.center.value.x (by simp [comps3])
    obtain ⟨cy, ecy⟩ := hp.int s.center.value.y (by simp [comps3])
    obtain ⟨cz, ecz⟩ := hp.int s.center.value.z (by simp [comps3])
    obtain ⟨ρ, eρ⟩ := hp.int s.radius (by simp)
    have e : rayV r s - s.radius.val ^ 2 = (((cx - ox) ^ 2 + (cy - oy) ^ 2 + (cz - oz) ^ 2 - ρ ^ 2 : ℤ) : ℝ) / 2 ^ (2 * k) := by
      unfold rayV
      rw [eox, eoy, eoz, ecx, ecy, ecz, eρ, Nat.mul_comm, pow_mul]
      push_cast
      field_simp
    intro ne
    rw [e, abs_div, abs_of_pos (by positivity : (0 : ℝ) < 2 ^ (2 * k)), div_le_div_iff_of_pos_right (by positivity)]
    refine int_abs_ge ?_
    intro z
    rw [z] at e
    refine ne ?_
    simp at e
    linarith
  · refine T1.trans ?_
    have : (6 * (B * D)) ^ 2 ≤ (2 ^ 11) ^ 2 := by norm_num at hM22 hS ⊢; nlinarith
    exact (pow_le_pow_iff_left₀ (by linarith) (by norm_num) two_ne_zero).1 this

/-- C148: on a grid, whatever the compiler emits, the kind is the exact one, and the parameter is within rounding of the exact root.
`T` is `(c - o) · d`, `V` is `|c - o|²`: the ray misses if its line does, or if the centre is behind and the origin outside. -/
theorem C148_exact {bk : Backend} {r : Ray F32} {s : Sphere F32} {k j : Nat} {B D : ℝ} (hg : HitGrid r s k j B D) {tcode dcode rcode hcode : FExpr}
    (ht : Emits (tcaSource bk) tcode) (hd : Emits (d2Source bk) dcode) (hr : Emits r2Source rcode) (hh : Emits (rootSource bk) hcode) :
    let T := rayT r s
    let V := rayV r s
    let R2 := s.radius.val ^ 2
    let hit := hitBy tcode dcode rcode hcode r s
    (hit.1 = .none ↔ R2 < V - T ^ 2 ∨ (T < 0 ∧ R2 < V)) ∧
    (hit.1 = .leave ↔ ¬ (R2 < V - T ^ 2 ∨ (T < 0 ∧ R2 < V)) ∧ (T < 0 ∨ V < R2)) ∧
    (hit.1 = .leave → hit.2.isFin = true ∧ |hit.2.val - (T + √(R2 - (V - T ^ 2)))| ≤ 1 / 2 ^ 22 * (|T| + √(R2 - (V - T ^ 2)))) ∧
    (hit.1 = .enter → hit.2.isFin = true ∧ |hit.2.val - (T - √(R2 - (V - T ^ 2)))| ≤ 1 / 2 ^ 22 * (|T| + √(R2 - (V - T ^ 2)))) := by
  intro T V R2 hit
  obtain ⟨vt, vd, vr, vh⟩ := C148_values hg ht hd hr hh
  have e : hit = (if (eval (inputs (hitInputs r s)) rcode <. eval (inputs (hitInputs r s)) dcode) = true then (.none, f0)
      else if (Fp.add (eval (inputs (hitInputs r s)) tcode) (Fp.neg (Fp.sqrt (eval (inputs (hitInputs r s)) hcode))) <. f0 &&
        Fp.add (eval (inputs (hitInputs r s)) tcode) (Fp.sqrt (eval (inputs (hitInputs r s)) hcode)) <. f0) = true then (.none, f0)
      else if (Fp.add (eval (inputs (hitInputs r s)) tcode) (Fp.neg (Fp.sqrt (eval (inputs (hitInputs r s)) hcode))) <. f0) = true then
        (.leave, Fp.add (eval (inputs (hitInputs r s)) tcode) (Fp.sqrt (eval (inputs (hitInputs r s)) hcode)))
      else (.enter, Fp.add (eval (inputs (hitInputs r s)) tcode) (Fp.neg (Fp.sqrt (eval (inputs (hitInputs r s)) hcode))))) := rfl
  clear_value hit
  subst e
  generalize eval (inputs (hitInputs r s)) tcode = tca at *
  generalize eval (inputs (hitInputs r s)) dcode = d2 at *
  generalize eval (inputs (hitInputs r s)) rcode = r2 at *
  generalize eval (inputs (hitInputs r s)) hcode = h at *
  have l : (r2 <. d2) = true ↔ R2 < V - T ^ 2 := by
    have := lt_iff_val (isNaN_of_isFin vr.fin) (isNaN_of_isFin vd.fin)
    rw [vr.val, vd.val] at this
    exact this
  by_cases miss : R2 < V - T ^ 2
  · rw [if_pos (l.2 miss)]
    exact ⟨⟨fun _ => Or.inl miss, fun _ => rfl⟩, ⟨fun h => by simp at h, fun h => absurd (Or.inl miss) h.1⟩, fun h => by simp at h, fun h => by simp at h⟩
  rw [if_neg (fun q => miss (l.1 q))]
  rw [not_lt] at miss
  set H := R2 - (V - T ^ 2) with hH
  have H0 : 0 ≤ H := by linarith
  have vt' : tca.val = T := vt.val
  have vh' : Is h H := vh
  obtain ⟨M, hT, hHM, hM, hgap⟩ : ∃ M : ℝ, T ^ 2 ≤ M ∧ H ≤ M ∧ M / 2 ^ 23 < 1 / 2 ^ (2 * k) ∧ (V ≠ R2 → 1 / 2 ^ (2 * k) ≤ |V - R2|) := by
    obtain ⟨M, a, b, c, d, -⟩ := hit_bounds hg
    exact ⟨M, a, b, c, d⟩
  obtain ⟨T11, H22⟩ : |T| ≤ 2 ^ 11 ∧ H ≤ 2 ^ 22 := by
    obtain ⟨M, a, b, c, d, e, f⟩ := hit_bounds hg
    exact ⟨e, b.trans f⟩
  clear_value T V R2
  have σ0 := Real.sqrt_nonneg H
  have σ2 := Real.sq_sqrt H0
  have σb : √H ≤ 2 ^ 11 := by rw [Real.sqrt_le_left (by norm_num)]; norm_num at H22 ⊢; exact H22
  have rt := rooted vh' H0
  have a0 := sum2_approx (Approx.exact vt.fin) (Approx.neg rt) (by rw [vt']; norm_num at *; linarith)
  have a1 := sum2_approx (Approx.exact vt.fin) rt (by rw [vt']; norm_num at *; linarith)
  have hn : (Fp.neg (Fp.sqrt h)).isFin = true := by simpa using rt.fin
  have l0 := sum_neg vt.fin hn a0.fin
  have l1 := sum_neg vt.fin rt.fin a1.fin
  rw [val_neg, vt', ← sub_eq_add_neg] at l0
  rw [vt'] at l1 a0 a1
  have θe : |(Fp.sqrt h).val - √H| ≤ 1 / 2 ^ 24 * √H := by have := rt.err; linarith
  have θ0 : 0 ≤ (Fp.sqrt h).val := by have := _root_.abs_le.1 θe; norm_num at this; linarith [this.1]
  have cmp := root_compare θe σ0 (abs_nonneg T) (by rw [σ2]; exact hHM) (by rw [sq_abs]; exact hT) hM
  rw [σ2, sq_abs] at cmp
  have same : V = R2 → (Fp.sqrt h).val = |T| := by
    intro ev
    have eh : h.val = T ^ 2 := by rw [vh'.val, hH, ev]; ring
    rcases le_total 0 T with p | p
    · rw [sqrt_square vh'.fin vt.fin (by rw [vt']; exact p) (by rw [vt']; exact eh), vt', abs_of_nonneg p]
    · rw [sqrt_square vh'.fin (c := Fp.neg tca) (by simpa using vt.fin) (by rw [val_neg, vt']; linarith) (by rw [val_neg, vt', eh]; ring), val_neg, vt',
        abs_of_nonpos p]
  have out : R2 < V → (Fp.sqrt h).val < |T| := fun q => cmp.1 (by
    have := hgap q.ne'
    rw [abs_of_pos (by linarith)] at this
    rw [hH]; linarith)
  have ins : V < R2 → |T| < (Fp.sqrt h).val := fun q => cmp.2 (by
    have := hgap q.ne
    rw [abs_of_neg (by linarith)] at this
    rw [hH]; linarith)
  have k0 : T - (Fp.sqrt h).val < 0 ↔ T < 0 ∨ V < R2 := by
    constructor
    · intro q
      by_contra n
      rw [not_or, not_lt, not_lt] at n
      rw [← abs_of_nonneg n.1] at q
      rcases n.2.lt_or_eq with w | w
      · linarith [out w]
      · linarith [same w.symm]
    · rintro (q | q)
      · linarith
      · linarith [ins q, le_abs_self T]
  have k1 : T + (Fp.sqrt h).val < 0 ↔ T < 0 ∧ R2 < V := by
    constructor
    · intro q
      have n : T < 0 := by linarith
      refine ⟨n, ?_⟩
      by_contra w
      rw [not_lt] at w
      rw [abs_of_neg n] at same ins
      rcases w.lt_or_eq with w | w
      · linarith [ins w]
      · linarith [same w]
    · rintro ⟨q, w⟩
      have := out w
      rw [abs_of_neg q] at this
      linarith
  have nm : ¬ R2 < V - T ^ 2 := not_lt.2 miss
  simp only [nm, _root_.false_or]
  by_cases b : T < 0 ∧ R2 < V
  · rw [if_pos (by rw [Bool.and_eq_true]; exact ⟨l0.2 (k0.2 (Or.inl b.1)), l1.2 (k1.2 b)⟩)]
    exact ⟨⟨fun _ => b, fun _ => rfl⟩, ⟨fun h => by simp at h, fun h => absurd b h.1⟩, fun h => by simp at h, fun h => by simp at h⟩
  rw [if_neg (by rw [Bool.and_eq_true]; exact fun q => b (k1.1 (l1.1 q.2)))]
  by_cases c : T < 0 ∨ V < R2
  · rw [if_pos (l0.2 (k0.2 c))]
    refine ⟨⟨fun h => by simp at h, fun h => absurd h b⟩, ⟨fun _ => ⟨b, c⟩, fun _ => rfl⟩, fun _ => ⟨a1.fin, a1.err.trans ?_⟩, fun h => by simp at h⟩
    norm_num at σ0 ⊢
    have := abs_nonneg T
    linarith [Real.sqrt_nonneg H]
  · rw [if_neg (fun q => c (k0.1 (l0.1 q)))]
    refine ⟨⟨fun h => by simp at h, fun h => absurd h b⟩, ⟨fun h => by simp at h, fun h => absurd h.2 c⟩, fun h => by simp at h, fun _ => ⟨a0.fin, ?_⟩⟩
    rw [sub_eq_add_neg]
    refine a0.err.trans ?_
    have := abs_nonneg T
    norm_num
    linarith [Real.sqrt_nonneg H]

/-- the squared distance of the point at parameter `u` of the ray from the centre -/
noncomputable def Spec.rayGapSq (r : Ray F32) (s : Sphere F32) (u : ℝ) : ℝ :=
  (r.origin.value.x.val + u * r.direction.value.x.val - s.center.value.x.val) ^ 2 +
  (r.origin.value.y.val + u * r.direction.value.y.val - s.center.value.y.val) ^ 2 +
  (r.origin.value.z.val + u * r.direction.value.z.val - s.center.value.z.val) ^ 2

/-- C148: for a unit direction, a hit is reported exactly when the ray meets the closed ball; LEAVE exactly when it does and the origin is
strictly inside, or on the surface with the centre behind. -/
theorem C148_meets {bk : Backend} {r : Ray F32} {s : Sphere F32} {k j : Nat} {B D : ℝ} (hg : HitGrid r s k j B D)
    (unit : r.direction.value.x.val ^ 2 + r.direction.value.y.val ^ 2 + r.direction.value.z.val ^ 2 = 1) {tcode dcode rcode hcode : FExpr}
    (ht : Emits (tcaSource bk) tcode) (hd : Emits (d2Source bk) dcode) (hr : Emits r2Source rcode) (hh : Emits (rootSource bk) hcode) :
    let kind := (hitBy tcode dcode rcode hcode r s).1
    (kind ≠ .none ↔ ∃ u, 0 ≤ u ∧ rayGapSq r s u ≤ s.radius.val ^ 2) ∧
    (kind = .leave ↔ rayGapSq r s 0 < s.radius.val ^ 2 ∨ (rayGapSq r s 0 = s.radius.val ^ 2 ∧ rayT r s < 0)) := by
  intro kind
  obtain ⟨h1, h2, -, -⟩ := C148_exact hg ht hd hr hh
  change (kind = _ ↔ _) at h1
  change (kind = _ ↔ _) at h2
  have f : ∀ u, rayGapSq r s u = rayV r s - 2 * u * rayT r s + u ^ 2 := by
    intro u
    have : u ^ 2 = u ^ 2 * (r.direction.value.x.val ^ 2 + r.direction.value.y.val ^ 2 + r.direction.value.z.val ^ 2) := by rw [unit, mul_one]
    rw [this]
    unfold rayGapSq rayV rayT
    ring
  simp only [f]
  rw [Ne, h1, h2]
  have V0 : 0 ≤ rayV r s := by unfold rayV; positivity
  generalize rayV r s = V at *
  generalize rayT r s = T at *
  generalize s.radius.val ^ 2 = R at *
  constructor
  · constructor
    · intro q
      rw [not_or, not_lt, not_and, not_lt] at q
      by_cases h : 0 ≤ T
      · exact ⟨T, h, by nlinarith [q.1]⟩
      · exact ⟨0, le_rfl, by nlinarith [q.2 (not_le.1 h)]⟩
    · rintro ⟨u, u0, hu⟩ (q | ⟨q, w⟩)
      · nlinarith [sq_nonneg (u - T)]
      · nlinarith [mul_nonneg u0 (by linarith : 0 ≤ -T)]
  · rw [not_or, not_lt, not_and, not_lt]
    constructor
    · rintro ⟨⟨a, b⟩, c | c⟩
      · rcases (b c).lt_or_eq with w | w
        · left; linarith
        · right; exact ⟨by linarith, c⟩
      · left; linarith
    · rintro (a | ⟨a, b⟩)
      · exact ⟨⟨by nlinarith, fun _ => by linarith⟩, Or.inr (by linarith)⟩
      · exact ⟨⟨by nlinarith, fun _ => by linarith⟩, Or.inl b⟩

/-! ## The hypotheses are met -/

/-- an integer scene with an axis-aligned unit direction -/
theorem FExpr.scene : ∃ (r : Ray F32) (s : Sphere F32), HitGrid r s 0 0 200 1 ∧
    r.direction.value.x.val ^ 2 + r.direction.value.y.val ^ 2 + r.direction.value.z.val ^ 2 = 1 ∧ rayT r s = 200 ∧ rayV r s = 40169 ∧ s.radius.val = 13 := by
  have v := fun z : ℤ => fun hz : z.natAbs ≤ 2 ^ 24 => (lit_dyadic z 0 hz (by decide)).2
  simp only [pow_zero] at v
  refine ⟨⟨⟨⟨Fp.lit (-100) 1, Fp.lit 7 1, Fp.lit (-3) 1, Fp.lit 0 1⟩⟩, ⟨⟨Fp.lit 1 1, Fp.lit 0 1, Fp.lit 0 1, Fp.lit 0 1⟩⟩⟩,
    ⟨⟨⟨Fp.lit 100 1, Fp.lit (-5) 1, Fp.lit 2 1, Fp.lit 0 1⟩⟩, Fp.lit 13 1⟩, ⟨?_, ?_, ?_, ?_⟩, ?_, ?_, ?_, ?_⟩
  · have g := onGrid_list [-100, 7, -3, 100, -5, 2, 13] 0 (by decide) 200 (by norm_num) (by norm_num) (by
      intro z hz; simp only [List.mem_cons, List.not_mem_nil, or_false] at hz
      rcases hz with rfl | rfl | rfl | rfl | rfl | rfl | rfl <;> norm_num)
    norm_num only [List.map] at g
    exact g
  · have g := onGrid_list [1, 0, 0] 0 (by decide) 1 (by norm_num) (by norm_num) (by
      intro z hz; simp only [List.mem_cons, List.not_mem_nil, or_false] at hz
      rcases hz with rfl | rfl | rfl <;> norm_num)
    norm_num only [List.map] at g
    exact g
  · norm_num
  · decide
  · simp only [v 1 (by decide), v 0 (by decide)]; norm_num
  · simp only [rayT, v 1 (by decide), v 0 (by decide), v 100 (by decide), v (-100) (by decide)]; norm_num
  · simp only [rayV, v 100 (by decide), v (-100) (by decide), v 7 (by decide), v (-3) (by decide), v (-5) (by decide), v 2 (by decide)]; norm_num
  · simp only [v 13 (by decide)]; norm_num

/-- its line passes the centre at distance 13, the radius: a tangent, which every build reports as ENTER -/
example {bk : Backend} {tcode dcode rcode hcode : FExpr} (ht : Emits (tcaSource bk) tcode) (hd : Emits (d2Source bk) dcode) (hr : Emits r2Source rcode)
    (hh : Emits (rootSource bk) hcode) : ∃ (r : Ray F32) (s : Sphere F32), (hitBy tcode dcode rcode hcode r s).1 = .enter := by
  obtain ⟨r, s, h, u, eT, eV, eR⟩ := scene
  refine ⟨r, s, ?_⟩
  obtain ⟨h1, h2, -, -⟩ := C148_exact h ht hd hr hh
  rw [eT, eV, eR] at h1 h2
  cases e : (hitBy tcode dcode rcode hcode r s).1
  · have := h1.1 e; norm_num at this
  · rfl
  · have := (h2.1 e).2; norm_num at this

end Graphene

/-
  C147: distances, containment in spheres and bounding spheres under every permitted compilation of the squared distance.
-/
import Verif.Props.Unsafe4
import Verif.Props.Float9

namespace Graphene
open Fp
open FExpr
open Spec

variable [Libm binary32]

/-- the source of `distance_sq` (sphere.c:106-114) between `center` and a point -/
def FExpr.gapSource (bk : Backend) : FExpr := Sphere.distanceSq bk (arg3 0) (argP3 3).toVec3

/-- the source of the square of the radius (sphere.c:281) -/
def FExpr.radiusSource : FExpr := Scalar.mul (var 0) (var 0)

/-- the squared distance by emitted code -/
def FExpr.gapBy (code : FExpr) (c : Vec3 F32) (p : Point3D F32) : F32 := eval (inputs (comps3 c ++ compsP3 p)) code

/-- `graphene_sphere_contains_point` (sphere.c:273-287) by emitted code for the two sides of the comparison -/
def FExpr.inBallBy (dcode rcode : FExpr) (s : Sphere F32) (p : Point3D F32) : Bool :=
  gapBy dcode s.center p <=. eval (inputs [s.radius]) rcode

/-- `graphene_sphere_distance` (sphere.c:301-310) -/
def FExpr.gapToBy (dcode : FExpr) (s : Sphere F32) (p : Point3D F32) : F32 :=
  Scalar.sqrt (gapBy dcode s.center p) -. s.radius

/-- `graphene_sphere_init_from_points` (sphere.c:133-166) with a centre; the code may depend on the point (the loop may be unrolled) -/
def FExpr.boundBy (code : Point3D F32 → FExpr) (points : List (Point3D F32)) (c : Point3D F32) : Sphere F32 :=
  ⟨c.toVec3, Scalar.sqrt (points.foldl (fun m p => fmaxf m (gapBy (code p) c.toVec3 p)) f0)⟩

/-- With nothing rewritten, these are the functions. -/
theorem C147_source (bk : Backend) (s : Sphere F32) (p c : Point3D F32) (ps : List (Point3D F32)) :
    inBallBy (gapSource bk) radiusSource s p = s.containsPoint bk p ∧ gapToBy (gapSource bk) s p = s.distance bk p ∧
    boundBy (fun _ => gapSource bk) ps c = Sphere.initFromPoints bk ps (some c) := by
  match bk with
  | .sse true _ | .sse false _ | .gcc | .neon | .scalar _ => exact ⟨rfl, rfl, rfl⟩

/-- the exact squared distance -/
noncomputable def Spec.gapSq (c : Vec3 F32) (p : Point3D F32) : ℝ :=
  (c.value.x.val - p.x.val) ^ 2 + (c.value.y.val - p.y.val) ^ 2 + (c.value.z.val - p.z.val) ^ 2

local macro "gap_syntax" : tactic => `(tactic|
  simp only [gapSource, radiusSource, Sphere.distanceSq, Vec3.dot, Vec3.subtract, Point3D.toVec3, Point3D.init, Vec3.init,
    Simd4f.dot3Scalar, Simd4f.add, Simd4f.sub, Simd4f.mul, Simd4f.map2, Simd4f.splat, Simd4f.get, Simd4f.init,
    arg3, argP3, FExpr.s_add, FExpr.s_sub, FExpr.s_mul, FExpr.s_f0, FExpr.Plain, FExpr.size, FExpr.unit, FExpr.real])

/-! ## On a grid: exact -/

theorem C147_squared_distance_exact {bk : Backend} {c : Vec3 F32} {p : Point3D F32} {k : Nat} {B : ℝ} (hl : OnGrid (comps3 c ++ compsP3 p) k B)
    (hs : 12 * B ^ 2 * 2 ^ (2 * k) + 1 ≤ 2 ^ 24) (hu : 2 * k ≤ 149) {code : FExpr} (h : Emits (gapSource bk) code) :
    Is (gapBy code c p) (gapSq c p) := by
  have e := exactOne (z := 2 * k) hl h
  have i : ((2 : ℝ) ^ (2 * k))⁻¹ * 2 ^ (2 * k) = 1 := inv_mul_cancel₀ (by positivity)
  unfold gapBy gapSq
  match bk with
  | .sse true _ | .sse false _ | .gcc | .neon | .scalar _ =>
    refine (e ?_ ?_ ?_).congr ?_
    · gap_syntax; simp
    · gap_syntax; simp [gridLit, ← two_mul]
      generalize (2 : ℝ) ^ (2 * k) = P at *; nlinarith
    · gap_syntax; simp; omega
    · gap_syntax; simp [inputs, comps3, compsP3]; try ring

theorem FExpr.radius_exact {r : F32} {j : Nat} {R : ℝ} (hr : OnGrid [r] j R) (hs : R ^ 2 * 2 ^ (2 * j) ≤ 2 ^ 24) (hu : 2 * j ≤ 149) {code : FExpr}
    (h : Emits radiusSource code) : Is (eval (inputs [r]) code) (r.val ^ 2) := by
  refine (exactOne (z := 0) hr h ?_ ?_ ?_).congr ?_
  · gap_syntax; simp
  · gap_syntax; rw [← two_mul, ← _root_.sq]; exact hs
  · gap_syntax; omega
  · gap_syntax; simp [inputs]; ring

/-- C147: on a grid, containment is decided exactly, whatever the compiler emits: the point is in the closed ball. -/
theorem C147_contains_exact {bk : Backend} {s : Sphere F32} {p : Point3D F32} {k j : Nat} {B R : ℝ} (hl : OnGrid (comps3 s.center ++ compsP3 p) k B)
    (hr : OnGrid [s.radius] j R) (hs : 12 * B ^ 2 * 2 ^ (2 * k) + 1 ≤ 2 ^ 24) (hu : 2 * k ≤ 149) (hs' : R ^ 2 * 2 ^ (2 * j) ≤ 2 ^ 24) (hu' : 2 * j ≤ 149)
    {dcode rcode : FExpr} (hd : Emits (gapSource bk) dcode) (hc : Emits radiusSource rcode) :
    inBallBy dcode rcode s p = true ↔ gapSq s.center p ≤ s.radius.val ^ 2 := by
  have a := C147_squared_distance_exact hl hs hu hd
  have b := radius_exact hr hs' hu' hc
  unfold inBallBy
  rw [← a.val, ← b.val]
  exact le_iff_val (isNaN_of_isFin a.fin) (isNaN_of_isFin b.fin)

theorem FExpr.rooted {d : F32} {S : ℝ} (h : Is d S) (hS : 0 ≤ S) : Approx (Fp.sqrt d) √S √S (√S + 1 / 2 ^ 24 * √S) := by
  obtain ⟨q1, q2⟩ := sqrt_err hs32 ht32 h.fin (by rw [h.val]; exact hS)
  rw [h.val, u32] at q2
  refine ⟨q1, by rw [abs_of_nonneg (Real.sqrt_nonneg _)], q2.trans ?_⟩
  norm_num

theorem FExpr.gap_nonneg (c : Vec3 F32) (p : Point3D F32) : 0 ≤ gapSq c p := by unfold gapSq; positivity

theorem FExpr.gap_range {c : Vec3 F32} {p : Point3D F32} {k : Nat} {B : ℝ} (hl : OnGrid (comps3 c ++ compsP3 p) k B)
    (hs : 12 * B ^ 2 * 2 ^ (2 * k) + 1 ≤ 2 ^ 24) : √(gapSq c p) ≤ 2 ^ 12 := by
  have P : (1 : ℝ) ≤ 2 ^ (2 * k) := one_le_pow₀ (by norm_num)
  have ax : ∀ x y : F32, x ∈ comps3 c ++ compsP3 p → y ∈ comps3 c ++ compsP3 p → (x.val - y.val) ^ 2 ≤ 4 * B ^ 2 := by
    intro x y hx hy
    have h1 := _root_.abs_le.1 (hl.le x hx)
    have h2 := _root_.abs_le.1 (hl.le y hy)
    nlinarith
  have x1 := ax c.value.x p.x (by simp [comps3]) (by simp [compsP3])
  have x2 := ax c.value.y p.y (by simp [comps3]) (by simp [compsP3])
  have x3 := ax c.value.z p.z (by simp [comps3]) (by simp [compsP3])
  have : 12 * B ^ 2 ≤ 12 * B ^ 2 * 2 ^ (2 * k) := le_mul_of_one_le_right (by positivity) P
  rw [Real.sqrt_le_left (by norm_num)]
  unfold gapSq
  norm_num at hs ⊢
  linarith

/-- C147: on a grid, the distance from the surface is within two roundings of the exact one. -/
theorem C147_distance_exact {bk : Backend} {s : Sphere F32} {p : Point3D F32} {k : Nat} {B : ℝ} (hl : OnGrid (comps3 s.center ++ compsP3 p) k B)
    (hr : s.radius.isFin = true) (hr' : |s.radius.val| ≤ 2 ^ 100) (hs : 12 * B ^ 2 * 2 ^ (2 * k) + 1 ≤ 2 ^ 24) (hu : 2 * k ≤ 149)
    {dcode : FExpr} (hd : Emits (gapSource bk) dcode) :
    (gapToBy dcode s p).isFin = true ∧
    |(gapToBy dcode s p).val - (√(gapSq s.center p) - s.radius.val)| ≤ 1 / 2 ^ 22 * (√(gapSq s.center p) + |s.radius.val|) := by
  have g := rooted (C147_squared_distance_exact hl hs hu hd) (gap_nonneg _ _)
  have σb := gap_range hl hs
  have σ0 := Real.sqrt_nonneg (gapSq s.center p)
  have r0 := abs_nonneg s.radius.val
  have a := sum2_approx g (Approx.neg (Approx.exact hr)) (by norm_num at *; linarith)
  have e : gapToBy dcode s p = Fp.add (Fp.sqrt (gapBy dcode s.center p)) (Fp.neg s.radius) := rfl
  rw [e, sub_eq_add_neg]
  refine ⟨a.fin, a.err.trans ?_⟩
  norm_num
  linarith

/-- C147: on a grid, the sphere built around points contains them all up to rounding of the radius, and reaches the farthest. -/
theorem C147_bounding_exact {bk : Backend} {points : List (Point3D F32)} {c : Point3D F32} {k : Nat} {B : ℝ}
    (hl : ∀ p ∈ points, OnGrid (comps3 c.toVec3 ++ compsP3 p) k B) (hs : 12 * B ^ 2 * 2 ^ (2 * k) + 1 ≤ 2 ^ 24) (hu : 2 * k ≤ 149)
    {code : Point3D F32 → FExpr} (hd : ∀ p, Emits (gapSource bk) (code p)) :
    let r := (boundBy code points c).radius
    r.isFin = true ∧ 0 ≤ r.val ∧ (∀ p ∈ points, √(gapSq c.toVec3 p) ≤ (1 + 1 / 2 ^ 23) * r.val) ∧
    (points ≠ [] → ∃ p ∈ points, |r.val - √(gapSq c.toVec3 p)| ≤ 1 / 2 ^ 24 * √(gapSq c.toVec3 p)) := by
  intro r
  have hap := fun p (hp : p ∈ points) => C147_squared_distance_exact (hl p hp) hs hu (hd p)
  obtain ⟨f1, f2, f3, f4⟩ := foldl_fmaxf (fun p : Point3D F32 => gapBy (code p) c.toVec3 p) points f0 zero_approx.fin (fun p hp => (hap p hp).fin)
  have hr : r = Fp.sqrt (points.foldl (fun m p => fmaxf m (gapBy (code p) c.toVec3 p)) f0) := rfl
  set m := points.foldl (fun m p => fmaxf m (gapBy (code p) c.toVec3 p)) f0
  rw [f0_eq, val_zero] at f2
  have a := rooted ⟨f1, rfl⟩ f2
  rw [← hr] at a
  have σ0 := Real.sqrt_nonneg m.val
  have b := a.err
  have b2 := _root_.abs_le.1 b
  refine ⟨a.fin, by norm_num at b2; linarith [b2.1], fun p hp => ?_, fun hne => ?_⟩
  · have h := f3 p hp
    rw [(hap p hp).val] at h
    have h2 := Real.sqrt_le_sqrt h
    norm_num at b2 ⊢
    linarith [b2.1]
  · rcases f4 with f4 | ⟨p, hp, f4⟩
    · obtain ⟨p, hp⟩ := List.exists_mem_of_ne_nil points hne
      have h := f3 p hp
      rw [(hap p hp).val, f4, f0_eq, val_zero] at h
      have z : gapSq c.toVec3 p = 0 := le_antisymm h (gap_nonneg _ _)
      rw [f4, f0_eq, val_zero] at b
      refine ⟨p, hp, ?_⟩
      rw [z]
      linarith
    · refine ⟨p, hp, ?_⟩
      rw [f4, (hap p hp).val] at b
      linarith

/-! ## Anywhere: up to rounding error of the terms -/

/-- the total magnitude of the terms of the squared distance, multiplied out -/
noncomputable def Spec.gapMag (c : Vec3 F32) (p : Point3D F32) : ℝ :=
  (|c.value.x.val| + |p.x.val|) ^ 2 + (|c.value.y.val| + |p.y.val|) ^ 2 + (|c.value.z.val| + |p.z.val|) ^ 2

/-- the same, with each magnitude counted as at least one -/
noncomputable def Spec.gapBig (c : Vec3 F32) (p : Point3D F32) : ℝ :=
  (big c.value.x + big p.x) ^ 2 + (big c.value.y + big p.y) ^ 2 + (big c.value.z + big p.z) ^ 2 + 1

local macro "gap_terms" : tactic => `(tactic|
  (try simp only [terms, terms1]
   gap_syntax
   simp [comps3, compsP3, oneLit, absLit, inputs, Spec.big, gapSq, gapMag, gapBig]))

/-- The squared distance, by any emitted code. -/
theorem C147_squared_distance {bk : Backend} {c : Vec3 F32} {p : Point3D F32} (hf : ∀ x ∈ comps3 c ++ compsP3 p, x.isFin = true)
    (hm : gapBig c p ≤ 2 ^ 125) {code : FExpr} (h : Emits (gapSource bk) code) (hn : ops code ≤ 1024) :
    (gapBy code c p).isFin = true ∧ |(gapBy code c p).val - gapSq c p| ≤ buildErr (ops code) (gapMag c p) (gapBig c p) := by
  unfold buildErr
  match bk with
  | .sse true _ | .sse false _ | .gcc | .neon | .scalar _ =>
    refine accurate_of hf h (by gap_syntax; simp) hn ?_ ?_ ?_ hm
    all_goals gap_terms
    all_goals nlinarith

/-- The square of the radius, by any emitted code. -/
theorem FExpr.radius_near {r : F32} (hr : r.isFin = true) (hm : big r ^ 2 ≤ 2 ^ 125) {code : FExpr} (h : Emits radiusSource code) (hn : ops code ≤ 1024) :
    (eval (inputs [r]) code).isFin = true ∧ |(eval (inputs [r]) code).val - r.val ^ 2| ≤ buildErr (ops code) (r.val ^ 2) (big r ^ 2) := by
  unfold buildErr
  refine accurate_of (by simpa using hr) h (by gap_syntax; simp) hn ?_ ?_ ?_ hm
  · gap_syntax; simp [inputs]; ring
  · simp only [terms]; gap_syntax; simp [inputs]; rw [_root_.sq]
  · simp only [terms1]; gap_syntax; simp [inputs, big]; rw [_root_.sq]

/-- C147: containment is decided by the exact distance except within rounding error, whatever the compiler emits. -/
theorem C147_contains {bk : Backend} {s : Sphere F32} {p : Point3D F32} (hf : ∀ x ∈ comps3 s.center ++ compsP3 p, x.isFin = true)
    (hr : s.radius.isFin = true) (hm : gapBig s.center p ≤ 2 ^ 125) (hm' : big s.radius ^ 2 ≤ 2 ^ 125) {dcode rcode : FExpr}
    (hd : Emits (gapSource bk) dcode) (hc : Emits radiusSource rcode) (hn : ops dcode ≤ 1024) (hn' : ops rcode ≤ 1024) :
    let e := buildErr (ops dcode) (gapMag s.center p) (gapBig s.center p) + buildErr (ops rcode) (s.radius.val ^ 2) (big s.radius ^ 2)
    (gapSq s.center p ≤ s.radius.val ^ 2 - e → inBallBy dcode rcode s p = true) ∧
    (inBallBy dcode rcode s p = true → gapSq s.center p ≤ s.radius.val ^ 2 + e) := by
  intro e
  obtain ⟨a1, a2⟩ := C147_squared_distance hf hm hd hn
  obtain ⟨b1, b2⟩ := radius_near hr hm' hc hn'
  have a3 := _root_.abs_le.1 a2
  have b3 := _root_.abs_le.1 b2
  have i : inBallBy dcode rcode s p = true ↔ (gapBy dcode s.center p).val ≤ (eval (inputs [s.radius]) rcode).val :=
    le_iff_val (isNaN_of_isFin a1) (isNaN_of_isFin b1)
  rw [i]
  constructor <;> intro h <;> simp only [e] at * <;> linarith [a3.1, a3.2, b3.1, b3.2]

/-! ## The error is real: multiplying out misjudges -/

/-- `dx² + dy² + dz²` with the first square multiplied out: `(c·c - p·c) - (p·c - p·p)`. -/
def FExpr.multipliedOut : FExpr :=
  add (add (sub (sub (mul (var 0) (var 0)) (mul (var 3) (var 0))) (sub (mul (var 3) (var 0)) (mul (var 3) (var 3))))
    (mul (sub (var 1) (var 4)) (sub (var 1) (var 4)))) (mul (sub (var 2) (var 5)) (sub (var 2) (var 5)))

omit [Libm binary32] in
theorem FExpr.emits_add {a b : FExpr} (c : FExpr) (h : Emits a b) : Emits (add a c) (add b c) := by
  induction h with
  | source => exact .source
  | step _ s ih => exact ih.step (s.add_left c)

omit [Libm binary32] in
/-- Multiplying out is permitted. -/
theorem C147_multiplies_out : Emits (gapSource .gcc) multipliedOut := by
  have k : Emits (mul (sub (var 0) (var 3)) (sub (var 0) (var 3)))
      (sub (sub (mul (var 0) (var 0)) (mul (var 3) (var 0))) (sub (mul (var 3) (var 0)) (mul (var 3) (var 3)))) := by
    have h0 : Emits (mul (sub (var 0) (var 3)) (sub (var 0) (var 3))) (mul (add (var 0) (neg (var 3))) (sub (var 0) (var 3))) :=
      .step .source (.mul_left _ (.root (.sub_add _ _)))
    have h1 := h0.step (.mul_right _ (.root (.sub_add _ _)))
    have h2 := h1.step (.root (.distrib _ _ _))
    have h3 := h2.step (.add_left _ (.root (.mul_comm _ _)))
    have h4 := h3.step (.add_left _ (.root (.distrib _ _ _)))
    have h5 := h4.step (.add_left _ (.add_right _ (.root (.mul_comm _ _))))
    have h6 := h5.step (.add_left _ (.add_right _ (.root (.mul_neg _ _))))
    have h7 := h6.step (.add_left _ (.root (.add_sub _ _)))
    have h8 := h7.step (.add_right _ (.root (.mul_comm _ _)))
    have h9 := h8.step (.add_right _ (.root (.mul_neg _ _)))
    have h10 := h9.step (.add_right _ (.neg_in (.root (.distrib _ _ _))))
    have h11 := h10.step (.add_right _ (.neg_in (.add_right _ (.root (.mul_comm _ _)))))
    have h12 := h11.step (.add_right _ (.neg_in (.add_right _ (.root (.mul_neg _ _)))))
    have h13 := h12.step (.add_right _ (.neg_in (.root (.add_sub _ _))))
    exact h13.step (.root (.add_sub _ _))
  exact emits_add _ (emits_add _ k)

/-- A point at distance 1 from the centre (4097, 0, 0): outside the sphere of radius 1/2 as written, inside when multiplied out. -/
theorem C147_misjudges : ∃ (s : Sphere F32) (p : Point3D F32), gapSq s.center p = 1 ∧ s.radius.val = 1 / 2 ∧
    s.containsPoint .gcc p = false ∧ inBallBy multipliedOut radiusSource s p = true := by
  refine ⟨⟨⟨⟨Fp.lit 4097 1, Fp.lit 0 1, Fp.lit 0 1, Fp.lit 0 1⟩⟩, Fp.lit 1 2⟩, ⟨Fp.lit 4096 1, Fp.lit 0 1, Fp.lit 0 1⟩, ?_, ?_, ?_⟩
  · have a := (lit_dyadic 4097 0 (by decide) (by decide)).2
    have b := (lit_dyadic 4096 0 (by decide) (by decide)).2
    have c := (lit_dyadic 0 0 (by decide) (by decide)).2
    rw [pow_zero] at a b c
    simp only [gapSq, a, b, c]
    norm_num
  · have a := (lit_dyadic 1 1 (by decide) (by decide)).2
    rw [pow_one] at a
    rw [a]; norm_num
  · kdecide

/-! ## The hypotheses are met -/

/-- quarters up to 100, and a radius of 8.5 -/
example {dcode rcode : FExpr} (hd : Emits (gapSource (.sse true true)) dcode) (hc : Emits radiusSource rcode) :
    let s : Sphere F32 := ⟨⟨⟨Fp.lit 400 4, Fp.lit (-13) 4, Fp.lit 7 4, Fp.lit 0 4⟩⟩, Fp.lit 17 2⟩
    let p : Point3D F32 := ⟨Fp.lit 390 4, Fp.lit 10 4, Fp.lit (-7) 4⟩
    inBallBy dcode rcode s p = true := by
  intro s p
  have g := onGrid_list [400, -13, 7, 390, 10, -7] 2 (by decide) 100 (by norm_num) (by norm_num) (by
      intro z hz; simp only [List.mem_cons, List.not_mem_nil, or_false] at hz
      rcases hz with rfl | rfl | rfl | rfl | rfl | rfl <;> norm_num)
  have r := onGrid_list [17] 1 (by decide) 10 (by norm_num) (by norm_num) (by
      intro z hz; simp only [List.mem_cons, List.not_mem_nil, or_false] at hz
      rcases hz with rfl; norm_num)
  norm_num only [List.map] at g r
  refine (C147_contains_exact (s := s) (p := p) (k := 2) (j := 1) g r (by norm_num) (by decide) (by norm_num) (by decide) hd hc).2 ?_
  have v : ∀ z : ℤ, z.natAbs ≤ 2 ^ 24 → (Fp.lit z 4 : F32).val = z / 4 := fun z hz => by
    have := (lit_dyadic z 2 hz (by decide)).2
    norm_num at this
    exact this
  have w := (lit_dyadic 17 1 (by decide) (by decide)).2
  rw [pow_one] at w
  simp only [s, p, gapSq, v 400 (by decide), v (-13) (by decide), v 7 (by decide), v 390 (by decide), v 10 (by decide), v (-7) (by decide), w]
  norm_num

omit [Libm binary32] in
/-- coordinates up to 2^60 are within the bounds of `C147_contains` -/
example {c : Vec3 F32} {p : Point3D F32} (h : ∀ x ∈ comps3 c ++ compsP3 p, |x.val| ≤ 2 ^ 60) : gapBig c p ≤ 2 ^ 125 := by
  have b : ∀ x y : F32, x ∈ comps3 c ++ compsP3 p → y ∈ comps3 c ++ compsP3 p → (big x + big y) ^ 2 ≤ 2 ^ 122 := by
    intro x y hx hy
    have k : ∀ z : F32, z ∈ comps3 c ++ compsP3 p → 0 ≤ big z ∧ big z ≤ 2 ^ 60 := fun z hz =>
      ⟨le_trans zero_le_one (big_one z), max_le (by norm_num) (h z hz)⟩
    have h1 := k x hx
    have h2 := k y hy
    rw [show (2 : ℝ) ^ 122 = (2 ^ 60 + 2 ^ 60) ^ 2 by norm_num]
    exact pow_le_pow_left₀ (add_nonneg h1.1 h2.1) (add_le_add h1.2 h2.2) 2
  have h1 := b c.value.x p.x (by simp [comps3]) (by simp [compsP3])
  have h2 := b c.value.y p.y (by simp [comps3]) (by simp [compsP3])
  have h3 := b c.value.z p.z (by simp [comps3]) (by simp [compsP3])
  unfold gapBig
  norm_num at h1 h2 h3 ⊢
  linarith

/-- the source has few operations -/
example : ops (gapSource (.sse false false)) ≤ 1024 ∧ ops (gapSource .gcc) ≤ 1024 ∧ ops multipliedOut ≤ 1024 := by decide +kernel

end Graphene

/-
  C104: the inverse of scale-and-translate matrices, in floating point (IEEE binary32).
-/
import Verif.Props.Float15
import Mathlib.Tactic.IntervalCases
import Verif.Proofs.KDecide

set_option exponentiation.threshold 3000

namespace Graphene
open Fp Spec

/-- A calculus of computed values: `R i x v` says that the float `x` stands for the real `v`, a monomial of degree at
most `i`; `S v` says that multiplying by `v` is harmless. -/
structure Calc where
  R : ℕ → F32 → ℝ → Prop
  S : ℝ → Prop
  s0 : S 0
  s1 : S 1
  sneg : ∀ {v}, S v → S (-v)
  smul : ∀ {v w}, S v → S w → S (v * w)
  mul : ∀ {i j x y v w}, 1 ≤ i → 1 ≤ j → i + j ≤ 4 → R i x v → R j y w → S v ∨ S w → R (i + j) (Fp.mul x y) (v * w)
  fma : ∀ {i j x y z v w u}, 1 ≤ i → 1 ≤ j → i + j ≤ 4 → R i x v → R j y w → S v ∨ S w → R (i + j) z u →
    v * w = 0 ∨ u = 0 → R (i + j) (Fp.fma x y z) (v * w + u)
  add : ∀ {i x y v w}, R i x v → R i y w → v = 0 ∨ w = 0 → R i (Fp.add x y) (v + w)
  sub : ∀ {i x y v w}, R i x v → R i y w → v = 0 ∨ w = 0 → R i (Fp.sub x y) (v - w)
  neg : ∀ {i x v}, R i x v → R i (Fp.neg x) (-v)

namespace Calc
variable [Libm binary32] (c : Calc)

theorem maddL (bk : Backend) {i j : ℕ} {x y z : F32} {v w u : ℝ} (hi : 1 ≤ i) (hj : 1 ≤ j) (h4 : i + j ≤ 4) (hx : c.R i x v) (hy : c.R j y w)
    (hs : c.S v ∨ c.S w) (hz : c.R (i + j) z u) (h0 : v * w = 0 ∨ u = 0) :
    c.R (i + j) (Graphene.maddL bk x y z) (Graphene.maddL bk v w u) := by
  have h1 := c.fma hi hj h4 hx hy hs hz h0
  have h2 := c.add (c.mul hi hj h4 hx hy hs) hz h0
  rcases bk with ⟨_, _ | _⟩ | _ | _ | _
  · exact h2
  · exact h1
  · exact h2
  · exact h2
  · exact h2

theorem minor {a b d e : F32} {a' b' d' e' : ℝ} (ha : c.R 1 a a') (hb : c.R 1 b b') (hd : c.R 1 d d') (he : c.R 1 e e')
    (h1 : c.S a' ∨ c.S b') (h2 : c.S d' ∨ c.S e') (h0 : a' * b' = 0 ∨ d' * e' = 0) :
    c.R 2 (a *. b -. d *. e) (a' *. b' -. d' *. e') :=
  c.sub (c.mul le_rfl le_rfl (by decide) ha hb h1) (c.mul le_rfl le_rfl (by decide) hd he h2) h0

theorem row (bk : Backend) {a b d p q r : F32} {a' b' d' p' q' r' : ℝ} (ha : c.R 1 a a') (hb : c.R 1 b b') (hd : c.R 1 d d')
    (hp : c.R 2 p p') (hq : c.R 2 q q') (hr : c.R 2 r r') (h1 : c.S a' ∨ c.S p') (h2 : c.S b' ∨ c.S q') (h3 : c.S d' ∨ c.S r')
    (h0 : b' * q' = 0 ∨ d' * r' = 0) (h0' : a' * p' = 0 ∨ b' * q' + d' * r' = 0) :
    c.R 3 (Graphene.maddL bk a p (Graphene.maddL bk b q (d *. r)))
      (a' * p' + (b' * q' + d' * r')) := by
  have i1 := c.mul (i := 1) (j := 2) (by decide) (by decide) (by decide) hd hr h3
  have i2 := c.maddL bk (i := 1) (j := 2) (by decide) (by decide) (by decide) hb hq h2 i1 h0
  have e : ∀ x y z : ℝ, Graphene.maddL bk x y z = x * y + z := by rcases bk with ⟨_, _ | _⟩ | _ | _ | _ <;> intros <;> rfl
  rw [e] at i2
  have i3 := c.maddL bk (i := 1) (j := 2) (by decide) (by decide) (by decide) ha hp h1 i2 h0'
  rw [e] at i3
  exact i3

/-- the lanes of a vector -/
structure RV (i : ℕ) (a : V4 F32) (v : V4 ℝ) : Prop where
  x : c.R i a.x v.x
  y : c.R i a.y v.y
  z : c.R i a.z v.z
  w : c.R i a.w v.w

/-- the entries of a scale-and-translate matrix -/
structure ST (m : M4 F32) (a b d tx ty tz : ℝ) : Prop where
  x : c.RV 1 m.x ⟨a, 0, 0, 0⟩
  y : c.RV 1 m.y ⟨0, b, 0, 0⟩
  z : c.RV 1 m.z ⟨0, 0, d, 0⟩
  w : c.RV 1 m.w ⟨tx, ty, tz, 1⟩
  sa : c.S a
  sb : c.S b
  sd : c.S d

variable {c} {m : M4 F32} {a b d tx ty tz : ℝ}

theorem R_congr {i : ℕ} {x : F32} {v w : ℝ} (h : c.R i x v) (e : v = w) : c.R i x w := e ▸ h

theorem ST.minors (h : c.ST m a b d tx ty tz) :
    (c.RV 2 (Simd4x4f.minor1 m.z m.w) ⟨d * ty, -d, 0, 0⟩ ∧ c.RV 2 (Simd4x4f.minor2 m.z m.w) ⟨0, d * tx, 0, -(d * tx)⟩ ∧
      c.RV 2 (Simd4x4f.minor3 m.z m.w) ⟨-d, 0, 0, d * ty⟩) ∧
    (c.RV 2 (Simd4x4f.minor1 m.x m.y) ⟨0, 0, 0, -(a * b)⟩ ∧ c.RV 2 (Simd4x4f.minor2 m.x m.y) ⟨0, 0, 0, 0⟩ ∧
      c.RV 2 (Simd4x4f.minor3 m.x m.y) ⟨0, 0, -(a * b), 0⟩) := by
  obtain ⟨⟨x0, x1, x2, x3⟩, ⟨y0, y1, y2, y3⟩, ⟨z0, z1, z2, z3⟩, ⟨w0, w1, w2, w3⟩, sa, sb, sd⟩ := h
  have s0 := c.s0
  have s1 := c.s1
  refine ⟨⟨⟨R_congr (c.minor z2 w1 z1 w2 ?_ ?_ ?_) ?_, R_congr (c.minor z3 w2 z2 w3 ?_ ?_ ?_) ?_, R_congr (c.minor z0 w3 z3 w0 ?_ ?_ ?_) ?_,
      R_congr (c.minor z1 w0 z0 w1 ?_ ?_ ?_) ?_⟩,
    ⟨R_congr (c.minor z1 w3 z3 w1 ?_ ?_ ?_) ?_, R_congr (c.minor z2 w0 z0 w2 ?_ ?_ ?_) ?_, R_congr (c.minor z3 w1 z1 w3 ?_ ?_ ?_) ?_,
      R_congr (c.minor z0 w2 z2 w0 ?_ ?_ ?_) ?_⟩,
    ⟨R_congr (c.minor z3 w2 z2 w3 ?_ ?_ ?_) ?_, R_congr (c.minor z0 w3 z3 w0 ?_ ?_ ?_) ?_, R_congr (c.minor z1 w0 z0 w1 ?_ ?_ ?_) ?_,
      R_congr (c.minor z2 w1 z1 w2 ?_ ?_ ?_) ?_⟩⟩,
    ⟨⟨R_congr (c.minor x2 y1 x1 y2 ?_ ?_ ?_) ?_, R_congr (c.minor x3 y2 x2 y3 ?_ ?_ ?_) ?_, R_congr (c.minor x0 y3 x3 y0 ?_ ?_ ?_) ?_,
      R_congr (c.minor x1 y0 x0 y1 ?_ ?_ ?_) ?_⟩,
    ⟨R_congr (c.minor x1 y3 x3 y1 ?_ ?_ ?_) ?_, R_congr (c.minor x2 y0 x0 y2 ?_ ?_ ?_) ?_, R_congr (c.minor x3 y1 x1 y3 ?_ ?_ ?_) ?_,
      R_congr (c.minor x0 y2 x2 y0 ?_ ?_ ?_) ?_⟩,
    ⟨R_congr (c.minor x3 y2 x2 y3 ?_ ?_ ?_) ?_, R_congr (c.minor x0 y3 x3 y0 ?_ ?_ ?_) ?_, R_congr (c.minor x1 y0 x0 y1 ?_ ?_ ?_) ?_,
      R_congr (c.minor x2 y1 x1 y2 ?_ ?_ ?_) ?_⟩⟩⟩ <;>
  simp [s0, s1, sa, sb, sd, greal]

/-- the rows of cofactors -/
theorem ST.rows (bk : Backend) (h : c.ST m a b d tx ty tz) :
    c.RV 3 (Simd4x4f.r1Sum bk m) ⟨-(b * d), 0, 0, -(b * d * tx)⟩ ∧
    c.RV 3 (Simd4x4f.rowSum bk m.x m.z m.w) ⟨0, -(a * d), 0, a * d * ty⟩ ∧
    c.RV 3 (Simd4x4f.rowSum bk m.w m.x m.y) ⟨0, 0, -(a * b), -(a * b * tz)⟩ ∧
    c.RV 3 (Simd4x4f.rowSum bk m.z m.x m.y) ⟨0, 0, 0, -(a * b * d)⟩ := by
  obtain ⟨⟨⟨p0, p1, p2, p3⟩, ⟨q0, q1, q2, q3⟩, ⟨r0, r1, r2, r3⟩⟩, ⟨u0, u1, u2, u3⟩, ⟨v0, v1, v2, v3⟩, ⟨n0, n1, n2, n3⟩⟩ := h.minors
  obtain ⟨⟨x0, x1, x2, x3⟩, ⟨y0, y1, y2, y3⟩, ⟨z0, z1, z2, z3⟩, ⟨w0, w1, w2, w3⟩, sa, sb, sd⟩ := h
  have s0 := c.s0
  have s1 := c.s1
  have snd := c.sneg sd
  have sab := c.sneg (c.smul sa sb)
  refine ⟨?_, ?_, ?_, ?_⟩
  · simp only [Simd4x4f.r1Sum, madd_lanes]
    exact ⟨R_congr (c.row bk y3 y2 y1 p0 q0 r0 (by simp [*]) (by simp [*]) (by simp [*]) (by simp) (by simp)) (by simp),
      R_congr (c.row bk y0 y3 y2 p1 q1 r1 (by simp [*]) (by simp [*]) (by simp [*]) (by simp) (by simp)) (by simp),
      R_congr (c.row bk y1 y0 y3 p2 q2 r2 (by simp [*]) (by simp [*]) (by simp [*]) (by simp) (by simp)) (by simp),
      R_congr (c.row bk y2 y1 y0 p3 q3 r3 (by simp [*]) (by simp [*]) (by simp [*]) (by simp) (by simp)) (by simp; ring)⟩
  · simp only [Simd4x4f.rowSum, madd_lanes]
    exact ⟨R_congr (c.row bk x1 x2 x3 r0 q0 p0 (by simp [*]) (by simp [*]) (by simp [*]) (by simp) (by simp)) (by simp),
      R_congr (c.row bk x2 x3 x0 r1 q1 p1 (by simp [*]) (by simp [*]) (by simp [*]) (by simp) (by simp)) (by simp),
      R_congr (c.row bk x3 x0 x1 r2 q2 p2 (by simp [*]) (by simp [*]) (by simp [*]) (by simp) (by simp)) (by simp),
      R_congr (c.row bk x0 x1 x2 r3 q3 p3 (by simp [*]) (by simp [*]) (by simp [*]) (by simp) (by simp)) (by simp; ring)⟩
  · simp only [Simd4x4f.rowSum, madd_lanes]
    exact ⟨R_congr (c.row bk w1 w2 w3 n0 v0 u0 (by simp [*]) (by simp [*]) (by simp [*]) (by simp) (by simp)) (by simp),
      R_congr (c.row bk w2 w3 w0 n1 v1 u1 (by simp [*]) (by simp [*]) (by simp [*]) (by simp) (by simp)) (by simp),
      R_congr (c.row bk w3 w0 w1 n2 v2 u2 (by simp [*]) (by simp [*]) (by simp [*]) (by simp) (by simp)) (by simp),
      R_congr (c.row bk w0 w1 w2 n3 v3 u3 (by simp [*]) (by simp [*]) (by simp [*]) (by simp) (by simp)) (by simp; ring)⟩
  · simp only [Simd4x4f.rowSum, madd_lanes]
    exact ⟨R_congr (c.row bk z1 z2 z3 n0 v0 u0 (by simp [*]) (by simp [*]) (by simp [*]) (by simp) (by simp)) (by simp),
      R_congr (c.row bk z2 z3 z0 n1 v1 u1 (by simp [*]) (by simp [*]) (by simp [*]) (by simp) (by simp)) (by simp),
      R_congr (c.row bk z3 z0 z1 n2 v2 u2 (by simp [*]) (by simp [*]) (by simp [*]) (by simp) (by simp)) (by simp),
      R_congr (c.row bk z0 z1 z2 n3 v3 u3 (by simp [*]) (by simp [*]) (by simp [*]) (by simp) (by simp)) (by simp; ring)⟩

theorem ST.det (bk : Backend) (h : c.ST m a b d tx ty tz) : c.R 4 (Simd4x4f.detVec bk m).x (-(a * b * d)) := by
  obtain ⟨⟨r0, r1, r2, r3⟩, -⟩ := h.rows bk
  obtain ⟨⟨x0, x1, x2, x3⟩, -, -, -, sa, sb, sd⟩ := h
  have m0 := c.mul (i := 3) (j := 1) (by decide) (by decide) (by decide) r0 x0 (Or.inr sa)
  have m1 := c.mul (i := 3) (j := 1) (by decide) (by decide) (by decide) r1 x1 (Or.inr c.s0)
  have m2 := c.mul (i := 3) (j := 1) (by decide) (by decide) (by decide) r2 x2 (Or.inr c.s0)
  have m3 := c.mul (i := 3) (j := 1) (by decide) (by decide) (by decide) r3 x3 (Or.inr c.s0)
  exact R_congr (c.sub (c.add m0 m2 (by simp)) (c.add m1 m3 (by simp)) (by simp)) (by simp; ring)

end Calc

/-! ### The exact calculus -/

theorem is_mul_unit {x y : F32} {v w : ℝ} (hx : Is x v) (hy : Is y w) (h : v = 0 ∨ v = 1 ∨ v = -1) : ∃ z : F32, Is z (v * w) := by
  rcases h with rfl | rfl | rfl
  · exact ⟨x, hx.congr (by ring)⟩
  · exact ⟨y, hy.congr (by ring)⟩
  · exact ⟨Fp.neg y, hy.neg.congr (by ring)⟩

theorem is_mul_unit' {x y : F32} {v w : ℝ} (hx : Is x v) (hy : Is y w)
    (h : (v = 0 ∨ v = 1 ∨ v = -1) ∨ (w = 0 ∨ w = 1 ∨ w = -1)) : ∃ z : F32, Is z (v * w) := by
  rcases h with h | h
  · exact is_mul_unit hx hy h
  · obtain ⟨z, hz⟩ := is_mul_unit hy hx h
    exact ⟨z, hz.congr (by ring)⟩

/-- values computed without any rounding -/
def exactCalc : Calc where
  R _ x v := Is x v
  S v := v = 0 ∨ v = 1 ∨ v = -1
  s0 := .inl rfl
  s1 := .inr (.inl rfl)
  sneg h := by rcases h with rfl | rfl | rfl <;> norm_num
  smul h g := by rcases h with rfl | rfl | rfl <;> rcases g with rfl | rfl | rfl <;> norm_num
  mul _ _ _ hx hy hs := by
    obtain ⟨z, hz⟩ := is_mul_unit' hx hy hs
    exact hx.mul_of hy hz
  fma _ _ _ hx hy hs hz h0 := by
    obtain ⟨q, hq⟩ := is_mul_unit' hx hy hs
    have r := rnd_fma hx.fin hy.fin hz.fin
    rw [hx.val, hy.val, hz.val] at r
    rcases h0 with h0 | h0
    · exact r.is (hz.congr (by rw [h0]; ring))
    · exact r.is (hq.congr (by rw [h0]; ring))
  add hx hy h0 := by
    rcases h0 with rfl | rfl
    · exact (hx.zero_add hy).congr (by ring)
    · exact (hx.add_zero hy).congr (by ring)
  sub hx hy h0 := by
    rcases h0 with rfl | rfl
    · exact (hx.sub_of hy (c := _) (hy.neg.congr (by ring)))
    · exact (hx.sub_zero hy).congr (by ring)
  neg h := h.neg

/-! ### The approximate calculus -/

/-- finite, zero or of magnitude in `[2^-20i, 2^20i]`, to within `2(i-1)` half units -/
def Rel (i : ℕ) (x : F32) (v : ℝ) : Prop :=
  x.isFin = true ∧ |x.val - v| ≤ (2 * (i - 1) : ℝ) / 2 ^ 24 * |v| ∧ (v = 0 ∨ 1 / 2 ^ (20 * i) ≤ |v| ∧ |v| ≤ 2 ^ (20 * i))

theorem Rel.zero {i : ℕ} {x : F32} (h : Rel i x 0) : Is x 0 := by
  obtain ⟨f, e, -⟩ := h
  rw [abs_zero, mul_zero, sub_zero] at e
  exact ⟨f, abs_nonpos_iff.1 e⟩

theorem Rel.of_is {i : ℕ} {x y : F32} {v : ℝ} (h : Rel i x v) (g : Is y x.val) : Rel i y v := by
  obtain ⟨f, e, b⟩ := h
  exact ⟨g.fin, by rw [g.val]; exact e, b⟩

theorem Rel.of_zero {i : ℕ} {x : F32} (h : Is x 0) : Rel i x 0 :=
  ⟨h.fin, by rw [h.val]; simp, .inl rfl⟩

theorem rel_mul {x y v w e f : ℝ} (hx : |x - v| ≤ e * |v|) (hy : |y - w| ≤ f * |w|) :
    |x * y - v * w| ≤ (e + f + e * f) * |v * w| ∧ |x * y| ≤ (1 + (e + f + e * f)) * |v * w| := by
  have h : |x * y - v * w| ≤ (e + f + e * f) * |v * w| := by
    have : x * y - v * w = (x - v) * (y - w) + v * (y - w) + (x - v) * w := by ring
    rw [this]
    have t1 := abs_add_le ((x - v) * (y - w) + v * (y - w)) ((x - v) * w)
    have t2 := abs_add_le ((x - v) * (y - w)) (v * (y - w))
    simp only [abs_mul] at *
    have a1 : |x - v| * |y - w| ≤ (e * |v|) * (f * |w|) := mul_le_mul hx hy (abs_nonneg _) ((abs_nonneg _).trans hx)
    have a2 : |v| * |y - w| ≤ |v| * (f * |w|) := mul_le_mul_of_nonneg_left hy (abs_nonneg _)
    have a3 : |x - v| * |w| ≤ (e * |v|) * |w| := mul_le_mul_of_nonneg_right hx (abs_nonneg _)
    nlinarith
  refine ⟨h, ?_⟩
  have := abs_sub_abs_le_abs_sub (x * y) (v * w)
  linarith

theorem Rel.prod {i j : ℕ} {x y r : F32} {v w : ℝ} (hi : 1 ≤ i) (hj : 1 ≤ j) (h4 : i + j ≤ 4) (hx : Rel i x v) (hy : Rel j y w)
    (hr : Rnd (x.val * y.val) r) : Rel (i + j) r (v * w) := by
  obtain ⟨fx, ex, bx⟩ := hx
  obtain ⟨fy, ey, bY⟩ := hy
  by_cases h0 : v * w = 0
  · rw [h0]
    apply Rel.of_zero
    have : x.val * y.val = 0 := by
      rcases mul_eq_zero.1 h0 with rfl | rfl
      · rw [((Rel.zero ⟨fx, ex, bx⟩) : Is x 0).val, zero_mul]
      · rw [((Rel.zero ⟨fy, ey, bY⟩) : Is y 0).val, mul_zero]
    rw [this] at hr
    exact hr.is Is.zero_is
  · have v0 : v ≠ 0 := fun h => h0 (by rw [h, zero_mul])
    have w0 : w ≠ 0 := fun h => h0 (by rw [h, mul_zero])
    obtain ⟨lx, ux⟩ := bx.resolve_left v0
    obtain ⟨ly, uy⟩ := bY.resolve_left w0
    have lo : 1 / 2 ^ (20 * (i + j)) ≤ |v * w| := by
      rw [abs_mul]
      calc (1 : ℝ) / 2 ^ (20 * (i + j)) = 1 / 2 ^ (20 * i) * (1 / 2 ^ (20 * j)) := by rw [mul_add, pow_add]; field_simp
        _ ≤ _ := mul_le_mul lx ly (by positivity) (abs_nonneg _)
    have hi' : |v * w| ≤ 2 ^ (20 * (i + j)) := by
      rw [abs_mul, mul_add, pow_add]
      exact mul_le_mul ux uy (abs_nonneg _) (by positivity)
    obtain ⟨m1, m2⟩ := rel_mul ex ey
    have P0 : 0 < |v * w| := abs_pos.2 h0
    have key : |x.val * y.val - v * w| ≤ (2 * (i + j - 1) - 3/2 : ℝ) / 2 ^ 24 * |v * w| := by
      refine m1.trans (mul_le_mul_of_nonneg_right ?_ P0.le)
      have : i ≤ 3 := by omega
      have : j ≤ 3 := by omega
      interval_cases i <;> interval_cases j <;> first | omega | norm_num
    have c6 : (2 * (i + j - 1) - 3/2 : ℝ) / 2 ^ 24 ≤ 6 / 2 ^ 24 := by
      have : (i : ℝ) + j ≤ 4 := by exact_mod_cast h4
      apply div_le_div_of_nonneg_right _ (by positivity); linarith
    have key6 : |x.val * y.val - v * w| ≤ 6 / 2 ^ 24 * |v * w| := key.trans (mul_le_mul_of_nonneg_right c6 P0.le)
    have l2 := abs_sub_abs_le_abs_sub (v * w) (x.val * y.val)
    have l3 := abs_sub_abs_le_abs_sub (x.val * y.val) (v * w)
    rw [_root_.abs_sub_comm] at l2
    have b80 : (1 : ℝ) / 2 ^ 80 ≤ 1 / 2 ^ (20 * (i + j)) := by
      apply one_div_le_one_div_of_le (by positivity)
      exact pow_le_pow_right₀ (by norm_num) (by omega)
    have b80' : (2 : ℝ) ^ (20 * (i + j)) ≤ 2 ^ 80 := pow_le_pow_right₀ (by norm_num) (by omega)
    have b8 := b80.trans lo
    obtain ⟨f, e⟩ := Newton.rel hr (by norm_num [-abs_mul] at key6 b8 ⊢; linarith) (by norm_num [-abs_mul] at key6 b80' ⊢; linarith)
    refine ⟨f, ?_, .inr ⟨by exact_mod_cast lo, by exact_mod_cast hi'⟩⟩
    have tri := abs_add_le (r.val - x.val * y.val) (x.val * y.val - v * w)
    rw [sub_add_sub_cancel] at tri
    push_cast
    have : 1 / 2 ^ 24 * |x.val * y.val| ≤ 3/2 / 2 ^ 24 * |v * w| := by norm_num [-abs_mul] at key6 ⊢; linarith
    calc _ ≤ _ := tri
      _ ≤ 3/2 / 2 ^ 24 * |v * w| + (2 * (i + j - 1) - 3/2 : ℝ) / 2 ^ 24 * |v * w| := add_le_add (e.trans this) key
      _ = _ := by ring

theorem Rel.neg {i : ℕ} {x : F32} {v : ℝ} (h : Rel i x v) : Rel i (Fp.neg x) (-v) := by
  obtain ⟨f, e, b⟩ := h
  have n := (Is.self f).neg
  refine ⟨n.fin, ?_, ?_⟩
  · rw [n.val, _root_.abs_neg, ← neg_sub', _root_.abs_neg]; exact e
  · rw [_root_.abs_neg, neg_eq_zero]; exact b

theorem Rel.fma {i j : ℕ} {x y z : F32} {v w u : ℝ} (hi : 1 ≤ i) (hj : 1 ≤ j) (h4 : i + j ≤ 4) (hx : Rel i x v) (hy : Rel j y w)
    (hz : Rel (i + j) z u) (h0 : v * w = 0 ∨ u = 0) : Rel (i + j) (Fp.fma x y z) (v * w + u) := by
  have r := rnd_fma hx.1 hy.1 hz.1
  rcases h0 with h | rfl
  · have : x.val * y.val = 0 := by
      rcases mul_eq_zero.1 h with rfl | rfl
      · rw [hx.zero.val, zero_mul]
      · rw [hy.zero.val, mul_zero]
    rw [this, zero_add] at r
    rw [h, zero_add]
    exact hz.of_is (r.is (Is.self hz.1))
  · rw [hz.zero.val, add_zero] at r
    rw [add_zero]
    exact hx.prod hi hj h4 hy r

/-- values computed with small relative error -/
def relCalc : Calc where
  R := Rel
  S _ := True
  s0 := trivial
  s1 := trivial
  sneg _ := trivial
  smul _ _ := trivial
  mul hi hj h4 hx hy _ := hx.prod hi hj h4 hy (rnd_mul hx.1 hy.1)
  fma hi hj h4 hx hy _ hz h0 := hx.fma hi hj h4 hy hz h0
  add hx hy h0 := by
    rcases h0 with rfl | rfl
    · rw [zero_add]; exact hy.of_is (hx.zero.zero_add (Is.self hy.1))
    · rw [add_zero]; exact hx.of_is ((Is.self hx.1).add_zero hy.zero)
  sub hx hy h0 := by
    rcases h0 with rfl | rfl
    · rw [zero_sub]
      have n := (Is.self hy.1).neg
      have := hx.zero.sub_of (Is.self hy.1) (c := _) (n.congr (by ring))
      exact hy.neg.of_is (this.congr (by rw [n.val]; ring))
    · rw [sub_zero]; exact hx.of_is ((Is.self hx.1).sub_zero hy.zero)
  neg h := h.neg


/-! ### Specification -/

/-- A scale followed by a translation: finite entries; zero outside the diagonal and the last row; last diagonal entry 1. -/
structure Spec.ScaleTranslate (m : M4 F32) : Prop where
  fin : FinMat m
  x : rmat m 0 1 = 0 ∧ rmat m 0 2 = 0 ∧ rmat m 0 3 = 0
  y : rmat m 1 0 = 0 ∧ rmat m 1 2 = 0 ∧ rmat m 1 3 = 0
  z : rmat m 2 0 = 0 ∧ rmat m 2 1 = 0 ∧ rmat m 2 3 = 0
  one : rmat m 3 3 = 1

/-- Neither huge nor tiny: zero, or between `2^-20` and `2^20` in magnitude. -/
def Spec.Moderate (x : ℝ) : Prop := x = 0 ∨ 1 / 2 ^ 20 ≤ |x| ∧ |x| ≤ 2 ^ 20

variable [Libm binary32] {m : M4 F32}

theorem st_exact (h : Spec.ScaleTranslate m) : exactMat m =
    ⟨⟨rmat m 0 0, 0, 0, 0⟩, ⟨0, rmat m 1 1, 0, 0⟩, ⟨0, 0, rmat m 2 2, 0⟩, ⟨rmat m 3 0, rmat m 3 1, rmat m 3 2, 1⟩⟩ := by
  obtain ⟨-, ⟨a, b, c⟩, ⟨d, e, f⟩, ⟨g, i, j⟩, k⟩ := h
  have : exactMat m = ⟨⟨rmat m 0 0, rmat m 0 1, rmat m 0 2, rmat m 0 3⟩, ⟨rmat m 1 0, rmat m 1 1, rmat m 1 2, rmat m 1 3⟩,
    ⟨rmat m 2 0, rmat m 2 1, rmat m 2 2, rmat m 2 3⟩, ⟨rmat m 3 0, rmat m 3 1, rmat m 3 2, rmat m 3 3⟩⟩ := rfl
  rw [this, a, b, c, d, e, f, g, i, j, k]

theorem st_cofs_real (bk : Backend) (h : Spec.ScaleTranslate m) :
    cofs bk (exactMat m) = ⟨⟨-(rmat m 1 1 * rmat m 2 2), 0, 0, rmat m 1 1 * rmat m 2 2 * rmat m 3 0⟩,
      ⟨0, -(rmat m 0 0 * rmat m 2 2), 0, rmat m 0 0 * rmat m 2 2 * rmat m 3 1⟩,
      ⟨0, 0, -(rmat m 0 0 * rmat m 1 1), rmat m 0 0 * rmat m 1 1 * rmat m 3 2⟩,
      ⟨0, 0, 0, -(rmat m 0 0 * rmat m 1 1 * rmat m 2 2)⟩⟩ := by
  rw [st_exact h]
  generalize rmat m 0 0 = a, rmat m 1 1 = b, rmat m 2 2 = d, rmat m 3 0 = tx, rmat m 3 1 = ty, rmat m 3 2 = tz
  simp [cofs, Simd4x4f.r1Sum, Simd4x4f.rowSum, Simd4x4f.minor1, Simd4x4f.minor2, Simd4x4f.minor3, greal]
  ring_nf
  simp

theorem st_det (h : Spec.ScaleTranslate m) : (rmat m).det = rmat m 0 0 * rmat m 1 1 * rmat m 2 2 := by
  have := detVec_real .gcc (exactMat m)
  rw [rmat_exactMat, st_exact h] at this
  rw [← neg_eq_iff_eq_neg] at this
  rw [← this]
  simp [Simd4x4f.detVec, Simd4x4f.r1Sum, Simd4x4f.minor1, Simd4x4f.minor2, Simd4x4f.minor3, greal]
  ring

theorem st_cofs (bk : Backend) (h : Spec.ScaleTranslate m) {c : Calc}
    (hc : c.ST m (rmat m 0 0) (rmat m 1 1) (rmat m 2 2) (rmat m 3 0) (rmat m 3 1) (rmat m 3 2))
    (i j : Fin 4) : c.R 3 (mat (cofs bk m) i j) (mat (cofs bk (exactMat m)) i j) := by
  rw [st_cofs_real bk h]
  obtain ⟨⟨a0, a1, a2, a3⟩, ⟨b0, b1, b2, b3⟩, ⟨c0, c1, c2, c3⟩, ⟨d0, d1, d2, d3⟩⟩ := hc.rows bk
  have n0 : -(0 : ℝ) = 0 := neg_zero
  fin_cases i <;> fin_cases j
  · exact a0
  · exact Calc.R_congr (c.neg a1) n0
  · exact a2
  · exact Calc.R_congr (c.neg a3) (neg_neg _)
  · exact Calc.R_congr (c.neg b0) n0
  · exact b1
  · exact Calc.R_congr (c.neg b2) n0
  · exact b3
  · exact c0
  · exact Calc.R_congr (c.neg c1) n0
  · exact c2
  · exact Calc.R_congr (c.neg c3) (neg_neg _)
  · exact Calc.R_congr (c.neg d0) n0
  · exact d1
  · exact Calc.R_congr (c.neg d2) n0
  · exact d3

theorem st_rel (h : Spec.ScaleTranslate m) (hm : ∀ i j, Spec.Moderate (rmat m i j)) :
    relCalc.ST m (rmat m 0 0) (rmat m 1 1) (rmat m 2 2) (rmat m 3 0) (rmat m 3 1) (rmat m 3 2) := by
  have e : ∀ i j (v : ℝ), rmat m i j = v → relCalc.R 1 (mat m i j) v := by
    rintro i j _ rfl
    exact ⟨h.fin i j, by rw [show (mat m i j).val = rmat m i j from rfl]; simp, hm i j⟩
  obtain ⟨-, ⟨a, b, c⟩, ⟨d, e', f⟩, ⟨g, i, j⟩, k⟩ := h
  exact ⟨⟨e 0 0 _ rfl, e 0 1 _ a, e 0 2 _ b, e 0 3 _ c⟩, ⟨e 1 0 _ d, e 1 1 _ rfl, e 1 2 _ e', e 1 3 _ f⟩,
    ⟨e 2 0 _ g, e 2 1 _ i, e 2 2 _ rfl, e 2 3 _ j⟩, ⟨e 3 0 _ rfl, e 3 1 _ rfl, e 3 2 _ rfl, e 3 3 _ k⟩, trivial, trivial, trivial⟩

theorem st_entry {c g : F32} {C G δ : ℝ} (hc : Rel 3 c C) (hg : g.isFin = true)
    (hG : 1 / 2 ^ 61 ≤ |G|) (hG' : |G| ≤ 2 ^ 24) (he : |g.val - G| ≤ δ * |G|) (hδ : δ ≤ 1 / 2 ^ 19) :
    (Fp.mul c g).isFin = true ∧ |(Fp.mul c g).val - C * G| ≤ (δ + 6 / 2 ^ 24) * |C * G| := by
  have r := rnd_mul hc.1 hg
  by_cases C0 : C = 0
  · subst C0
    rw [hc.zero.val, zero_mul] at r
    have i := r.is Is.zero_is
    refine ⟨i.fin, ?_⟩
    rw [i.val]; simp
  · obtain ⟨-, ec, b⟩ := hc
    obtain ⟨lc, uc⟩ := b.resolve_left C0
    have d0 : 0 ≤ δ := by
      have h1 : 0 < |G| := lt_of_lt_of_le (by positivity) hG
      exact nonneg_of_mul_nonneg_left ((abs_nonneg _).trans he) h1
    have lo : 1 / 2 ^ 121 ≤ |C * G| := by
      rw [abs_mul]
      calc (1 : ℝ) / 2 ^ 121 = 1 / 2 ^ (20 * 3) * (1 / 2 ^ 61) := by norm_num
        _ ≤ _ := mul_le_mul lc hG (by positivity) (abs_nonneg _)
    have hi : |C * G| ≤ 2 ^ 84 := by
      rw [abs_mul]
      calc |C| * |G| ≤ 2 ^ (20 * 3) * 2 ^ 24 := mul_le_mul uc hG' (abs_nonneg _) (by positivity)
        _ = 2 ^ 84 := by norm_num
    obtain ⟨m1, m2⟩ := rel_mul ec he
    have P0 : 0 ≤ |C * G| := abs_nonneg _
    have q : (2 * ((3 : ℕ) - 1) : ℝ) / 2 ^ 24 + δ + (2 * ((3 : ℕ) - 1) : ℝ) / 2 ^ 24 * δ ≤ 9/2 / 2 ^ 24 + δ := by
      push_cast; norm_num at hδ ⊢; linarith
    have m3 := m1.trans (mul_le_mul_of_nonneg_right q P0)
    have m4 := m2.trans (mul_le_mul_of_nonneg_right (by linarith : _ ≤ 1 + (9/2 / 2 ^ 24 + δ)) P0)
    have m5 : (9/2 / 2 ^ 24 + δ) * |C * G| ≤ 1 / 2 * |C * G| := mul_le_mul_of_nonneg_right (by norm_num at hδ ⊢; linarith) P0
    have l2 := abs_sub_abs_le_abs_sub (C * G) (c.val * g.val)
    rw [_root_.abs_sub_comm] at l2
    obtain ⟨f, e⟩ := Newton.rel r (by norm_num [-abs_mul] at lo m3 m5 ⊢; linarith) (by norm_num [-abs_mul] at hi m4 m5 ⊢; linarith)
    refine ⟨f, ?_⟩
    have tri := abs_add_le ((Fp.mul c g).val - c.val * g.val) (c.val * g.val - C * G)
    rw [sub_add_sub_cancel] at tri
    generalize |C * G| = q at *
    have : δ * q ≤ 1 / 2 ^ 19 * q := mul_le_mul_of_nonneg_right hδ P0
    norm_num [-abs_mul] at *
    linarith

theorem st_det_near (bk : Backend) (h : Spec.ScaleTranslate m) (hm : ∀ i j, Spec.Moderate (rmat m i j)) :
    (Simd4x4f.detVec bk m).x.isFin = true ∧
    |(Simd4x4f.detVec bk m).x.val - -(rmat m).det| ≤ 6 / 2 ^ 24 * |(rmat m).det| ∧ |(rmat m).det| ≤ 2 ^ 60 := by
  have d := (st_rel h hm).det bk
  rw [← st_det h] at d
  obtain ⟨a, b, -⟩ := d
  refine ⟨a, ?_, ?_⟩
  · rw [_root_.abs_neg] at b
    refine b.trans (le_of_eq ?_)
    norm_num
  · have u : ∀ i j, |rmat m i j| ≤ 2 ^ 20 := by
      intro i j
      rcases hm i j with e | e
      · rw [e]; norm_num
      · exact e.2
    rw [st_det h, abs_mul, abs_mul]
    calc _ ≤ (2 : ℝ) ^ 20 * 2 ^ 20 * 2 ^ 20 :=
          mul_le_mul (mul_le_mul (u _ _) (u _ _) (abs_nonneg _) (by positivity)) (u _ _) (abs_nonneg _) (by positivity)
      _ = _ := by norm_num

theorem st_guard (bk : Backend) (h : Spec.ScaleTranslate m) (hm : ∀ i j, Spec.Moderate (rmat m i j)) :
    (Scalar.abs (Simd4x4f.detVec bk m).x >=. (fltEps : F32)) = true ↔ 1 / 2 ^ 23 ≤ |(Simd4x4f.detVec bk m).x.val| := by
  have f := (st_det_near bk h hm).1
  have g : Is (Fp.abs (Simd4x4f.detVec bk m).x) |(Simd4x4f.detVec bk m).x.val| := ⟨by simpa using f, val_abs _⟩
  have e := GR.eps_is.le_eq g
  have : (Scalar.abs (Simd4x4f.detVec bk m).x >=. (fltEps : F32)) = ((fltEps : ℝ) <=. |(Simd4x4f.detVec bk m).x.val|) := e
  rw [this, RealScalar.le_eq, fltEps_real]
  norm_num [eps]

theorem st_core (bk : Backend) (h : Spec.ScaleTranslate m) (hm : ∀ i j, Spec.Moderate (rmat m i j))
    (hd : (1 + 1 / 2 ^ 20) / 2 ^ 23 ≤ |(rmat m).det|) {δ : ℝ} (hδ : δ ≤ 1 / 2 ^ 20)
    (hg : (Simd4f.div1 bk f1 (Simd4x4f.detVec bk m).x).isFin = true)
    (he : |(Simd4f.div1 bk f1 (Simd4x4f.detVec bk m).x).val - 1 / (Simd4x4f.detVec bk m).x.val| ≤ δ * |1 / (Simd4x4f.detVec bk m).x.val|) :
    ∃ r, GMatrix.inverse bk m = some r ∧ FinMat r ∧
      ∀ i j, |rmat r i j - (rmat m)⁻¹ i j| ≤ (δ + 13 / 2 ^ 24) * |(rmat m)⁻¹ i j| := by
  obtain ⟨f, e, du⟩ := st_det_near bk h hm
  have D1 : 1 / 2 ^ 23 < |(rmat m).det| := lt_of_lt_of_le (by norm_num) hd
  have D0 : 0 < |(rmat m).det| := lt_trans (by positivity) D1
  have gd := st_guard bk h hm
  generalize hD' : (Simd4x4f.detVec bk m).x.val = D' at *
  have l2 := abs_sub_abs_le_abs_sub (-(rmat m).det) D'
  rw [_root_.abs_sub_comm, _root_.abs_neg] at l2
  have lD : (1 - 6 / 2 ^ 24) * |(rmat m).det| ≤ |D'| := by linarith
  obtain ⟨r, hr, en⟩ := inverse_eq bk m (gd.2 (by norm_num at lD hd ⊢; linarith))
  have D'0 : 0 < |D'| := lt_of_lt_of_le (mul_pos (by norm_num) D0) lD
  have n0 : -(rmat m).det ≠ 0 := neg_ne_zero.2 (abs_pos.1 D0)
  have n0' : D' ≠ 0 := abs_pos.1 D'0
  have inv : |1 / D' - 1 / -(rmat m).det| ≤ 13/2 / 2 ^ 24 * |1 / -(rmat m).det| := by
    have : 1 / D' - 1 / -(rmat m).det = (-(rmat m).det - D') / D' * (1 / -(rmat m).det) := by
      generalize -(rmat m).det = E at *
      field_simp
    rw [this, abs_mul, abs_div]
    refine mul_le_mul_of_nonneg_right ?_ (abs_nonneg _)
    rw [div_le_iff₀ D'0, _root_.abs_sub_comm]
    refine e.trans ?_
    norm_num at lD ⊢
    linarith
  have l3 := abs_sub_abs_le_abs_sub (1 / D') (1 / -(rmat m).det)
  have d0 : 0 ≤ δ := by
    have h1 : 0 < |1 / D'| := abs_pos.2 (one_div_ne_zero n0')
    exact nonneg_of_mul_nonneg_left ((abs_nonneg _).trans he) h1
  have a1 : |1 / -(rmat m).det| = 1 / |(rmat m).det| := by rw [abs_div, abs_one, _root_.abs_neg]
  have he' : |(Simd4f.div1 bk f1 (Simd4x4f.detVec bk m).x).val - 1 / -(rmat m).det| ≤ (δ + 7 / 2 ^ 24) * |1 / -(rmat m).det| := by
    have tri := abs_add_le ((Simd4f.div1 bk f1 (Simd4x4f.detVec bk m).x).val - 1 / D') (1 / D' - 1 / -(rmat m).det)
    rw [sub_add_sub_cancel] at tri
    have P0 : 0 ≤ |1 / -(rmat m).det| := abs_nonneg _
    have q : δ * |1 / D'| ≤ δ * ((1 + 13/2 / 2 ^ 24) * |1 / -(rmat m).det|) := mul_le_mul_of_nonneg_left (by linarith) d0
    have q2 : δ * |1 / -(rmat m).det| ≤ 1 / 2 ^ 20 * |1 / -(rmat m).det| := mul_le_mul_of_nonneg_right hδ P0
    generalize |1 / -(rmat m).det| = Q at *
    norm_num at *
    linarith
  have key : ∀ i j, (mat r i j).isFin = true ∧ |(mat r i j).val - (rmat m)⁻¹ i j| ≤ ((δ + 7 / 2 ^ 24) + 6 / 2 ^ 24) * |(rmat m)⁻¹ i j| := by
    intro i j
    rw [en, inv_cofs bk D1]
    refine st_entry (st_cofs bk h (st_rel h hm) j i) hg ?_ ?_ he' (by norm_num at hδ ⊢; linarith)
    · rw [a1]; exact (by norm_num : (1 : ℝ) / 2 ^ 61 ≤ 1 / 2 ^ 60).trans (one_div_le_one_div_of_le D0 du)
    · rw [a1]; exact (one_div_le_one_div_of_le (by positivity) D1.le).trans (by norm_num)
  refine ⟨r, hr, fun i j => (key i j).1, fun i j => (key i j).2.trans (le_of_eq (by ring))⟩

theorem st_none (bk : Backend) (h : Spec.ScaleTranslate m) (hm : ∀ i j, Spec.Moderate (rmat m i j))
    (hd : |(rmat m).det| ≤ (1 - 1 / 2 ^ 20) / 2 ^ 23) : GMatrix.inverse bk m = none := by
  obtain ⟨f, e, du⟩ := st_det_near bk h hm
  have l2 := abs_sub_abs_le_abs_sub (Simd4x4f.detVec bk m).x.val (-(rmat m).det)
  rw [_root_.abs_neg] at l2
  rw [GMatrix.inverse, Simd4x4f.inverse]
  refine if_neg (fun c => ?_)
  have := (st_guard bk h hm).1 c
  have : (6 : ℝ) / 2 ^ 24 * |(rmat m).det| ≤ 6 / 2 ^ 24 * ((1 - 1 / 2 ^ 20) / 2 ^ 23) := mul_le_mul_of_nonneg_left hd (by positivity)
  norm_num at *
  linarith

/-- C104: the inverse of a scale-and-translate matrix with moderate entries is computed to a relative error of 2^-20 in
every entry — zero entries are exactly zero — unless the product of the scale factors is below `FLT_EPSILON` (give or
take 2^-20 of it), when no inverse is reported. -/
theorem C104_inverse (bk : Backend) (hb : bk ≠ .neon) (m : M4 F32) (h : Spec.ScaleTranslate m)
    (hm : ∀ i j, Spec.Moderate (rmat m i j)) :
    ((1 + 1 / 2 ^ 20) / 2 ^ 23 ≤ |(rmat m).det| → ∃ r, GMatrix.inverse bk m = some r ∧ FinMat r ∧
      ∀ i j, |rmat r i j - (rmat m)⁻¹ i j| ≤ 1 / 2 ^ 20 * |(rmat m)⁻¹ i j|) ∧
    (|(rmat m).det| ≤ (1 - 1 / 2 ^ 20) / 2 ^ 23 → GMatrix.inverse bk m = none) := by
  refine ⟨fun hd => ?_, st_none bk h hm⟩
  obtain ⟨f, e, du⟩ := st_det_near bk h hm
  have l2 := abs_sub_abs_le_abs_sub (-(rmat m).det) (Simd4x4f.detVec bk m).x.val
  rw [_root_.abs_sub_comm, _root_.abs_neg] at l2
  have l3 := abs_sub_abs_le_abs_sub (Simd4x4f.detVec bk m).x.val (-(rmat m).det)
  rw [_root_.abs_neg] at l3
  replace l2 := l2.trans e
  replace l3 := l3.trans e
  obtain ⟨-, g1, g2⟩ := div_det_near bk hb f (by norm_num at hd l2 ⊢; linarith) (by norm_num at du l3 ⊢; linarith)
  obtain ⟨r, hr, hf, ha⟩ := st_core bk h hm hd (by norm_num) g1 g2
  exact ⟨r, hr, hf, fun i j => (ha i j).trans (mul_le_mul_of_nonneg_right (by norm_num) (abs_nonneg _))⟩

/-- C104 on NEON, whose division is a refined reciprocal estimate: relative error 2^-19. -/
theorem C104_inverse_neon (he : Spec.EstAccurate .neon) (m : M4 F32) (h : Spec.ScaleTranslate m)
    (hm : ∀ i j, Spec.Moderate (rmat m i j)) :
    ((1 + 1 / 2 ^ 20) / 2 ^ 23 ≤ |(rmat m).det| → ∃ r, GMatrix.inverse .neon m = some r ∧ FinMat r ∧
      ∀ i j, |rmat r i j - (rmat m)⁻¹ i j| ≤ 1 / 2 ^ 19 * |(rmat m)⁻¹ i j|) ∧
    (|(rmat m).det| ≤ (1 - 1 / 2 ^ 20) / 2 ^ 23 → GMatrix.inverse .neon m = none) := by
  refine ⟨fun hd => ?_, st_none .neon h hm⟩
  obtain ⟨f, e, du⟩ := st_det_near .neon h hm
  have l2 := abs_sub_abs_le_abs_sub (-(rmat m).det) (Simd4x4f.detVec .neon m).x.val
  rw [_root_.abs_sub_comm, _root_.abs_neg] at l2
  have l3 := abs_sub_abs_le_abs_sub (Simd4x4f.detVec .neon m).x.val (-(rmat m).det)
  rw [_root_.abs_neg] at l3
  replace l2 := l2.trans e
  replace l3 := l3.trans e
  have p : 1 / 2 ^ 24 ≤ |(Simd4x4f.detVec .neon m).x.val| := by norm_num at hd l2 ⊢; linarith
  have n0 : (Simd4x4f.detVec .neon m).x.val ≠ 0 := abs_pos.1 (lt_of_lt_of_le (by positivity) p)
  obtain ⟨g1, g2⟩ := Newton.recip1_near .neon he f (by norm_num at p ⊢; linarith) (by norm_num at du l3 ⊢; linarith) (by simp)
  have d : Simd4f.div1 .neon f1 (Simd4x4f.detVec .neon m).x = Simd4f.recip1 .neon (Simd4x4f.detVec .neon m).x := one_mul32 _
  obtain ⟨r, hr, hf, ha⟩ := st_core .neon h hm hd (δ := 1 / 2 ^ 20) le_rfl (by rw [d]; exact g1) (by
    rw [d]
    generalize (Simd4f.recip1 Backend.neon (Simd4x4f.detVec Backend.neon m).x).val = R at *
    generalize (Simd4x4f.detVec Backend.neon m).x.val = E at *
    have : R - 1 / E = (R * E - 1) * (1 / E) := by
      rw [sub_mul, mul_assoc, mul_one_div_cancel n0, mul_one, _root_.one_mul]
    rw [this, abs_mul]
    exact mul_le_mul_of_nonneg_right g2 (abs_nonneg _))
  exact ⟨r, hr, hf, fun i j => (ha i j).trans (mul_le_mul_of_nonneg_right (by norm_num) (abs_nonneg _))⟩


theorem st_exactR (h : Spec.ScaleTranslate m) (ha : |rmat m 0 0| = 1) (hb : |rmat m 1 1| = 1) (hd : |rmat m 2 2| = 1) :
    exactCalc.ST m (rmat m 0 0) (rmat m 1 1) (rmat m 2 2) (rmat m 3 0) (rmat m 3 1) (rmat m 3 2) := by
  have e : ∀ i j (v : ℝ), rmat m i j = v → exactCalc.R 1 (mat m i j) v := by
    rintro i j _ rfl
    exact ⟨h.fin i j, rfl⟩
  have s : ∀ v : ℝ, |v| = 1 → exactCalc.S v := fun v hv => .inr (eq_or_eq_neg_of_abs_eq hv)
  obtain ⟨-, ⟨a, b, c⟩, ⟨d, e', f⟩, ⟨g, i, j⟩, k⟩ := h
  exact ⟨⟨e 0 0 _ rfl, e 0 1 _ a, e 0 2 _ b, e 0 3 _ c⟩, ⟨e 1 0 _ d, e 1 1 _ rfl, e 1 2 _ e', e 1 3 _ f⟩,
    ⟨e 2 0 _ g, e 2 1 _ i, e 2 2 _ rfl, e 2 3 _ j⟩, ⟨e 3 0 _ rfl, e 3 1 _ rfl, e 3 2 _ rfl, e 3 3 _ k⟩, s _ ha, s _ hb, s _ hd⟩

/-- C104: the inverse of a translation — or of a translation combined with reflections of the axes — is exact, whatever
the finite displacement. -/
theorem C104_translation (bk : Backend) (hb : bk ≠ .neon) (m : M4 F32) (h : Spec.ScaleTranslate m)
    (h0 : |rmat m 0 0| = 1) (h1 : |rmat m 1 1| = 1) (h2 : |rmat m 2 2| = 1) :
    ∃ r, GMatrix.inverse bk m = some r ∧ FinMat r ∧ rmat r = (rmat m)⁻¹ := by
  have c := st_exactR h h0 h1 h2
  have dd : Is (Simd4x4f.detVec bk m).x (-(rmat m).det) := by rw [st_det h]; exact c.det bk
  have d1 : |(rmat m).det| = 1 := by rw [st_det h, abs_mul, abs_mul, h0, h1, h2]; norm_num
  have ga : (Scalar.abs (Simd4x4f.detVec bk m).x >=. (fltEps : F32)) = true := by
    have g : Is (Fp.abs (Simd4x4f.detVec bk m).x) |(Simd4x4f.detVec bk m).x.val| := ⟨by simpa using dd.fin, val_abs _⟩
    have e := GR.eps_is.le_eq g
    have : (Scalar.abs (Simd4x4f.detVec bk m).x >=. (fltEps : F32)) = ((fltEps : ℝ) <=. |(Simd4x4f.detVec bk m).x.val|) := e
    rw [this, RealScalar.le_eq, fltEps_real, dd.val, _root_.abs_neg, d1]
    norm_num [eps]
  obtain ⟨r, hr, en⟩ := inverse_eq bk m ga
  obtain ⟨g1, -, -⟩ := div_det_near bk hb dd.fin (by rw [dd.val, _root_.abs_neg, d1]; norm_num) (by rw [dd.val, _root_.abs_neg, d1]; norm_num)
  rw [dd.val] at g1
  have u : -(rmat m).det = 1 ∨ -(rmat m).det = -1 := by
    rcases eq_or_eq_neg_of_abs_eq d1 with e | e <;> rw [e] <;> norm_num
  have gi : Is (Simd4f.div1 bk f1 (Simd4x4f.detVec bk m).x) (1 / -(rmat m).det) :=
    g1.is (c := (Simd4x4f.detVec bk m).x) (dd.congr (by rcases u with e | e <;> rw [e] <;> norm_num))
  have key : ∀ i j, Is (mat r i j) ((rmat m)⁻¹ i j) := by
    intro i j
    rw [en, inv_cofs bk (by rw [d1]; norm_num)]
    have q : Is (mat (cofs bk m) j i) (mat (cofs bk (exactMat m)) j i) := st_cofs bk h c j i
    obtain ⟨z, hz⟩ := is_mul_unit' q gi (.inr (.inr (by rcases u with e | e <;> rw [e] <;> norm_num)))
    exact q.mul_of gi hz
  exact ⟨r, hr, fun i j => (key i j).fin, by ext i j; exact (key i j).val⟩


/-- the entries of a translation matrix -/
theorem rmat_translate (t : Point3D F32) :
    rmat (GMatrix.initTranslate t) = !![1, 0, 0, 0; 0, 1, 0, 0; 0, 0, 1, 0; t.x.val, t.y.val, t.z.val, 1] := by
  have z := is_f0.val
  have o := is_f1.val
  ext i j
  fin_cases i <;> fin_cases j <;> first | exact z | exact o | rfl

theorem translate_st (t : Point3D F32) (hx : t.x.isFin = true) (hy : t.y.isFin = true) (hz : t.z.isFin = true) :
    Spec.ScaleTranslate (GMatrix.initTranslate t) := by
  have z := is_f0.fin
  have o := is_f1.fin
  refine ⟨?_, ?_, ?_, ?_, ?_⟩
  · intro i j
    fin_cases i <;> fin_cases j <;> first | exact z | exact o | exact hx | exact hy | exact hz
  all_goals rw [rmat_translate]; simp

/-- C104: the inverse of `init_translate(t)` is the translation by `-t`, exactly. -/
theorem C104_init_translate (bk : Backend) (hb : bk ≠ .neon) (t : Point3D F32) (hx : t.x.isFin = true)
    (hy : t.y.isFin = true) (hz : t.z.isFin = true) :
    ∃ r, GMatrix.inverse bk (GMatrix.initTranslate t) = some r ∧ FinMat r ∧
      rmat r = !![1, 0, 0, 0; 0, 1, 0, 0; 0, 0, 1, 0; -t.x.val, -t.y.val, -t.z.val, 1] := by
  obtain ⟨r, h1, h2, h3⟩ := C104_translation bk hb _ (translate_st t hx hy hz) (by rw [rmat_translate]; simp)
    (by rw [rmat_translate]; simp) (by rw [rmat_translate]; simp)
  refine ⟨r, h1, h2, ?_⟩
  rw [h3, rmat_translate]
  apply Matrix.inv_eq_right_inv
  ext i j
  fin_cases i <;> fin_cases j <;> simp [Matrix.mul_apply, Fin.sum_univ_succ]

/-- C104: undoing a 2D translation subtracts the displacement: each coordinate is the correctly rounded difference. -/
theorem C104_untransform_point (bk : Backend) (hb : bk ≠ .neon) (t : Point3D F32) (p : Point F32) (bounds : Rect F32)
    (hx : t.x.isFin = true) (hy : t.y.isFin = true) (hz : t.z.isFin = true) (hz0 : t.z.val = 0)
    (px : p.x.isFin = true) (py : p.y.isFin = true) :
    ∃ q, GMatrix.untransformPoint bk (GMatrix.initTranslate t) p bounds = some q ∧
      Fp.feq q.x (Fp.sub p.x t.x) = true ∧ Fp.feq q.y (Fp.sub p.y t.y) = true := by
  obtain ⟨r, h1, h2, h3⟩ := C104_init_translate bk hb t hx hy hz
  have e : ∀ i j (v : ℝ), rmat r i j = v → Is (mat r i j) v := by rintro i j _ rfl; exact ⟨h2 i j, rfl⟩
  have d2 : GMatrix.is2d (GMatrix.initTranslate t) = true := by
    have a0 : (Scalar.abs (f0 : F32) <. (fltEps : F32)) = true := by kdecide
    have a1 : (((f1 : F32) -. Scalar.abs (f1 : F32)) <. (fltEps : F32)) = true := by kdecide
    have at' : (Scalar.abs t.z <. (fltEps : F32)) = true := by
      have g : Is (Fp.abs t.z) 0 := ⟨by simpa using hz, by rw [val_abs, hz0, abs_zero]⟩
      have := g.lt_eq GR.eps_is
      refine this.trans ?_
      rw [RealScalar.lt_eq, fltEps_real]; norm_num [eps]
    simp only [GMatrix.is2d, Simd4x4f.is2d, GMatrix.initTranslate, Simd4x4f.init, Simd4f.init, a0, a1, at',
      Bool.and_self, Bool.not_true]
    rfl
  have z := is_f0
  refine ⟨GMatrix.transformPoint r p, ?_, ?_, ?_⟩
  · rw [GMatrix.untransformPoint, if_pos d2, h1]
  · have e1 := ((e 0 0 1 (by rw [h3]; simp)).one_mul (Is.self px)).add_zero ((e 1 0 0 (by rw [h3]; simp)).zero_mul (Is.self py))
    have e2 := ((e 2 0 0 (by rw [h3]; simp)).zero_mul z).zero_add (e 3 0 (-t.x.val) (by rw [h3]; rfl))
    have r1 := rnd_add e1.fin e2.fin
    rw [e1.val, e2.val] at r1
    have r2 := rnd_sub px hx
    rw [sub_eq_add_neg] at r2
    exact r1.feq r2
  · have e1 := ((e 0 1 0 (by rw [h3]; simp)).zero_mul (Is.self px)).zero_add ((e 1 1 1 (by rw [h3]; simp)).one_mul (Is.self py))
    have e2 := ((e 2 1 0 (by rw [h3]; simp)).zero_mul z).zero_add (e 3 1 (-t.y.val) (by rw [h3]; rfl))
    have r1 := rnd_add e1.fin e2.fin
    rw [e1.val, e2.val] at r1
    have r2 := rnd_sub py hy
    rw [sub_eq_add_neg] at r2
    exact r1.feq r2


/-- non-vacuity: scaling by `(3, -1/4, 1)` and then translating by `(100, -7/2, 0)` ... -/
example : ∃ m : M4 F32, Spec.ScaleTranslate m ∧ (∀ i j, Spec.Moderate (rmat m i j)) ∧
    (1 + 1 / 2 ^ 20) / 2 ^ 23 ≤ |(rmat m).det| ∧ rmat m 1 1 = -1 / 4 := by
  have key : ∀ e : ℤ → F32, (∀ n : ℤ, n.natAbs ≤ 400 → Is (e n) (n / 4)) → ∃ m : M4 F32, Spec.ScaleTranslate m ∧
      (∀ i j, Spec.Moderate (rmat m i j)) ∧ (1 + 1 / 2 ^ 20) / 2 ^ 23 ≤ |(rmat m).det| ∧ rmat m 1 1 = -1 / 4 := by
    intro e h
    have a0 := h 0 (by decide)
    have a1 := h 12 (by decide)
    have a2 := h (-1) (by decide)
    have a3 := h 4 (by decide)
    have a4 := h 400 (by decide)
    have a5 := h (-14) (by decide)
    have E : rmat ⟨⟨e 12, e 0, e 0, e 0⟩, ⟨e 0, e (-1), e 0, e 0⟩, ⟨e 0, e 0, e 4, e 0⟩, ⟨e 400, e (-14), e 0, e 4⟩⟩ =
        !![3, 0, 0, 0; 0, -1 / 4, 0, 0; 0, 0, 1, 0; 100, -7 / 2, 0, 1] := by
      ext i j
      fin_cases i <;> fin_cases j
      · exact a1.val.trans (by norm_num)
      · exact a0.val.trans (by norm_num)
      · exact a0.val.trans (by norm_num)
      · exact a0.val.trans (by norm_num)
      · exact a0.val.trans (by norm_num)
      · exact a2.val.trans (by norm_num)
      · exact a0.val.trans (by norm_num)
      · exact a0.val.trans (by norm_num)
      · exact a0.val.trans (by norm_num)
      · exact a0.val.trans (by norm_num)
      · exact a3.val.trans (by norm_num)
      · exact a0.val.trans (by norm_num)
      · exact a4.val.trans (by norm_num)
      · exact a5.val.trans (by norm_num)
      · exact a0.val.trans (by norm_num)
      · exact a3.val.trans (by norm_num)
    have st : Spec.ScaleTranslate ⟨⟨e 12, e 0, e 0, e 0⟩, ⟨e 0, e (-1), e 0, e 0⟩, ⟨e 0, e 0, e 4, e 0⟩, ⟨e 400, e (-14), e 0, e 4⟩⟩ := by
      refine ⟨?_, ?_, ?_, ?_, ?_⟩
      · intro i j
        fin_cases i <;> fin_cases j <;> first | exact a0.fin | exact a1.fin | exact a2.fin | exact a3.fin | exact a4.fin | exact a5.fin
      all_goals rw [E]; simp
    refine ⟨_, st, ?_, ?_, ?_⟩
    · intro i j
      rw [E]
      fin_cases i <;> fin_cases j <;> norm_num [Spec.Moderate]
    · rw [st_det st, E]
      show _ ≤ |(3 : ℝ) * (-1 / 4) * 1|
      norm_num [abs_of_pos, abs_of_neg]
    · rw [E]; simp
  refine key (fun n => Fp.lit n (2 ^ 2)) fun n hn => ?_
  obtain ⟨a, b⟩ := lit_dyadic n 2 (le_trans hn (by decide)) (by decide)
  exact ⟨a, by rw [b]; norm_num⟩

/-- ... and any finite displacement, however large. -/
example (x : F32) (hx : x.isFin = true) : ∃ m : M4 F32, Spec.ScaleTranslate m ∧ |rmat m 0 0| = 1 ∧ rmat m 3 0 = x.val :=
  ⟨GMatrix.initTranslate ⟨x, f0, f0⟩, translate_st _ hx is_f0.fin is_f0.fin, by rw [rmat_translate]; simp, by rw [rmat_translate]; rfl⟩

end Graphene

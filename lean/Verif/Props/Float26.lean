/-
  C117: picking with rays in single precision: spheres, planes, nearest points.
-/
import Verif.Props.Float25
import Verif.Props.Float11
import Verif.Props.Float12

set_option exponentiation.threshold 3000

namespace Graphene
open Fp Spec

/-! ### The real arguments -/

theorem cs3s {a b c d e f A D : ℝ} (hA : 0 ≤ A) (hD : 0 ≤ D) (h1 : a ^ 2 + c ^ 2 + e ^ 2 ≤ A ^ 2) (h2 : b ^ 2 + d ^ 2 + f ^ 2 ≤ D ^ 2) :
    |a * b| + |c * d| + |e * f| ≤ A * D := by
  have h := cs2 (a := √(a ^ 2 + c ^ 2)) (b := √(b ^ 2 + d ^ 2)) (c := e) (d := f) hA hD
    (by rw [Real.sq_sqrt (by positivity)]; linarith) (by rw [Real.sq_sqrt (by positivity)]; linarith)
  have g := cs2 (a := a) (b := b) (c := c) (d := d) (A := √(a ^ 2 + c ^ 2)) (D := √(b ^ 2 + d ^ 2)) (Real.sqrt_nonneg _) (Real.sqrt_nonneg _)
    (by rw [Real.sq_sqrt (by positivity)]) (by rw [Real.sq_sqrt (by positivity)])
  rw [abs_of_nonneg (mul_nonneg (Real.sqrt_nonneg _) (Real.sqrt_nonneg _))] at h
  linarith

/-- what the computed quantities of the ray–sphere test satisfy: `s` is the exact `v·d`, `L` the squared distance of the origin and
the centre, `1 + θ` the squared length of the direction, `q²` the sum of `L` and `r²` -/
structure SphereNear (s L r θ q tca d2 r2 : ℝ) : Prop where
  q0 : 0 < q
  hq : q ^ 2 = L + r ^ 2
  L0 : 0 ≤ L
  hs : s ^ 2 ≤ L * (1 + θ)
  hθ : |θ| ≤ 1 / 2 ^ 17
  tca : |tca - s| ≤ q / 2 ^ 20
  d2 : |d2 - (L - s ^ 2)| ≤ q ^ 2 / 2 ^ 17
  r2 : |r2 - r ^ 2| ≤ q ^ 2 / 2 ^ 22

/-- … and once the discriminant is not negative -/
structure SphereRoots (s L r q tca h t0 t1 : ℝ) : Prop where
  h0 : 0 ≤ h
  hh : |h ^ 2 - (r ^ 2 - (L - s ^ 2))| ≤ q ^ 2 / 2 ^ 15
  t0 : |t0 - (tca - h)| ≤ q / 2 ^ 21
  t1 : |t1 - (tca + h)| ≤ q / 2 ^ 21

/-- the squared distance of the point at parameter `t` from the centre -/
def sphF (s L θ t : ℝ) : ℝ := (1 + θ) * t ^ 2 - 2 * t * s + L

namespace SphereNear
variable {s L r θ q tca d2 r2 h t0 t1 : ℝ}

theorem s_le (n : SphereNear s L r θ q tca d2 r2) : |s| ≤ 101 / 100 * q := by
  obtain ⟨t1, t2⟩ := _root_.abs_le.1 n.hθ
  have q2 : L ≤ q ^ 2 := by rw [n.hq]; nlinarith [sq_nonneg r]
  apply abs_le_of_sq_le_sq _ (by linarith [n.q0])
  have := n.hs
  have h1 : L * (1 + θ) ≤ q ^ 2 * (1 + 1 / 2 ^ 17) := mul_le_mul q2 (by linarith) (by norm_num at t1; linarith) (by positivity)
  nlinarith [sq_nonneg q]

theorem h_le (n : SphereNear s L r θ q tca d2 r2) (m : SphereRoots s L r q tca h t0 t1) : h ≤ 101 / 100 * q := by
  obtain ⟨t1, t2⟩ := _root_.abs_le.1 n.hθ
  obtain ⟨k1, k2⟩ := _root_.abs_le.1 m.hh
  have q2 : L ≤ q ^ 2 := by rw [n.hq]; nlinarith [sq_nonneg r]
  have h1 : L * θ ≤ q ^ 2 * (1 / 2 ^ 17) := (mul_le_mul_of_nonneg_left t2 n.L0).trans (mul_le_mul_of_nonneg_right q2 (by norm_num))
  have h2 := n.hs
  have : h ^ 2 ≤ (101 / 100 * q) ^ 2 := by
    have : r ^ 2 ≤ q ^ 2 := by rw [n.hq]; linarith [n.L0]
    nlinarith [sq_nonneg q]
  exact abs_le_of_sq_le_sq' this (by linarith [n.q0]) |>.2

theorem e0 (n : SphereNear s L r θ q tca d2 r2) (m : SphereRoots s L r q tca h t0 t1) :
    |t0 - (s - h)| ≤ q / 2 ^ 19 ∧ |t1 - (s + h)| ≤ q / 2 ^ 19 := by
  have := n.q0
  obtain ⟨a1, a2⟩ := _root_.abs_le.1 n.tca
  obtain ⟨b1, b2⟩ := _root_.abs_le.1 m.t0
  obtain ⟨c1, c2⟩ := _root_.abs_le.1 m.t1
  constructor <;> rw [_root_.abs_le] <;> constructor <;> norm_num at * <;> linarith

/-- a root solves the quadratic equation -/
theorem root (n : SphereNear s L r θ q tca d2 r2) {k t : ℝ} (hk : |k| ≤ 101 / 100 * q)
    (hh : |k ^ 2 - (r ^ 2 - (L - s ^ 2))| ≤ q ^ 2 / 2 ^ 15) (ht : |t - (s + k)| ≤ q / 2 ^ 19) :
    |sphF s L θ t - r ^ 2| ≤ 9 * q ^ 2 / 2 ^ 17 ∧ |t| ≤ 21 / 10 * q := by
  have q0 := n.q0
  obtain ⟨e, he⟩ : ∃ e, e = t - (s + k) := ⟨_, rfl⟩
  rw [← he] at ht
  have te : t = s + k + e := by rw [he]; ring
  have tb : |t| ≤ 21 / 10 * q := by
    rw [te]
    have h1 := abs_add_le (s + k) e
    have h2 := abs_add_le s k
    have h3 := n.s_le
    norm_num at ht; linarith
  refine ⟨?_, tb⟩
  have E : sphF s L θ t - r ^ 2 = (k ^ 2 - (r ^ 2 - (L - s ^ 2))) + 2 * (k * e) + e ^ 2 + θ * t ^ 2 := by
    unfold sphF; rw [te]; ring
  rw [E]
  have a1 : |k * e| ≤ 101 / 100 * q * (q / 2 ^ 19) := by
    rw [_root_.abs_mul]; exact mul_le_mul hk ht (abs_nonneg _) (by positivity)
  have a2 : |e ^ 2| ≤ (q / 2 ^ 19) ^ 2 := by rw [abs_pow]; exact pow_le_pow_left₀ (abs_nonneg _) ht 2
  have a3 : |θ * t ^ 2| ≤ 1 / 2 ^ 17 * (21 / 10 * q) ^ 2 := by
    rw [_root_.abs_mul, abs_pow]
    exact mul_le_mul n.hθ (pow_le_pow_left₀ (abs_nonneg _) tb 2) (by positivity) (by norm_num)
  have b1 := abs_add_le ((k ^ 2 - (r ^ 2 - (L - s ^ 2))) + 2 * (k * e) + e ^ 2) (θ * t ^ 2)
  have b2 := abs_add_le ((k ^ 2 - (r ^ 2 - (L - s ^ 2))) + 2 * (k * e)) (e ^ 2)
  have b3 := abs_add_le (k ^ 2 - (r ^ 2 - (L - s ^ 2))) (2 * (k * e))
  have b4 : |2 * (k * e)| = 2 * |k * e| := by rw [_root_.abs_mul]; norm_num
  have c1 : 101 / 100 * q * (q / 2 ^ 19) = 101 / 100 * q ^ 2 / 2 ^ 19 := by ring
  have c2 : (q / 2 ^ 19) ^ 2 = q ^ 2 / 2 ^ 38 := by ring
  have c3 : 1 / 2 ^ 17 * (21 / 10 * q) ^ 2 = 441 / 100 * q ^ 2 / 2 ^ 17 := by ring
  rw [c1] at a1; rw [c2] at a2; rw [c3] at a3
  have Q0 : 0 ≤ q ^ 2 := by positivity
  rw [b4] at b3
  clear E te he b4 c1 c2 c3 n
  generalize |θ * t ^ 2| = y1 at *
  generalize |k * e| = y2 at *
  generalize |e ^ 2| = y3 at *
  generalize q ^ 2 = Q at *
  norm_num at a1 a2 a3 hh ⊢
  linarith

theorem roots (n : SphereNear s L r θ q tca d2 r2) (m : SphereRoots s L r q tca h t0 t1) :
    (|sphF s L θ t0 - r ^ 2| ≤ 9 * q ^ 2 / 2 ^ 17 ∧ |t0| ≤ 21 / 10 * q) ∧ (|sphF s L θ t1 - r ^ 2| ≤ 9 * q ^ 2 / 2 ^ 17 ∧ |t1| ≤ 21 / 10 * q) := by
  have h1 := n.h_le m
  have h2 := n.e0 m
  refine ⟨n.root (k := -h) (by rw [_root_.abs_neg, abs_of_nonneg m.h0]; exact h1) (by rw [neg_sq]; exact m.hh) h2.1,
    n.root (k := h) (by rw [abs_of_nonneg m.h0]; exact h1) m.hh h2.2⟩

/-- before the first root the ray is outside -/
theorem before (n : SphereNear s L r θ q tca d2 r2) (m : SphereRoots s L r q tca h t0 t1) {u : ℝ} (u0 : 0 ≤ u) (hu : u ≤ t0) :
    r ^ 2 - q ^ 2 / 2 ^ 12 ≤ sphF s L θ u := by
  obtain ⟨⟨a, b⟩, -⟩ := n.roots m
  obtain ⟨c, -⟩ := n.e0 m
  have q0 := n.q0
  have d := n.s_le
  obtain ⟨a1, -⟩ := _root_.abs_le.1 a
  obtain ⟨-, c2⟩ := _root_.abs_le.1 c
  obtain ⟨-, b2⟩ := _root_.abs_le.1 b
  obtain ⟨θ1, θ2⟩ := _root_.abs_le.1 n.hθ
  have E : sphF s L θ u = sphF s L θ t0 - (t0 - u) * ((1 + θ) * (u + t0) - 2 * s) := by unfold sphF; ring
  have ts : t0 ≤ s + q / 2 ^ 19 := by linarith [m.h0]
  have θs : |θ * s| ≤ 1 / 2 ^ 17 * (101 / 100 * q) := by
    rw [_root_.abs_mul]; exact mul_le_mul n.hθ d (abs_nonneg _) (by norm_num)
  have f1 : (1 + θ) * (u + t0) - 2 * s ≤ q / 2 ^ 15 := by
    have : (1 + θ) * (u + t0) ≤ (1 + θ) * (2 * (s + q / 2 ^ 19)) := mul_le_mul_of_nonneg_left (by linarith) (by norm_num at θ1; linarith)
    have h2 : θ * (q / 2 ^ 19) ≤ 1 * (q / 2 ^ 19) := mul_le_mul_of_nonneg_right (by norm_num at θ2; linarith) (by positivity)
    have h3 := le_of_abs_le θs
    have e : (1 + θ) * (2 * (s + q / 2 ^ 19)) = 2 * s + 2 * (θ * s) + 2 * (q / 2 ^ 19) + 2 * (θ * (q / 2 ^ 19)) := by ring
    rw [e] at this
    norm_num at *; linarith
  have f2 : (t0 - u) * ((1 + θ) * (u + t0) - 2 * s) ≤ 21 / 10 * q * (q / 2 ^ 15) :=
    (mul_le_mul_of_nonneg_left f1 (by linarith)).trans (mul_le_mul_of_nonneg_right (by linarith) (by positivity))
  have f3 : 21 / 10 * q * (q / 2 ^ 15) = 21 / 10 * q ^ 2 / 2 ^ 15 := by ring
  rw [f3] at f2
  rw [E]
  have Q0 : 0 ≤ q ^ 2 := by positivity
  generalize q ^ 2 = Q at *
  norm_num at *; linarith

/-- after the second root the ray is outside -/
theorem after (n : SphereNear s L r θ q tca d2 r2) (m : SphereRoots s L r q tca h t0 t1) {u : ℝ} (hu : t1 ≤ u) :
    r ^ 2 - q ^ 2 / 2 ^ 12 ≤ sphF s L θ u := by
  obtain ⟨-, ⟨a, b⟩⟩ := n.roots m
  obtain ⟨-, c⟩ := n.e0 m
  have q0 := n.q0
  obtain ⟨a1, -⟩ := _root_.abs_le.1 a
  obtain ⟨c1, -⟩ := _root_.abs_le.1 c
  obtain ⟨θ1, θ2⟩ := _root_.abs_le.1 n.hθ
  obtain ⟨x, hx⟩ : ∃ x, x = u - t1 := ⟨_, rfl⟩
  have x0 : 0 ≤ x := by rw [hx]; linarith
  have E : sphF s L θ u = sphF s L θ t1 + ((1 + θ) * x ^ 2 + 2 * (x * (θ * t1 + (t1 - s)))) := by
    unfold sphF; rw [hx]; ring
  have θt : |θ * t1| ≤ 1 / 2 ^ 17 * (21 / 10 * q) := by
    rw [_root_.abs_mul]; exact mul_le_mul n.hθ b (abs_nonneg _) (by norm_num)
  have f1 : -(q / 2 ^ 15) ≤ θ * t1 + (t1 - s) := by
    have := neg_le_of_abs_le θt
    have := m.h0
    norm_num at *; linarith
  have f2 : -(x * (q / 2 ^ 15)) ≤ x * (θ * t1 + (t1 - s)) := by
    have := mul_le_mul_of_nonneg_left f1 x0
    linarith
  have f3 : x ^ 2 / 2 ≤ (1 + θ) * x ^ 2 := by
    have := mul_le_mul_of_nonneg_right (show 1 / 2 ≤ 1 + θ by norm_num at θ1; linarith) (sq_nonneg x)
    linarith
  have f4 : 0 ≤ (x / 2 - 2 * (q / 2 ^ 15)) ^ 2 := sq_nonneg _
  have f5 : (x / 2 - 2 * (q / 2 ^ 15)) ^ 2 = x ^ 2 / 4 - 2 * (x * (q / 2 ^ 15)) + 4 * q ^ 2 / 2 ^ 30 := by ring
  rw [f5] at f4
  rw [E]
  have Q0 : 0 ≤ q ^ 2 := by positivity
  have X0 : 0 ≤ x ^ 2 := by positivity
  generalize q ^ 2 = Q at *
  generalize x * (q / 2 ^ 15) = y at *
  generalize x * (θ * t1 + (t1 - s)) = z at *
  generalize (1 + θ) * x ^ 2 = z' at *
  norm_num at *; linarith

/-- a point of the ray well inside: the discriminant is positive -/
theorem hit1 (n : SphereNear s L r θ q tca d2 r2) {t : ℝ} (ht : sphF s L θ t ≤ r ^ 2 - q ^ 2 / 2 ^ 12) : d2 ≤ r2 := by
  obtain ⟨a1, a2⟩ := _root_.abs_le.1 n.d2
  obtain ⟨b1, b2⟩ := _root_.abs_le.1 n.r2
  obtain ⟨θ1, θ2⟩ := _root_.abs_le.1 n.hθ
  have q0 := n.q0
  have k : (1 + θ) * L - s ^ 2 ≤ (1 + θ) * (r ^ 2 - q ^ 2 / 2 ^ 12) := by
    have e : (1 + θ) * sphF s L θ t = ((1 + θ) * t - s) ^ 2 + ((1 + θ) * L - s ^ 2) := by unfold sphF; ring
    have := mul_le_mul_of_nonneg_left ht (show 0 ≤ 1 + θ by norm_num at θ1; linarith)
    rw [e] at this
    nlinarith [sq_nonneg ((1 + θ) * t - s)]
  have e2 : (1 + θ) * (r ^ 2 - q ^ 2 / 2 ^ 12) - (1 + θ) * L = r ^ 2 - q ^ 2 / 2 ^ 12 - L + θ * (r ^ 2 - q ^ 2 / 2 ^ 12 - L) := by ring
  have k2 : |r ^ 2 - q ^ 2 / 2 ^ 12 - L| ≤ 2 * q ^ 2 := by
    have h1 : r ^ 2 ≤ q ^ 2 := by rw [n.hq]; linarith [n.L0]
    have h2 : L ≤ q ^ 2 := by rw [n.hq]; nlinarith [sq_nonneg r]
    have h3 := sq_nonneg r
    have h4 := n.L0
    rw [_root_.abs_le]
    generalize q ^ 2 = Q at *
    constructor <;> norm_num <;> linarith
  have k3 : |θ * (r ^ 2 - q ^ 2 / 2 ^ 12 - L)| ≤ 1 / 2 ^ 17 * (2 * q ^ 2) := by
    rw [_root_.abs_mul]; exact mul_le_mul n.hθ k2 (abs_nonneg _) (by norm_num)
  have k4 := le_of_abs_le k3
  have Q0 : 0 ≤ q ^ 2 := by positivity
  generalize q ^ 2 = Q at *
  generalize θ * (r ^ 2 - Q / 2 ^ 12 - L) = z at *
  norm_num at *; linarith

theorem hit2 (n : SphereNear s L r θ q tca d2 r2) (m : SphereRoots s L r q tca h t0 t1) {t : ℝ} (t00 : 0 ≤ t)
    (ht : sphF s L θ t ≤ r ^ 2 - q ^ 2 / 2 ^ 12) : 0 ≤ t1 := by
  by_contra hc
  push Not at hc
  obtain ⟨θ1, θ2⟩ := _root_.abs_le.1 n.hθ
  obtain ⟨-, c⟩ := n.e0 m
  obtain ⟨c1, -⟩ := _root_.abs_le.1 c
  obtain ⟨k1, k2⟩ := _root_.abs_le.1 m.hh
  have q0 := n.q0
  have h0 := m.h0
  have sh : s + h < q / 2 ^ 19 := by linarith
  have Q0 : 0 < q ^ 2 := by positivity
  have sl := n.s_le
  have f : L - q ^ 2 / 2 ^ 36 ≤ sphF s L θ t := by
    rcases le_total s 0 with hs | hs
    · unfold sphF
      have h1 : 0 ≤ (1 + θ) * t ^ 2 := mul_nonneg (by norm_num at θ1; linarith) (sq_nonneg _)
      have h2 : t * s ≤ 0 := mul_nonpos_of_nonneg_of_nonpos t00 hs
      have : 0 ≤ q ^ 2 / 2 ^ 36 := by positivity
      linarith
    · unfold sphF
      have h1 : t ^ 2 / 2 ≤ (1 + θ) * t ^ 2 := by
        have := mul_le_mul_of_nonneg_right (show 1 / 2 ≤ 1 + θ by norm_num at θ1; linarith) (sq_nonneg t)
        linarith
      have h2 : 0 ≤ (t - 2 * s) ^ 2 := sq_nonneg _
      have h3 : s ^ 2 ≤ (q / 2 ^ 19) ^ 2 := pow_le_pow_left₀ hs (by linarith) 2
      have h4 : (q / 2 ^ 19) ^ 2 = q ^ 2 / 2 ^ 38 := by ring
      rw [h4] at h3
      generalize q ^ 2 = Q at *
      norm_num at *; nlinarith
  have g : s ^ 2 + q ^ 2 / 2 ^ 13 ≤ h ^ 2 := by
    generalize q ^ 2 = Q at *
    norm_num at *; linarith
  have g2 : h ^ 2 ≤ (|s| + q / 2 ^ 19) ^ 2 := pow_le_pow_left₀ h0 (by have := neg_abs_le s; linarith) 2
  have g3 : (|s| + q / 2 ^ 19) ^ 2 = s ^ 2 + 2 * (|s| * (q / 2 ^ 19)) + q ^ 2 / 2 ^ 38 := by rw [add_sq, sq_abs]; ring
  have g4 : |s| * (q / 2 ^ 19) ≤ 101 / 100 * q ^ 2 / 2 ^ 19 := by
    have := mul_le_mul_of_nonneg_right sl (show 0 ≤ q / 2 ^ 19 by positivity)
    have e : 101 / 100 * q * (q / 2 ^ 19) = 101 / 100 * q ^ 2 / 2 ^ 19 := by ring
    rwa [e] at this
  rw [g3] at g2
  generalize q ^ 2 = Q at *
  generalize |s| * (q / 2 ^ 19) = z at *
  norm_num at *; linarith

theorem not_leave (n : SphereNear s L r θ q tca d2 r2) (m : SphereRoots s L r q tca h t0 t1) (hL : r ^ 2 + q ^ 2 / 2 ^ 12 < L)
    (h0 : t0 < 0) (h1 : 0 ≤ t1) : False := by
  obtain ⟨b, c⟩ := n.e0 m
  obtain ⟨b1, -⟩ := _root_.abs_le.1 b
  obtain ⟨-, c2⟩ := _root_.abs_le.1 c
  obtain ⟨k1, k2⟩ := _root_.abs_le.1 m.hh
  have q0 := n.q0
  have hl := n.h_le m
  have hh0 := m.h0
  have : |s| ≤ h + q / 2 ^ 19 := by rw [_root_.abs_le]; constructor <;> linarith
  have g2 : |s| ^ 2 ≤ (h + q / 2 ^ 19) ^ 2 := pow_le_pow_left₀ (abs_nonneg _) this 2
  have g3 : (h + q / 2 ^ 19) ^ 2 = h ^ 2 + 2 * (h * (q / 2 ^ 19)) + q ^ 2 / 2 ^ 38 := by ring
  have g4 : h * (q / 2 ^ 19) ≤ 101 / 100 * q ^ 2 / 2 ^ 19 := by
    have := mul_le_mul_of_nonneg_right hl (show 0 ≤ q / 2 ^ 19 by positivity)
    have e : 101 / 100 * q * (q / 2 ^ 19) = 101 / 100 * q ^ 2 / 2 ^ 19 := by ring
    rwa [e] at this
  rw [g3, sq_abs] at g2
  have Q0 : 0 < q ^ 2 := by positivity
  generalize q ^ 2 = Q at *
  generalize h * (q / 2 ^ 19) = z at *
  norm_num at *; linarith

theorem leave (n : SphereNear s L r θ q tca d2 r2) (m : SphereRoots s L r q tca h t0 t1) (hL : L < r ^ 2 - q ^ 2 / 2 ^ 12) : t0 < 0 := by
  by_contra hc
  push Not at hc
  obtain ⟨b, -⟩ := n.e0 m
  obtain ⟨-, b2⟩ := _root_.abs_le.1 b
  obtain ⟨k1, k2⟩ := _root_.abs_le.1 m.hh
  have q0 := n.q0
  have hl := n.s_le
  have hh0 := m.h0
  have : h ≤ |s| + q / 2 ^ 19 := by have := le_abs_self s; linarith
  have g2 : h ^ 2 ≤ (|s| + q / 2 ^ 19) ^ 2 := pow_le_pow_left₀ hh0 this 2
  have g3 : (|s| + q / 2 ^ 19) ^ 2 = s ^ 2 + 2 * (|s| * (q / 2 ^ 19)) + q ^ 2 / 2 ^ 38 := by rw [add_sq, sq_abs]; ring
  have g4 : |s| * (q / 2 ^ 19) ≤ 101 / 100 * q ^ 2 / 2 ^ 19 := by
    have := mul_le_mul_of_nonneg_right hl (show 0 ≤ q / 2 ^ 19 by positivity)
    have e : 101 / 100 * q * (q / 2 ^ 19) = 101 / 100 * q ^ 2 / 2 ^ 19 := by ring
    rwa [e] at this
  rw [g3] at g2
  have Q0 : 0 < q ^ 2 := by positivity
  generalize q ^ 2 = Q at *
  generalize |s| * (q / 2 ^ 19) = z at *
  norm_num at *; linarith

end SphereNear

/-! ### The floating-point side -/

variable [Libm binary32]

/-- `a` is the rounding of `x`: relative error at most one unit -/
def Near (a : F32) (x : ℝ) : Prop := a.isFin = true ∧ |a.val - x| ≤ |x| / 2 ^ 24

omit [Libm binary32] in
theorem Near.self {a : F32} (h : a.isFin = true) : Near a a.val := ⟨h, by rw [sub_self, abs_zero]; positivity⟩

omit [Libm binary32] in
theorem near_sub {a b : F32} (ha : a.isFin = true) (hb : b.isFin = true) (h : |a.val - b.val| ≤ 2 ^ 126) : Near (Fp.sub a b) (a.val - b.val) := by
  have r := rnd_sub ha hb
  have f := r.isFin hp32 (h.trans (_root_.le_trans (by norm_num) le_max32))
  have e := Approx.sub_exact hp32 ha hb (h.trans (_root_.le_trans (by norm_num) le_max32))
  have := e.err
  rw [u32] at this
  refine ⟨f, this.trans (by norm_num; linarith)⟩

omit [Libm binary32] in
theorem near_prod {a b : F32} {x u : ℝ} (ha : Near a x) (hb : Near b u) :
    |a.val * b.val| ≤ |x * u| * (1 + 1 / 2 ^ 22) ∧ |a.val * b.val - x * u| ≤ |x * u| * (1 / 2 ^ 23 + 1 / 2 ^ 48) := by
  have x0 := abs_nonneg x
  have u0 := abs_nonneg u
  have E : |a.val * b.val - x * u| ≤ |x * u| * (1 / 2 ^ 23 + 1 / 2 ^ 48) := by
    rw [show a.val * b.val - x * u = (a.val - x) * (b.val - u) + x * (b.val - u) + (a.val - x) * u by ring]
    have h1 := abs_add_le ((a.val - x) * (b.val - u) + x * (b.val - u)) ((a.val - x) * u)
    have h2 := abs_add_le ((a.val - x) * (b.val - u)) (x * (b.val - u))
    rw [_root_.abs_mul (a.val - x) u] at h1
    rw [_root_.abs_mul, _root_.abs_mul] at h2
    have k1 := mul_le_mul ha.2 hb.2 (abs_nonneg _) (by positivity)
    have k2 := mul_le_mul_of_nonneg_left hb.2 x0
    have k3 := mul_le_mul_of_nonneg_right ha.2 u0
    have e1 : |x| / 2 ^ 24 * (|u| / 2 ^ 24) = |x| * |u| / 2 ^ 48 := by ring
    have e2 : |x| * (|u| / 2 ^ 24) = |x| * |u| / 2 ^ 24 := by ring
    have e3 : |x| / 2 ^ 24 * |u| = |x| * |u| / 2 ^ 24 := by ring
    rw [e1] at k1; rw [e2] at k2; rw [e3] at k3
    rw [_root_.abs_mul x u]
    generalize |x| * |u| = p at *
    norm_num at *; linarith
  refine ⟨?_, E⟩
  have h := abs_add_le (a.val * b.val - x * u) (x * u)
  rw [sub_add_cancel] at h
  have := abs_nonneg (x * u)
  generalize |x * u| = p at *
  norm_num [-_root_.abs_mul] at E h ⊢; linarith

/-- the inner product of two rounded vectors -/
theorem dot3_near (bk : Backend) (a b : Vec3 F32) {x y z u v w A B : ℝ} (hx : Near a.getX x) (hy : Near a.getY y) (hz : Near a.getZ z)
    (hu : Near b.getX u) (hv : Near b.getY v) (hw : Near b.getZ w) (A0 : 0 ≤ A) (B0 : 0 ≤ B) (hA : x ^ 2 + y ^ 2 + z ^ 2 ≤ A ^ 2)
    (hB : u ^ 2 + v ^ 2 + w ^ 2 ≤ B ^ 2) (hAB : A * B ≤ 2 ^ 125) :
    (Vec3.dot bk a b).isFin = true ∧ |(Vec3.dot bk a b).val - (x * u + y * v + z * w)| ≤ A * B / 2 ^ 21 + 1 / 2 ^ 147 := by
  have c := cs3s A0 B0 hA hB
  obtain ⟨p1, q1⟩ := near_prod hx hu
  obtain ⟨p2, q2⟩ := near_prod hy hv
  obtain ⟨p3, q3⟩ := near_prod hz hw
  have AB0 := mul_nonneg A0 B0
  have S : |a.getX.val * b.getX.val| + |a.getY.val * b.getY.val| + |a.getZ.val * b.getZ.val| ≤ A * B * (1 + 1 / 2 ^ 22) := by
    have := mul_le_mul_of_nonneg_right c (show (0 : ℝ) ≤ 1 + 1 / 2 ^ 22 by norm_num)
    linarith
  have T : |(a.getX.val * b.getX.val + a.getY.val * b.getY.val + a.getZ.val * b.getZ.val) - (x * u + y * v + z * w)| ≤ A * B * (1 / 2 ^ 23 + 1 / 2 ^ 48) := by
    have := mul_le_mul_of_nonneg_right c (show (0 : ℝ) ≤ 1 / 2 ^ 23 + 1 / 2 ^ 48 by norm_num)
    rw [show (a.getX.val * b.getX.val + a.getY.val * b.getY.val + a.getZ.val * b.getZ.val) - (x * u + y * v + z * w) =
      (a.getX.val * b.getX.val - x * u) + (a.getY.val * b.getY.val - y * v) + (a.getZ.val * b.getZ.val - z * w) by ring]
    have h1 := abs_add_le ((a.getX.val * b.getX.val - x * u) + (a.getY.val * b.getY.val - y * v)) (a.getZ.val * b.getZ.val - z * w)
    have h2 := abs_add_le (a.getX.val * b.getX.val - x * u) (a.getY.val * b.getY.val - y * v)
    linarith
  obtain ⟨f, e⟩ := C85_dot3 bk a b ⟨hx.1, hy.1, hz.1, hu.1, hv.1, hw.1⟩ (S.trans (by
    generalize A * B = p at *; norm_num at hAB ⊢; linarith))
  refine ⟨f, ?_⟩
  have h := abs_add_le ((Vec3.dot bk a b).val - (a.getX.val * b.getX.val + a.getY.val * b.getY.val + a.getZ.val * b.getZ.val))
    ((a.getX.val * b.getX.val + a.getY.val * b.getY.val + a.getZ.val * b.getZ.val) - (x * u + y * v + z * w))
  rw [sub_add_sub_cancel] at h
  have e' : dotErr (|a.getX.val * b.getX.val| + |a.getY.val * b.getY.val| + |a.getZ.val * b.getZ.val|) ≤ A * B * (1 + 1 / 2 ^ 22) / 2 ^ 22 + 1 / 2 ^ 147 := by
    unfold dotErr; gcongr
  refine h.trans ((add_le_add (e.trans e') T).trans ?_)
  generalize A * B = p at *
  norm_num; linarith

omit [Libm binary32] in
theorem near_add {a b : F32} (ha : a.isFin = true) (hb : b.isFin = true) (h : |a.val + b.val| ≤ 2 ^ 126) : Near (Fp.add a b) (a.val + b.val) := by
  have e := Approx.add_exact hp32 ha hb (h.trans (_root_.le_trans (by norm_num) le_max32))
  have := e.err
  rw [u32] at this
  refine ⟨e.fin, this.trans (by norm_num; linarith)⟩

omit [Libm binary32] in
/-- a difference with bounded operands -/
theorem sub_near' {a b : F32} (ha : a.isFin = true) (hb : b.isFin = true) {A : ℝ} (h : |a.val| + |b.val| ≤ A) (hA : A ≤ 2 ^ 126) :
    (Fp.sub a b).isFin = true ∧ |(Fp.sub a b).val - (a.val - b.val)| ≤ A / 2 ^ 24 := by
  have h1 := (abs_sub a.val b.val).trans h
  have := near_sub ha hb (h1.trans hA)
  exact ⟨this.1, this.2.trans (by gcongr)⟩

omit [Libm binary32] in
theorem add_near' {a b : F32} (ha : a.isFin = true) (hb : b.isFin = true) {A : ℝ} (h : |a.val| + |b.val| ≤ A) (hA : A ≤ 2 ^ 126) :
    (Fp.add a b).isFin = true ∧ |(Fp.add a b).val - (a.val + b.val)| ≤ A / 2 ^ 24 := by
  have h1 := (abs_add_le a.val b.val).trans h
  have := near_add ha hb (h1.trans hA)
  exact ⟨this.1, this.2.trans (by gcongr)⟩

/-- the square of a float -/
theorem sq_near {a : F32} (ha : a.isFin = true) {A : ℝ} (h : a.val ^ 2 ≤ A) (hA : A ≤ 2 ^ 125) :
    (Fp.mul a a).isFin = true ∧ |(Fp.mul a a).val - a.val ^ 2| ≤ A / 2 ^ 24 + 1 / 2 ^ 150 := by
  have e : |a.val * a.val| = a.val ^ 2 := by rw [← sq, abs_of_nonneg (sq_nonneg _)]
  have p := prod_approx ha ha (by rw [e]; norm_num at hA ⊢; linarith)
  refine ⟨p.fin, ?_⟩
  have := p.err
  rw [e, ← sq] at this
  refine this.trans ?_
  generalize a.val ^ 2 = x at *
  norm_num; linarith

/-- the first half of the test -/
theorem sphere_near {tca vv rad : F32} {s L θ q : ℝ} (ht : tca.isFin = true) (hv : vv.isFin = true) (hr : rad.isFin = true)
    (q1 : 1 / 2 ^ 50 ≤ q) (q2 : q ≤ 2 ^ 60) (hq : q ^ 2 = L + rad.val ^ 2) (L0 : 0 ≤ L) (hs : s ^ 2 ≤ L * (1 + θ)) (hθ : |θ| ≤ 1 / 2 ^ 17)
    (et : |tca.val - s| ≤ q / 2 ^ 20) (ev : |vv.val - L| ≤ q ^ 2 / 2 ^ 20) :
    (Fp.sub vv (Fp.mul tca tca)).isFin = true ∧ (Fp.mul rad rad).isFin = true ∧
    SphereNear s L rad.val θ q tca.val (Fp.sub vv (Fp.mul tca tca)).val (Fp.mul rad rad).val := by
  have q0 : 0 < q := lt_of_lt_of_le (by positivity) q1
  have Q1 : 1 / 2 ^ 100 ≤ q ^ 2 := by
    rw [show (1 : ℝ) / 2 ^ 100 = (1 / 2 ^ 50) ^ 2 by norm_num]; exact pow_le_pow_left₀ (by positivity) q1 2
  have Q2 : q ^ 2 ≤ 2 ^ 120 := by
    rw [show (2 : ℝ) ^ 120 = (2 ^ 60) ^ 2 by norm_num]; exact pow_le_pow_left₀ q0.le q2 2
  have rq : rad.val ^ 2 ≤ q ^ 2 := by rw [hq]; linarith
  have Lq : L ≤ q ^ 2 := by rw [hq]; linarith [sq_nonneg rad.val]
  obtain ⟨f2, e2⟩ := sq_near hr rq (Q2.trans (by norm_num))
  have sl : |s| ≤ 101 / 100 * q := by
    obtain ⟨t1, t2⟩ := _root_.abs_le.1 hθ
    apply abs_le_of_sq_le_sq _ (by linarith)
    have h1 : L * (1 + θ) ≤ q ^ 2 * (1 + 1 / 2 ^ 17) := mul_le_mul Lq (by linarith) (by norm_num at t1; linarith) (by positivity)
    nlinarith
  have tl : |tca.val| ≤ 102 / 100 * q := by
    have := abs_add_le (tca.val - s) s
    rw [sub_add_cancel] at this
    norm_num at et; linarith
  have t2 : tca.val ^ 2 ≤ (102 / 100) ^ 2 * q ^ 2 := by
    rw [← sq_abs tca.val, ← _root_.mul_pow]; exact pow_le_pow_left₀ (abs_nonneg _) tl 2
  obtain ⟨f3, e3⟩ := sq_near ht t2 (by norm_num at Q2 ⊢; linarith)
  have e4 : |tca.val ^ 2 - s ^ 2| ≤ 203 / 100 * q ^ 2 / 2 ^ 20 := by
    rw [show tca.val ^ 2 - s ^ 2 = (tca.val - s) * (tca.val + s) by ring, _root_.abs_mul]
    have h1 : |tca.val + s| ≤ 203 / 100 * q := (abs_add_le _ _).trans (by linarith)
    refine (mul_le_mul et h1 (abs_nonneg _) (by positivity)).trans (le_of_eq (by ring))
  have aux : ∀ {a b e B : ℝ}, |a - b| ≤ e → |b| ≤ B → |a| ≤ B + e := by
    intro a b e B h1 h2
    have := abs_add_le (a - b) b
    rw [sub_add_cancel] at this; linarith
  have b1 := aux (B := q ^ 2) ev (by rw [abs_of_nonneg L0]; exact Lq)
  have b2 := aux (B := (102 / 100) ^ 2 * q ^ 2) e3 (by rw [abs_of_nonneg (sq_nonneg _)]; exact t2)
  obtain ⟨f5, e5⟩ := sub_near' hv f3 (A := 21 / 10 * q ^ 2) (by
    generalize q ^ 2 = Q at *; norm_num at *; linarith) (by norm_num at Q2 ⊢; linarith)
  refine ⟨f5, f2, q0, hq, L0, hs, hθ, et, ?_, ?_⟩
  · rw [show (Fp.sub vv (Fp.mul tca tca)).val - (L - s ^ 2) = ((Fp.sub vv (Fp.mul tca tca)).val - (vv.val - (Fp.mul tca tca).val)) + (vv.val - L)
      - ((Fp.mul tca tca).val - tca.val ^ 2) - (tca.val ^ 2 - s ^ 2) by ring]
    have h1 := abs_sub (((Fp.sub vv (Fp.mul tca tca)).val - (vv.val - (Fp.mul tca tca).val)) + (vv.val - L)
      - ((Fp.mul tca tca).val - tca.val ^ 2)) (tca.val ^ 2 - s ^ 2)
    have h2 := abs_sub (((Fp.sub vv (Fp.mul tca tca)).val - (vv.val - (Fp.mul tca tca).val)) + (vv.val - L)) ((Fp.mul tca tca).val - tca.val ^ 2)
    have h3 := abs_add_le ((Fp.sub vv (Fp.mul tca tca)).val - (vv.val - (Fp.mul tca tca).val)) (vv.val - L)
    have Q0 : 0 < q ^ 2 := by positivity
    generalize q ^ 2 = Q at *
    generalize |tca.val ^ 2 - s ^ 2| = y1 at *
    generalize |(Fp.mul tca tca).val - tca.val ^ 2| = y2 at *
    generalize |(Fp.sub vv (Fp.mul tca tca)).val - (vv.val - (Fp.mul tca tca).val)| = y3 at *
    generalize |vv.val - L| = y4 at *
    norm_num at e3 e4 e5 ev Q1 ⊢; linarith
  · refine e2.trans ?_
    generalize q ^ 2 = Q at *
    norm_num at Q1 ⊢; linarith

omit [Libm binary32] in
/-- the second half -/
theorem sphere_roots {tca d2 r2 : F32} {s L r θ q : ℝ} (ht : tca.isFin = true) (hd : d2.isFin = true) (hr : r2.isFin = true)
    (q2 : q ≤ 2 ^ 60) (n : SphereNear s L r θ q tca.val d2.val r2.val) (hle : d2.val ≤ r2.val) :
    (Fp.sub tca (Fp.sqrt (Fp.sub r2 d2))).isFin = true ∧ (Fp.add tca (Fp.sqrt (Fp.sub r2 d2))).isFin = true ∧
    ∃ h, SphereRoots s L r q tca.val h (Fp.sub tca (Fp.sqrt (Fp.sub r2 d2))).val (Fp.add tca (Fp.sqrt (Fp.sub r2 d2))).val := by
  have q0 := n.q0
  have Q0 : 0 < q ^ 2 := by positivity
  have Q2 : q ^ 2 ≤ 2 ^ 120 := by
    rw [show (2 : ℝ) ^ 120 = (2 ^ 60) ^ 2 by norm_num]; exact pow_le_pow_left₀ q0.le q2 2
  have rq : r ^ 2 ≤ q ^ 2 := by rw [n.hq]; linarith [n.L0]
  have Lq : L ≤ q ^ 2 := by rw [n.hq]; linarith [sq_nonneg r]
  have s2 : s ^ 2 ≤ 11 / 10 * q ^ 2 := by
    have := pow_le_pow_left₀ (abs_nonneg _) n.s_le 2
    rw [sq_abs] at this
    nlinarith
  have L0 := n.L0
  obtain ⟨a1, a2⟩ := _root_.abs_le.1 n.d2
  obtain ⟨b1, b2⟩ := _root_.abs_le.1 n.r2
  have r0 := sq_nonneg r
  have s0 := sq_nonneg s
  have dl : |d2.val| ≤ 12 / 10 * q ^ 2 := by
    rw [_root_.abs_le]; generalize q ^ 2 = Q at *; constructor <;> norm_num at * <;> linarith
  have rl : |r2.val| ≤ 11 / 10 * q ^ 2 := by
    rw [_root_.abs_le]; generalize q ^ 2 = Q at *; constructor <;> norm_num at * <;> linarith
  obtain ⟨f1, e1⟩ := sub_near' hr hd (A := 23 / 10 * q ^ 2) (by linarith) (by norm_num at Q2 ⊢; linarith)
  set w := Fp.sub r2 d2
  have w0 : 0 ≤ w.val := by
    have := (rnd_sub hr hd).ge_of (a := zero false) rfl (by rw [val_zero]; linarith)
    rw [le_iff_val rfl (isNaN_of_isFin f1), val_zero] at this
    exact this
  obtain ⟨f2, e2⟩ := sqrt_err hs32 ht32 f1 w0
  rw [u32] at e2
  set h := Fp.sqrt w
  have W0 := Real.sqrt_nonneg w.val
  have WW : √w.val ^ 2 = w.val := Real.sq_sqrt w0
  obtain ⟨c1, c2⟩ := _root_.abs_le.1 e1
  obtain ⟨d1, d2'⟩ := _root_.abs_le.1 e2
  have h0 : 0 ≤ h.val := by linarith
  have eh : |h.val ^ 2 - w.val| ≤ w.val / 2 ^ 22 := by
    rw [show h.val ^ 2 - w.val = (h.val - √w.val) * (h.val + √w.val) by linear_combination WW, _root_.abs_mul]
    have k : |h.val + √w.val| ≤ 21 / 10 * √w.val := by rw [abs_of_nonneg (by linarith)]; linarith
    refine (mul_le_mul e2 k (abs_nonneg _) (by positivity)).trans ?_
    rw [show 1 / 16777216 * √w.val * (21 / 10 * √w.val) = 21 / 10 / 16777216 * √w.val ^ 2 by ring, WW]
    norm_num; linarith
  obtain ⟨g1, g2⟩ := _root_.abs_le.1 eh
  have hh : |h.val ^ 2 - (r ^ 2 - (L - s ^ 2))| ≤ q ^ 2 / 2 ^ 15 := by
    rw [_root_.abs_le]; generalize q ^ 2 = Q at *; constructor <;> norm_num at * <;> linarith
  obtain ⟨tl1, tl2⟩ := _root_.abs_le.1 n.tca
  obtain ⟨sl1, sl2⟩ := _root_.abs_le.1 n.s_le
  have tl : |tca.val| ≤ 102 / 100 * q := by
    rw [_root_.abs_le]; constructor <;> norm_num at * <;> linarith
  have hl : |h.val| ≤ 106 / 100 * q := by
    apply abs_le_of_sq_le_sq _ (by linarith)
    obtain ⟨i1, i2⟩ := _root_.abs_le.1 hh
    have : L * θ ≤ q ^ 2 * (1 / 2 ^ 17) := (mul_le_mul_of_nonneg_left (le_of_abs_le n.hθ) L0).trans (mul_le_mul_of_nonneg_right Lq (by norm_num))
    have hs := n.hs
    rw [_root_.mul_pow]
    generalize q ^ 2 = Q at *
    norm_num at *; linarith
  obtain ⟨f3, e3⟩ := sub_near' ht f2 (A := 21 / 10 * q) (by linarith) (by norm_num at q2 ⊢; linarith)
  obtain ⟨f4, e4⟩ := add_near' ht f2 (A := 21 / 10 * q) (by linarith) (by norm_num at q2 ⊢; linarith)
  exact ⟨f3, f4, h.val, h0, hh, e3.trans (by norm_num; linarith), e4.trans (by norm_num; linarith)⟩

/-! ### Statements -/

/-- the exact point at parameter `t` of the ray given by the floats of `r` -/
noncomputable def Spec.rayPoint (r : Ray F32) (t : ℝ) : Point3D ℝ :=
  ⟨r.getOrigin.x.val + t * r.getDirection.getX.val, r.getOrigin.y.val + t * r.getDirection.getY.val,
    r.getOrigin.z.val + t * r.getDirection.getZ.val⟩

/-- a finite origin, and a direction of unit length up to 2^-17, as `graphene_ray_init` leaves it (C99) -/
def Spec.UnitRay (r : Ray F32) : Prop :=
  FinPoint r.getOrigin ∧ FinPoint ⟨r.getDirection.getX, r.getDirection.getY, r.getDirection.getZ⟩ ∧
  |r.getDirection.getX.val ^ 2 + r.getDirection.getY.val ^ 2 + r.getDirection.getZ.val ^ 2 - 1| ≤ 1 / 2 ^ 17

omit [Libm binary32] in
theorem lagrange_le (a b c x y z : ℝ) : (a * x + b * y + c * z) ^ 2 ≤ (a ^ 2 + b ^ 2 + c ^ 2) * (x ^ 2 + y ^ 2 + z ^ 2) := by
  have := sq_nonneg (a * y - b * x)
  have := sq_nonneg (a * z - c * x)
  have := sq_nonneg (b * z - c * y)
  linarith

theorem sphere_setup (bk : Backend) (r : Ray F32) (s : Sphere F32) (hr : UnitRay r) (hc : FinPoint s.getCenter) (hs : s.getRadius.isFin = true)
    {Q : ℝ} (hQ : Q = distSq (exactPoint3 r.getOrigin) (exactPoint3 s.getCenter) + s.getRadius.val ^ 2) (hQ1 : 1 / 2 ^ 100 ≤ Q) (hQ2 : Q ≤ 2 ^ 120) :
    let v1 := Vec3.subtract s.center r.origin
    let tca := Vec3.dot bk v1 r.direction
    let vv := Vec3.dot bk v1 v1
    ∃ S L θ q : ℝ, q ^ 2 = Q ∧ q ≤ 2 ^ 60 ∧ tca.isFin = true ∧ (Fp.sub vv (Fp.mul tca tca)).isFin = true ∧ (Fp.mul s.radius s.radius).isFin = true ∧
      SphereNear S L s.radius.val θ q tca.val (Fp.sub vv (Fp.mul tca tca)).val (Fp.mul s.radius s.radius).val ∧
      ∀ u, distSq (rayPoint r u) (exactPoint3 s.getCenter) = sphF S L θ u := by
  obtain ⟨⟨o1, o2, o3⟩, ⟨g1, g2, g3⟩, hu⟩ := hr
  obtain ⟨c1, c2, c3⟩ := hc
  intro v1 tca vv
  set rad := s.radius with hrad
  obtain ⟨ox, hox⟩ : ∃ x, x = r.getOrigin.x.val := ⟨_, rfl⟩
  obtain ⟨oy, hoy⟩ : ∃ x, x = r.getOrigin.y.val := ⟨_, rfl⟩
  obtain ⟨oz, hoz⟩ : ∃ x, x = r.getOrigin.z.val := ⟨_, rfl⟩
  obtain ⟨cx, hcx⟩ : ∃ x, x = s.getCenter.x.val := ⟨_, rfl⟩
  obtain ⟨cy, hcy⟩ : ∃ x, x = s.getCenter.y.val := ⟨_, rfl⟩
  obtain ⟨cz, hcz⟩ : ∃ x, x = s.getCenter.z.val := ⟨_, rfl⟩
  obtain ⟨dx, hdx⟩ : ∃ x, x = r.getDirection.getX.val := ⟨_, rfl⟩
  obtain ⟨dy, hdy⟩ : ∃ x, x = r.getDirection.getY.val := ⟨_, rfl⟩
  obtain ⟨dz, hdz⟩ : ∃ x, x = r.getDirection.getZ.val := ⟨_, rfl⟩
  rw [← hdx, ← hdy, ← hdz] at hu
  obtain ⟨L, hL⟩ : ∃ L, L = (cx - ox) ^ 2 + (cy - oy) ^ 2 + (cz - oz) ^ 2 := ⟨_, rfl⟩
  obtain ⟨S, hS⟩ : ∃ S, S = (cx - ox) * dx + (cy - oy) * dy + (cz - oz) * dz := ⟨_, rfl⟩
  obtain ⟨θ, hθ'⟩ : ∃ θ, θ = dx ^ 2 + dy ^ 2 + dz ^ 2 - 1 := ⟨_, rfl⟩
  rw [← hθ'] at hu
  have L0 : 0 ≤ L := by rw [hL]; positivity
  have hQL : Q = L + rad.val ^ 2 := by
    rw [hQ]
    change (r.getOrigin.x.val - s.getCenter.x.val) ^ 2 + (r.getOrigin.y.val - s.getCenter.y.val) ^ 2 + (r.getOrigin.z.val - s.getCenter.z.val) ^ 2 + rad.val ^ 2 = _
    rw [← hox, ← hoy, ← hoz, ← hcx, ← hcy, ← hcz, hL]; ring
  have Q0 : 0 < Q := lt_of_lt_of_le (by positivity) hQ1
  obtain ⟨q, hq⟩ : ∃ q, q = √Q := ⟨_, rfl⟩
  have qq : q ^ 2 = Q := by rw [hq]; exact Real.sq_sqrt Q0.le
  have q1 : 1 / 2 ^ 50 ≤ q := by
    rw [hq]; apply Real.le_sqrt_of_sq_le; norm_num at hQ1 ⊢; linarith
  have q2 : q ≤ 2 ^ 60 := by
    rw [hq]; apply Real.sqrt_le_iff.2 ⟨by positivity, ?_⟩; norm_num at hQ2 ⊢; linarith
  have q0 : 0 ≤ q := by rw [hq]; exact Real.sqrt_nonneg _
  have lq : L ≤ q ^ 2 := by rw [qq, hQL]; linarith [sq_nonneg rad.val]
  have hs2 : S ^ 2 ≤ L * (1 + θ) := by
    have e : 1 + θ = dx ^ 2 + dy ^ 2 + dz ^ 2 := by rw [hθ']; ring
    rw [hS, hL, e]
    exact lagrange_le _ _ _ _ _ _
  obtain ⟨θ1, θ2⟩ := _root_.abs_le.1 hu
  have hl : (cx - ox) ^ 2 + (cy - oy) ^ 2 + (cz - oz) ^ 2 ≤ q ^ 2 := by rw [← hL]; exact lq
  have comp : ∀ {x : ℝ}, x ^ 2 ≤ L → |x| ≤ 2 ^ 126 := by
    intro x hx
    have : |x| ≤ q := abs_le_of_sq_le_sq (hx.trans lq) q0
    exact this.trans (q2.trans (by norm_num))
  have nx : Near v1.getX (cx - ox) := by
    have := near_sub (a := s.getCenter.x) (b := r.getOrigin.x) c1 o1 (by
      rw [← hcx, ← hox]; exact comp (by rw [hL]; linarith [sq_nonneg (cy - oy), sq_nonneg (cz - oz)]))
    rw [← hcx, ← hox] at this; exact this
  have ny : Near v1.getY (cy - oy) := by
    have := near_sub (a := s.getCenter.y) (b := r.getOrigin.y) c2 o2 (by
      rw [← hcy, ← hoy]; exact comp (by rw [hL]; linarith [sq_nonneg (cx - ox), sq_nonneg (cz - oz)]))
    rw [← hcy, ← hoy] at this; exact this
  have nz : Near v1.getZ (cz - oz) := by
    have := near_sub (a := s.getCenter.z) (b := r.getOrigin.z) c3 o3 (by
      rw [← hcz, ← hoz]; exact comp (by rw [hL]; linarith [sq_nonneg (cx - ox), sq_nonneg (cy - oy)]))
    rw [← hcz, ← hoz] at this; exact this
  have mx : Near r.direction.getX dx := by rw [hdx]; exact Near.self g1
  have my : Near r.direction.getY dy := by rw [hdy]; exact Near.self g2
  have mz : Near r.direction.getZ dz := by rw [hdz]; exact Near.self g3
  obtain ⟨ft, et⟩ := dot3_near bk v1 r.direction nx ny nz mx my mz q0 (B := 1 + 1 / 2 ^ 17) (by norm_num) hl
    (by have : dx ^ 2 + dy ^ 2 + dz ^ 2 = 1 + θ := by rw [hθ']; ring
        rw [this]; norm_num at θ2 ⊢; linarith) (by norm_num at q2 ⊢; linarith)
  obtain ⟨fv, ev⟩ := dot3_near bk v1 v1 nx ny nz nx ny nz q0 q0 hl hl (by rw [← sq, qq]; exact hQ2.trans (by norm_num))
  change |tca.val - _| ≤ _ at et
  change |vv.val - _| ≤ _ at ev
  rw [← hS] at et
  have ev' : |vv.val - L| ≤ q ^ 2 / 2 ^ 20 := by
    have e : (cx - ox) * (cx - ox) + (cy - oy) * (cy - oy) + (cz - oz) * (cz - oz) = L := by rw [hL]; ring
    rw [e, ← sq, qq] at ev
    rw [qq]
    refine ev.trans ?_; norm_num at hQ1 ⊢; linarith
  have et' : |tca.val - S| ≤ q / 2 ^ 20 := et.trans (by norm_num at q1 ⊢; linarith)
  obtain ⟨f2, f3, n⟩ := sphere_near (s := S) (θ := θ) ft fv hs q1 q2 (by rw [qq]; exact hQL) L0 hs2 hu et' ev'
  refine ⟨S, L, θ, q, qq, q2, ft, f2, f3, n, fun u => ?_⟩
  change (r.getOrigin.x.val + u * r.getDirection.getX.val - s.getCenter.x.val) ^ 2 + (r.getOrigin.y.val + u * r.getDirection.getY.val - s.getCenter.y.val) ^ 2 +
  (r.getOrigin.z.val + u * r.getDirection.getZ.val - s.getCenter.z.val) ^ 2 = _
  rw [← hox, ← hoy, ← hoz, ← hcx, ← hcy, ← hcz, ← hdx, ← hdy, ← hdz]
  unfold sphF
  rw [hS, hL, hθ']; ring

/-- C117: `graphene_ray_intersect_sphere` in single precision, on every backend.  `Q` is the squared distance of the centre from the
origin of the ray plus the squared radius, `ε = Q / 2^12`.  A reported parameter is finite and not negative, and the exact point
there has squared distance `radius² ± ε` from the centre; up to `ε` the ray is outside before an ENTER and after a LEAVE; a ray with
a point more than `ε` inside is reported, one that stays more than `ε` outside is not; and the kind tells on which side the origin
lies, up to `ε`. -/
theorem C117_sphere (bk : Backend) (r : Ray F32) (s : Sphere F32) (hr : UnitRay r) (hc : FinPoint s.getCenter) (hs : s.getRadius.isFin = true)
    {Q : ℝ} (hQ : Q = distSq (exactPoint3 r.getOrigin) (exactPoint3 s.getCenter) + s.getRadius.val ^ 2) (hQ1 : 1 / 2 ^ 100 ≤ Q) (hQ2 : Q ≤ 2 ^ 120) :
    let k := (r.intersectSphere bk s).1
    let t := (r.intersectSphere bk s).2
    let R2 := s.getRadius.val ^ 2
    let ε := Q / 2 ^ 12
    let f := fun u => distSq (rayPoint r u) (exactPoint3 s.getCenter)
    (k ≠ .none → t.isFin = true ∧ 0 ≤ t.val ∧ |f t.val - R2| ≤ ε) ∧
    (k = .enter → (∀ u, 0 ≤ u → u ≤ t.val → R2 - ε ≤ f u)) ∧
    (k = .leave → (∀ u, t.val ≤ u → R2 - ε ≤ f u)) ∧
    ((∃ u, 0 ≤ u ∧ f u ≤ R2 - ε) → k ≠ .none) ∧
    ((∀ u, 0 ≤ u → R2 + ε < f u) → k = .none) ∧
    (k = .leave → f 0 ≤ R2 + ε) ∧ (k = .enter → R2 - ε ≤ f 0) := by
  intro k t R2 ε f
  obtain ⟨S, L, θ, q, qq, q2, ft, f2, f3, n, feq'⟩ := sphere_setup bk r s hr hc hs hQ hQ1 hQ2
  set v1 := Vec3.subtract s.center r.origin with hv1
  set tca := Vec3.dot bk v1 r.direction with htca
  set vv := Vec3.dot bk v1 v1 with hvv
  set rad := s.radius with hrad
  have feq : ∀ u, f u = sphF S L θ u := feq'
  have Q0 : 0 < Q := lt_of_lt_of_le (by positivity) hQ1
  have R2e : R2 = rad.val ^ 2 := rfl
  have εe : ε = q ^ 2 / 2 ^ 12 := by rw [qq]
  set d2 := Fp.sub vv (Fp.mul tca tca) with hd2
  set r2 := Fp.mul rad rad with hr2
  set h := Fp.sqrt (Fp.sub r2 d2) with hh
  set t0 := Fp.sub tca h with ht0
  set t1 := Fp.add tca h with ht1
  have res : r.intersectSphere bk s = if (r2 <. d2) = true then (.none, f0) else
      if (t0 <. f0 && t1 <. f0) = true then (.none, f0) else if (t0 <. f0) = true then (.leave, t1) else (.enter, t0) := rfl
  have lt2 : (r2 <. d2) = true ↔ r2.val < d2.val := lt_iff_val (isNaN_of_isFin f3) (isNaN_of_isFin f2)
  by_cases hlt : r2.val < d2.val
  · have e : r.intersectSphere bk s = (.none, f0) := by rw [res, if_pos (lt2.2 hlt)]
    have ek : k = .none := by simp only [k, e]
    rw [ek]
    refine ⟨fun h => absurd rfl h, fun h => by simp at h, fun h => by simp at h, ?_, fun _ => rfl, fun h => by simp at h, fun h => by simp at h⟩
    rintro ⟨u, -, h2⟩
    rw [feq, R2e, εe] at h2
    exact absurd (n.hit1 h2) (not_le.2 hlt)
  · obtain ⟨f4, f5, hv, m⟩ := sphere_roots ft f2 f3 q2 n (not_lt.1 hlt)
    change t0.isFin = true at f4
    change t1.isFin = true at f5
    have l0 : (t0 <. f0) = true ↔ t0.val < 0 := by
      rw [f0_eq]; exact (lt_iff_val (isNaN_of_isFin f4) rfl).trans (by rw [val_zero])
    have l1 : (t1 <. f0) = true ↔ t1.val < 0 := by
      rw [f0_eq]; exact (lt_iff_val (isNaN_of_isFin f5) rfl).trans (by rw [val_zero])
    rw [if_neg (fun h => hlt (lt2.1 h))] at res
    obtain ⟨⟨i1, -⟩, ⟨i2, -⟩⟩ := n.roots m
    have small : 9 * q ^ 2 / 2 ^ 17 ≤ ε := by rw [εe, qq]; norm_num; linarith
    have fz : f 0 = L := by rw [feq]; unfold sphF; ring
    by_cases h0 : t0.val < 0
    · by_cases h1 : t1.val < 0
      · have e : r.intersectSphere bk s = (.none, f0) := by rw [res, if_pos (by rw [Bool.and_eq_true]; exact ⟨l0.2 h0, l1.2 h1⟩)]
        have ek : k = .none := by simp only [k, e]
        rw [ek]
        refine ⟨fun h => absurd rfl h, fun h => by simp at h, fun h => by simp at h, ?_, fun _ => rfl, fun h => by simp at h, fun h => by simp at h⟩
        rintro ⟨u, hu0, h2⟩
        rw [feq, R2e, εe] at h2
        exact absurd (n.hit2 m hu0 h2) (not_le.2 h1)
      · have e : r.intersectSphere bk s = (.leave, t1) := by
          rw [res, if_neg (by rw [Bool.and_eq_true]; exact fun h => h1 (l1.1 h.2)), if_pos (l0.2 h0)]
        have ek : k = .leave := by simp only [k, e]
        have et : t = t1 := by simp only [t, e]
        rw [ek, et]
        have pt : |f t1.val - R2| ≤ ε := by rw [feq, R2e]; exact i2.trans small
        refine ⟨fun _ => ⟨f5, not_lt.1 h1, pt⟩, fun h => by simp at h, fun _ u hu => ?_, fun _ => by simp, fun hall => ?_, fun _ => ?_, fun h => by simp at h⟩
        · rw [feq, R2e, εe]; exact n.after m hu
        · have := hall t1.val (not_lt.1 h1)
          linarith [le_of_abs_le pt]
        · by_contra hc
          rw [fz, R2e, εe] at hc
          exact n.not_leave m (not_le.1 hc) h0 (not_lt.1 h1)
    · have e : r.intersectSphere bk s = (.enter, t0) := by
        rw [res, if_neg (by rw [Bool.and_eq_true]; exact fun h => h0 (l0.1 h.1)), if_neg (fun h => h0 (l0.1 h))]
      have ek : k = .enter := by simp only [k, e]
      have et : t = t0 := by simp only [t, e]
      rw [ek, et]
      have pt : |f t0.val - R2| ≤ ε := by rw [feq, R2e]; exact i1.trans small
      refine ⟨fun _ => ⟨f4, not_lt.1 h0, pt⟩, fun _ u hu0 hu => ?_, fun h => by simp at h, fun _ => by simp, fun hall => ?_, fun h => by simp at h, fun _ => ?_⟩
      · rw [feq, R2e, εe]; exact n.before m hu0 hu
      · have := hall t0.val (not_lt.1 h0)
        linarith [le_of_abs_le pt]
      · by_contra hc
        rw [fz, R2e, εe] at hc
        exact h0 (n.leave m (not_le.1 hc))

end Graphene

/-
  Properties C05 (cross product) and C06 (near/equal), over ℝ.
-/
import Verif.Props.Vectors3

namespace Graphene
open Simd4f

/-! ## C05 cross product -/

/-- C05: the cross product is Mathlib's, hence orthogonal to both operands,
anti-commutative, and zero exactly for linearly dependent operands; every backend. -/
theorem C05_cross (bk : Backend) (a b : Vec3 ℝ) :
    Spec.v3 (Vec3.cross bk a b) = crossProduct (Spec.v3 a) (Spec.v3 b) ∧
    Vec3.dot bk a (Vec3.cross bk a b) = 0 ∧ Vec3.dot bk b (Vec3.cross bk a b) = 0 ∧
    Spec.v3 (Vec3.cross bk b a) = -Spec.v3 (Vec3.cross bk a b) ∧
    (Spec.v3 (Vec3.cross bk a b) = 0 ↔ ¬ LinearIndependent ℝ ![Spec.v3 a, Spec.v3 b]) := by
  have key : ∀ a b : Vec3 ℝ, Spec.v3 (Vec3.cross bk a b) = crossProduct (Spec.v3 a) (Spec.v3 b) := by
    intro a b
    rw [cross_apply]; simp [Spec.v3, greal]
  refine ⟨key a b, ?_, ?_, ?_, ?_⟩
  · simp [greal]; ring
  · simp [greal]; ring
  · rw [key, key, ← cross_anticomm]
  · rw [key, ← crossProduct_ne_zero_iff_linearIndependent, not_not]

/-- non-vacuity: `x × y = z` -/
example (bk : Backend) : Spec.v3 (Vec3.cross bk (Vec3.init 1 0 0) (Vec3.init 0 1 0)) = ![0, 0, 1] := by
  simp [Spec.v3, greal]

/-! ## C06 near and equal -/

/-- Euclidean distance of the components -/
noncomputable def Spec.dist2 (a b : Vec2 ℝ) : ℝ := √((a.getX - b.getX) ^ 2 + (a.getY - b.getY) ^ 2)
noncomputable def Spec.dist3 (a b : Vec3 ℝ) : ℝ :=
  √((a.getX - b.getX) ^ 2 + (a.getY - b.getY) ^ 2 + (a.getZ - b.getZ) ^ 2)
noncomputable def Spec.dist4 (a b : Vec4 ℝ) : ℝ :=
  √((a.getX - b.getX) ^ 2 + (a.getY - b.getY) ^ 2 + (a.getZ - b.getZ) ^ 2 + (a.getW - b.getW) ^ 2)

/-- C06 `near`: true exactly when the Euclidean distance is below the tolerance. -/
theorem C06_near (bk : Backend) (a b : Vec2 ℝ) (c d : Vec3 ℝ) (e f : Vec4 ℝ) (ε : ℝ) (hε : 0 ≤ ε) :
    (Vec2.near a b ε = true ↔ Spec.dist2 a b < ε) ∧
    (Vec3.near bk c d ε = true ↔ Spec.dist3 c d < ε) ∧
    (Vec4.near e f ε = true ↔ Spec.dist4 e f < ε) := by
  refine ⟨?_, ?_, ?_⟩
  · unfold Spec.dist2
    rw [Real.sqrt_lt (by positivity) hε]
    simp only [Vec2.near, greal]; simp only [sq]
  · unfold Spec.dist3
    rw [Real.sqrt_lt (by positivity) hε]
    simp only [Vec3.near, greal]; simp only [sq]
  · unfold Spec.dist4
    rw [Real.sqrt_lt (by positivity) hε]
    simp only [Vec4.near, greal]; simp only [sq, add_assoc]

example : Vec2.near (Vec2.init 1 (1 : ℝ)) (Vec2.init 1 (3 / 2)) 1 = true := by
  simp [Vec2.near, greal]; norm_num

theorem cmpEq_real {bk : Backend} (hb : ∀ d, bk ≠ .scalar d) (a b : V4 ℝ) :
    cmpEq bk a b = true ↔ a = b := by
  have : ∀ x y : ℝ, eq1 bk x y = true ↔ x = y := by
    intro x y; cases bk <;> simp [eq1]; exact absurd rfl (hb _)
  simp only [cmpEq, Bool.and_eq_true, this]
  constructor
  · rintro ⟨⟨⟨h1, h2⟩, h3⟩, h4⟩; ext <;> assumption
  · rintro rfl; simp

/-- C06 `equal` on the SSE, GCC and NEON backends: objects compare equal exactly when they
are the same object, identical, or at Euclidean distance below `FLT_EPSILON` (and then
the first two cases are instances of the third). -/
theorem C06_equal (bk : Backend) (hb : ∀ d, bk ≠ .scalar d) (p q : Nat)
    (m2 : Mem (Vec2 ℝ)) (m3 : Mem (Vec3 ℝ)) (m4 : Mem (Vec4 ℝ)) :
    (Vec2.equal bk m2 (some p) (some q) = true ↔ Spec.dist2 (m2 p) (m2 q) < eps) ∧
    (Vec3.equal bk m3 (some p) (some q) = true ↔ Spec.dist3 (m3 p) (m3 q) < eps) ∧
    (Vec4.equal bk m4 (some p) (some q) = true ↔ Spec.dist4 (m4 p) (m4 q) < eps) := by
  have h2 : ∀ a : Vec2 ℝ, Spec.dist2 a a < eps := by intro a; simpa [Spec.dist2] using eps_pos
  have h3 : ∀ a : Vec3 ℝ, Spec.dist3 a a < eps := by intro a; simpa [Spec.dist3] using eps_pos
  have h4 : ∀ a : Vec4 ℝ, Spec.dist4 a a < eps := by intro a; simpa [Spec.dist4] using eps_pos
  have n := C06_near bk (m2 p) (m2 q) (m3 p) (m3 q) (m4 p) (m4 q) eps eps_pos.le
  refine ⟨?_, ?_, ?_⟩
  · by_cases hpq : p = q
    · subst hpq; simp [Vec2.equal, pointerEqual, h2]
    · simp only [Vec2.equal, pointerEqual, Option.some.injEq, hpq, if_false, Vec2.equalV, fltEps_real]
      split
      · rename_i h; rw [cmpEq_real hb] at h
        have : m2 p = m2 q := by ext <;> simp [h]
        simp [this, h2]
      · exact n.1
  · by_cases hpq : p = q
    · subst hpq; simp [Vec3.equal, pointerEqual, h3]
    · simp only [Vec3.equal, pointerEqual, Option.some.injEq, hpq, if_false, Vec3.equalV, fltEps_real]
      split
      · rename_i h; rw [cmpEq_real hb] at h
        have : m3 p = m3 q := by ext <;> simp [h]
        simp [this, h3]
      · exact n.2.1
  · by_cases hpq : p = q
    · subst hpq; simp [Vec4.equal, pointerEqual, h4]
    · simp only [Vec4.equal, pointerEqual, Option.some.injEq, hpq, if_false, Vec4.equalV, fltEps_real]
      split
      · rename_i h; rw [cmpEq_real hb] at h
        have : m4 p = m4 q := by ext <;> simp [h]
        simp [this, h4]
      · exact n.2.2

/-- On the scalar backend `equal` is coarser: it uses a relative tolerance, so vectors at
distance 1 may compare equal. -/
theorem C06_scalar_equal_false (d : Bool) : ∃ (m : Mem (Vec2 ℝ)),
    Vec2.equal (.scalar d) m (some 0) (some 1) = true ∧ ¬ Spec.dist2 (m 0) (m 1) < eps := by
  refine ⟨fun i => if i = 0 then Vec2.init 16777216 0 else Vec2.init 16777217 0, ?_, ?_⟩
  · have h1 : approxEqual (16777216 : ℝ) 16777217 eps = true := by
      simp only [approxEqual, greal]; unfold eps; norm_num
    have h2 : approxEqual (0 : ℝ) 0 eps = true := by
      simp only [approxEqual, greal]; unfold eps; norm_num
    simp [Vec2.equal, pointerEqual, Vec2.equalV, cmpEq, eq1, Vec2.init, Simd4f.init, h1, h2]
  · simp only [Spec.dist2, greal]; unfold eps; norm_num

end Graphene

/- Normalisation of three-component vectors over ℝ, as an equation. -/
import Verif.Props.Vectors3

namespace Graphene
open Simd4f

/-- A vector the library can normalise: longer than `FLT_EPSILON` and, on the scalar backend, of
squared length greater than `FLT_EPSILON` (`C04_scalar_false`). -/
def Spec.Normalisable (bk : Backend) (v : Vec3 ℝ) : Prop :=
  eps ^ 2 < v.getX ^ 2 + v.getY ^ 2 + v.getZ ^ 2 ∧
  rsqrtOk bk (v.getX ^ 2 + v.getY ^ 2 + v.getZ ^ 2)

/-- A squared length above `FLT_EPSILON` is enough on every backend. -/
theorem Spec.Normalisable.of_gt {bk : Backend} {v : Vec3 ℝ}
    (h : eps < v.getX ^ 2 + v.getY ^ 2 + v.getZ ^ 2) : Spec.Normalisable bk v :=
  ⟨lt_trans (by nlinarith [eps_pos, eps_lt_one]) h, Or.inr h⟩

theorem vec3_normalize_eq {bk : Backend} {x y z w : ℝ}
    (h : Spec.Normalisable bk ⟨⟨x, y, z, w⟩⟩) :
    Vec3.normalize bk ⟨⟨x, y, z, w⟩⟩ =
      ⟨⟨x * (√(x ^ 2 + y ^ 2 + z ^ 2))⁻¹, y * (√(x ^ 2 + y ^ 2 + z ^ 2))⁻¹,
        z * (√(x ^ 2 + y ^ 2 + z ^ 2))⁻¹, w * (√(x ^ 2 + y ^ 2 + z ^ 2))⁻¹⟩⟩ := by
  obtain ⟨h1, h2⟩ := h
  simp only [Vec3.getX, Vec3.getY, Vec3.getZ, Simd4f.get] at h1 h2
  have hs : 0 < x ^ 2 + y ^ 2 + z ^ 2 := lt_of_le_of_lt (sq_nonneg _) h1
  have hl : Vec3.length bk ⟨⟨x, y, z, w⟩⟩ = √(x ^ 2 + y ^ 2 + z ^ 2) := by
    rw [vec3_length]; simp [Vec3.getX, Vec3.getY, Vec3.getZ, Simd4f.get, sq]
  have hgt : eps < √(x ^ 2 + y ^ 2 + z ^ 2) := Real.lt_sqrt_of_sq_lt h1
  have hr := rsqrt1_ok hs h2
  have hd : dot3Scalar bk ⟨x, y, z, w⟩ ⟨x, y, z, w⟩ = x ^ 2 + y ^ 2 + z ^ 2 := by
    rw [dot3Scalar_real]; ring
  simp [Vec3.normalize, hl, hgt, normalize3, Simd4f.rsqrt, map1, splat, hr,
    Simd4f.mul, map2, Simd4f.dot3, hd, abs_of_nonneg]

/-- sum of squares of a normalised triple -/
theorem unit_sum {x y z : ℝ} (hs : 0 < x ^ 2 + y ^ 2 + z ^ 2) :
    (x * (√(x ^ 2 + y ^ 2 + z ^ 2))⁻¹) ^ 2 + (y * (√(x ^ 2 + y ^ 2 + z ^ 2))⁻¹) ^ 2 +
      (z * (√(x ^ 2 + y ^ 2 + z ^ 2))⁻¹) ^ 2 = 1 := by
  simp only [mul_pow, inv_sqrt_sq hs]
  rw [← mul_inv_cancel₀ hs.ne']; ring

theorem Spec.Normalisable.pos {bk : Backend} {v : Vec3 ℝ} (h : Spec.Normalisable bk v) :
    0 < v.getX ^ 2 + v.getY ^ 2 + v.getZ ^ 2 := lt_of_le_of_lt (sq_nonneg _) h.1

end Graphene

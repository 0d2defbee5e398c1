/-
  C50, C51: rays against boxes and triangles.
-/
import Verif.Props.Rays1

namespace Graphene
open Spec Simd4f

/-! ## C50 boxes -/

/-- The divisors for which the backend's reciprocal is meaningful: any non-zero number on SSE, NEON
and the scalar backend with IEEE division; larger than `FLT_EPSILON` on GCC and the other one. -/
def Spec.RecipOk (bk : Backend) (v : ℝ) : Prop :=
  v ≠ 0 ∧ (((∃ a b, bk = .sse a b) ∨ bk = .neon ∨ bk = .scalar true) ∨ eps < |v|)

theorem recip1_ok {bk : Backend} {v : ℝ} (h : RecipOk bk v) : recip1 bk v = v⁻¹ := by
  rcases h.2 with hb | hb
  · exact recip1_real' bk h.1 hb
  · exact recip1_real bk hb

theorem slabAxis_real {o d lo hi : ℝ} (hd : d ≠ 0) :
    let s := Ray.slabAxis d⁻¹ ((lo - o) * d⁻¹) ((hi - o) * d⁻¹)
    (∀ t, (lo ≤ o + t * d ∧ o + t * d ≤ hi) ↔ (s.1 ≤ t ∧ t ≤ s.2)) ∧ (lo ≤ hi → s.1 ≤ s.2) := by
  intro s
  by_cases h : 0 ≤ d⁻¹
  · have hp : 0 < d := lt_of_le_of_ne (inv_nonneg.1 h) (Ne.symm hd)
    have e : s = ((lo - o) * d⁻¹, (hi - o) * d⁻¹) := by simp [s, Ray.slabAxis, h, inv_nonneg.1 h]
    rw [e]
    simp only [← div_eq_mul_inv, div_le_iff₀ hp, le_div_iff₀ hp]
    refine ⟨fun t => ⟨fun h => ⟨by linarith, by linarith⟩, fun h => ⟨by linarith, by linarith⟩⟩, ?_⟩
    intro hl
    rw [div_mul_cancel₀ _ hd]; linarith
  · have hp : d < 0 := inv_lt_zero.1 (not_le.1 h)
    have e : s = ((hi - o) * d⁻¹, (lo - o) * d⁻¹) := by
      simp only [s, Ray.slabAxis, RealScalar.le_eq, RealScalar.f0_eq, h, if_false]
    rw [e]
    simp only [← div_eq_mul_inv, div_le_iff_of_neg hp, le_div_iff_of_neg hp]
    refine ⟨fun t => ⟨fun h => ⟨by linarith, by linarith⟩, fun h => ⟨by linarith, by linarith⟩⟩, ?_⟩
    intro hl
    rw [div_mul_cancel₀ _ hd]; linarith

theorem slabMerge_real {s1 s2 : ℝ × ℝ} (h1 : s1.1 ≤ s1.2) (h2 : s2.1 ≤ s2.2) :
    (Ray.slabMerge s1 s2 = none ∧ ∀ t, ¬ ((s1.1 ≤ t ∧ t ≤ s1.2) ∧ (s2.1 ≤ t ∧ t ≤ s2.2))) ∨
    (∃ s, Ray.slabMerge s1 s2 = some s ∧ s.1 ≤ s.2 ∧
      ∀ t, ((s1.1 ≤ t ∧ t ≤ s1.2) ∧ (s2.1 ≤ t ∧ t ≤ s2.2)) ↔ (s.1 ≤ t ∧ t ≤ s.2)) := by
  unfold Ray.slabMerge
  simp only [RealScalar.lt_eq, Bool.or_eq_true, RealScalar.isNaN_eq, Bool.false_eq_true, or_false]
  by_cases h : s2.2 < s1.1 ∨ s1.2 < s2.1
  · left
    rw [if_pos h]
    refine ⟨rfl, ?_⟩
    rintro t ⟨⟨a, b⟩, c, d⟩
    rcases h with h | h <;> linarith
  · right
    rw [if_neg h]
    push Not at h
    refine ⟨_, rfl, ?_, ?_⟩
    · dsimp only; split_ifs <;> linarith [h.1, h.2]
    · intro t; dsimp only
      constructor
      · rintro ⟨⟨a, b⟩, c, d⟩; split_ifs <;> exact ⟨by assumption, by assumption⟩
      · split_ifs <;> rintro ⟨a, b⟩ <;> refine ⟨⟨?_, ?_⟩, ?_, ?_⟩ <;> linarith

/-- C50: for a box with ordered corners and a direction whose components the backend can invert: the
ray intersects exactly when some point of the half-line is in the box; ENTER reports the first
parameter at which the ray is in the box; LEAVE is reported when the ray starts in the box, with the
last parameter in the box. -/
theorem C50_box (bk : Backend) (r : Ray ℝ) (lo hi : Point3D ℝ) (hb : CornersLe lo hi)
    (hx : RecipOk bk (vtx r.direction).x) (hy : RecipOk bk (vtx r.direction).y)
    (hz : RecipOk bk (vtx r.direction).z) :
    let b := Box.init (some lo) (some hi)
    (r.intersectsBox bk b = true ↔ ∃ t, 0 ≤ t ∧ rayAt r t ∈ between lo hi) ∧
    (∀ t, r.intersectBox bk b = (.enter, t) → 0 ≤ t ∧ rayAt r t ∈ between lo hi ∧
      ∀ u, 0 ≤ u → u < t → rayAt r u ∉ between lo hi) ∧
    (∀ t, r.intersectBox bk b = (.leave, t) → 0 ≤ t ∧
      (∀ u, 0 ≤ u → u ≤ t → rayAt r u ∈ between lo hi) ∧ ∀ u, t < u → rayAt r u ∉ between lo hi) ∧
    (rayAt r 0 ∉ between lo hi → (r.intersectBox bk b).1 ≠ .leave) ∧
    (∀ t, r.intersectBox bk b = (.none, t) → t = 0) := by
  intro b
  set o := vtx r.origin with ho
  set d := vtx r.direction with hd
  obtain ⟨x1, x2⟩ := slabAxis_real (o := o.x) (d := d.x) (lo := lo.x) (hi := hi.x) hx.1
  obtain ⟨y1, y2⟩ := slabAxis_real (o := o.y) (d := d.y) (lo := lo.y) (hi := hi.y) hy.1
  obtain ⟨z1, z2⟩ := slabAxis_real (o := o.z) (d := d.z) (lo := lo.z) (hi := hi.z) hz.1
  have x2 := x2 hb.1
  have y2 := y2 hb.2.1
  have z2 := z2 hb.2.2
  have hI : r.intersectBox bk b =
      match Ray.slabMerge (Ray.slabAxis d.x⁻¹ ((lo.x - o.x) * d.x⁻¹) ((hi.x - o.x) * d.x⁻¹))
        (Ray.slabAxis d.y⁻¹ ((lo.y - o.y) * d.y⁻¹) ((hi.y - o.y) * d.y⁻¹)) with
      | none => (.none, f0)
      | some txy =>
        match Ray.slabMerge txy (Ray.slabAxis d.z⁻¹ ((lo.z - o.z) * d.z⁻¹) ((hi.z - o.z) * d.z⁻¹)) with
        | none => (.none, f0)
        | some t => if t.2 <. f0 then (.none, f0) else if t.1 >=. f0 then (.enter, t.1) else (.leave, t.2) := by
    have r1 : recip1 bk r.direction.value.x = d.x⁻¹ := recip1_ok hx
    have r2 : recip1 bk r.direction.value.y = d.y⁻¹ := recip1_ok hy
    have r3 : recip1 bk r.direction.value.z = d.z⁻¹ := recip1_ok hz
    simp only [Ray.intersectBox, b, Box.init, Point3D.toVec3, Vec3.subtract, Simd4f.sub, Simd4f.mul,
      Simd4f.reciprocal, map1, map2, Simd4f.init, r1, r2, r3, RealScalar.sub_eq, RealScalar.mul_eq,
      show r.origin.value.x = o.x from rfl, show r.origin.value.y = o.y from rfl, show r.origin.value.z = o.z from rfl]
    split <;> [skip; split] <;> simp_all
  have hmem : ∀ t, rayAt r t ∈ between lo hi ↔
      ((lo.x ≤ o.x + t * d.x ∧ o.x + t * d.x ≤ hi.x) ∧ (lo.y ≤ o.y + t * d.y ∧ o.y + t * d.y ≤ hi.y)) ∧
      (lo.z ≤ o.z + t * d.z ∧ o.z + t * d.z ≤ hi.z) := by
    intro t
    simp only [between, rayAt, Set.mem_setOf_eq, ho, hd]
    tauto
  simp only [x1, y1, z1] at hmem
  simp only [Ray.intersectsBox]
  generalize Ray.slabAxis d.x⁻¹ ((lo.x - o.x) * d.x⁻¹) ((hi.x - o.x) * d.x⁻¹) = sx at *
  generalize Ray.slabAxis d.y⁻¹ ((lo.y - o.y) * d.y⁻¹) ((hi.y - o.y) * d.y⁻¹) = sy at *
  generalize Ray.slabAxis d.z⁻¹ ((lo.z - o.z) * d.z⁻¹) ((hi.z - o.z) * d.z⁻¹) = sz at *
  have hnone : (∀ t, rayAt r t ∉ between lo hi ∨ t < 0) →
      ((decide ((IntersectionKind.none, (f0 : ℝ)).1 ≠ .none) = true ↔
        ∃ t, 0 ≤ t ∧ rayAt r t ∈ between lo hi) ∧
      (∀ t, (IntersectionKind.none, (f0 : ℝ)) = (.enter, t) → 0 ≤ t ∧ rayAt r t ∈ between lo hi ∧
        ∀ u, 0 ≤ u → u < t → rayAt r u ∉ between lo hi) ∧
      (∀ t, (IntersectionKind.none, (f0 : ℝ)) = (.leave, t) → 0 ≤ t ∧
        (∀ u, 0 ≤ u → u ≤ t → rayAt r u ∈ between lo hi) ∧ ∀ u, t < u → rayAt r u ∉ between lo hi) ∧
      (rayAt r 0 ∉ between lo hi → (IntersectionKind.none, (f0 : ℝ)).1 ≠ .leave) ∧
      (∀ t, (IntersectionKind.none, (f0 : ℝ)) = (.none, t) → t = 0)) := by
    intro h
    refine ⟨⟨by simp, ?_⟩, by simp, by simp, by simp, ?_⟩
    · rintro ⟨t, h0, ht⟩
      rcases h t with h | h
      · exact absurd ht h
      · linarith
    · rintro t ht; simp at ht; exact ht.symm
  rcases slabMerge_real x2 y2 with ⟨e, hn⟩ | ⟨s, e, hs, hn⟩
  · rw [e] at hI
    rw [hI]
    apply hnone
    intro t; left; rw [hmem]; exact fun h => hn t h.1
  rw [e] at hI
  simp only [hn] at hmem
  dsimp only at hI
  rcases slabMerge_real hs z2 with ⟨e', hn'⟩ | ⟨s', e', hs', hn'⟩
  · rw [e'] at hI
    rw [hI]
    apply hnone
    intro t; left; rw [hmem]; exact hn' t
  rw [e'] at hI
  simp only [hn'] at hmem
  dsimp only at hI
  by_cases c1 : s'.2 < 0
  · rw [if_pos (by simpa using c1)] at hI
    rw [hI]
    apply hnone
    intro t
    rw [hmem]
    by_cases ht : t < 0
    · right; exact ht
    · left; rintro ⟨-, h⟩; linarith
  rw [hI]
  by_cases c2 : 0 ≤ s'.1
  · simp only [RealScalar.lt_eq, RealScalar.le_eq, RealScalar.f0_eq, c1, if_false, c2, if_true, hmem]
    refine ⟨⟨fun _ => ⟨s'.1, c2, le_refl _, hs'⟩, by simp⟩, ?_, by simp, by simp, by simp⟩
    intro t ht
    simp only [Prod.mk.injEq, true_and] at ht
    subst ht
    exact ⟨c2, ⟨le_refl _, hs'⟩, fun u _ h2 h3 => absurd h3.1 (not_le.2 h2)⟩
  · simp only [RealScalar.lt_eq, RealScalar.le_eq, RealScalar.f0_eq, c1, if_false, c2, hmem]
    push Not at c1 c2
    refine ⟨⟨fun _ => ⟨0, le_refl _, c2.le, c1⟩, by simp⟩, by simp, ?_, ?_, by simp⟩
    · intro t ht
      simp only [Prod.mk.injEq, true_and] at ht
      subst ht
      exact ⟨c1, fun u h0 h1 => ⟨by linarith, h1⟩, fun u h1 h2 => absurd h2.2 (not_le.2 h1)⟩
    · intro h; exact absurd ⟨c2.le, c1⟩ h

/-- non-vacuity: a diagonal direction is invertible on every backend -/
example (bk : Backend) : RecipOk bk (1 / 2) := by
  refine ⟨by norm_num, Or.inr ?_⟩
  rw [abs_of_pos (by norm_num)]; unfold eps; norm_num

/-! ## C51 triangles -/

/-- C51: for a ray that is not parallel to the plane of the triangle (up to `FLT_EPSILON`): it
intersects exactly when some point of the half-line is in the closed triangle; the reported parameter
is that of the (unique) meeting point; the kind is ENTER when the ray runs against the
counter-clockwise normal, LEAVE when it runs along it.  A parallel ray reports no intersection. -/
theorem C51_triangle (bk : Backend) (r : Ray ℝ) (tr : Triangle ℝ) :
    let ddn := (vtx r.direction).x * (triCross tr).getX + (vtx r.direction).y * (triCross tr).getY +
      (vtx r.direction).z * (triCross tr).getZ
    (eps ≤ |ddn| → (r.intersectsTriangle bk tr = true ↔ ∃ t, 0 ≤ t ∧ rayAt r t ∈ triPts tr)) ∧
    (∀ k t, r.intersectTriangle bk tr = (k, some t) → 0 ≤ t ∧ rayAt r t ∈ triPts tr ∧
      (∀ u, rayAt r u ∈ triPts tr → u = t) ∧
      (k = .enter ∧ ddn < 0 ∨ k = .leave ∧ 0 < ddn)) ∧
    (∀ k, r.intersectTriangle bk tr = (k, none) → k = .none) ∧
    (|ddn| < eps → r.intersectTriangle bk tr = (.none, none)) := by
  intro ddn
  obtain ⟨⟨⟨ox, oy, oz, ow⟩⟩, ⟨⟨dx, dy, dz, dw⟩⟩⟩ := r
  obtain ⟨⟨⟨ax, ay, az, aw⟩⟩, ⟨⟨bx, bym, bz, bw⟩⟩, ⟨⟨cx, cy, cz, cw⟩⟩⟩ := tr
  set R : Ray ℝ := ⟨⟨⟨ox, oy, oz, ow⟩⟩, ⟨⟨dx, dy, dz, dw⟩⟩⟩ with hR
  set T : Triangle ℝ := ⟨⟨⟨ax, ay, az, aw⟩⟩, ⟨⟨bx, bym, bz, bw⟩⟩, ⟨⟨cx, cy, cz, cw⟩⟩⟩ with hT
  -- the four determinants
  set D := dx * ((bym - ay) * (cz - az) - (bz - az) * (cy - ay)) +
    dy * ((bz - az) * (cx - ax) - (bx - ax) * (cz - az)) +
    dz * ((bx - ax) * (cy - ay) - (bym - ay) * (cx - ax)) with hD
  set B := dx * ((oy - ay) * (cz - az) - (oz - az) * (cy - ay)) +
    dy * ((oz - az) * (cx - ax) - (ox - ax) * (cz - az)) +
    dz * ((ox - ax) * (cy - ay) - (oy - ay) * (cx - ax)) with hB
  set C := dx * ((bym - ay) * (oz - az) - (bz - az) * (oy - ay)) +
    dy * ((bz - az) * (ox - ax) - (bx - ax) * (oz - az)) +
    dz * ((bx - ax) * (oy - ay) - (bym - ay) * (ox - ax)) with hC
  set Q := (ox - ax) * ((bym - ay) * (cz - az) - (bz - az) * (cy - ay)) +
    (oy - ay) * ((bz - az) * (cx - ax) - (bx - ax) * (cz - az)) +
    (oz - az) * ((bx - ax) * (cy - ay) - (bym - ay) * (cx - ax)) with hQ
  have hddn : ddn = D := by
    simp only [ddn, hD, R, T, triCross, ccw, vtx, Vec3.getX, Vec3.getY, Vec3.getZ, Simd4f.get]
  have hI : R.intersectTriangle bk T =
      if |D| < eps then (.none, none) else
      let ks : IntersectionKind × ℝ × ℝ := if 0 < D then (.leave, 1, D) else (.enter, -1, -D)
      if ks.2.1 * B < 0 then (.none, none) else
      if ks.2.1 * C < 0 then (.none, none) else
      if ks.2.2 < ks.2.1 * B + ks.2.1 * C then (.none, none) else
      if -ks.2.1 * Q < 0 then (.none, none) else (ks.1, some (-ks.2.1 * Q / ks.2.2)) := by
    simp only [Ray.intersectTriangle, R, T, Vec3.subtract, Simd4f.sub, map2, Vec3.cross, cross3_real, Vec3.dot,
      dot3Scalar_real, RealScalar.sub_eq, RealScalar.f0_eq, RealScalar.f1_eq, RealScalar.lt_eq,
      RealScalar.mul_eq, RealScalar.add_eq, RealScalar.neg_eq, RealScalar.div_eq, RealScalar.lit_eq,
      approxVal_real, sub_zero, ← hD, ← hB, ← hC, ← hQ]
    norm_num
  -- membership in the triangle, by Cramer's rule
  have hmem : D ≠ 0 → ∀ t, rayAt R t ∈ triPts T ↔
      (t * D = -Q ∧ 0 ≤ B / D ∧ 0 ≤ C / D ∧ B / D + C / D ≤ 1) := by
    intro hD0 t
    constructor
    · rintro ⟨α, β, γ, hα, hβ, hγ, hs, ex, ey, ez⟩
      have hα' : α = 1 - β - γ := by linarith
      simp only [rayAt, vtx, R, T, hα'] at ex ey ez
      have e1 : t * D = -Q := by
        rw [hD, hQ]
        linear_combination ((bym - ay) * (cz - az) - (bz - az) * (cy - ay)) * ex +
          ((bz - az) * (cx - ax) - (bx - ax) * (cz - az)) * ey +
          ((bx - ax) * (cy - ay) - (bym - ay) * (cx - ax)) * ez
      have e2 : B = β * D := by
        rw [hB, hD]
        linear_combination ((cy - ay) * dz - (cz - az) * dy) * ex + ((cz - az) * dx - (cx - ax) * dz) * ey +
          ((cx - ax) * dy - (cy - ay) * dx) * ez
      have e3 : C = γ * D := by
        rw [hC, hD]
        linear_combination (-((bym - ay) * dz - (bz - az) * dy)) * ex - ((bz - az) * dx - (bx - ax) * dz) * ey -
          ((bx - ax) * dy - (bym - ay) * dx) * ez
      rw [e2, e3, mul_div_cancel_right₀ _ hD0, mul_div_cancel_right₀ _ hD0]
      exact ⟨e1, hβ, hγ, by linarith⟩
    · rintro ⟨e1, h1, h2, h3⟩
      refine ⟨1 - B / D - C / D, B / D, C / D, by linarith, h1, h2, by ring, ?_, ?_, ?_⟩
      · simp only [rayAt, vtx, R, T]
        have : (ox + t * dx - ax) * D = B * (bx - ax) + C * (cx - ax) := by
          rw [hQ] at e1
          have e1' : t * dx * D = -Q * dx := by rw [hQ]; linear_combination dx * e1
          rw [hQ] at e1'
          rw [hB, hC]
          rw [hD] at e1' ⊢
          linear_combination e1'
        field_simp
        linear_combination this
      · simp only [rayAt, vtx, R, T]
        have : (oy + t * dy - ay) * D = B * (bym - ay) + C * (cy - ay) := by
          rw [hQ] at e1
          have e1' : t * dy * D = -Q * dy := by rw [hQ]; linear_combination dy * e1
          rw [hQ] at e1'
          rw [hB, hC]
          rw [hD] at e1' ⊢
          linear_combination e1'
        field_simp
        linear_combination this
      · simp only [rayAt, vtx, R, T]
        have : (oz + t * dz - az) * D = B * (bz - az) + C * (cz - az) := by
          rw [hQ] at e1
          have e1' : t * dz * D = -Q * dz := by rw [hQ]; linear_combination dz * e1
          rw [hQ] at e1'
          rw [hB, hC]
          rw [hD] at e1' ⊢
          linear_combination e1'
        field_simp
        linear_combination this
  rw [hddn]
  simp only [Ray.intersectsTriangle]
  rw [hI]
  clear_value D B C Q R T ddn
  clear hI hR hT hD hB hC hQ hddn
  by_cases c0 : |D| < eps
  · simp only [if_pos c0]
    exact ⟨fun h => absurd c0 (not_lt.2 h), by simp, by simp, fun _ => trivial⟩
  simp only [if_neg c0]
  have hD0 : D ≠ 0 := by
    rintro rfl; rw [abs_zero] at c0; exact c0 eps_pos
  have hmem := hmem hD0
  have hneg : ∀ k : IntersectionKind, ∀ t : ℝ, (IntersectionKind.none, (none : Option ℝ)) ≠ (k, some t) := by
    intro k t h; simp at h
  rcases lt_or_gt_of_ne hD0 with hs | hs
  · -- D < 0
    rw [if_neg (not_lt.2 hs.le)]
    dsimp only
    have m1 : ∀ t, rayAt R t ∈ triPts T ↔ (t * D = -Q ∧ B ≤ 0 ∧ C ≤ 0 ∧ D ≤ B + C) := by
      intro t
      rw [hmem, ← add_div, div_le_one_of_neg hs]
      simp only [div_nonneg_iff, not_le.2 hs, and_false, false_or, hs.le, and_true]
    have m2 : ∀ t, t * D = -Q ↔ t = - -1 * Q / -D := by
      intro t
      rw [eq_div_iff (neg_ne_zero.2 hD0)]
      constructor <;> intro h <;> linarith
    simp only [m1, m2]
    by_cases c1 : -1 * B < 0
    · simp only [if_pos c1]
      refine ⟨fun _ => ⟨by simp, ?_⟩, fun k t h => absurd h (hneg k t), by simp, fun h => absurd h c0⟩
      rintro ⟨t, -, -, h, -⟩; linarith
    by_cases c2 : -1 * C < 0
    · simp only [if_neg c1, if_pos c2]
      refine ⟨fun _ => ⟨by simp, ?_⟩, fun k t h => absurd h (hneg k t), by simp, fun h => absurd h c0⟩
      rintro ⟨t, -, -, -, h, -⟩; linarith
    by_cases c3 : -D < -1 * B + -1 * C
    · simp only [if_neg c1, if_neg c2, if_pos c3]
      refine ⟨fun _ => ⟨by simp, ?_⟩, fun k t h => absurd h (hneg k t), by simp, fun h => absurd h c0⟩
      rintro ⟨t, -, -, -, -, h⟩; linarith
    by_cases c4 : - -1 * Q < 0
    · simp only [if_neg c1, if_neg c2, if_neg c3, if_pos c4]
      refine ⟨fun _ => ⟨by simp, ?_⟩, fun k t h => absurd h (hneg k t), by simp, fun h => absurd h c0⟩
      rintro ⟨t, h0, h, -⟩
      have : - -1 * Q / -D < 0 := div_neg_of_neg_of_pos c4 (by linarith)
      linarith
    simp only [if_neg c1, if_neg c2, if_neg c3, if_neg c4]
    have ht : 0 ≤ - -1 * Q / -D := div_nonneg (not_lt.1 c4) (by linarith)
    refine ⟨fun _ => ⟨fun _ => ⟨_, ht, rfl, by linarith, by linarith, by linarith⟩, by simp⟩, ?_, by simp,
      fun h => absurd h c0⟩
    intro k t h
    simp only [Prod.mk.injEq, Option.some.injEq] at h
    obtain ⟨rfl, rfl⟩ := h
    exact ⟨ht, ⟨rfl, by linarith, by linarith, by linarith⟩, fun u hu => hu.1, Or.inl ⟨rfl, hs⟩⟩
  · -- D > 0
    rw [if_pos hs]
    dsimp only
    have m1 : ∀ t, rayAt R t ∈ triPts T ↔ (t * D = -Q ∧ 0 ≤ B ∧ 0 ≤ C ∧ B + C ≤ D) := by
      intro t
      rw [hmem, ← add_div, div_le_one hs]
      simp only [div_nonneg_iff, not_le.2 hs, and_false, or_false, hs.le, and_true]
    have m2 : ∀ t, t * D = -Q ↔ t = -1 * Q / D := by
      intro t
      rw [eq_div_iff hD0]
      constructor <;> intro h <;> linarith
    simp only [m1, m2]
    by_cases c1 : 1 * B < 0
    · simp only [if_pos c1]
      refine ⟨fun _ => ⟨by simp, ?_⟩, fun k t h => absurd h (hneg k t), by simp, fun h => absurd h c0⟩
      rintro ⟨t, -, -, h, -⟩; linarith
    by_cases c2 : 1 * C < 0
    · simp only [if_neg c1, if_pos c2]
      refine ⟨fun _ => ⟨by simp, ?_⟩, fun k t h => absurd h (hneg k t), by simp, fun h => absurd h c0⟩
      rintro ⟨t, -, -, -, h, -⟩; linarith
    by_cases c3 : D < 1 * B + 1 * C
    · simp only [if_neg c1, if_neg c2, if_pos c3]
      refine ⟨fun _ => ⟨by simp, ?_⟩, fun k t h => absurd h (hneg k t), by simp, fun h => absurd h c0⟩
      rintro ⟨t, -, -, -, -, h⟩; linarith
    by_cases c4 : -1 * Q < 0
    · simp only [if_neg c1, if_neg c2, if_neg c3, if_pos c4]
      refine ⟨fun _ => ⟨by simp, ?_⟩, fun k t h => absurd h (hneg k t), by simp, fun h => absurd h c0⟩
      rintro ⟨t, h0, h, -⟩
      have : -1 * Q / D < 0 := div_neg_of_neg_of_pos c4 hs
      linarith
    simp only [if_neg c1, if_neg c2, if_neg c3, if_neg c4]
    have ht : 0 ≤ -1 * Q / D := div_nonneg (not_lt.1 c4) hs.le
    refine ⟨fun _ => ⟨fun _ => ⟨_, ht, rfl, by linarith, by linarith, by linarith⟩, by simp⟩, ?_, by simp,
      fun h => absurd h c0⟩
    intro k t h
    simp only [Prod.mk.injEq, Option.some.injEq] at h
    obtain ⟨rfl, rfl⟩ := h
    exact ⟨ht, ⟨rfl, by linarith, by linarith, by linarith⟩, fun u hu => hu.1, Or.inr ⟨rfl, hs⟩⟩

/-- non-vacuity: a ray down the z axis hits the unit triangle -/
example (bk : Backend) : (⟨Vec3.init (1 / 4) (1 / 4) 3, Vec3.init 0 0 (-1)⟩ : Ray ℝ).intersectsTriangle bk unitTri
    = true := by
  have hv : vtx unitTri.a = ⟨0, 0, 0⟩ ∧ vtx unitTri.b = ⟨1, 0, 0⟩ ∧ vtx unitTri.c = ⟨0, 1, 0⟩ := ⟨rfl, rfl, rfl⟩
  rw [(C51_triangle bk _ _).1]
  · refine ⟨3, by norm_num, 1 / 2, 1 / 4, 1 / 4, by norm_num, by norm_num, by norm_num, by norm_num, ?_, ?_, ?_⟩ <;>
      rw [hv.1, hv.2.1, hv.2.2] <;> norm_num [rayAt, vtx, Vec3.init, Simd4f.init]
  · simp only [triCross, hv]
    norm_num [ccw, vtx, Vec3.init, Simd4f.init, Vec3.getX, Vec3.getY, Vec3.getZ, Simd4f.get, eps]

end Graphene

/-
  C96: spheres in single precision.
-/
import Verif.Props.Float8
import Verif.Props.Float2
import Verif.Model.Sphere

set_option exponentiation.threshold 3000

namespace Graphene
open Fp Spec
variable [Libm binary32]

omit [Libm binary32] in
/-- the exact distance of two points -/
noncomputable def Spec.dist (a b : Point3D F32) : ℝ :=
  √((a.x.val - b.x.val) ^ 2 + (a.y.val - b.y.val) ^ 2 + (a.z.val - b.z.val) ^ 2)

/-- a point with finite coordinates -/
def Spec.FinPoint (p : Point3D F32) : Prop := p.x.isFin = true ∧ p.y.isFin = true ∧ p.z.isFin = true

theorem dist_sq (a b : Point3D F32) :
    Spec.dist a b ^ 2 = (a.x.val - b.x.val) ^ 2 + (a.y.val - b.y.val) ^ 2 + (a.z.val - b.z.val) ^ 2 :=
  Real.sq_sqrt (by positivity)

theorem dist_nonneg' (a b : Point3D F32) : 0 ≤ Spec.dist a b := Real.sqrt_nonneg _

theorem distanceSq_approx (bk : Backend) (a b : Point3D F32) (ha : FinPoint a) (hb : FinPoint b)
    (hbig : Spec.dist a b ≤ 2 ^ 63) :
    (Sphere.distanceSq bk a.toVec3 b.toVec3).isFin = true ∧ 0 ≤ (Sphere.distanceSq bk a.toVec3 b.toVec3).val ∧
    |(Sphere.distanceSq bk a.toVec3 b.toVec3).val - Spec.dist a b ^ 2| ≤ Spec.dist a b ^ 2 / 2 ^ 21 + 1 / 2 ^ 147 := by
  have hbig : (a.x.val - b.x.val) ^ 2 + (a.y.val - b.y.val) ^ 2 + (a.z.val - b.z.val) ^ 2 ≤ 2 ^ 126 := by
    rw [← dist_sq, show (2 : ℝ) ^ 126 = (2 ^ 63) ^ 2 by norm_num]
    exact pow_le_pow_left₀ (dist_nonneg' a b) hbig 2
  rw [dist_sq]
  have s1 := sq_nonneg (a.x.val - b.x.val)
  have s2 := sq_nonneg (a.y.val - b.y.val)
  have s3 := sq_nonneg (a.z.val - b.z.val)
  obtain ⟨p1, f1⟩ := sqdiff_approx ha.1 hb.1 (by linarith)
  obtain ⟨p2, f2⟩ := sqdiff_approx ha.2.1 hb.2.1 (by linarith)
  obtain ⟨p3, f3⟩ := sqdiff_approx ha.2.2 hb.2.2 (by linarith)
  have m1 := mul_self_nonneg_val f1
  have m2 := mul_self_nonneg_val f2
  have m3 := mul_self_nonneg_val f3
  have z : (0 : ℝ) ≤ (f0 : F32).val := by rw [f0_eq]; simp
  suffices h : ∀ d : F32, d = Simd4f.dot3Scalar bk
      ⟨Fp.sub a.x b.x, Fp.sub a.y b.y, Fp.sub a.z b.z, Fp.sub f0 f0⟩
      ⟨Fp.sub a.x b.x, Fp.sub a.y b.y, Fp.sub a.z b.z, Fp.sub f0 f0⟩ →
      d.isFin = true ∧ 0 ≤ d.val ∧
      |d.val - ((a.x.val - b.x.val) ^ 2 + (a.y.val - b.y.val) ^ 2 + (a.z.val - b.z.val) ^ 2)| ≤
        ((a.x.val - b.x.val) ^ 2 + (a.y.val - b.y.val) ^ 2 + (a.z.val - b.z.val) ^ 2) / 2 ^ 21 + 1 / 2 ^ 147 from h _ rfl
  rintro d rfl
  have key : ∀ d : F32, ∀ E, Approx d
      ((a.x.val - b.x.val) ^ 2 + (a.y.val - b.y.val) ^ 2 + (a.z.val - b.z.val) ^ 2)
      ((a.x.val - b.x.val) ^ 2 + (a.y.val - b.y.val) ^ 2 + (a.z.val - b.z.val) ^ 2) E →
      E ≤ (1 + 1 / 2 ^ 21) * ((a.x.val - b.x.val) ^ 2 + (a.y.val - b.y.val) ^ 2 + (a.z.val - b.z.val) ^ 2)
        + 1 / 2 ^ 147 → 0 ≤ d.val → d.isFin = true ∧ 0 ≤ d.val ∧
      |d.val - ((a.x.val - b.x.val) ^ 2 + (a.y.val - b.y.val) ^ 2 + (a.z.val - b.z.val) ^ 2)| ≤
        ((a.x.val - b.x.val) ^ 2 + (a.y.val - b.y.val) ^ 2 + (a.z.val - b.z.val) ^ 2) / 2 ^ 21 + 1 / 2 ^ 147 := by
    intro d E h hE h0
    exact ⟨h.fin, h0, h.err.trans (by linarith)⟩
  rcases bk with ⟨_ | _, _⟩ | _ | _ | _
  · have q1 := sum2_approx p1 p3 (by norm_num at hbig ⊢; linarith)
    have q2 := sum2_approx p2 zero_approx (by norm_num at hbig ⊢; linarith)
    have q := sum2_approx q1 q2 (by norm_num at hbig ⊢; linarith)
    exact key _ _ (q.congr (by ring) (by ring)) (by norm_num at hbig ⊢; linarith)
      (add_nonneg_val q1.fin q2.fin (add_nonneg_val p1.fin p3.fin m1 m3)
      (add_nonneg_val p2.fin zero_approx.fin m2 z))
  · have q1 := sum2_approx p1 p2 (by norm_num at hbig ⊢; linarith)
    have q2 := sum2_approx p3 zero_approx (by norm_num at hbig ⊢; linarith)
    have q := sum2_approx q1 q2 (by norm_num at hbig ⊢; linarith)
    exact key _ _ (q.congr (by ring) (by ring)) (by norm_num at hbig ⊢; linarith)
      (add_nonneg_val q1.fin q2.fin (add_nonneg_val p1.fin p2.fin m1 m2)
      (add_nonneg_val p3.fin zero_approx.fin m3 z))
  all_goals
    have q1 := sum2_approx p1 p2 (by norm_num at hbig ⊢; linarith)
    have q := sum2_approx q1 p3 (by norm_num at hbig ⊢; linarith)
    exact key _ _ q (by norm_num at hbig ⊢; linarith)
      (add_nonneg_val q1.fin p3.fin (add_nonneg_val p1.fin p2.fin m1 m2) m3)

/-- C96: `graphene_sphere_contains_point` is decided by the exact distance, except in a shell of relative
thickness 2^-20 around the surface. -/
theorem C96_contains (bk : Backend) (c p : Point3D F32) (r : F32) (hc : FinPoint c) (hp : FinPoint p)
    (hr : r.isFin = true) (hr1 : 1 / 2 ^ 60 ≤ r.val) (hr2 : r.val ≤ 2 ^ 62) (hbig : Spec.dist c p ≤ 2 ^ 63) :
    (Spec.dist c p ≤ (1 - 1 / 2 ^ 20) * r.val → Sphere.containsPoint bk (Sphere.init (some c) r) p = true) ∧
    (Sphere.containsPoint bk (Sphere.init (some c) r) p = true → Spec.dist c p ≤ (1 + 1 / 2 ^ 20) * r.val) := by
  obtain ⟨d1, d2, d3⟩ := distanceSq_approx bk c p hc hp hbig
  have hD := dist_nonneg' c p
  have hrr : |r.val * r.val| = r.val ^ 2 := by rw [← sq, abs_of_nonneg (sq_nonneg _)]
  have hr3 : r.val ^ 2 ≤ 2 ^ 124 := by
    rw [show (2 : ℝ) ^ 124 = (2 ^ 62) ^ 2 by norm_num]; exact pow_le_pow_left₀ (by linarith [show (0 : ℝ) < 1 / 2 ^ 60 by positivity]) hr2 2
  have hr4 : 1 / 2 ^ 120 ≤ r.val ^ 2 := by
    rw [show (1 : ℝ) / 2 ^ 120 = (1 / 2 ^ 60) ^ 2 by norm_num]; exact pow_le_pow_left₀ (by positivity) hr1 2
  have q := prod_approx hr hr (by rw [hrr]; norm_num at hr3 ⊢; linarith)
  rw [hrr] at q
  have q1 := q.err
  rw [show r.val * r.val = r.val ^ 2 by ring] at q1
  have goal : Sphere.containsPoint bk (Sphere.init (some c) r) p = true ↔
      (Sphere.distanceSq bk c.toVec3 p.toVec3).val ≤ (Fp.mul r r).val := by
    rw [← le_iff_val (isNaN_of_isFin d1) (isNaN_of_isFin q.fin)]; rfl
  rw [goal]
  rw [_root_.abs_le] at d3 q1
  have r0 : 0 < r.val := lt_of_lt_of_le (by positivity) hr1
  constructor
  · intro h
    have h2 : Spec.dist c p ^ 2 ≤ ((1 - 1 / 2 ^ 20) * r.val) ^ 2 := pow_le_pow_left₀ hD h 2
    have h3 : ((1 - 1 / 2 ^ 20) * r.val) ^ 2 = (1 - 1 / 2 ^ 20) ^ 2 * r.val ^ 2 := by ring
    rw [h3] at h2
    generalize Spec.dist c p ^ 2 = S at *
    generalize r.val ^ 2 = R at *
    norm_num at h2 d3 q1 hr4 ⊢
    linarith [d3.1, d3.2, q1.1, q1.2]
  · intro h
    refine (pow_le_pow_iff_left₀ hD (by positivity) two_ne_zero).1 ?_
    rw [show ((1 + 1 / 2 ^ 20) * r.val) ^ 2 = (1 + 1 / 2 ^ 20) ^ 2 * r.val ^ 2 by ring]
    generalize Spec.dist c p ^ 2 = S at *
    generalize r.val ^ 2 = R at *
    norm_num at d3 q1 hr4 ⊢
    linarith [d3.1, d3.2, q1.1, q1.2]

/-- C96: `graphene_sphere_distance`: the exact signed distance to the surface, up to rounding. -/
theorem C96_distance (bk : Backend) (c p : Point3D F32) (r : F32) (hc : FinPoint c) (hp : FinPoint p)
    (hr : r.isFin = true) (hr2 : |r.val| ≤ 2 ^ 62) (hbig : Spec.dist c p ≤ 2 ^ 63) :
    (Sphere.distance bk (Sphere.init (some c) r) p).isFin = true ∧
    |(Sphere.distance bk (Sphere.init (some c) r) p).val - (Spec.dist c p - r.val)| ≤
      Spec.dist c p / 2 ^ 19 + |r.val| / 2 ^ 23 + 1 / 2 ^ 71 := by
  obtain ⟨d1, d2, d3⟩ := distanceSq_approx bk c p hc hp hbig
  have hD := dist_nonneg' c p
  have h := dist_approx d1 d2 (sq_nonneg _) d3
  rw [Real.sqrt_sq hD] at h
  have a1 : Approx (Fp.sqrt (Sphere.distanceSq bk c.toVec3 p.toVec3)) (Spec.dist c p) (Spec.dist c p)
      (Spec.dist c p + distErr (Spec.dist c p)) :=
    ⟨h.1, (abs_of_nonneg hD).le, h.2.trans (by linarith)⟩
  have a2 := Approx.sub hp32 a1 (Approx.exact hr) (by
    refine le_trans ?_ le_max32
    unfold distErr
    norm_num at hbig hr2 ⊢; linarith)
  rw [u32] at a2
  have e : Sphere.distance bk (Sphere.init (some c) r) p = Fp.sub (Fp.sqrt (Sphere.distanceSq bk c.toVec3 p.toVec3)) r := rfl
  rw [e]
  refine ⟨a2.fin, a2.err.trans ?_⟩
  unfold distErr
  have n := abs_nonneg r.val
  norm_num; linarith

/-- a point with finite coordinates of magnitude at most 2^60 -/
def Spec.InRange (p : Point3D F32) : Prop :=
  FinPoint p ∧ |p.x.val| ≤ 2 ^ 60 ∧ |p.y.val| ≤ 2 ^ 60 ∧ |p.z.val| ≤ 2 ^ 60

theorem dist_of_range {a b : Point3D F32} (ha : InRange a) (hb : InRange b) : Spec.dist a b ≤ 2 ^ 63 := by
  have sq3 : ∀ {x y : ℝ}, |x| ≤ 2 ^ 60 → |y| ≤ 2 ^ 60 → (x - y) ^ 2 ≤ (2 ^ 61) ^ 2 := fun {x y} hx hy => by
    rw [sq_le_sq, abs_of_pos (by positivity : (0 : ℝ) < 2 ^ 61)]
    have := _root_.abs_sub x y
    refine (abs_sub x y).trans ?_
    norm_num at hx hy ⊢; linarith
  unfold Spec.dist
  rw [Real.sqrt_le_left (by positivity)]
  have h1 := sq3 ha.2.1 hb.2.1
  have h2 := sq3 ha.2.2.1 hb.2.2.1
  have h3 := sq3 ha.2.2.2 hb.2.2.2
  norm_num at h1 h2 h3 ⊢; linarith

/-- the running maximum of `graphene_sphere_init_from_points` -/
theorem foldl_fmaxf {T : Type} (g : T → F32) (l : List T) : ∀ (m : F32), m.isFin = true → (∀ x ∈ l, (g x).isFin = true) →
    let r := l.foldl (fun m x => fmaxf m (g x)) m
    r.isFin = true ∧ m.val ≤ r.val ∧ (∀ x ∈ l, (g x).val ≤ r.val) ∧ (r = m ∨ ∃ x ∈ l, r = g x) := by
  induction l with
  | nil => intro m hm _; exact ⟨hm, le_rfl, by simp, Or.inl rfl⟩
  | cons a l ih =>
    intro m hm hl r
    have ha := hl a (List.mem_cons_self ..)
    have e : fmaxf m (g a) = cMax m (g a) := by
      unfold fmaxf
      simp only [sc_isNaN, isNaN_of_isFin hm, isNaN_of_isFin ha, Bool.false_eq_true, if_false]
    obtain ⟨c1, c2, c3⟩ := cMax_val (isNaN_of_isFin hm) (isNaN_of_isFin ha)
    rw [← e] at c1 c2 c3
    have cf : (fmaxf m (g a)).isFin = true := by rcases c3 with c3 | c3 <;> rw [c3] <;> assumption
    obtain ⟨h1, h2, h3, h4⟩ := ih (fmaxf m (g a)) cf (fun x hx => hl x (List.mem_cons_of_mem _ hx))
    rw [c1] at h2
    refine ⟨h1, (le_max_left _ _).trans h2, ?_, ?_⟩
    · intro x hx
      rcases List.mem_cons.1 hx with rfl | hx
      · exact (le_max_right _ _).trans h2
      · exact h3 x hx
    · rcases h4 with h4 | ⟨x, hx, h4⟩
      · rcases c3 with c3 | c3
        · left; exact h4.trans c3
        · right; exact ⟨a, List.mem_cons_self .., h4.trans c3⟩
      · right; exact ⟨x, List.mem_cons_of_mem _ hx, h4⟩

/-- the centre of the bounding box of points in range is in range -/
theorem center_range (bk : Backend) (l : List (Point3D F32)) (hl : ∀ p ∈ l, InRange p) :
    InRange (Box.initFromPoints bk l).getCenter := by
  obtain ⟨h0, h1, -, -, h4⟩ := C29_box_points bk l (fun p hp =>
    ⟨isNaN_of_isFin (hl p hp).1.1, isNaN_of_isFin (hl p hp).1.2.1, isNaN_of_isFin (hl p hp).1.2.2⟩)
  by_cases hne : l = []
  · rw [h0 hne]
    have : (Box.empty : Box F32).getCenter = ⟨f0, f0, f0⟩ := rfl
    rw [this]
    refine ⟨⟨by rw [f0_eq]; rfl, by rw [f0_eq]; rfl, by rw [f0_eq]; rfl⟩, ?_, ?_, ?_⟩ <;> rw [f0_eq] <;> simp
  · obtain ⟨a1, a2, b1, b2, c1, c2⟩ := h1 hne
    generalize Box.initFromPoints bk l = b at *
    have ax : ∀ (g : Point3D F32 → F32) (lo hi : F32), (∀ p ∈ l, (g p).isFin = true ∧ |(g p).val| ≤ 2 ^ 60) →
        IsLeast lo (l.map g) → IsGreatest hi (l.map g) →
        lo.isFin = true ∧ (Fp.mul (Fp.add lo hi) (Fp.lit 1 2)).isFin = true ∧ |(Fp.mul (Fp.add lo hi) (Fp.lit 1 2)).val| ≤ 2 ^ 60 := by
      intro g lo hi hg h1 h2
      obtain ⟨p, hp, e1⟩ := List.mem_map.1 h1.1
      obtain ⟨q, hq, e2⟩ := List.mem_map.1 h2.1
      obtain ⟨l1, l2⟩ := hg p hp
      obtain ⟨u1, u2⟩ := hg q hq
      rw [e1] at l1 l2
      rw [e2] at u1 u2
      have le := (le_iff_val (isNaN_of_isFin l1) (isNaN_of_isFin u1)).1 (h1.2 hi h2.1)
      obtain ⟨m1, m2, m3, -⟩ := mid_between l1 u1 le (l2.trans (by norm_num)) (u2.trans (by norm_num))
      have m2 := (le_iff_val (isNaN_of_isFin l1) (isNaN_of_isFin m1)).1 m2
      have m3 := (le_iff_val (isNaN_of_isFin m1) (isNaN_of_isFin u1)).1 m3
      rw [_root_.abs_le] at l2 u2
      exact ⟨l1, m1, _root_.abs_le.2 ⟨by linarith, by linarith⟩⟩
    obtain ⟨x1, x2, x3⟩ := ax (·.x) _ _ (fun p hp => ⟨(hl p hp).1.1, (hl p hp).2.1⟩) a1 a2
    obtain ⟨y1, y2, y3⟩ := ax (·.y) _ _ (fun p hp => ⟨(hl p hp).1.2.1, (hl p hp).2.2.1⟩) b1 b2
    obtain ⟨z1, z2, z3⟩ := ax (·.z) _ _ (fun p hp => ⟨(hl p hp).1.2.2, (hl p hp).2.2.2⟩) c1 c2
    have ne : b.isEmpty = false := by
      rw [← Bool.not_eq_true, isEmpty_iff]
      rintro ⟨h, -⟩
      rw [h] at x1; cases x1
    have ni : b.isInfinity = false := by
      rw [← Bool.not_eq_true, isInfinity_iff]
      rintro ⟨h, -⟩
      rw [h] at x1; cases x1
    have cen : b.getCenter = ⟨Fp.mul (Fp.add b.min.value.x b.max.value.x) (Fp.lit 1 2),
        Fp.mul (Fp.add b.min.value.y b.max.value.y) (Fp.lit 1 2),
        Fp.mul (Fp.add b.min.value.z b.max.value.z) (Fp.lit 1 2)⟩ := by
      unfold Box.getCenter; rw [ne, ni]; rfl
    rw [cen]
    exact ⟨⟨x2, y2, z2⟩, x3, y3, z3⟩

/-- C96: a sphere built from points.  Its radius is the largest distance of a point from its centre, up to
rounding: no point is further from the centre than the radius by more than a relative 2^-20 (and 2^-70), and some point is as far, up to
the same error.  (C37 gives a sphere whose own point is outside by such a rounding.) -/
theorem C96_from_points (bk : Backend) (l : List (Point3D F32)) (hl : ∀ p ∈ l, InRange p) (c : Option (Point3D F32))
    (hc : ∀ q, c = some q → InRange q) :
    let s := Sphere.initFromPoints bk l c
    FinPoint s.getCenter ∧ s.getRadius.isFin = true ∧ 0 ≤ s.getRadius.val ∧
    (∀ p ∈ l, Spec.dist s.getCenter p ≤ (1 + 1 / 2 ^ 20) * s.getRadius.val + 1 / 2 ^ 70) ∧
    (l ≠ [] → ∃ p ∈ l, s.getRadius.val ≤ (1 + 1 / 2 ^ 20) * Spec.dist s.getCenter p + 1 / 2 ^ 70) := by
  intro s
  obtain ⟨o, ho, hs⟩ : ∃ o : Point3D F32, InRange o ∧ s = ⟨o.toVec3, Fp.sqrt (l.foldl (fun m p => fmaxf m (Sphere.distanceSq bk o.toVec3 p.toVec3)) f0)⟩ := by
    rcases c with _ | q
    · exact ⟨_, center_range bk l hl, rfl⟩
    · exact ⟨q, hc q rfl, rfl⟩
  have hcen : s.getCenter = o := by rw [hs]; rfl
  have hap := fun p (hp : p ∈ l) => distanceSq_approx bk o p ho.1 (hl p hp).1 (dist_of_range ho (hl p hp))
  obtain ⟨f1, f2, f3, f4⟩ := foldl_fmaxf (fun p : Point3D F32 => Sphere.distanceSq bk o.toVec3 p.toVec3) l f0 (by rw [f0_eq]; rfl)
    (fun p hp => (hap p hp).1)
  set m := l.foldl (fun m p => fmaxf m (Sphere.distanceSq bk o.toVec3 p.toVec3)) f0 with hm
  have hrad : s.getRadius = Fp.sqrt m := by rw [hs]; rfl
  rw [hcen, hrad]
  rw [f0_eq, val_zero] at f2
  obtain ⟨r1, r2⟩ := sqrt_err hs32 ht32 f1 f2
  rw [u32] at r2
  have hq := Real.sqrt_nonneg m.val
  have hqs := Real.sq_sqrt f2
  rw [_root_.abs_le] at r2
  have r0 : 0 ≤ (Fp.sqrt m).val := by norm_num at r2; linarith [r2.1]
  refine ⟨ho.1, r1, r0, ?_, ?_⟩
  · intro p hp
    obtain ⟨d1, d2, d3⟩ := hap p hp
    have h3 := f3 p hp
    have hD := dist_nonneg' o p
    rw [_root_.abs_le] at d3
    have key : Spec.dist o p ^ 2 ≤ ((1 + 1 / 2 ^ 21) * √m.val + 1 / 2 ^ 73) ^ 2 := by
      have e : ((1 + 1 / 2 ^ 21) * √m.val + 1 / 2 ^ 73) ^ 2 = (1 + 1 / 2 ^ 21) ^ 2 * √m.val ^ 2 + 2 * (1 + 1 / 2 ^ 21) * (1 / 2 ^ 73) * √m.val + 1 / 2 ^ 146 := by ring
      rw [e, hqs]
      have x1 := d3.1
      have x2 : 0 ≤ 2 * (1 + 1 / 2 ^ 21) * (1 / 2 ^ 73) * √m.val := by positivity
      generalize Spec.dist o p ^ 2 = S at *
      norm_num at x1 x2 ⊢
      linarith
    have h4 := (pow_le_pow_iff_left₀ hD (by positivity) two_ne_zero).1 key
    have x := r2.1
    generalize √m.val = q at *
    norm_num at h4 x ⊢
    linarith
  · intro hne
    obtain ⟨p, hp, hp2⟩ : ∃ p ∈ l, m.val ≤ (Sphere.distanceSq bk o.toVec3 p.toVec3).val := by
      rcases f4 with f4 | ⟨p, hp, f4⟩
      · obtain ⟨p, hp⟩ := List.exists_mem_of_ne_nil l hne
        refine ⟨p, hp, ?_⟩
        rw [f4, f0_eq, val_zero]; exact (hap p hp).2.1
      · exact ⟨p, hp, by rw [f4]⟩
    refine ⟨p, hp, ?_⟩
    obtain ⟨d1, d2, d3⟩ := hap p hp
    have hD := dist_nonneg' o p
    rw [_root_.abs_le] at d3
    have key : √m.val ≤ (1 + 1 / 2 ^ 21) * Spec.dist o p + 1 / 2 ^ 73 := by
      rw [Real.sqrt_le_left (by positivity)]
      have e : ((1 + 1 / 2 ^ 21) * Spec.dist o p + 1 / 2 ^ 73) ^ 2 = (1 + 1 / 2 ^ 21) ^ 2 * Spec.dist o p ^ 2 + 2 * (1 + 1 / 2 ^ 21) * (1 / 2 ^ 73) * Spec.dist o p + 1 / 2 ^ 146 := by ring
      rw [e]
      have x1 := d3.2
      have x2 : 0 ≤ 2 * (1 + 1 / 2 ^ 21) * (1 / 2 ^ 73) * Spec.dist o p := by positivity
      have x3 : 0 ≤ Spec.dist o p ^ 2 := by positivity
      generalize Spec.dist o p ^ 2 = S at *
      norm_num at x1 x2 ⊢
      linarith
    have x := r2.2
    generalize √m.val = q at *
    norm_num at key x ⊢
    linarith

/-- the hidden lanes of the vectors play no part -/
theorem center_vectors (bk : Backend) (l : List (Vec3 F32)) :
    (Box.initFromVectors bk l).getCenter = (Box.initFromPoints bk (l.map Point3D.initFromVec3)).getCenter := by
  have key : ∀ (l : List (Vec3 F32)) (a b : Box F32), a.min.value.x = b.min.value.x → a.min.value.y = b.min.value.y →
      a.min.value.z = b.min.value.z → a.max.value.x = b.max.value.x → a.max.value.y = b.max.value.y →
      a.max.value.z = b.max.value.z →
      (l.foldl (Box.expandVec3 bk) a).getCenter =
        ((l.map Point3D.initFromVec3).foldl (fun b p => Box.expandVec3 bk b p.toVec3) b).getCenter := by
    intro l
    induction l with
    | nil =>
      intro a b h1 h2 h3 h4 h5 h6
      simp only [List.foldl_nil, List.map_nil, Box.getCenter, Box.isEmpty, Box.isInfinity, h1, h2, h3, h4, h5, h6,
        Point3D.initFromVec3, Point3D.initFromSimd4f, Vec3.scale, Vec3.add, Vec3.getX, Vec3.getY, Vec3.getZ, Simd4f.get, Simd4f.mul, Simd4f.add,
        Simd4f.map2, Simd4f.splat]
    | cons v l ih =>
      intro a b h1 h2 h3 h4 h5 h6
      refine ih _ _ ?_ ?_ ?_ ?_ ?_ ?_
      · exact congrArg (fun x => Simd4f.min1 bk x v.value.x) h1
      · exact congrArg (fun x => Simd4f.min1 bk x v.value.y) h2
      · exact congrArg (fun x => Simd4f.min1 bk x v.value.z) h3
      · exact congrArg (fun x => Simd4f.max1 bk x v.value.x) h4
      · exact congrArg (fun x => Simd4f.max1 bk x v.value.y) h5
      · exact congrArg (fun x => Simd4f.max1 bk x v.value.z) h6
  exact key l _ _ rfl rfl rfl rfl rfl rfl

/-- C96: a sphere built from vectors is, bit for bit, the sphere built from the points with the same coordinates, so the
above holds for it. -/
theorem C96_from_vectors (bk : Backend) (l : List (Vec3 F32)) (c : Option (Point3D F32)) :
    Sphere.initFromVectors bk l c = Sphere.initFromPoints bk (l.map Point3D.initFromVec3) c := by
  have fold : ∀ o : Vec3 F32, l.foldl (fun m v => fmaxf m (Sphere.distanceSq bk o v)) f0 =
      (l.map Point3D.initFromVec3).foldl (fun m p => fmaxf m (Sphere.distanceSq bk o p.toVec3)) f0 := by
    intro o
    rw [List.foldl_map]
    congr 1
  rcases c with _ | c
  · simp only [Sphere.initFromVectors, Sphere.initFromPoints, Sphere.centerOf, center_vectors bk l, fold]
  · simp only [Sphere.initFromVectors, Sphere.initFromPoints, Sphere.centerOf, fold]

/-- C96: the bounding box of a sphere contains every float point whose exact distance from the centre is at most
the radius, whatever the roundings of the corners. -/
theorem C96_bounding_box (c p : Point3D F32) (r : F32) (hc : FinPoint c) (hp : FinPoint p) (hr : r.isFin = true)
    (h : Spec.dist c p ≤ r.val) : (Sphere.init (some c) r).getBoundingBox.containsPoint p = true := by
  have h0 : 0 ≤ r.val := (dist_nonneg' c p).trans h
  have h2 : (c.x.val - p.x.val) ^ 2 + (c.y.val - p.y.val) ^ 2 + (c.z.val - p.z.val) ^ 2 ≤ r.val ^ 2 := by
    rw [← dist_sq]; exact pow_le_pow_left₀ (dist_nonneg' c p) h 2
  have ax := _root_.abs_le.1 (abs_le_of_sq_le_sq (a := c.x.val - p.x.val) (by nlinarith [sq_nonneg (c.y.val - p.y.val), sq_nonneg (c.z.val - p.z.val)]) h0)
  have ay := _root_.abs_le.1 (abs_le_of_sq_le_sq (a := c.y.val - p.y.val) (by nlinarith [sq_nonneg (c.x.val - p.x.val), sq_nonneg (c.z.val - p.z.val)]) h0)
  have az := _root_.abs_le.1 (abs_le_of_sq_le_sq (a := c.z.val - p.z.val) (by nlinarith [sq_nonneg (c.x.val - p.x.val), sq_nonneg (c.y.val - p.y.val)]) h0)
  refine (C34_box_partial ⟨c.toVec3, c.toVec3⟩ ⟨f0_eq, f0_eq⟩ r ?_ p
    ⟨isNaN_of_isFin hp.1, isNaN_of_isFin hp.2.1, isNaN_of_isFin hp.2.2⟩).2 ?_
  · rw [le_iff_val rfl (isNaN_of_isFin hr), val_zero]; exact h0
  · exact ⟨⟨(rnd_sub hc.1 hr).le_of hp.1 (by linarith [ax.2]), (rnd_add hc.1 hr).ge_of hp.1 (by linarith [ax.1])⟩,
      ⟨(rnd_sub hc.2.1 hr).le_of hp.2.1 (by linarith [ay.2]), (rnd_add hc.2.1 hr).ge_of hp.2.1 (by linarith [ay.1])⟩,
      ⟨(rnd_sub hc.2.2 hr).le_of hp.2.2 (by linarith [az.2]), (rnd_add hc.2.2 hr).ge_of hp.2.2 (by linarith [az.1])⟩⟩

/-- C96, limits: below the range of the theorem above squares underflow, and a sphere of radius 2^-100 contains
a point a thousand times further away. -/
theorem C96_underflow (bk : Backend) : ∃ (c p : Point3D F32) (r : F32), FinPoint c ∧ FinPoint p ∧
    Sphere.containsPoint bk (Sphere.init (some c) r) p = true ∧ r.val = 1 / 2 ^ 100 ∧ Spec.dist c p = 1 / 2 ^ 90 := by
  refine ⟨⟨Fp.lit 0 1, Fp.lit 0 1, Fp.lit 0 1⟩, ⟨Fp.lit 1 (2 ^ 90), Fp.lit 0 1, Fp.lit 0 1⟩, Fp.lit 1 (2 ^ 100), ?_, ?_, ?_, ?_, ?_⟩
  · exact ⟨by decide +kernel, by decide +kernel, by decide +kernel⟩
  · exact ⟨by decide +kernel, by decide +kernel, by decide +kernel⟩
  · rcases bk with ⟨_ | _, _ | _⟩ | _ | _ | ⟨_ | _⟩ <;> kdecide
  · have := (lit_dyadic 1 100 (by decide) (by decide)).2
    rw [this]; norm_num
  · have h1 := (lit_dyadic 1 90 (by decide) (by decide)).2
    have h0 := (lit_int 0 (by decide)).2
    unfold Spec.dist
    simp only [h1, h0]
    rw [show ((((0 : ℤ) : ℝ)) - ((1 : ℤ) : ℝ) / 2 ^ 90) ^ 2 + (((0 : ℤ) : ℝ) - ((0 : ℤ) : ℝ)) ^ 2 + (((0 : ℤ) : ℝ) - ((0 : ℤ) : ℝ)) ^ 2
      = (1 / 2 ^ 90) ^ 2 by push_cast; ring, Real.sqrt_sq (by positivity)]

/-- non-vacuity: a unit sphere and a point at distance 1/2; a sphere built from three points -/
example : let c : Point3D F32 := ⟨Fp.lit 0 1, Fp.lit 0 1, Fp.lit 0 1⟩
    let p : Point3D F32 := ⟨Fp.lit 1 2, Fp.lit 0 1, Fp.lit 0 1⟩
    FinPoint c ∧ FinPoint p ∧ InRange c ∧ InRange p ∧ (Fp.lit 1 1 : F32).isFin = true ∧ (1 : ℝ) / 2 ^ 60 ≤ (Fp.lit 1 1 : F32).val ∧
    (Fp.lit 1 1 : F32).val ≤ 2 ^ 62 ∧ Spec.dist c p ≤ (1 - 1 / 2 ^ 20) * (Fp.lit 1 1 : F32).val := by
  intro c p
  have h0 := lit_int 0 (by decide)
  have h1 := lit_int 1 (by decide)
  have h2 := lit_dyadic 1 1 (by decide) (by decide)
  have hc : FinPoint c := ⟨h0.1, h0.1, h0.1⟩
  have hp : FinPoint p := ⟨h2.1, h0.1, h0.1⟩
  have e2 : (Fp.lit 1 2 : F32).val = 1 / 2 := by simpa using h2.2
  have e0 : (Fp.lit 0 1 : F32).val = 0 := by simpa using h0.2
  have e1 : (Fp.lit 1 1 : F32).val = 1 := by simpa using h1.2
  refine ⟨hc, hp, ⟨hc, ?_, ?_, ?_⟩, ⟨hp, ?_, ?_, ?_⟩, h1.1, ?_, ?_, ?_⟩ <;> simp only [c, p, e0, e1, e2, Spec.dist]
  all_goals first | (rw [Real.sqrt_le_left (by norm_num)]; norm_num; done) | norm_num

end Graphene

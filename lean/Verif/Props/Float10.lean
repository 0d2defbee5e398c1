/-
  C97: planes and frusta in single precision.
-/
import Verif.Props.Float9
import Verif.Model.Frustum

set_option exponentiation.threshold 3000

namespace Graphene
open Fp Spec
variable [Libm binary32]

/-- a plane with finite coefficients -/
def Spec.FinPlane (pl : Plane F32) : Prop :=
  pl.normal.getX.isFin = true ∧ pl.normal.getY.isFin = true ∧ pl.normal.getZ.isFin = true ∧ pl.constant.isFin = true

/-- the exact value of `n·p + c` -/
noncomputable def Spec.planeEq (pl : Plane F32) (p : Point3D F32) : ℝ :=
  pl.normal.getX.val * p.x.val + pl.normal.getY.val * p.y.val + pl.normal.getZ.val * p.z.val + pl.constant.val

/-- the sum of the magnitudes of its terms -/
noncomputable def Spec.planeMag (pl : Plane F32) (p : Point3D F32) : ℝ :=
  |pl.normal.getX.val * p.x.val| + |pl.normal.getY.val * p.y.val| + |pl.normal.getZ.val * p.z.val| + |pl.constant.val|

/-- the error allowed for terms of total magnitude `S` -/
noncomputable def Spec.planeErr (S : ℝ) : ℝ := S / 2 ^ 21 + 1 / 2 ^ 146

theorem planeMag_nonneg (pl : Plane F32) (p : Point3D F32) : 0 ≤ planeMag pl p := by unfold planeMag; positivity
theorem planeErr_mono {a b : ℝ} (h : a ≤ b) : planeErr a ≤ planeErr b := by unfold planeErr; gcongr
theorem planeErr_pos {a : ℝ} (h : 0 ≤ a) : 0 < planeErr a := by unfold planeErr; positivity

/-- C97: `graphene_plane_distance` is `n·p + c` up to a relative 2^-21 of the magnitude of its terms. -/
theorem C97_distance (bk : Backend) (pl : Plane F32) (p : Point3D F32) (hpl : FinPlane pl) (hp : FinPoint p)
    (hbig : planeMag pl p ≤ 2 ^ 126) :
    (pl.distance bk p).isFin = true ∧ |(pl.distance bk p).val - planeEq pl p| ≤ planeErr (planeMag pl p) := by
  obtain ⟨h1, h2, h3, h4⟩ := hpl
  have n1 := abs_nonneg (pl.normal.getX.val * p.x.val)
  have n2 := abs_nonneg (pl.normal.getY.val * p.y.val)
  have n3 := abs_nonneg (pl.normal.getZ.val * p.z.val)
  have n4 := abs_nonneg pl.constant.val
  unfold planeMag at hbig
  obtain ⟨d1, d2⟩ := C85_dot3 bk pl.normal p.toVec3 ⟨h1, h2, h3, hp.1, hp.2.1, hp.2.2⟩
    (by show |pl.normal.getX.val * p.x.val| + |pl.normal.getY.val * p.y.val| + |pl.normal.getZ.val * p.z.val| ≤ _; linarith)
  have d2' : |(Vec3.dot bk pl.normal p.toVec3).val - (pl.normal.getX.val * p.x.val + pl.normal.getY.val * p.y.val + pl.normal.getZ.val * p.z.val)|
    ≤ dotErr (|pl.normal.getX.val * p.x.val| + |pl.normal.getY.val * p.y.val| + |pl.normal.getZ.val * p.z.val|) := d2
  have a1 : Approx (Vec3.dot bk pl.normal p.toVec3) (pl.normal.getX.val * p.x.val + pl.normal.getY.val * p.y.val + pl.normal.getZ.val * p.z.val)
      (|pl.normal.getX.val * p.x.val| + |pl.normal.getY.val * p.y.val| + |pl.normal.getZ.val * p.z.val|)
      ((|pl.normal.getX.val * p.x.val| + |pl.normal.getY.val * p.y.val| + |pl.normal.getZ.val * p.z.val|) +
        dotErr (|pl.normal.getX.val * p.x.val| + |pl.normal.getY.val * p.y.val| + |pl.normal.getZ.val * p.z.val|)) :=
    ⟨d1, (abs_add_le _ _).trans (add_le_add (abs_add_le _ _) le_rfl), d2'.trans (by linarith)⟩
  have a2 := sum2_approx a1 (Approx.exact h4) (by unfold dotErr; norm_num [-abs_mul] at hbig ⊢; linarith)
  refine ⟨a2.fin, a2.err.trans ?_⟩
  unfold planeErr planeMag dotErr
  norm_num [-abs_mul] at hbig ⊢; linarith

theorem distance_lt_iff (bk : Backend) (pl : Plane F32) (p : Point3D F32) (hpl : FinPlane pl) (hp : FinPoint p)
    (hbig : planeMag pl p ≤ 2 ^ 126) {r : F32} (hr : r.isFin = true) :
    (Plane.distance bk pl p <. r) = true ↔ (pl.distance bk p).val < r.val :=
  lt_iff_val (isNaN_of_isFin (C97_distance bk pl p hpl hp hbig).1) (isNaN_of_isFin hr)

/-- C97: the side of a plane on which a point lies is right, except within the rounding error of the plane. -/
theorem C97_side (bk : Backend) (pl : Plane F32) (p : Point3D F32) (hpl : FinPlane pl) (hp : FinPoint p)
    (hbig : planeMag pl p ≤ 2 ^ 126) :
    (planeErr (planeMag pl p) < planeEq pl p → 0 < (pl.distance bk p).val) ∧
    (planeEq pl p < - planeErr (planeMag pl p) → (pl.distance bk p).val < 0) := by
  have h := _root_.abs_le.1 (C97_distance bk pl p hpl hp hbig).2
  constructor <;> intro <;> linarith [h.1, h.2]

omit [Libm binary32] in
theorem Fp.Rnd.negated {f : Fmt} {x y : ℝ} {r s : Fp f} (hx : Rnd x r) (hy : Rnd y s) (h : y = -x) : s.val = -r.val := by
  subst h
  obtain ⟨z, d, t, hd, rfl, rfl⟩ := hx
  obtain ⟨z', d', t', hd', e, rfl⟩ := hy
  have : Rnd (-(((z : ℝ)) / d / 2 ^ f.ubit)) (ofInt (-z) d t : Fp f) := ⟨-z, d, t, hd, by push_cast; ring, rfl⟩
  have h2 : Rnd (-(((z : ℝ)) / d / 2 ^ f.ubit)) (ofInt z' d' t' : Fp f) := ⟨z', d', t', hd', e, rfl⟩
  have h3 := (feq_iff_val h2.not_nan this.not_nan).1 (h2.feq this)
  rw [h3, val, val, key_ofInt _ hd, key_ofInt _ hd, Int.natAbs_neg]
  rcases lt_trichotomy z 0 with hz | hz | hz
  · have : ¬ (-z < 0) := by omega
    simp only [hz, this, sgn, decide_true, decide_false, if_true, Bool.false_eq_true, if_false]
    push_cast; ring
  · subst hz
    have : f.rnd 0 d = 0 := by simpa using f.rnd_exact (rep_zero f) hd
    simp [this, sgn]
  · have h1 : -z < 0 := by omega
    have h4 : ¬ (z < 0) := by omega
    simp only [h1, h4, sgn, decide_true, decide_false, if_true, Bool.false_eq_true, if_false]
    push_cast; ring

omit [Libm binary32] in
theorem mul_m1 {a : F32} (h : a.isFin = true) : (Fp.mul a (Fp.lit (-1) 1)).isFin = true ∧ (Fp.mul a (Fp.lit (-1) 1)).val = -a.val := by
  have l := lit_int (-1) (by decide)
  have := Is.mul_of (Is.self h) ⟨l.1, l.2⟩ (c := Fp.neg a) (by
    refine (Is.neg (Is.self h)).congr ?_; push_cast; ring)
  exact ⟨this.fin, by rw [this.val]; push_cast; ring⟩

theorem neg1_val (bk : Backend) {a : F32} (h : a.isFin = true) :
    (Simd4f.neg1 bk a).isFin = true ∧ (Simd4f.neg1 bk a).val = -a.val := by
  rcases bk with _ | _ | _ | _
  · exact ⟨by rw [← h]; exact isFin_neg a, val_neg a⟩
  · exact mul_m1 h
  · exact ⟨by rw [← h]; exact isFin_neg a, val_neg a⟩
  · exact ⟨by rw [← h]; exact isFin_neg a, val_neg a⟩

omit [Libm binary32] in
theorem mul_negated {a b c : F32} (ha : a.isFin = true) (hb : b.isFin = true) (hc : c.isFin = true) (h : b.val = -a.val) :
    (Fp.mul b c).val = -(Fp.mul a c).val := (rnd_mul ha hc).negated (rnd_mul hb hc) (by rw [h]; ring)
omit [Libm binary32] in
theorem add_negated {a b c d : F32} (ha : a.isFin = true) (hb : b.isFin = true) (hc : c.isFin = true) (hd : d.isFin = true)
    (h : b.val = -a.val) (g : d.val = -c.val) :
    (Fp.add b d).val = -(Fp.add a c).val := (rnd_add ha hc).negated (rnd_add hb hd) (by rw [h, g]; ring)

/-- C97: negating a plane negates every distance, exactly. -/
theorem C97_negate (bk : Backend) (pl : Plane F32) (p : Point3D F32) (hpl : FinPlane pl) (hp : FinPoint p)
    (hbig : planeMag pl p ≤ 2 ^ 126) :
    ((pl.negate bk).distance bk p).isFin = true ∧
    ((pl.negate bk).distance bk p).val = - (pl.distance bk p).val := by
  obtain ⟨h1, h2, h3, h4⟩ := hpl
  have x1 := neg1_val bk h1
  have x2 := neg1_val bk h2
  have x3 := neg1_val bk h3
  have x4 := mul_m1 h4
  have n1 := abs_nonneg (pl.normal.getX.val * p.x.val)
  have n2 := abs_nonneg (pl.normal.getY.val * p.y.val)
  have n3 := abs_nonneg (pl.normal.getZ.val * p.z.val)
  have n4 := abs_nonneg pl.constant.val
  have hpl' : FinPlane (pl.negate bk) := ⟨x1.1, x2.1, x3.1, x4.1⟩
  have e : planeMag (pl.negate bk) p = planeMag pl p := by
    unfold planeMag
    show |(Simd4f.neg1 bk pl.normal.getX).val * _| + |(Simd4f.neg1 bk pl.normal.getY).val * _| + |(Simd4f.neg1 bk pl.normal.getZ).val * _| +
      |(Fp.mul pl.constant (Fp.lit (-1) 1)).val| = _
    rw [x1.2, x2.2, x3.2, x4.2]; simp
  refine ⟨(C97_distance bk _ p hpl' hp (by rw [e]; exact hbig)).1, ?_⟩
  unfold planeMag at hbig
  have p1 := prod_approx h1 hp.1 (by linarith)
  have p2 := prod_approx h2 hp.2.1 (by linarith)
  have p3 := prod_approx h3 hp.2.2 (by linarith)
  have p1' := prod_approx x1.1 hp.1 (by rw [x1.2]; simp only [neg_mul, _root_.abs_neg]; linarith)
  have p2' := prod_approx x2.1 hp.2.1 (by rw [x2.2]; simp only [neg_mul, _root_.abs_neg]; linarith)
  have p3' := prod_approx x3.1 hp.2.2 (by rw [x3.2]; simp only [neg_mul, _root_.abs_neg]; linarith)
  have m1 := mul_negated h1 x1.1 hp.1 x1.2
  have m2 := mul_negated h2 x2.1 hp.2.1 x2.2
  have m3 := mul_negated h3 x3.1 hp.2.2 x3.2
  rw [x1.2] at p1'
  rw [x2.2] at p2'
  rw [x3.2] at p3'
  simp only [neg_mul, _root_.abs_neg] at p1' p2' p3'
  have z := (zero_approx : Approx (f0 : F32) 0 0 0)
  have zz : (f0 : F32).val = -(f0 : F32).val := by rw [f0_eq]; simp
  show (Fp.add (Simd4f.dot3Scalar bk (Simd4f.neg bk pl.normal.value) p.toVec3.value) (Fp.mul pl.constant (Fp.lit (-1) 1))).val =
    -(Fp.add (Simd4f.dot3Scalar bk pl.normal.value p.toVec3.value) pl.constant).val
  have key : ∀ a b : F32, a.isFin = true → b.isFin = true → b.val = -a.val → (Fp.add b (Fp.mul pl.constant (Fp.lit (-1) 1))).val = -(Fp.add a pl.constant).val :=
    fun a b ha hb h => add_negated ha hb h4 x4.1 h x4.2
  rcases bk with ⟨_ | _, _⟩ | _ | _ | _
  · have q1 := sum2_approx p1 p3 (by norm_num [-abs_mul] at hbig ⊢; linarith)
    have q1' := sum2_approx p1' p3' (by norm_num [-abs_mul] at hbig ⊢; linarith)
    have q2 := sum2_approx p2 z (by norm_num [-abs_mul] at hbig ⊢; linarith)
    have q2' := sum2_approx p2' z (by norm_num [-abs_mul] at hbig ⊢; linarith)
    have q := sum2_approx q1 q2 (by norm_num [-abs_mul] at hbig ⊢; linarith)
    have q' := sum2_approx q1' q2' (by norm_num [-abs_mul] at hbig ⊢; linarith)
    exact key _ _ q.fin q'.fin (add_negated q1.fin q1'.fin q2.fin q2'.fin (add_negated p1.fin p1'.fin p3.fin p3'.fin m1 m3)
      (add_negated p2.fin p2'.fin z.fin z.fin m2 zz))
  · have q1 := sum2_approx p1 p2 (by norm_num [-abs_mul] at hbig ⊢; linarith)
    have q1' := sum2_approx p1' p2' (by norm_num [-abs_mul] at hbig ⊢; linarith)
    have q2 := sum2_approx p3 z (by norm_num [-abs_mul] at hbig ⊢; linarith)
    have q2' := sum2_approx p3' z (by norm_num [-abs_mul] at hbig ⊢; linarith)
    have q := sum2_approx q1 q2 (by norm_num [-abs_mul] at hbig ⊢; linarith)
    have q' := sum2_approx q1' q2' (by norm_num [-abs_mul] at hbig ⊢; linarith)
    exact key _ _ q.fin q'.fin (add_negated q1.fin q1'.fin q2.fin q2'.fin (add_negated p1.fin p1'.fin p2.fin p2'.fin m1 m2)
      (add_negated p3.fin p3'.fin z.fin z.fin m3 zz))
  all_goals
    have q1 := sum2_approx p1 p2 (by norm_num [-abs_mul] at hbig ⊢; linarith)
    have q1' := sum2_approx p1' p2' (by norm_num [-abs_mul] at hbig ⊢; linarith)
    have q := sum2_approx q1 p3 (by norm_num [-abs_mul] at hbig ⊢; linarith)
    have q' := sum2_approx q1' p3' (by norm_num [-abs_mul] at hbig ⊢; linarith)
    exact key _ _ q.fin q'.fin (add_negated q1.fin q1'.fin p3.fin p3'.fin (add_negated p1.fin p1'.fin p2.fin p2'.fin m1 m2) m3)

/-- a frustum with finite planes -/
def Spec.FinFrustum (f : Frustum F32) : Prop := ∀ pl ∈ f.getPlanes, FinPlane pl

/-- C97: `graphene_frustum_contains_point` is decided by the exact plane equations, except within rounding error
of a plane. -/
theorem C97_contains_point (bk : Backend) (f : Frustum F32) (p : Point3D F32) (hf : FinFrustum f) (hp : FinPoint p)
    (hbig : ∀ pl ∈ f.getPlanes, planeMag pl p ≤ 2 ^ 126) :
    ((∀ pl ∈ f.getPlanes, planeErr (planeMag pl p) ≤ planeEq pl p) → f.containsPoint bk (some p) = true) ∧
    (f.containsPoint bk (some p) = true → ∀ pl ∈ f.getPlanes, -planeErr (planeMag pl p) ≤ planeEq pl p) := by
  have z : (f0 : F32).val = 0 := by rw [f0_eq]; simp
  have e : f.containsPoint bk (some p) = true ↔ ∀ pl ∈ f.getPlanes, 0 ≤ (pl.distance bk p).val := by
    unfold Frustum.containsPoint
    rw [List.all_eq_true]
    refine forall₂_congr fun pl h => ?_
    have := distance_lt_iff bk pl p (hf pl h) hp (hbig pl h) zero_approx.fin
    rw [z] at this
    rw [Bool.not_eq_true', ← _root_.not_lt, ← this, Bool.not_eq_true]
  rw [e]
  constructor
  · intro h pl hpl
    have := _root_.abs_le.1 (C97_distance bk pl p (hf pl hpl) hp (hbig pl hpl)).2
    linarith [h pl hpl, this.1]
  · intro h pl hpl
    have := _root_.abs_le.1 (C97_distance bk pl p (hf pl hpl) hp (hbig pl hpl)).2
    linarith [h pl hpl, this.2]

/-- C97: `graphene_frustum_intersects_sphere` likewise. -/
theorem C97_intersects_sphere (bk : Backend) (f : Frustum F32) (c : Point3D F32) (r : F32) (hf : FinFrustum f) (hc : FinPoint c)
    (hr : r.isFin = true) (hbig : ∀ pl ∈ f.getPlanes, planeMag pl c ≤ 2 ^ 126) :
    ((∀ pl ∈ f.getPlanes, -r.val + planeErr (planeMag pl c) ≤ planeEq pl c) →
      f.intersectsSphere bk (Sphere.init (some c) r) = true) ∧
    (f.intersectsSphere bk (Sphere.init (some c) r) = true →
      ∀ pl ∈ f.getPlanes, -r.val - planeErr (planeMag pl c) ≤ planeEq pl c) := by
  have e : f.intersectsSphere bk (Sphere.init (some c) r) = true ↔ ∀ pl ∈ f.getPlanes, -r.val ≤ (pl.distance bk c).val := by
    unfold Frustum.intersectsSphere
    rw [List.all_eq_true]
    refine forall₂_congr fun pl h => ?_
    have := distance_lt_iff bk pl c (hf pl h) hc (hbig pl h) (r := Fp.neg r) (by simpa using hr)
    rw [val_neg] at this
    rw [Bool.not_eq_true', ← _root_.not_lt, ← this, Bool.not_eq_true]
    rfl
  rw [e]
  constructor
  · intro h pl hpl
    have := _root_.abs_le.1 (C97_distance bk pl c (hf pl hpl) hc (hbig pl hpl)).2
    linarith [h pl hpl, this.1]
  · intro h pl hpl
    have := _root_.abs_le.1 (C97_distance bk pl c (hf pl hpl) hc (hbig pl hpl)).2
    linarith [h pl hpl, this.2]

/-- a box with finite corners in the right order -/
structure Spec.FinBox (b : Box F32) : Prop where
  lo : FinPoint b.getMin
  hi : FinPoint b.getMax
  x : b.getMin.x.val ≤ b.getMax.x.val
  y : b.getMin.y.val ≤ b.getMax.y.val
  z : b.getMin.z.val ≤ b.getMax.z.val

/-- `q` is a point (with real coordinates) of the box -/
def Spec.InBox (b : Box F32) (q : ℝ × ℝ × ℝ) : Prop :=
  b.getMin.x.val ≤ q.1 ∧ q.1 ≤ b.getMax.x.val ∧ b.getMin.y.val ≤ q.2.1 ∧ q.2.1 ≤ b.getMax.y.val ∧
  b.getMin.z.val ≤ q.2.2 ∧ q.2.2 ≤ b.getMax.z.val

/-- the plane equation at a point with real coordinates -/
noncomputable def Spec.planeAt (pl : Plane F32) (q : ℝ × ℝ × ℝ) : ℝ :=
  pl.normal.getX.val * q.1 + pl.normal.getY.val * q.2.1 + pl.normal.getZ.val * q.2.2 + pl.constant.val

/-- the largest magnitude of the terms over the box -/
noncomputable def Spec.boxMag (pl : Plane F32) (b : Box F32) : ℝ :=
  |pl.normal.getX.val| * Max.max |b.getMin.x.val| |b.getMax.x.val| + |pl.normal.getY.val| * Max.max |b.getMin.y.val| |b.getMax.y.val| +
  |pl.normal.getZ.val| * Max.max |b.getMin.z.val| |b.getMax.z.val| + |pl.constant.val|

/-- the corner of `planeSeparates` along one axis -/
theorem pick_axis {n lo hi : F32} (hn : n.isFin = true) (hl : lo.isFin = true) (hh : hi.isFin = true) (h : lo.val ≤ hi.val) :
    (if n >. (f0 : F32) then hi else lo).isFin = true ∧
    lo.val ≤ (if n >. (f0 : F32) then hi else lo).val ∧ (if n >. (f0 : F32) then hi else lo).val ≤ hi.val ∧
    (∀ q, lo.val ≤ q → q ≤ hi.val → n.val * q ≤ n.val * (if n >. (f0 : F32) then hi else lo).val) ∧
    |n.val * (if n >. (f0 : F32) then hi else lo).val| ≤ |n.val| * Max.max |lo.val| |hi.val| := by
  have z : (f0 : F32).val = 0 := by rw [f0_eq]; simp
  have e : (n >. (f0 : F32)) = true ↔ 0 < n.val := by
    rw [← z]; exact lt_iff_val (isNaN_of_isFin zero_approx.fin) (isNaN_of_isFin hn)
  by_cases c : (n >. (f0 : F32)) = true
  · rw [if_pos c]
    have := e.1 c
    refine ⟨hh, h, le_rfl, fun q h1 h2 => mul_le_mul_of_nonneg_left h2 this.le, ?_⟩
    rw [abs_mul]; exact mul_le_mul_of_nonneg_left (le_max_right _ _) (abs_nonneg _)
  · rw [if_neg c]
    have := _root_.not_lt.1 (mt e.2 c)
    refine ⟨hl, le_rfl, h, fun q h1 h2 => mul_le_mul_of_nonpos_left h1 this, ?_⟩
    rw [abs_mul]; exact mul_le_mul_of_nonneg_left (le_max_left _ _) (abs_nonneg _)

/-- the other corner -/
theorem pick_axis' {n lo hi : F32} (hl : lo.isFin = true) (hh : hi.isFin = true) (h : lo.val ≤ hi.val) :
    (if n >. (f0 : F32) then lo else hi).isFin = true ∧
    lo.val ≤ (if n >. (f0 : F32) then lo else hi).val ∧ (if n >. (f0 : F32) then lo else hi).val ≤ hi.val ∧
    |n.val * (if n >. (f0 : F32) then lo else hi).val| ≤ |n.val| * Max.max |lo.val| |hi.val| := by
  split
  · refine ⟨hl, le_rfl, h, ?_⟩
    rw [abs_mul]; exact mul_le_mul_of_nonneg_left (le_max_left _ _) (abs_nonneg _)
  · refine ⟨hh, h, le_rfl, ?_⟩
    rw [abs_mul]; exact mul_le_mul_of_nonneg_left (le_max_right _ _) (abs_nonneg _)

theorem planeSeparates_spec (bk : Backend) (pl : Plane F32) (b : Box F32) (hpl : FinPlane pl) (hb : FinBox b)
    (hbig : boxMag pl b ≤ 2 ^ 126) :
    (Frustum.planeSeparates bk pl b.getMin b.getMax = true → ∀ q, InBox b q → planeAt pl q < planeErr (boxMag pl b)) ∧
    ((∀ q, InBox b q → planeAt pl q < -planeErr (boxMag pl b)) → Frustum.planeSeparates bk pl b.getMin b.getMax = true) := by
  have z : (f0 : F32).val = 0 := by rw [f0_eq]; simp
  obtain ⟨h1, h2, h3, h4⟩ := hpl
  obtain ⟨x1, x2, x3, x4, x5⟩ := pick_axis h1 hb.lo.1 hb.hi.1 hb.x
  obtain ⟨y1, y2, y3, y4, y5⟩ := pick_axis h2 hb.lo.2.1 hb.hi.2.1 hb.y
  obtain ⟨z1, z2, z3, z4, z5⟩ := pick_axis h3 hb.lo.2.2 hb.hi.2.2 hb.z
  obtain ⟨u1, u2, u3, u5⟩ := pick_axis' (n := pl.normal.getX) hb.lo.1 hb.hi.1 hb.x
  obtain ⟨v1, v2, v3, v5⟩ := pick_axis' (n := pl.normal.getY) hb.lo.2.1 hb.hi.2.1 hb.y
  obtain ⟨w1, w2, w3, w5⟩ := pick_axis' (n := pl.normal.getZ) hb.lo.2.2 hb.hi.2.2 hb.z
  set p1 : Point3D F32 := ⟨if pl.normal.getX >. f0 then b.getMax.x else b.getMin.x, if pl.normal.getY >. f0 then b.getMax.y else b.getMin.y,
     if pl.normal.getZ >. f0 then b.getMax.z else b.getMin.z⟩ with hp1
  set p0 : Point3D F32 := ⟨if pl.normal.getX >. f0 then b.getMin.x else b.getMax.x, if pl.normal.getY >. f0 then b.getMin.y else b.getMax.y,
     if pl.normal.getZ >. f0 then b.getMin.z else b.getMax.z⟩ with hp0
  have m1 : planeMag pl p1 ≤ boxMag pl b := by unfold planeMag boxMag; exact add_le_add (add_le_add (add_le_add x5 y5) z5) le_rfl
  have m0 : planeMag pl p0 ≤ boxMag pl b := by unfold planeMag boxMag; exact add_le_add (add_le_add (add_le_add u5 v5) w5) le_rfl
  have d1 := C97_distance bk pl p1 ⟨h1, h2, h3, h4⟩ ⟨x1, y1, z1⟩ (m1.trans hbig)
  have d0 := C97_distance bk pl p0 ⟨h1, h2, h3, h4⟩ ⟨u1, v1, w1⟩ (m0.trans hbig)
  have l1 := distance_lt_iff bk pl p1 ⟨h1, h2, h3, h4⟩ ⟨x1, y1, z1⟩ (m1.trans hbig) zero_approx.fin
  have l0 := distance_lt_iff bk pl p0 ⟨h1, h2, h3, h4⟩ ⟨u1, v1, w1⟩ (m0.trans hbig) zero_approx.fin
  rw [z] at l1 l0
  have e : Frustum.planeSeparates bk pl b.getMin b.getMax = true ↔ (pl.distance bk p0).val < 0 ∧ (pl.distance bk p1).val < 0 := by
    rw [← l1, ← l0, ← Bool.and_eq_true]; rfl
  rw [e]
  have a1 := _root_.abs_le.1 d1.2
  have a0 := _root_.abs_le.1 d0.2
  have k1 := planeErr_mono m1
  have k0 := planeErr_mono m0
  constructor
  · rintro ⟨-, h⟩ ⟨q1, q2, q3⟩ ⟨i1, i2, i3, i4, i5, i6⟩
    have : planeAt pl (q1, q2, q3) ≤ planeEq pl p1 := by
      unfold planeAt planeEq
      exact add_le_add (add_le_add (add_le_add (x4 _ i1 i2) (y4 _ i3 i4)) (z4 _ i5 i6)) le_rfl
    linarith [a1.1]
  · intro h
    have g1 := h (p1.x.val, p1.y.val, p1.z.val) ⟨x2, x3, y2, y3, z2, z3⟩
    have g0 := h (p0.x.val, p0.y.val, p0.z.val) ⟨u2, u3, v2, v3, w2, w3⟩
    have g1' : planeEq pl p1 < -planeErr (boxMag pl b) := g1
    have g0' : planeEq pl p0 < -planeErr (boxMag pl b) := g0
    exact ⟨by linarith [a0.2], by linarith [a1.2]⟩

/-- C97: `graphene_frustum_intersects_box` culls a box only if one plane has the whole box (every real point of
it) behind it or within rounding error of it; and it does cull a box that lies behind one plane by more than that. -/
theorem C97_intersects_box (bk : Backend) (f : Frustum F32) (b : Box F32) (hf : FinFrustum f) (hb : FinBox b)
    (hbig : ∀ pl ∈ f.getPlanes, boxMag pl b ≤ 2 ^ 126) :
    (f.intersectsBox bk b = false → ∃ pl ∈ f.getPlanes, ∀ q, InBox b q → planeAt pl q < planeErr (boxMag pl b)) ∧
    ((∃ pl ∈ f.getPlanes, ∀ q, InBox b q → planeAt pl q < -planeErr (boxMag pl b)) → f.intersectsBox bk b = false) := by
  have e : f.intersectsBox bk b = false ↔ ∃ pl ∈ f.getPlanes, Frustum.planeSeparates bk pl b.getMin b.getMax = true := by
    unfold Frustum.intersectsBox
    rw [List.all_eq_false]
    refine exists_congr fun pl => and_congr_right fun _ => ?_
    simp
  rw [e]
  constructor
  · rintro ⟨pl, h, h2⟩
    exact ⟨pl, h, (planeSeparates_spec bk pl b (hf pl h) hb (hbig pl h)).1 h2⟩
  · rintro ⟨pl, h, h2⟩
    exact ⟨pl, h, (planeSeparates_spec bk pl b (hf pl h) hb (hbig pl h)).2 h2⟩

/-- non-vacuity: the plane x = 1 (facing +x), the points (2, 0, 0) and (0, 0, 0), and a box behind it -/
example : let pl : Plane F32 := ⟨Vec3.init (Fp.lit 1 1) (Fp.lit 0 1) (Fp.lit 0 1), Fp.lit (-1) 1⟩
    let p : Point3D F32 := ⟨Fp.lit 2 1, Fp.lit 0 1, Fp.lit 0 1⟩
    let b : Box F32 := ⟨Vec3.init (Fp.lit (-2) 1) (Fp.lit 0 1) (Fp.lit 0 1), Vec3.init (Fp.lit (-1) 1) (Fp.lit 1 1) (Fp.lit 1 1)⟩
    FinPlane pl ∧ FinPoint p ∧ planeMag pl p ≤ 2 ^ 126 ∧ planeErr (planeMag pl p) < planeEq pl p ∧
    FinBox b ∧ boxMag pl b ≤ 2 ^ 126 ∧ ∀ q, InBox b q → planeAt pl q < -planeErr (boxMag pl b) := by
  intro pl p b
  have l : ∀ n : Int, n.natAbs ≤ 2 ^ 24 → (Fp.lit n 1 : F32).isFin = true ∧ (Fp.lit n 1 : F32).val = n := fun n h => lit_int n h
  have e1 : (Fp.lit 1 1 : F32).val = 1 := by simpa using (l 1 (by decide)).2
  have e0 : (Fp.lit 0 1 : F32).val = 0 := by simpa using (l 0 (by decide)).2
  have e2 : (Fp.lit 2 1 : F32).val = 2 := by simpa using (l 2 (by decide)).2
  have m1 : (Fp.lit (-1) 1 : F32).val = -1 := by simpa using (l (-1) (by decide)).2
  have m2 : (Fp.lit (-2) 1 : F32).val = -2 := by simpa using (l (-2) (by decide)).2
  have n1 : pl.normal.getX.val = 1 := e1
  have n2 : pl.normal.getY.val = 0 := e0
  have n3 : pl.normal.getZ.val = 0 := e0
  have n4 : pl.constant.val = -1 := m1
  have p1 : p.x.val = 2 := e2
  have p2 : p.y.val = 0 := e0
  have p3 : p.z.val = 0 := e0
  have b1 : b.getMin = ⟨Fp.lit (-2) 1, Fp.lit 0 1, Fp.lit 0 1⟩ := by rfl
  have b2 : b.getMax = ⟨Fp.lit (-1) 1, Fp.lit 1 1, Fp.lit 1 1⟩ := by rfl
  refine ⟨⟨(l 1 (by decide)).1, (l 0 (by decide)).1, (l 0 (by decide)).1, (l (-1) (by decide)).1⟩,
    ⟨(l 2 (by decide)).1, (l 0 (by decide)).1, (l 0 (by decide)).1⟩, ?_, ?_, ⟨?_, ?_, ?_, ?_, ?_⟩, ?_, ?_⟩
  · unfold planeMag; simp only [n1, n2, n3, n4, p1, p2, p3]; norm_num
  · unfold planeMag planeErr planeEq; simp only [n1, n2, n3, n4, p1, p2, p3]; norm_num
  · rw [b1]; exact ⟨(l (-2) (by decide)).1, (l 0 (by decide)).1, (l 0 (by decide)).1⟩
  · rw [b2]; exact ⟨(l (-1) (by decide)).1, (l 1 (by decide)).1, (l 1 (by decide)).1⟩
  · simp only [b1, b2, m1, m2]; norm_num
  · simp only [b1, b2, e0, e1]; norm_num
  · simp only [b1, b2, e0, e1]; norm_num
  · unfold boxMag; simp only [b1, b2, e0, e1, m1, m2, n1, n2, n3, n4]; norm_num
  · rintro ⟨q1, q2, q3⟩ ⟨h1, h2, h3, h4, h5, h6⟩
    unfold planeAt planeErr boxMag
    simp only [b1, b2, e0, e1, m1, m2, n1, n2, n3, n4] at *
    norm_num at *
    linarith

end Graphene

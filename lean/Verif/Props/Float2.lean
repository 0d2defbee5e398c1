/-
  C86: distances and proximity tests in floating point (IEEE binary32).
-/
import Verif.Model.Point
import Verif.Props.Float1
import Verif.Props.Points

set_option exponentiation.threshold 3000

namespace Graphene
open Fp

/-- |computed - exact| for the distance of two points whose true distance is `L`. -/
noncomputable def Spec.distErr (L : ℝ) : ℝ := L / 2 ^ 20 + 1 / 2 ^ 72

variable [Libm binary32]

/-- Distances are symmetric bit for bit, for all operands (also NaN and infinities), on every
backend; so are the reported per-axis deltas. -/
theorem C86_symmetric (bk : Backend) (a b : Point F32) (c d : Point3D F32) :
    Point.distance bk a b = Point.distance bk b a ∧
    Point.distanceSquared a b = Point.distanceSquared b a ∧
    Point3D.distance bk c d = Point3D.distance bk d c := by
  refine ⟨?_, ?_, ?_⟩
  · simp only [Point.distance, Point.diff, Simd4f.length2, Simd4f.dot2, Simd4f.sqrt, Simd4f.map1,
      Simd4f.mul, Simd4f.add, Simd4f.sub, Simd4f.map2, Simd4f.splatX, Simd4f.splatY, Simd4f.splat,
      Simd4f.get, Simd4f.init, sc_sub, sc_mul, sc_abs]
    rw [sub_mul_self_comm a.x b.x, sub_mul_self_comm a.y b.y, abs_sub_comm a.x, abs_sub_comm a.y]
  · simp only [Point.distanceSquared, Point.diff, Simd4f.dot2,
      Simd4f.mul, Simd4f.add, Simd4f.sub, Simd4f.map2, Simd4f.splatX, Simd4f.splatY, Simd4f.splat,
      Simd4f.get, Simd4f.init, sc_sub, sc_mul, sc_abs]
    rw [sub_mul_self_comm a.x b.x, sub_mul_self_comm a.y b.y]
  · simp only [Point3D.distance, Vec3.length, Vec3.subtract, Point3D.toVec3, Simd4f.length3, Simd4f.dot3,
      Simd4f.sqrt, Simd4f.map1, Vec3.getX, Vec3.getY, Vec3.getZ,
      Simd4f.sub, Simd4f.map2, Simd4f.splat, Simd4f.get, Simd4f.init, sc_sub, sc_mul, sc_abs]
    rw [abs_sub_comm c.x, abs_sub_comm c.y, abs_sub_comm c.z]
    rcases bk with ⟨_ | _, _⟩ | _ | _ | _ <;>
      simp only [Simd4f.dot3Scalar, sc_mul, sc_add, sub_mul_self_comm c.x d.x,
        sub_mul_self_comm c.y d.y, sub_mul_self_comm c.z d.z]

theorem sub_self_zero {a : F32} (h : a.isFin = true) : Fp.sub a a = zero false := by
  cases a <;> simp [isFin] at h
  exact sub_self_fin _ _ _

theorem sqrt1_zero (bk : Backend) : Simd4f.sqrt1 bk (zero false : F32) = zero false := by
  rcases bk with _ | _ | _ | _ <;> kdecide

/-- The distance of a finite point to an identical one (at another address) is exactly zero. -/
theorem C86_self (bk : Backend) (a : Point F32) (c : Point3D F32)
    (ha : a.x.isFin = true ∧ a.y.isFin = true)
    (hc : c.x.isFin = true ∧ c.y.isFin = true ∧ c.z.isFin = true) :
    (Point.distance bk a a).1 = f0 ∧ Point.distanceSquared a a = f0 ∧
    (Point3D.distance bk c c).1 = f0 := by
  have z1 : Fp.mul (zero false : F32) (zero false) = zero false := by decide +kernel
  have z2 : Fp.add (zero false : F32) (zero false) = zero false := by decide +kernel
  refine ⟨?_, ?_, ?_⟩
  · simp only [Point.distance, Point.diff, Simd4f.length2, Simd4f.dot2, Simd4f.sqrt, Simd4f.map1,
      Simd4f.mul, Simd4f.add, Simd4f.sub, Simd4f.map2, Simd4f.splatX, Simd4f.splatY, Simd4f.splat,
      Simd4f.get, Simd4f.init, sc_sub, sc_mul, sc_add]
    rw [sub_self_zero ha.1, sub_self_zero ha.2, z1, z2, sqrt1_zero, f0_eq]
  · simp only [Point.distanceSquared, Point.diff, Simd4f.dot2,
      Simd4f.mul, Simd4f.add, Simd4f.sub, Simd4f.map2, Simd4f.splatX, Simd4f.splatY, Simd4f.splat,
      Simd4f.get, Simd4f.init, sc_sub, sc_mul, sc_add]
    rw [sub_self_zero ha.1, sub_self_zero ha.2, z1, z2, f0_eq]
  · simp only [Point3D.distance, Vec3.length, Vec3.subtract, Point3D.toVec3, Simd4f.length3, Simd4f.dot3,
      Simd4f.sqrt, Simd4f.map1, Simd4f.sub, Simd4f.map2, Simd4f.splat, Simd4f.get, Simd4f.init, sc_sub]
    rw [sub_self_zero hc.1, sub_self_zero hc.2.1, sub_self_zero hc.2.2]
    rcases bk with ⟨_ | _, _⟩ | _ | _ | _ <;>
      simp only [Simd4f.dot3Scalar, sc_mul, sc_add, z1, z2, f0_eq, sqrt1_zero]

theorem sqdiff_approx {a b : F32} (ha : a.isFin = true) (hb : b.isFin = true)
    (h : (a.val - b.val) ^ 2 ≤ 2 ^ 126) :
    Approx (Fp.mul (Fp.sub a b) (Fp.sub a b)) ((a.val - b.val) ^ 2) ((a.val - b.val) ^ 2)
      ((1 + 1 / 16777216) ^ 3 * (a.val - b.val) ^ 2 + 1 / 2 ^ 150) ∧ (Fp.sub a b).isFin = true := by
  have hd : |a.val - b.val| ≤ 2 ^ 63 := by
    rw [show (2 : ℝ) ^ 126 = (2 ^ 63) ^ 2 by norm_num] at h
    exact abs_le_of_sq_le_sq h (by norm_num)
  have s := Approx.sub_exact hp32 ha hb (hd.trans (le_trans (by norm_num) le_max32))
  rw [u32] at s
  have n := abs_nonneg (a.val - b.val)
  have hsq : |a.val - b.val| * |a.val - b.val| = (a.val - b.val) ^ 2 := by rw [← sq, sq_abs]
  have m := Approx.mul hp32 s s (by
    have e : (1 + 1 / 16777216) * |a.val - b.val| * ((1 + 1 / 16777216) * |a.val - b.val|)
      = (1 + 1 / 16777216) ^ 2 * (|a.val - b.val| * |a.val - b.val|) := by ring
    rw [e, hsq]
    refine le_trans ?_ le_max32
    norm_num at h ⊢; linarith)
  rw [u32, eta32] at m
  refine ⟨(m.congr (by ring) hsq).mono (le_of_eq ?_), s.fin⟩
  have e : (1 + 1 / 16777216) * |a.val - b.val| * ((1 + 1 / 16777216) * |a.val - b.val|)
      = (1 + 1 / 16777216) ^ 2 * (|a.val - b.val| * |a.val - b.val|) := by ring
  rw [e, hsq]; ring

theorem dist_approx {d : F32} {S : ℝ} (hd : d.isFin = true) (h0 : 0 ≤ d.val) (hS : 0 ≤ S)
    (h : |d.val - S| ≤ S / 2 ^ 21 + 1 / 2 ^ 147) :
    (Fp.sqrt d).isFin = true ∧ |(Fp.sqrt d).val - √S| ≤ Spec.distErr √S := by
  have := Approx.sqrt (f := binary32) (x := S) (e := 1 / 2 ^ 21) (t := 1 / 2 ^ 147) (s := 3 / 2 ^ 74)
    hs32 ht32 hd h0 hS (by norm_num) (by norm_num) (by norm_num) (by norm_num) (by linarith)
  refine ⟨this.1, this.2.trans ?_⟩
  have := Real.sqrt_nonneg S
  rw [u32]; unfold Spec.distErr
  norm_num; linarith

/-- Accuracy of `graphene_point_distance` (backends with an exact square root). -/
theorem C86_point_accuracy (bk : Backend) (hbk : bk ≠ .neon) (a b : Point F32)
    (ha : a.x.isFin = true ∧ a.y.isFin = true) (hb : b.x.isFin = true ∧ b.y.isFin = true)
    (hbig : (a.x.val - b.x.val) ^ 2 + (a.y.val - b.y.val) ^ 2 ≤ 2 ^ 126) :
    (Point.distance bk a b).1.isFin = true ∧
    |(Point.distance bk a b).1.val - √((a.x.val - b.x.val) ^ 2 + (a.y.val - b.y.val) ^ 2)| ≤
      Spec.distErr √((a.x.val - b.x.val) ^ 2 + (a.y.val - b.y.val) ^ 2) := by
  have s1 := sq_nonneg (a.x.val - b.x.val)
  have s2 := sq_nonneg (a.y.val - b.y.val)
  obtain ⟨p1, f1⟩ := sqdiff_approx ha.1 hb.1 (by linarith)
  obtain ⟨p2, f2⟩ := sqdiff_approx ha.2 hb.2 (by linarith)
  have q := sum2_approx p1 p2 (by norm_num at hbig ⊢; linarith)
  have hn := add_nonneg_val p1.fin p2.fin (mul_self_nonneg_val f1) (mul_self_nonneg_val f2)
  have := dist_approx q.fin hn (add_nonneg s1 s2) (q.err.trans (by norm_num at hbig ⊢; linarith))
  rwa [← sqrt1_ne_neon hbk] at this

/-- Accuracy of `graphene_point3d_distance` (backends with an exact square root). -/
theorem C86_point3d_accuracy (bk : Backend) (hbk : bk ≠ .neon) (a b : Point3D F32)
    (ha : a.x.isFin = true ∧ a.y.isFin = true ∧ a.z.isFin = true)
    (hb : b.x.isFin = true ∧ b.y.isFin = true ∧ b.z.isFin = true)
    (hbig : (a.x.val - b.x.val) ^ 2 + (a.y.val - b.y.val) ^ 2 + (a.z.val - b.z.val) ^ 2 ≤ 2 ^ 126) :
    (Point3D.distance bk a b).1.isFin = true ∧
    |(Point3D.distance bk a b).1.val -
        √((a.x.val - b.x.val) ^ 2 + (a.y.val - b.y.val) ^ 2 + (a.z.val - b.z.val) ^ 2)| ≤
      Spec.distErr √((a.x.val - b.x.val) ^ 2 + (a.y.val - b.y.val) ^ 2 + (a.z.val - b.z.val) ^ 2) := by
  have s1 := sq_nonneg (a.x.val - b.x.val)
  have s2 := sq_nonneg (a.y.val - b.y.val)
  have s3 := sq_nonneg (a.z.val - b.z.val)
  obtain ⟨p1, f1⟩ := sqdiff_approx ha.1 hb.1 (by linarith)
  obtain ⟨p2, f2⟩ := sqdiff_approx ha.2.1 hb.2.1 (by linarith)
  obtain ⟨p3, f3⟩ := sqdiff_approx ha.2.2 hb.2.2 (by linarith)
  have m1 := mul_self_nonneg_val f1
  have m2 := mul_self_nonneg_val f2
  have m3 := mul_self_nonneg_val f3
  have z : (0 : ℝ) ≤ (f0 : F32).val := by rw [f0_eq]; simp
  have hS := add_nonneg (add_nonneg s1 s2) s3
  have key : ∀ d : F32, (∃ E : ℝ, Approx d
      ((a.x.val - b.x.val) ^ 2 + (a.y.val - b.y.val) ^ 2 + (a.z.val - b.z.val) ^ 2)
      ((a.x.val - b.x.val) ^ 2 + (a.y.val - b.y.val) ^ 2 + (a.z.val - b.z.val) ^ 2) E ∧
      E ≤ (1 + 1 / 2 ^ 21) * ((a.x.val - b.x.val) ^ 2 + (a.y.val - b.y.val) ^ 2 + (a.z.val - b.z.val) ^ 2)
        + 1 / 2 ^ 147 ∧ 0 ≤ d.val) →
      (Simd4f.sqrt1 bk d).isFin = true ∧ |(Simd4f.sqrt1 bk d).val -
        √((a.x.val - b.x.val) ^ 2 + (a.y.val - b.y.val) ^ 2 + (a.z.val - b.z.val) ^ 2)| ≤
      Spec.distErr √((a.x.val - b.x.val) ^ 2 + (a.y.val - b.y.val) ^ 2 + (a.z.val - b.z.val) ^ 2) := by
    rintro d ⟨E, h, hE, h0⟩
    rw [sqrt1_ne_neon hbk]
    exact dist_approx h.fin h0 hS (h.err.trans (by linarith))
  have goal : ∀ d : F32, d = Simd4f.dot3Scalar bk
      ⟨Fp.sub a.x b.x, Fp.sub a.y b.y, Fp.sub a.z b.z, Fp.sub f0 f0⟩
      ⟨Fp.sub a.x b.x, Fp.sub a.y b.y, Fp.sub a.z b.z, Fp.sub f0 f0⟩ →
      (Simd4f.sqrt1 bk d).isFin = true ∧ |(Simd4f.sqrt1 bk d).val -
        √((a.x.val - b.x.val) ^ 2 + (a.y.val - b.y.val) ^ 2 + (a.z.val - b.z.val) ^ 2)| ≤
      Spec.distErr √((a.x.val - b.x.val) ^ 2 + (a.y.val - b.y.val) ^ 2 + (a.z.val - b.z.val) ^ 2) := by
    rintro d rfl
    apply key
    clear key
    rcases bk with ⟨_ | _, _⟩ | _ | _ | _
    · have q1 := sum2_approx p1 p3 (by norm_num at hbig ⊢; linarith)
      have q2 := sum2_approx p2 zero_approx (by norm_num at hbig ⊢; linarith)
      have q := sum2_approx q1 q2 (by norm_num at hbig ⊢; linarith)
      exact ⟨_, q.congr (by ring) (by ring), by norm_num at hbig ⊢; linarith,
        add_nonneg_val q1.fin q2.fin (add_nonneg_val p1.fin p3.fin m1 m3)
        (add_nonneg_val p2.fin zero_approx.fin m2 z)⟩
    · have q1 := sum2_approx p1 p2 (by norm_num at hbig ⊢; linarith)
      have q2 := sum2_approx p3 zero_approx (by norm_num at hbig ⊢; linarith)
      have q := sum2_approx q1 q2 (by norm_num at hbig ⊢; linarith)
      exact ⟨_, q.congr (by ring) (by ring), by norm_num at hbig ⊢; linarith,
        add_nonneg_val q1.fin q2.fin (add_nonneg_val p1.fin p2.fin m1 m2)
        (add_nonneg_val p3.fin zero_approx.fin m3 z)⟩
    all_goals
      have q1 := sum2_approx p1 p2 (by norm_num at hbig ⊢; linarith)
      have q := sum2_approx q1 p3 (by norm_num at hbig ⊢; linarith)
      exact ⟨_, q, by norm_num at hbig ⊢; linarith,
        add_nonneg_val q1.fin p3.fin (add_nonneg_val p1.fin p2.fin m1 m2) m3⟩
  exact goal _ rfl

/-- Points further apart than `2^-71` never get distance zero … -/
theorem C86_positive (bk : Backend) (hbk : bk ≠ .neon) (a b : Point F32)
    (ha : a.x.isFin = true ∧ a.y.isFin = true) (hb : b.x.isFin = true ∧ b.y.isFin = true)
    (hbig : (a.x.val - b.x.val) ^ 2 + (a.y.val - b.y.val) ^ 2 ≤ 2 ^ 126)
    (hfar : 1 / 2 ^ 71 ≤ √((a.x.val - b.x.val) ^ 2 + (a.y.val - b.y.val) ^ 2)) :
    0 < (Point.distance bk a b).1.val := by
  have h := (C86_point_accuracy bk hbk a b ha hb hbig).2
  have := (_root_.abs_le.1 h).1
  unfold Spec.distErr at this
  norm_num at hfar this ⊢; linarith

/-- … but distinct points that are closer may (the squares underflow): distance zero does not
mean that two floating-point points are identical. -/
theorem C86_underflow (bk : Backend) : ∃ a b : Point F32, a ≠ b ∧ a.x.isFin = true ∧ a.y.isFin = true ∧
    b.x.isFin = true ∧ b.y.isFin = true ∧ (Point.distance bk a b).1 = f0 := by
  refine ⟨⟨lit 1 (2 ^ 80), lit 0 1⟩, ⟨lit 0 1, lit 0 1⟩, ?_⟩
  rcases bk with ⟨_ | _, _ | _⟩ | _ | _ | ⟨_ | _⟩ <;> kdecide

/-! ### Proximity tests -/

theorem abs_sub_lt {a b e : F32} (ha : a.isFin = true) (hb : b.isFin = true) (he : e.isFin = true)
    (h : (Fp.abs (Fp.sub a b)).lt e = true) : |a.val - b.val| < e.val := by
  by_contra hc
  have hc := not_lt.1 hc
  have hr := rnd_sub ha hb
  have hnn : (Fp.sub a b).isNaN = false := hr.not_nan
  rw [lt_iff_val (by simpa using hnn) (isNaN_of_isFin he), val_abs] at h
  rcases le_abs'.1 hc with g | g
  · have := hr.le_of (a := neg e) (by simpa using he) (by simpa using by linarith)
    rw [le_iff_val hnn (by simpa using isNaN_of_isFin he), val_neg] at this
    have := neg_le_abs (Fp.sub a b).val
    linarith
  · have := hr.ge_of he g
    rw [le_iff_val (isNaN_of_isFin he) hnn] at this
    have := le_abs_self (Fp.sub a b).val
    linarith

theorem abs_sub_le_of {a b e : F32} (ha : a.isFin = true) (hb : b.isFin = true) (he : e.isFin = true)
    (h : |a.val - b.val| ≤ e.val) : (Fp.abs (Fp.sub a b)).le e = true := by
  have hr := rnd_sub ha hb
  have hnn : (Fp.sub a b).isNaN = false := hr.not_nan
  obtain ⟨l, r⟩ := _root_.abs_le.1 h
  have h1 := hr.le_of he r
  have h2 := hr.ge_of (a := neg e) (by simpa using he) (by simpa using l)
  rw [le_iff_val hnn (isNaN_of_isFin he)] at h1
  rw [le_iff_val (by simpa using isNaN_of_isFin he) hnn, val_neg] at h2
  rw [le_iff_val (by simpa using hnn) (isNaN_of_isFin he), val_abs, _root_.abs_le]
  exact ⟨h2, h1⟩

/-- `graphene_point_near` in floating point has no false positives: if it answers true then
every coordinate really differs by less than epsilon; and it answers true as soon as the
coordinates differ by at most some float below epsilon. -/
theorem C86_near (a b : Point F32) (e : F32)
    (ha : a.x.isFin = true ∧ a.y.isFin = true) (hb : b.x.isFin = true ∧ b.y.isFin = true)
    (he : e.isFin = true) :
    (Point.near a b e = true → |a.x.val - b.x.val| < e.val ∧ |a.y.val - b.y.val| < e.val) ∧
    (∀ e' : F32, e'.isFin = true → e'.val < e.val → |a.x.val - b.x.val| ≤ e'.val →
      |a.y.val - b.y.val| ≤ e'.val → Point.near a b e = true) := by
  constructor
  · intro h
    simp only [Point.near, Bool.and_eq_true] at h
    exact ⟨abs_sub_lt ha.1 hb.1 he h.1, abs_sub_lt ha.2 hb.2 he h.2⟩
  · intro e' he' hlt h1 h2
    have hl : e'.lt e = true := (lt_iff_val (isNaN_of_isFin he') (isNaN_of_isFin he)).2 hlt
    simp only [Point.near, Bool.and_eq_true]
    exact ⟨lt_of_le_of_lt (abs_sub_le_of ha.1 hb.1 he' h1) hl,
      lt_of_le_of_lt (abs_sub_le_of ha.2 hb.2 he' h2) hl⟩

/-- The same for `graphene_point3d_near`. -/
theorem C86_near3d (a b : Point3D F32) (e : F32)
    (ha : a.x.isFin = true ∧ a.y.isFin = true ∧ a.z.isFin = true)
    (hb : b.x.isFin = true ∧ b.y.isFin = true ∧ b.z.isFin = true) (he : e.isFin = true) :
    (Point3D.near a b e = true → |a.x.val - b.x.val| < e.val ∧ |a.y.val - b.y.val| < e.val ∧
      |a.z.val - b.z.val| < e.val) ∧
    (∀ e' : F32, e'.isFin = true → e'.val < e.val → |a.x.val - b.x.val| ≤ e'.val →
      |a.y.val - b.y.val| ≤ e'.val → |a.z.val - b.z.val| ≤ e'.val → Point3D.near a b e = true) := by
  constructor
  · intro h
    simp only [Point3D.near, Bool.and_eq_true] at h
    exact ⟨abs_sub_lt ha.1 hb.1 he h.1.1, abs_sub_lt ha.2.1 hb.2.1 he h.1.2, abs_sub_lt ha.2.2 hb.2.2 he h.2⟩
  · intro e' he' hlt h1 h2 h3
    have hl : e'.lt e = true := (lt_iff_val (isNaN_of_isFin he') (isNaN_of_isFin he)).2 hlt
    simp only [Point3D.near, Bool.and_eq_true]
    exact ⟨⟨lt_of_le_of_lt (abs_sub_le_of ha.1 hb.1 he' h1) hl,
      lt_of_le_of_lt (abs_sub_le_of ha.2.1 hb.2.1 he' h2) hl⟩,
      lt_of_le_of_lt (abs_sub_le_of ha.2.2 hb.2.2 he' h3) hl⟩

/-- concrete points meeting the hypotheses: (3, 4) and the origin -/
example : ∃ a b : Point F32, a.x.isFin = true ∧ a.y.isFin = true ∧ b.x.isFin = true ∧ b.y.isFin = true ∧
    √((a.x.val - b.x.val) ^ 2 + (a.y.val - b.y.val) ^ 2) = 5 ∧ Point.near a b (lit 5 1) = true := by
  have e3 := lit_int 3 (by decide)
  have e4 := lit_int 4 (by decide)
  have e0 := lit_int 0 (by decide)
  refine ⟨⟨lit 3 1, lit 4 1⟩, ⟨lit 0 1, lit 0 1⟩, e3.1, e4.1, e0.1, e0.1, ?_, ?_⟩
  · simp only [e3.2, e4.2, e0.2]
    rw [show (((3 : Int) : ℝ) - (0 : Int)) ^ 2 + (((4 : Int) : ℝ) - (0 : Int)) ^ 2 = 5 ^ 2 by norm_num]
    exact Real.sqrt_sq (by norm_num)
  · kdecide

end Graphene

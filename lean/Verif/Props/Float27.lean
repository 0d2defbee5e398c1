/-
  C117 (continued): rays and planes, nearest points, in single precision.
-/
import Verif.Props.Float26

set_option exponentiation.threshold 3000

namespace Graphene
open Fp Spec
variable [Libm binary32]

/-! ### Planes -/

/-- the exact value of the equation of a plane at a point -/
noncomputable def Spec.planeVal (pl : Plane F32) (p : Point3D ℝ) : ℝ :=
  pl.normal.getX.val * p.x + pl.normal.getY.val * p.y + pl.normal.getZ.val * p.z + pl.constant.val
/-- the exact rate at which a ray climbs away from a plane: `n·d` -/
noncomputable def Spec.climb (pl : Plane F32) (r : Ray F32) : ℝ :=
  pl.normal.getX.val * r.getDirection.getX.val + pl.normal.getY.val * r.getDirection.getY.val + pl.normal.getZ.val * r.getDirection.getZ.val
/-- the magnitude of its terms -/
noncomputable def Spec.climbMag (pl : Plane F32) (r : Ray F32) : ℝ :=
  |pl.normal.getX.val * r.getDirection.getX.val| + |pl.normal.getY.val * r.getDirection.getY.val| + |pl.normal.getZ.val * r.getDirection.getZ.val|

theorem eps_val32 : Is (fltEps : F32) (1 / 2 ^ 23) := by
  have := GR.eps_is.val
  rw [fltEps_real] at this
  exact ⟨GR.eps_is.fin, by rw [this]; unfold eps; norm_num⟩

theorem inf_not_fin : (Scalar.inf : F32).isFin = false := rfl

omit [Libm binary32] in
theorem plane_arith {A y1 y2 y3 y4 y5 y6 y7 n N d : ℝ} (hN : y5 ≤ A / 2 ^ 21 + 1 / 2 ^ 146) (hNA : N ≤ A)
    (e2 : y2 ≤ 1 / 2 ^ 24 * n + 1 / 2 ^ 150 * d) (e3 : y1 ≤ y3 / 2 ^ 22 + y4 / 2 ^ 147) (tb : y4 ≤ 2 ^ 87)
    (k1 : y7 ≤ y6 + y1) (k2 : y6 ≤ y5 + y2) (k3 : n ≤ y5 + N) (db : d ≤ 2 ^ 62) (t0 : 0 ≤ y3) (A0 : 0 ≤ A) :
    y7 ≤ (A + y3) / 2 ^ 20 + 1 / 2 ^ 59 := by
  norm_num at *
  linarith

omit [Libm binary32] in
/-- the sign of a quotient whose terms have the signs of the exact ones -/
theorem quot_sign {n d N D : ℝ} (h1 : 0 < d * D) (h2 : 0 < n * (-N)) : (N * D < 0 → 0 ≤ n / d) ∧ (0 < N * D → n / d < 0) := by
  have dn : d ≠ 0 := by rintro rfl; simp at h1
  have e : n / d * (d * d * (-(N * D))) = (n * (-N)) * (d * D) := by field_simp
  have p := mul_pos h2 h1
  rw [← e] at p
  have dd : 0 < d * d := mul_self_pos.2 dn
  constructor
  · intro h
    exact ((pos_iff_pos_of_mul_pos p).2 (mul_pos dd (neg_pos.2 h))).le
  · intro h
    exact (neg_iff_neg_of_mul_pos p).2 (by nlinarith [mul_pos dd h])

omit [Libm binary32] in
/-- the quotient -/
theorem plane_quot {num den : F32} (hn : num.isFin = true) (hd : den.isFin = true) {N D A B : ℝ} (A0 : 0 ≤ A) (B0 : 0 ≤ B) (hA : A ≤ 2 ^ 60)
    (hB : B ≤ 2 ^ 60) (hN : |num.val - N| ≤ A / 2 ^ 21 + 1 / 2 ^ 146) (hNA : |N| ≤ A) (hD : |den.val - D| ≤ B / 2 ^ 22 + 1 / 2 ^ 147)
    (hDB : |D| ≤ B) (hden : 1 / 2 ^ 23 ≤ |den.val|) :
    (Fp.div num den).isFin = true ∧
    |N - (Fp.div num den).val * D| ≤ (A + |(Fp.div num den).val| * B) / 2 ^ 20 + 1 / 2 ^ 59 ∧
    (0 ≤ num.val / den.val → 0 ≤ (Fp.div num den).val) ∧ (num.val / den.val < -(1 / 2 ^ 148) → (Fp.div num den).val < 0) := by
  have d0 : 0 < |den.val| := lt_of_lt_of_le (by positivity) hden
  have dne : den.val ≠ 0 := abs_pos.1 d0
  have r := rnd_div hn hd dne
  have nb : |num.val| ≤ 2 * A + 1 := by
    have := abs_add_le (num.val - N) N
    rw [sub_add_cancel] at this
    norm_num at hN; linarith
  have db : |den.val| ≤ 2 * B + 1 := by
    have := abs_add_le (den.val - D) D
    rw [sub_add_cancel] at this
    norm_num at hD; linarith
  have qb : |num.val / den.val| ≤ 2 ^ 86 := by
    rw [abs_div, div_le_iff₀ d0]
    have := mul_le_mul_of_nonneg_left hden (show (0 : ℝ) ≤ 2 ^ 86 by positivity)
    norm_num at this hA ⊢; linarith
  have f := r.isFin hp32 (qb.trans (_root_.le_trans (by norm_num) le_max32))
  have e := r.err_add f
  rw [u32, eta32] at e
  set t := Fp.div num den
  refine ⟨f, ?_, ?_, ?_⟩
  · have e2 : |t.val * den.val - num.val| ≤ 1 / 2 ^ 24 * |num.val| + 1 / 2 ^ 150 * |den.val| := by
      have h1 : t.val * den.val - num.val = (t.val - num.val / den.val) * den.val := by field_simp
      rw [h1, _root_.abs_mul]
      have h2 := mul_le_mul_of_nonneg_right e d0.le
      have h3 : (1 / 16777216 * |num.val / den.val| + 1 / 2 ^ 150) * |den.val| = 1 / 16777216 * |num.val| + 1 / 2 ^ 150 * |den.val| := by
        rw [abs_div]; field_simp
      rw [h3] at h2
      refine h2.trans ?_; norm_num
    have e3 : |t.val * (den.val - D)| ≤ |t.val| * (B / 2 ^ 22 + 1 / 2 ^ 147) := by
      rw [_root_.abs_mul]; exact mul_le_mul_of_nonneg_left hD (abs_nonneg _)
    have tb : |t.val| ≤ 2 ^ 87 := by
      have := abs_add_le (t.val - num.val / den.val) (num.val / den.val)
      rw [sub_add_cancel] at this
      generalize |num.val / den.val| = y at *
      norm_num at *; linarith
    rw [show N - t.val * D = -(num.val - N) - (t.val * den.val - num.val) + t.val * (den.val - D) by ring]
    have k1 := abs_add_le (-(num.val - N) - (t.val * den.val - num.val)) (t.val * (den.val - D))
    have k2 := abs_sub (-(num.val - N)) (t.val * den.val - num.val)
    rw [_root_.abs_neg] at k2
    have k3 := abs_add_le (num.val - N) N
    rw [sub_add_cancel] at k3
    have e4 : |t.val| * (B / 2 ^ 22 + 1 / 2 ^ 147) = |t.val| * B / 2 ^ 22 + |t.val| / 2 ^ 147 := by ring
    rw [e4] at e3
    have tB : 0 ≤ |t.val| * B := mul_nonneg (abs_nonneg _) B0
    have db' : |den.val| ≤ 2 ^ 62 := by norm_num at db hB ⊢; linarith
    have k5 : |num.val| ≤ 2 * A + 1 := nb
    clear e qb r f hD hden hDB d0 dne db hB e4
    exact plane_arith hN hNA e2 e3 tb k1 k2 k3 db' tB A0
  · intro h
    have := r.ge_of (a := zero false) rfl (by rw [val_zero]; exact h)
    rw [le_iff_val rfl (isNaN_of_isFin f), val_zero] at this
    exact this
  · intro h
    rw [abs_of_neg (a := num.val / den.val) (by linarith [show (0:ℝ) < 1 / 2 ^ 148 by positivity])] at e
    have := le_of_abs_le e
    generalize num.val / den.val = x at *
    norm_num at this h; linarith

/-- the numerator -/
theorem plane_num (bk : Backend) (r : Ray F32) (pl : Plane F32) (ho : FinPoint r.getOrigin) (hp : FinPlane pl) {A : ℝ}
    (hA : planeMag pl r.getOrigin ≤ A) (A2 : A ≤ 2 ^ 60) :
    ∃ num : F32, num = Fp.mul (Fp.lit (-1) 1) (Fp.add (Vec3.dot bk r.origin pl.normal) pl.constant) ∧ num.isFin = true ∧
      |num.val - (-planeEq pl r.getOrigin)| ≤ A / 2 ^ 21 + 1 / 2 ^ 146 := by
  refine ⟨_, rfl, ?_⟩
  have n4 := abs_nonneg pl.constant.val
  have sm : |r.origin.getX.val * pl.normal.getX.val| + |r.origin.getY.val * pl.normal.getY.val| + |r.origin.getZ.val * pl.normal.getZ.val|
      + |pl.constant.val| = planeMag pl r.getOrigin := by
    unfold planeMag
    rw [_root_.mul_comm r.origin.getX.val, _root_.mul_comm r.origin.getY.val, _root_.mul_comm r.origin.getZ.val]; rfl
  set S := |r.origin.getX.val * pl.normal.getX.val| + |r.origin.getY.val * pl.normal.getY.val| + |r.origin.getZ.val * pl.normal.getZ.val| with hS
  have S0 : 0 ≤ S := by positivity
  obtain ⟨fo, eo⟩ := C85_dot3 bk r.origin pl.normal ⟨ho.1, ho.2.1, ho.2.2, hp.1, hp.2.1, hp.2.2.1⟩
    (by rw [← hS]; norm_num at A2 ⊢; linarith)
  rw [← hS] at eo
  set X := r.origin.getX.val * pl.normal.getX.val + r.origin.getY.val * pl.normal.getY.val + r.origin.getZ.val * pl.normal.getZ.val with hX
  have XS : |X| ≤ S := (abs_add_le _ _).trans (add_le_add (abs_add_le _ _) le_rfl)
  have EX : planeEq pl r.getOrigin = X + pl.constant.val := by
    rw [hX]; unfold planeEq
    rw [_root_.mul_comm r.origin.getX.val, _root_.mul_comm r.origin.getY.val, _root_.mul_comm r.origin.getZ.val]; rfl
  have ob : |(Vec3.dot bk r.origin pl.normal).val| ≤ S + dotErr S := by
    have := abs_add_le ((Vec3.dot bk r.origin pl.normal).val - X) X
    rw [sub_add_cancel] at this; linarith
  obtain ⟨fa, ea⟩ := add_near' fo hp.2.2.2 (A := 101 / 100 * A + 1 / 2 ^ 147) (by
    unfold dotErr at ob; norm_num at ob ⊢; linarith) (by norm_num at A2 ⊢; linarith)
  have m := Is.mul_of (⟨(lit_int (-1) (by decide)).1, (lit_int (-1) (by decide)).2⟩ : Is (Fp.lit (-1) 1 : F32) ((-1 : ℤ) : ℝ))
    (Is.self fa) (c := Fp.neg (Fp.add (Vec3.dot bk r.origin pl.normal) pl.constant)) (by
      refine (Is.neg (Is.self fa)).congr ?_; push_cast; ring)
  refine ⟨m.fin, ?_⟩
  rw [m.val, EX]
  have k := abs_add_le ((Fp.add (Vec3.dot bk r.origin pl.normal) pl.constant).val - ((Vec3.dot bk r.origin pl.normal).val + pl.constant.val))
    ((Vec3.dot bk r.origin pl.normal).val - X)
  rw [show ((-1 : ℤ) : ℝ) * (Fp.add (Vec3.dot bk r.origin pl.normal) pl.constant).val - -(X + pl.constant.val) =
    -(((Fp.add (Vec3.dot bk r.origin pl.normal) pl.constant).val - ((Vec3.dot bk r.origin pl.normal).val + pl.constant.val)) +
      ((Vec3.dot bk r.origin pl.normal).val - X)) by push_cast; ring, _root_.abs_neg]
  refine k.trans ((add_le_add ea eo).trans ?_)
  unfold dotErr; norm_num; linarith

/-- C117: `graphene_ray_get_distance_to_plane` in single precision, `A` and `B` bounding the magnitudes of the terms of the plane
equation at the origin and of `n·d`.  A finite answer is a parameter at which the ray really meets the plane, up to
`(A + tB) / 2^20` (and 2^-22, the cut-off for parallel rays, when the ray is not clearly climbing); a ray clearly heading for the plane gets a
finite answer, one clearly heading away gets infinity; and a clearly parallel ray gets 0 on the plane and infinity off it. -/
theorem C117_plane (bk : Backend) (r : Ray F32) (pl : Plane F32) (hr : UnitRay r) (hp : FinPlane pl) {A B : ℝ}
    (hA : planeMag pl r.getOrigin ≤ A) (hB : climbMag pl r ≤ B) (A2 : A ≤ 2 ^ 60) (B2 : B ≤ 2 ^ 60) :
    let t := r.getDistanceToPlane bk pl
    let g := fun u => planeVal pl (rayPoint r u)
    let D := climb pl r
    (t.isFin = true ∨ t = Scalar.inf) ∧
    (t.isFin = true → 0 ≤ t.val ∧ |g t.val| ≤ (A + t.val * B) / 2 ^ 20 + 1 / 2 ^ 22) ∧
    (1 / 2 ^ 23 + B / 2 ^ 21 ≤ |D| → t.isFin = true → |g t.val| ≤ (A + t.val * B) / 2 ^ 20 + 1 / 2 ^ 59) ∧
    (1 / 2 ^ 23 + B / 2 ^ 21 ≤ |D| → A / 2 ^ 20 + 1 / 2 ^ 80 < |g 0| → (g 0 * D < 0 → t.isFin = true) ∧ (0 < g 0 * D → t = Scalar.inf)) ∧
    (|D| + B / 2 ^ 21 + 1 / 2 ^ 140 < 1 / 2 ^ 23 → (|g 0| + A / 2 ^ 20 + 1 / 2 ^ 140 < 1 / 2 ^ 23 → t.isFin = true ∧ t.val = 0) ∧
      (1 / 2 ^ 23 + A / 2 ^ 20 + 1 / 2 ^ 140 < |g 0| → t = Scalar.inf)) := by
  obtain ⟨ho, ⟨d1, d2, d3⟩, -⟩ := hr
  intro t g D
  have A0 : 0 ≤ A := (planeMag_nonneg _ _).trans hA
  have B0 : 0 ≤ B := (show 0 ≤ climbMag pl r by unfold climbMag; positivity).trans hB
  have gl : ∀ u, g u = planeEq pl r.getOrigin + u * D := by
    intro u; simp only [g, D, planeVal, rayPoint, planeEq, climb]; ring
  have g0 : g 0 = planeEq pl r.getOrigin := by rw [gl, MulZeroClass.zero_mul, _root_.add_zero]
  obtain ⟨fd, ed⟩ := C85_dot3 bk pl.normal r.direction ⟨hp.1, hp.2.1, hp.2.2.1, d1, d2, d3⟩
    ((show _ ≤ B from hB).trans (B2.trans (by norm_num)))
  have ed' : |(Vec3.dot bk pl.normal r.direction).val - D| ≤ B / 2 ^ 22 + 1 / 2 ^ 147 :=
    ed.trans (by unfold dotErr; gcongr; exact hB)
  obtain ⟨fp, ep⟩ := C97_distance bk pl r.getOrigin hp ho (hA.trans (A2.trans (by norm_num)))
  have ep' : |(pl.distance bk r.getOrigin).val - planeEq pl r.getOrigin| ≤ A / 2 ^ 21 + 1 / 2 ^ 146 :=
    ep.trans (by unfold planeErr; gcongr)
  have NA : |planeEq pl r.getOrigin| ≤ A := by
    refine _root_.le_trans ?_ hA
    unfold planeEq planeMag
    exact (abs_add_le _ _).trans (add_le_add ((abs_add_le _ _).trans (add_le_add (abs_add_le _ _) le_rfl)) le_rfl)
  have DB : |D| ≤ B := by
    refine _root_.le_trans ?_ hB
    exact (abs_add_le _ _).trans (add_le_add (abs_add_le _ _) le_rfl)
  set den := Vec3.dot bk pl.normal r.direction with hden
  obtain ⟨num, hnum, fn, en⟩ := plane_num bk r pl ho hp hA A2
  have res : t = if (Fp.abs den <. (fltEps : F32)) = true then
      (if (Fp.abs (pl.distance bk r.getOrigin) <. (fltEps : F32)) = true then f0 else Scalar.inf)
      else if ((f0 : F32) <=. Fp.div num den) = true then Fp.div num den else Scalar.inf := by rw [hnum]; rfl
  have eps := eps_val32
  have absI : ∀ {x : F32}, x.isFin = true → ((Fp.abs x <. (fltEps : F32)) = true ↔ |x.val| < 1 / 2 ^ 23) := by
    intro x hx
    have := lt_iff_val (a := Fp.abs x) (b := (fltEps : F32)) (isNaN_of_isFin (by simpa using hx)) (isNaN_of_isFin eps.fin)
    rw [val_abs, eps.val] at this
    exact this
  have sub_abs : ∀ {x y e : ℝ}, |x - y| ≤ e → |x| ≤ |y| + e ∧ |y| ≤ |x| + e := by
    intro x y e h
    have h1 := abs_add_le (x - y) y
    have h2 := abs_sub x (x - y)
    rw [sub_add_cancel] at h1
    rw [sub_sub_cancel] at h2
    constructor <;> linarith
  obtain ⟨pd1, pd2⟩ := sub_abs ed'
  obtain ⟨pp1, pp2⟩ := sub_abs ep'
  have infnf : (Scalar.inf : F32).isFin = true → False := by rw [inf_not_fin]; simp
  by_cases hpar : |den.val| < 1 / 2 ^ 23
  · rw [if_pos ((absI fd).2 hpar)] at res
    have nc : ¬ (1 / 2 ^ 23 + B / 2 ^ 21 ≤ |D|) := by
      intro h
      have hBD : |D| ≤ B := DB
      norm_num at h hpar pd2; linarith
    by_cases hon : |(pl.distance bk r.getOrigin).val| < 1 / 2 ^ 23
    · rw [if_pos ((absI fp).2 hon)] at res
      have ft : t.isFin = true := by rw [res]; exact is_f0.fin
      have tv : t.val = 0 := by rw [res]; exact is_f0.val
      refine ⟨.inl ft, fun _ => ⟨tv.ge, ?_⟩, fun h => absurd h nc, fun h => absurd h nc, fun _ => ⟨fun _ => ⟨ft, tv⟩, fun h => ?_⟩⟩
      · rw [tv, g0]; norm_num at pp2 hon ⊢; linarith
      · rw [g0] at h; norm_num at pp2 hon h; linarith
    · rw [if_neg (fun h => hon ((absI fp).1 h))] at res
      rw [res]
      refine ⟨.inr rfl, fun h => (infnf h).elim, fun h => absurd h nc, fun h => absurd h nc, fun _ => ⟨fun h => ?_, fun _ => rfl⟩⟩
      rw [g0] at h; norm_num at pp1 hon h; linarith
  · rw [if_neg (fun h => hpar ((absI fd).1 h))] at res
    obtain ⟨fq, eq, s1, s2⟩ := plane_quot fn fd A0 B0 A2 B2 en (by rw [_root_.abs_neg]; exact NA) ed' DB (not_lt.1 hpar)
    set q := Fp.div num den with hq
    have le0 : ((f0 : F32) <=. q) = true ↔ 0 ≤ q.val := by
      rw [f0_eq]; exact (le_iff_val rfl (isNaN_of_isFin fq)).trans (by rw [val_zero])
    have np : ¬ (|D| + B / 2 ^ 21 + 1 / 2 ^ 140 < 1 / 2 ^ 23) := by
      intro h; norm_num at h hpar pd1; linarith
    have eqg : |g q.val| ≤ (A + |q.val| * B) / 2 ^ 20 + 1 / 2 ^ 59 := by
      rw [gl, ← _root_.abs_neg, show -(planeEq pl r.getOrigin + q.val * D) = -planeEq pl r.getOrigin - q.val * D by ring]; exact eq
    have hd0 : 0 < |den.val| := lt_of_lt_of_le (by positivity) (not_lt.1 hpar)
    have sgn : ∀ {x y e : ℝ}, |x - y| ≤ e → e < |y| → 0 < x * y := by
      intro x y e h1 h2
      obtain ⟨a, b⟩ := _root_.abs_le.1 h1
      rcases le_total 0 y with hy | hy
      · rw [abs_of_nonneg hy] at h2; exact mul_pos (by linarith) (by linarith [_root_.le_trans (abs_nonneg _) h1])
      · rw [abs_of_nonpos hy] at h2; exact mul_pos_of_neg_of_neg (by linarith) (by linarith [_root_.le_trans (abs_nonneg _) h1])
    by_cases hq0 : 0 ≤ q.val
    · rw [if_pos (le0.2 hq0)] at res
      rw [res]
      rw [abs_of_nonneg hq0] at eqg
      refine ⟨.inl fq, fun _ => ⟨hq0, eqg.trans (by norm_num)⟩, fun _ _ => eqg, fun h1 h2 => ⟨fun _ => fq, fun h3 => ?_⟩, fun h => absurd h np⟩
      exfalso
      have a1 : 0 < den.val * D := sgn ed' (by norm_num at h1 ⊢; linarith [not_lt.1 hpar])
      have a2 : 0 < num.val * (-planeEq pl r.getOrigin) := sgn en (by rw [_root_.abs_neg, ← g0]; norm_num at h2 ⊢; linarith)
      have a3 : num.val / den.val < 0 := (quot_sign a1 a2).2 (by rw [← g0]; exact h3)
      have b1 : 1 / 2 ^ 81 ≤ |num.val| := by
        have := (sub_abs en).2
        rw [_root_.abs_neg, ← g0] at this
        norm_num at this h2 ⊢; linarith
      have b2 : |den.val| ≤ 2 ^ 62 := by norm_num at pd1 DB B2 ⊢; linarith
      have b3 : 1 / 2 ^ 144 ≤ |num.val / den.val| := by
        rw [abs_div, le_div_iff₀ hd0]
        refine _root_.le_trans ?_ b1
        have := mul_le_mul_of_nonneg_left b2 (show (0 : ℝ) ≤ 1 / 2 ^ 144 by positivity)
        refine this.trans (by norm_num)
      rw [abs_of_neg a3] at b3
      have := s2 (by norm_num at b3 ⊢; linarith)
      linarith
    · rw [if_neg (fun h => hq0 (le0.1 h))] at res
      rw [res]
      refine ⟨.inr rfl, fun h => (infnf h).elim, fun _ h => (infnf h).elim, fun h1 h2 => ⟨fun h3 => ?_, fun _ => rfl⟩, fun h => absurd h np⟩
      exfalso
      have a1 : 0 < den.val * D := sgn ed' (by norm_num at h1 ⊢; linarith [not_lt.1 hpar])
      have a2 : 0 < num.val * (-planeEq pl r.getOrigin) := sgn en (by rw [_root_.abs_neg, ← g0]; norm_num at h2 ⊢; linarith)
      apply hq0
      apply s1
      exact (quot_sign a1 a2).1 (by rw [← g0]; exact h3)

end Graphene

/-
  C124: projecting and unprojecting points in single precision.
-/
import Verif.Props.Float33
import Verif.Props.Float25
import Verif.Props.Float15
import Verif.Props.Matrix7

namespace Graphene
open Scalar Fp Spec
variable [Libm binary32]

/-- the coordinate `j` of the image of `(x, y, z)` by the linear part of a matrix -/
noncomputable def Spec.lin (m : M4 F32) (p : Point F32) (z : ℝ) (j : Fin 4) : ℝ := p.x.val * rmat m 0 j + p.y.val * rmat m 1 j + z * rmat m 2 j
/-- the sum of the magnitudes of its terms, without the last -/
noncomputable def Spec.linMag (m : M4 F32) (p : Point F32) (j : Fin 4) : ℝ := |p.x.val * rmat m 0 j| + |p.y.val * rmat m 1 j|

/-- one coordinate of the two images and of their difference -/
theorem project_lane {x y a b c : F32} (hx : x.isFin = true) (hy : y.isFin = true) (ha : a.isFin = true) (hb : b.isFin = true) (hc : c.isFin = true)
    {s : ℝ} (hs : s = |x.val * a.val| + |y.val * b.val|) (h : s ≤ 2 ^ 60) (h' : |c.val| ≤ 2 ^ 60) :
    let pa := Fp.add (Fp.add (Fp.mul a x) (Fp.mul b y)) (Fp.mul c f0)
    let pb := Fp.add (Fp.add (Fp.mul a x) (Fp.mul b y)) (Fp.mul c f1)
    (pa.isFin = true ∧ |pa.val - (x.val * a.val + y.val * b.val)| ≤ s / 2 ^ 22 + 1 / 2 ^ 148) ∧
    ((Fp.sub pa pb).isFin = true ∧ |(Fp.sub pa pb).val + c.val| ≤ (s + |c.val|) / 2 ^ 22 + 1 / 2 ^ 148) := by
  intro pa pb
  have e : |a.val * x.val| + |b.val * y.val| = s := by
    rw [hs, _root_.mul_comm a.val, _root_.mul_comm b.val]
  have n1 := abs_nonneg (a.val * x.val)
  have n2 := abs_nonneg (b.val * y.val)
  have p1 := prod_approx ha hx (by linarith [show (2 : ℝ) ^ 60 ≤ 2 ^ 126 by norm_num])
  have p2 := prod_approx hb hy (by linarith [show (2 : ℝ) ^ 60 ≤ 2 ^ 126 by norm_num])
  clear hs
  have q := sum2_approx p1 p2 (by
    generalize |a.val * x.val| = A at *; generalize |b.val * y.val| = B at *
    norm_num at h ⊢; linarith)
  have s0 : 0 ≤ s := by linarith
  obtain ⟨u, hu⟩ : ∃ u, u = Fp.add (Fp.mul a x) (Fp.mul b y) := ⟨_, rfl⟩
  rw [← hu, e] at q
  have ue : |u.val - (x.val * a.val + y.val * b.val)| ≤ s / 2 ^ 22 + 1 / 2 ^ 148 := by
    rw [_root_.mul_comm x.val, _root_.mul_comm y.val]
    refine q.err.trans ?_
    have : (1 + 1 / 16777216) * ((1 + 1 / 16777216) * |a.val * x.val| + 1 / 2 ^ 150 + ((1 + 1 / 16777216) * |b.val * y.val| + 1 / 2 ^ 150)) - s
      = (1 + 1 / 16777216) * ((1 + 1 / 16777216) * s + 1 / 2 ^ 149) - s := by rw [← e]; ring
    rw [this]; norm_num; linarith
  have ub : |u.val| ≤ s * (1 + 1 / 2 ^ 20) + 1 / 2 ^ 148 := by
    have k := q.abs_le
    have : (1 + 1 / 16777216) * ((1 + 1 / 16777216) * |a.val * x.val| + 1 / 2 ^ 150 + ((1 + 1 / 16777216) * |b.val * y.val| + 1 / 2 ^ 150))
      = (1 + 1 / 16777216) * ((1 + 1 / 16777216) * s + 1 / 2 ^ 149) := by rw [← e]; ring
    rw [this] at k; norm_num at k ⊢; linarith
  have c0 : Is (Fp.mul c (f0 : F32)) 0 := Is.mul_zero (Is.self hc) is_f0
  have c1 : Is (Fp.mul c (f1 : F32)) c.val := Is.mul_one (Is.self hc) is_f1
  have A := Is.add_zero (Is.self q.fin) c0
  have pae : pa = Fp.add u (Fp.mul c f0) := by rw [hu]
  have pbe : pb = Fp.add u (Fp.mul c f1) := by rw [hu]
  rw [← pae] at A
  have n3 := abs_nonneg c.val
  have n4 := abs_nonneg u.val
  have B := sum2_approx (Approx.exact q.fin) (Approx.of_eq c1.fin c1.val) (by
    generalize |u.val| = U at *; generalize |c.val| = C at *
    norm_num at h h' ub ⊢; linarith)
  rw [← pbe] at B
  have Bb := B.abs_le
  have Be := B.err
  have C := Approx.sub hp32 (Approx.of_eq A.fin A.val) (Approx.exact B.fin) (by
    refine le_trans ?_ le_max32
    generalize |u.val| = U at *; generalize |c.val| = C at *; generalize |pb.val| = P at *
    norm_num at h h' ub Bb ⊢; linarith)
  rw [u32] at C
  refine ⟨⟨A.fin, by rw [A.val]; exact ue⟩, C.fin, ?_⟩
  have Ce := C.err
  have t : (Fp.sub pa pb).val + c.val = ((Fp.sub pa pb).val - (u.val - pb.val)) - (pb.val - (u.val + c.val)) := by ring
  rw [t]
  refine (abs_sub _ _).trans ?_
  generalize |(Fp.sub pa pb).val - (u.val - pb.val)| = X at *
  generalize |pb.val - (u.val + c.val)| = Y at *
  generalize |u.val| = U at *; generalize |c.val| = C at *; generalize |pb.val| = P at *
  norm_num at ub Bb Be Ce ⊢
  linarith

/-- the quotient and the corrected coordinate, in terms of the errors of the two images -/
theorem project_quot {pz cz : F32} {az mz s : ℝ} (hp : pz.isFin = true) (hc : cz.isFin = true) (m0 : 1 / 2 ^ 30 ≤ |mz|) (s0 : 0 ≤ s)
    (hs : s ≤ 2 ^ 15 * |mz|) (as : |az| ≤ s) (ep : |pz.val - az| ≤ s / 2 ^ 22 + 1 / 2 ^ 148) (ec : |cz.val + mz| ≤ (s + |mz|) / 2 ^ 22 + 1 / 2 ^ 148) :
    let t := Fp.div (Fp.neg pz) cz
    let T := s / |mz|
    t.isFin = true ∧ |t.val| ≤ 5 / 4 * T + 1 / 2 ^ 100 ∧ |t.val - az / mz| ≤ (2 * T ^ 2 + 3 * T) / 2 ^ 22 + 1 / 2 ^ 100 := by
  intro t T
  have D0 : 0 < |mz| := lt_of_lt_of_le (by positivity) m0
  have hT : s = T * |mz| := by simp only [T]; field_simp
  have T0 : 0 ≤ T := by positivity
  have T2 : T ≤ 2 ^ 15 := by rw [hT] at hs; exact le_of_mul_le_mul_right hs D0
  have mne : mz ≠ 0 := abs_pos.1 D0
  have cl : 9 / 10 * |mz| ≤ |cz.val| := by
    have := abs_add_le (cz.val + mz) (-cz.val)
    rw [_root_.abs_neg, show cz.val + mz + -cz.val = mz by ring] at this
    generalize |mz| = D at *; generalize |cz.val| = C at *
    norm_num at m0 ec hs ⊢; linarith
  have c0 : 0 < |cz.val| := lt_of_lt_of_le (by positivity) cl
  have cne : cz.val ≠ 0 := abs_pos.1 c0
  have r := rnd_div (a := Fp.neg pz) (by simpa using hp) hc cne
  rw [val_neg] at r
  obtain ⟨q, hq⟩ : ∃ q, q = -pz.val / cz.val := ⟨_, rfl⟩
  rw [← hq] at r
  have pb : |pz.val| ≤ s * (1 + 1 / 2 ^ 22) + 1 / 2 ^ 148 := by
    have := abs_add_le (pz.val - az) az
    rw [sub_add_cancel] at this; linarith
  have qb : |q| ≤ 6 / 5 * T + 1 / 2 ^ 110 := by
    rw [hq, abs_div, _root_.abs_neg, div_le_iff₀ c0]
    refine pb.trans ?_
    have : (6 / 5 * T + 1 / 2 ^ 110) * (9 / 10 * |mz|) ≤ (6 / 5 * T + 1 / 2 ^ 110) * |cz.val| := by gcongr
    refine le_trans ?_ this
    rw [hT]
    have : 0 ≤ T * |mz| := by positivity
    have e : (6 / 5 * T + 1 / 2 ^ 110) * (9 / 10 * |mz|) = 27 / 25 * (T * |mz|) + 9 / 10 / 2 ^ 110 * |mz| := by ring
    rw [e]
    generalize T * |mz| = Q at *
    generalize |mz| = D at *
    norm_num at m0 ⊢; linarith
  have tf := r.isFin hp32 (by
    refine le_trans ?_ le_max32
    generalize |q| = Q at *; norm_num at T2 qb ⊢; linarith)
  have te := r.err_add tf
  rw [u32, eta32] at te
  have tv : |t.val| ≤ 5 / 4 * T + 1 / 2 ^ 100 := by
    have := abs_add_le (t.val - q) q
    rw [sub_add_cancel] at this
    change |t.val - q| ≤ _ at te
    generalize |q| = Q at *; generalize |t.val - q| = R at *; generalize |t.val| = V at *
    norm_num at te qb this ⊢; linarith
  refine ⟨tf, tv, ?_⟩
  have k : |q - az / mz| ≤ (|q| * ((s + |mz|) / 2 ^ 22 + 1 / 2 ^ 148) + (s / 2 ^ 22 + 1 / 2 ^ 148)) / |mz| := by
    rw [le_div_iff₀ D0, ← abs_mul]
    have : (q - az / mz) * mz = q * (cz.val + mz) + (pz.val - az) := by
      rw [hq]; field_simp; ring
    rw [this]
    refine (abs_add_le _ _).trans ?_
    rw [abs_mul]
    gcongr
  have k2 : (|q| * ((s + |mz|) / 2 ^ 22 + 1 / 2 ^ 148) + (s / 2 ^ 22 + 1 / 2 ^ 148)) / |mz| ≤
      (6 / 5 * T + 1 / 2 ^ 110) * ((T + 1) / 2 ^ 22 + 1 / 2 ^ 118) + T / 2 ^ 22 + 1 / 2 ^ 118 := by
    rw [div_le_iff₀ D0]
    have d1 : (1 : ℝ) / 2 ^ 148 ≤ 1 / 2 ^ 118 * |mz| := by
      generalize |mz| = D at *; norm_num at m0 ⊢; linarith
    have x1 : (s + |mz|) / 2 ^ 22 + 1 / 2 ^ 148 ≤ ((T + 1) / 2 ^ 22 + 1 / 2 ^ 118) * |mz| := by
      rw [hT]; linarith
    have x2 : s / 2 ^ 22 + 1 / 2 ^ 148 ≤ (T / 2 ^ 22 + 1 / 2 ^ 118) * |mz| := by
      rw [hT]; linarith
    have x3 : |q| * ((s + |mz|) / 2 ^ 22 + 1 / 2 ^ 148) ≤ (6 / 5 * T + 1 / 2 ^ 110) * (((T + 1) / 2 ^ 22 + 1 / 2 ^ 118) * |mz|) := by
      gcongr
    linarith
  have := abs_add_le (t.val - q) (q - az / mz)
  rw [sub_add_sub_cancel] at this
  change |t.val - q| ≤ _ at te
  have sq : (6 / 5 * T + 1 / 2 ^ 110) * ((T + 1) / 2 ^ 22 + 1 / 2 ^ 118) + T / 2 ^ 22 + 1 / 2 ^ 118 ≤ (6 / 5 * T ^ 2 + 5 / 2 * T) / 2 ^ 22 + 1 / 2 ^ 102 := by
    have : (6 / 5 * T + 1 / 2 ^ 110) * ((T + 1) / 2 ^ 22 + 1 / 2 ^ 118) = 6 / 5 / 2 ^ 22 * T ^ 2 + (6 / 5 / 2 ^ 22 + 6 / 5 / 2 ^ 118 + 1 / 2 ^ 132) * T + (1 / 2 ^ 132 + 1 / 2 ^ 228) := by ring
    rw [this]; norm_num; nlinarith
  have TT : 0 ≤ T ^ 2 := by positivity
  generalize |q - az / mz| = K at *
  generalize |q| = Q at *; generalize |t.val - q| = R at *; generalize |t.val - az / mz| = V at *
  generalize T ^ 2 = T2' at *
  have := k.trans (k2.trans sq)
  norm_num at te qb this ⊢; linarith

theorem project_coord {px cx t : F32} {ax mx sx T u : ℝ} (hp : px.isFin = true) (hc : cx.isFin = true) (ht : t.isFin = true) (T0 : 0 ≤ T) (T2 : T ≤ 2 ^ 15)
    (s0 : 0 ≤ sx) (s2 : sx ≤ 2 ^ 30) (m2 : |mx| ≤ 2 ^ 30) (as : |ax| ≤ sx) (ep : |px.val - ax| ≤ sx / 2 ^ 22 + 1 / 2 ^ 148)
    (ec : |cx.val + mx| ≤ (sx + |mx|) / 2 ^ 22 + 1 / 2 ^ 148) (tb : |t.val| ≤ 5 / 4 * T + 1 / 2 ^ 100)
    (te : |t.val - u| ≤ (2 * T ^ 2 + 3 * T) / 2 ^ 22 + 1 / 2 ^ 100) :
    (Fp.add px (Fp.mul t cx)).isFin = true ∧
    |(Fp.add px (Fp.mul t cx)).val - (ax - u * mx)| ≤ (sx * (1 + T) + |mx| * (T * (T + 2))) / 2 ^ 20 + 1 / 2 ^ 60 := by
  have m0 := abs_nonneg mx
  have t0 := abs_nonneg t.val
  have k1 : |t.val| * |cx.val + mx| ≤ 5 / 4 * (T * sx + T * |mx|) / 2 ^ 22 + 1 / 2 ^ 80 := by
    have : |t.val| * |cx.val + mx| ≤ (5 / 4 * T + 1 / 2 ^ 100) * ((sx + |mx|) / 2 ^ 22 + 1 / 2 ^ 148) := by gcongr
    have e : (5 / 4 * T + 1 / 2 ^ 100) * ((sx + |mx|) / 2 ^ 22 + 1 / 2 ^ 148) = 5 / 4 * (T * sx + T * |mx|) / 2 ^ 22 + 5 / 4 * T / 2 ^ 148 + (sx + |mx|) / 2 ^ 122 + 1 / 2 ^ 248 := by ring
    rw [e] at this
    refine this.trans ?_
    generalize T * sx + T * |mx| = Q at *
    generalize |mx| = M at *
    norm_num at T2 s2 m2 ⊢; linarith
  have k2 : |t.val - u| * |mx| ≤ (2 * (T * (T * |mx|)) + 3 * (T * |mx|)) / 2 ^ 22 + 1 / 2 ^ 70 := by
    have : |t.val - u| * |mx| ≤ ((2 * T ^ 2 + 3 * T) / 2 ^ 22 + 1 / 2 ^ 100) * |mx| := by gcongr
    refine this.trans ?_
    have e : ((2 * T ^ 2 + 3 * T) / 2 ^ 22 + 1 / 2 ^ 100) * |mx| = (2 * (T * (T * |mx|)) + 3 * (T * |mx|)) / 2 ^ 22 + |mx| / 2 ^ 100 := by ring
    rw [e]
    generalize 2 * (T * (T * |mx|)) + 3 * (T * |mx|) = Q at *
    generalize |mx| = M at *
    norm_num at m2 ⊢; linarith
  have A0 : 0 ≤ T * sx := by positivity
  have B0 : 0 ≤ T * |mx| := by positivity
  have C0 : 0 ≤ T * (T * |mx|) := by positivity
  have A2 : T * sx ≤ 2 ^ 15 * 2 ^ 30 := by gcongr
  have B2 : T * |mx| ≤ 2 ^ 15 * 2 ^ 30 := by gcongr
  -- the size of the product
  have tm : |t.val * cx.val| ≤ 5 / 4 * (T * |mx|) + 5 / 4 * (T * sx + T * |mx|) / 2 ^ 22 + 1 / 2 ^ 68 := by
    have e : t.val * cx.val = t.val * (cx.val + mx) - t.val * mx := by ring
    rw [e]
    refine (abs_sub _ _).trans ?_
    rw [_root_.abs_mul, _root_.abs_mul]
    have : |t.val| * |mx| ≤ (5 / 4 * T + 1 / 2 ^ 100) * |mx| := by gcongr
    have e2 : (5 / 4 * T + 1 / 2 ^ 100) * |mx| = 5 / 4 * (T * |mx|) + |mx| / 2 ^ 100 := by ring
    rw [e2] at this
    generalize |t.val| * |mx| = Q at *; generalize |t.val| * |cx.val + mx| = R at *
    generalize T * |mx| = P at *; generalize T * sx = S at *
    generalize |mx| = M at *
    norm_num at this k1 m2 ⊢; linarith
  have p := prod_approx ht hc (by
    generalize |t.val * cx.val| = V at *; generalize T * |mx| = P at *; generalize T * sx = S at *
    norm_num at tm A2 B2 ⊢; linarith)
  have pxb : |px.val| ≤ sx * (1 + 1 / 2 ^ 22) + 1 / 2 ^ 148 := by
    have := abs_add_le (px.val - ax) ax
    rw [sub_add_cancel] at this; linarith
  have q := sum2_approx (Approx.exact hp) p (by
    generalize |t.val * cx.val| = V at *; generalize T * |mx| = P at *; generalize T * sx = S at *
    generalize |px.val| = U at *
    norm_num at tm A2 B2 s2 pxb ⊢; linarith)
  refine ⟨q.fin, ?_⟩
  have qe := q.err
  have e : (Fp.add px (Fp.mul t cx)).val - (ax - u * mx) = ((Fp.add px (Fp.mul t cx)).val - (px.val + t.val * cx.val)) + ((px.val - ax) + (t.val * (cx.val + mx) - (t.val - u) * mx)) := by ring
  rw [e]
  refine (abs_add_le _ _).trans ((add_le_add_right ((abs_add_le _ _).trans (add_le_add_right (abs_sub _ _) _)) _).trans ?_)
  rw [_root_.abs_mul t.val (cx.val + mx), _root_.abs_mul (t.val - u) mx]
  have e3 : sx * (1 + T) + |mx| * (T * (T + 2)) = sx + T * sx + T * (T * |mx|) + 2 * (T * |mx|) := by ring
  rw [e3]
  generalize |(Fp.add px (Fp.mul t cx)).val - (px.val + t.val * cx.val)| = X at *
  generalize |t.val * cx.val| = V at *
  generalize |t.val| * |cx.val + mx| = R at *
  generalize |t.val - u| * |mx| = W at *
  generalize |px.val - ax| = E at *
  generalize |px.val| = U at *
  generalize T * (T * |mx|) = C at *; generalize T * |mx| = P at *; generalize T * sx = S at *
  norm_num at tm k1 k2 ep pxb qe ⊢; linarith

/-- C124: `graphene_matrix_project_point` in single precision.  The exact result is the point where the line through the images of `(x, y, 0)` and
`(x, y, 1)` by the linear part of the matrix meets the plane `z = 0`; the computed one is within a relative 2^-20 of the terms, magnified by
`T`, the height of the terms over that of the direction. -/
theorem C124_project_point (m : M4 F32) (p : Point F32) (hm : FinMat m) (hx : p.x.isFin = true) (hy : p.y.isFin = true)
    (hz : 1 / 2 ^ 30 ≤ |rmat m 2 2|) (h2 : ∀ j, |rmat m 2 j| ≤ 2 ^ 30) (hs : ∀ j, linMag m p j ≤ 2 ^ 30) (hT : linMag m p 2 ≤ 2 ^ 15 * |rmat m 2 2|)
    (z : ℝ) (hzero : lin m p z 2 = 0) :
    let T := linMag m p 2 / |rmat m 2 2|
    let r := GMatrix.projectPoint m p
    (r.x.isFin = true ∧ |r.x.val - lin m p z 0| ≤ (linMag m p 0 * (1 + T) + |rmat m 2 0| * (T * (T + 2))) / 2 ^ 20 + 1 / 2 ^ 60) ∧
    (r.y.isFin = true ∧ |r.y.val - lin m p z 1| ≤ (linMag m p 1 * (1 + T) + |rmat m 2 1| * (T * (T + 2))) / 2 ^ 20 + 1 / 2 ^ 60) := by
  intro T r
  have D0 : 0 < |rmat m 2 2| := lt_of_lt_of_le (by positivity) hz
  have mne : rmat m 2 2 ≠ 0 := abs_pos.1 D0
  have g : ∀ j, 0 ≤ linMag m p j := fun j => add_nonneg (abs_nonneg _) (abs_nonneg _)
  have b : ∀ j, |p.x.val * rmat m 0 j + p.y.val * rmat m 1 j| ≤ linMag m p j := fun j => abs_add_le _ _
  have L : ∀ j, _ := fun j => project_lane hx hy (hm 0 j) (hm 1 j) (hm 2 j) (s := linMag m p j) rfl ((hs j).trans (by norm_num)) ((h2 j).trans (by norm_num))
  have T0 : 0 ≤ T := div_nonneg (g 2) D0.le
  have T2 : T ≤ 2 ^ 15 := by rw [div_le_iff₀ D0]; exact hT
  obtain ⟨tf, tb, te⟩ := project_quot (L 2).1.1 (L 2).2.1 hz (g 2) hT (b 2) (L 2).1.2 (L 2).2.2
  have ez : z = -((p.x.val * rmat m 0 2 + p.y.val * rmat m 1 2) / rmat m 2 2) := by
    unfold lin at hzero
    field_simp; linarith
  have C : ∀ j, _ := fun j => project_coord (L j).1.1 (L j).2.1 tf T0 T2 (g j) (hs j) (h2 j) (b j) (L j).1.2 (L j).2.2 tb te
  have f : ∀ j, p.x.val * rmat m 0 j + p.y.val * rmat m 1 j - (p.x.val * rmat m 0 2 + p.y.val * rmat m 1 2) / rmat m 2 2 * rmat m 2 j = lin m p z j := by
    intro j; unfold lin; rw [ez]; ring
  have c0 := C 0
  have c1 := C 1
  change _ ∧ |_ - (p.x.val * rmat m 0 0 + p.y.val * rmat m 1 0 - (p.x.val * rmat m 0 2 + p.y.val * rmat m 1 2) / rmat m 2 2 * rmat m 2 0)| ≤ _ at c0
  change _ ∧ |_ - (p.x.val * rmat m 0 1 + p.y.val * rmat m 1 1 - (p.x.val * rmat m 0 2 + p.y.val * rmat m 1 2) / rmat m 2 2 * rmat m 2 1)| ≤ _ at c1
  rw [f] at c0 c1
  exact ⟨c0, c1⟩

/-! ### Back faces -/

theorem sign_near {a : F32} {x ε : ℝ} (hf : a.isFin = true) (h1 : ε < 1) (h : |a.val - x| ≤ ε * |x|) : (a <. (f0 : F32)) = true ↔ x < 0 := by
  have z : Is (f0 : F32) 0 := is_f0
  change a.lt (f0 : F32) = true ↔ _
  rw [lt_iff_val (isNaN_of_isFin hf) (isNaN_of_isFin z.fin), z.val]
  obtain ⟨l, u⟩ := _root_.abs_le.1 h
  constructor
  · intro n
    by_contra c
    have c := not_lt.1 c
    rw [_root_.abs_of_nonneg c] at l
    nlinarith
  · intro n
    rw [_root_.abs_of_neg n] at u
    nlinarith

/-- C124: `graphene_matrix_is_backface_visible` in single precision, for matrices whose entries are multiples of `2^-k` small enough for the minors to be
exact (so all matrices with integer entries up to 28, for example, and the quarter turn in the examples of Float15): the answer is exact. -/
theorem C124_backface {k : ℕ} {W : M4 ℕ} (bk : Backend) (he : EstAccurate bk) (hk : k ≤ 32) (m : M4 F32) (h : GridEntries k W m) (hs : SmallMinors W) :
    (1 / 2 ^ 23 < |(rmat m).det| → (GMatrix.isBackfaceVisible bk m = true ↔ (rmat m)⁻¹ 2 2 < 0)) ∧
    (|(rmat m).det| < 1 / 2 ^ 23 → GMatrix.isBackfaceVisible bk m = false) := by
  have key : ∀ ε : ℝ, ε < 1 → ((1 / 2 ^ 23 < |(rmat m).det| → ∃ r, GMatrix.inverse bk m = some r ∧ FinMat r ∧
      ∀ i j, |rmat r i j - (rmat m)⁻¹ i j| ≤ ε * |(rmat m)⁻¹ i j|) ∧
    (|(rmat m).det| < 1 / 2 ^ 23 → GMatrix.inverse bk m = none)) →
    (1 / 2 ^ 23 < |(rmat m).det| → (GMatrix.isBackfaceVisible bk m = true ↔ (rmat m)⁻¹ 2 2 < 0)) ∧
    (|(rmat m).det| < 1 / 2 ^ 23 → GMatrix.isBackfaceVisible bk m = false) := by
    intro ε h1 hi
    refine ⟨fun hd => ?_, fun hd => ?_⟩
    · obtain ⟨r, hr, hf, ha⟩ := hi.1 hd
      rw [GMatrix.isBackfaceVisible, show Simd4x4f.inverse bk m = some r from hr]
      exact sign_near (hf 2 2) h1 (ha 2 2)
    · rw [GMatrix.isBackfaceVisible, show Simd4x4f.inverse bk m = none from hi.2 hd]
  by_cases hb : bk = .neon
  · subst hb
    exact key (1 / 2 ^ 19) (by norm_num) (C103_inverse_neon he hk m h hs)
  · exact key (1 / 2 ^ 22) (by norm_num) (C103_inverse bk hb hk m h hs)

end Graphene

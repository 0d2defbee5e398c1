/-
  C122: making, normalising and transforming planes, and the clip planes of a matrix, in single precision.
-/
import Verif.Props.Float21
import Verif.Props.Float31

set_option exponentiation.threshold 3000

namespace Graphene
open Fp Spec
variable [Libm binary32]

/-- the sum of the magnitudes of the coordinates of `q - p` -/
noncomputable def Spec.taxi (p q : Point3D ℝ) : ℝ := |q.x - p.x| + |q.y - p.y| + |q.z - p.z|
/-- the scalar product of `n` with `q - p`: the exact plane through `p` with normal `n`, at `q` -/
def Spec.along (n p q : Point3D ℝ) : ℝ := n.x * (q.x - p.x) + n.y * (q.y - p.y) + n.z * (q.z - p.z)
/-- the equation of a plane at a point with real coordinates -/
noncomputable def Spec.planeOf (pl : Plane F32) (q : Point3D ℝ) : ℝ := planeAt pl (q.x, q.y, q.z)

/-- a plane whose normal is near `u`, and which passes near `r` -/
theorem plane_near {pl : Plane F32} {u r q : Point3D ℝ} {ε E : ℝ} (h1 : |pl.normal.getX.val - u.x| ≤ ε) (h2 : |pl.normal.getY.val - u.y| ≤ ε)
    (h3 : |pl.normal.getZ.val - u.z| ≤ ε) (h : |planeOf pl r| ≤ E) : |planeOf pl q - along u r q| ≤ ε * taxi r q + E := by
  have e : planeOf pl q - along u r q = (pl.normal.getX.val - u.x) * (q.x - r.x) + (pl.normal.getY.val - u.y) * (q.y - r.y) +
      (pl.normal.getZ.val - u.z) * (q.z - r.z) + planeOf pl r := by unfold planeOf planeAt along; simp only; ring
  have k : ∀ {a b : ℝ}, |a| ≤ ε → |a * b| ≤ ε * |b| := fun h => by
    rw [_root_.abs_mul]; exact mul_le_mul_of_nonneg_right h (abs_nonneg _)
  rw [e]
  have a1 := abs_add_le ((pl.normal.getX.val - u.x) * (q.x - r.x) + (pl.normal.getY.val - u.y) * (q.y - r.y) +
      (pl.normal.getZ.val - u.z) * (q.z - r.z)) (planeOf pl r)
  have a2 := abs_add_le ((pl.normal.getX.val - u.x) * (q.x - r.x) + (pl.normal.getY.val - u.y) * (q.y - r.y))
    ((pl.normal.getZ.val - u.z) * (q.z - r.z))
  have a3 := abs_add_le ((pl.normal.getX.val - u.x) * (q.x - r.x)) ((pl.normal.getY.val - u.y) * (q.y - r.y))
  have b1 := k (b := q.x - r.x) h1
  have b2 := k (b := q.y - r.y) h2
  have b3 := k (b := q.z - r.z) h3
  have : ε * taxi r q = ε * |q.x - r.x| + ε * |q.y - r.y| + ε * |q.z - r.z| := by unfold taxi; ring
  linarith

/-- C122: `graphene_plane_init_from_point` keeps the normal, and passes through the point up to the rounding of one scalar product. -/
theorem C122_from_point (bk : Backend) (n : Vec3 F32) (p : Point3D F32) (hn : FinPoint ⟨n.getX, n.getY, n.getZ⟩) (hp : FinPoint p) {S : ℝ}
    (hS : S = |p.x.val * n.getX.val| + |p.y.val * n.getY.val| + |p.z.val * n.getZ.val|) (hbig : S ≤ 2 ^ 126) :
    let pl := Plane.initFromPoint bk n p
    FinPlane pl ∧ pl.normal = n ∧ |planeOf pl (exactP p)| ≤ dotErr S ∧
    ∀ q, |planeOf pl q - along (exactVec3 n) (exactP p) q| ≤ dotErr S := by
  obtain ⟨n1, n2, n3⟩ := hn
  obtain ⟨p1, p2, p3⟩ := hp
  obtain ⟨d1, d2⟩ := C85_dot3 bk p.toVec3 n ⟨p1, p2, p3, n1, n2, n3⟩ (by rw [hS] at hbig; exact hbig)
  obtain ⟨m1, m2⟩ := mul_m1 d1
  intro pl
  have c : pl.constant.val = -(Vec3.dot bk p.toVec3 n).val := m2
  have hr : |planeOf pl (exactP p)| ≤ dotErr S := by
    have e : planeOf pl (exactP p) = -((Vec3.dot bk p.toVec3 n).val -
        (p.toVec3.getX.val * n.getX.val + p.toVec3.getY.val * n.getY.val + p.toVec3.getZ.val * n.getZ.val)) := by
      unfold planeOf planeAt
      rw [c]
      change n.getX.val * p.x.val + n.getY.val * p.y.val + n.getZ.val * p.z.val + -(Vec3.dot bk p.toVec3 n).val =
        -((Vec3.dot bk p.toVec3 n).val - (p.x.val * n.getX.val + p.y.val * n.getY.val + p.z.val * n.getZ.val))
      ring
    rw [e, _root_.abs_neg, hS]; exact d2
  refine ⟨⟨n1, n2, n3, m1⟩, rfl, hr, fun q => ?_⟩
  have z : ∀ a : ℝ, |a - a| ≤ 0 := fun a => by simp
  have := plane_near (pl := pl) (u := exactVec3 n) (r := exactP p) (q := q) (ε := 0) (z _) (z _) (z _) hr
  linarith

/-- normalising a vector that is within `η` of an exact one of length `V` -/
theorem normalize_near (bk : Backend) (he : EstAccurate bk) (w : Vec3 F32) (d : Point3D ℝ) {V η : ℝ}
    (wx : w.getX.isFin = true ∧ |w.getX.val - d.x| ≤ η) (wy : w.getY.isFin = true ∧ |w.getY.val - d.y| ≤ η)
    (wz : w.getZ.isFin = true ∧ |w.getZ.val - d.z| ≤ η) (hV : V = norm3 d)
    (V1 : 1 / 2 ^ 10 ≤ V) (V2 : V ≤ 2 ^ 61) (sm : η ≤ V / 4) :
    let n := Vec3.normalize bk w
    (n.getX.isFin = true ∧ |n.getX.val - d.x / V| ≤ 1 / 2 ^ 18 + 3 * η / V) ∧
    (n.getY.isFin = true ∧ |n.getY.val - d.y / V| ≤ 1 / 2 ^ 18 + 3 * η / V) ∧
    (n.getZ.isFin = true ∧ |n.getZ.val - d.z / V| ≤ 1 / 2 ^ 18 + 3 * η / V) ∧
    |n.getX.val| ≤ 2 ∧ |n.getY.val| ≤ 2 ∧ |n.getZ.val| ≤ 2 := by
  have η0 : 0 ≤ η := (abs_nonneg _).trans wx.2
  have ln := len3_near η0 wx.2 wy.2 wz.2
  obtain ⟨W, hW⟩ : ∃ W, W = √(w.getX.val ^ 2 + w.getY.val ^ 2 + w.getZ.val ^ 2) := ⟨_, rfl⟩
  have hV' : √(d.x ^ 2 + d.y ^ 2 + d.z ^ 2) = V := hV.symm
  rw [← hW, hV'] at ln
  obtain ⟨l1, l2⟩ := _root_.abs_le.1 ln
  have V0 : 0 < V := lt_of_lt_of_le (by positivity) V1
  have W0 : 0 < W := by linarith
  have nl : NormLen bk W := ⟨by norm_num at V1 ⊢; linarith, by norm_num at V2 ⊢; linarith, fun _ _ => by norm_num at V1 ⊢; linarith⟩
  obtain ⟨f1', f2', f3'⟩ := C99_normalize3 bk he w ⟨wx.1, wy.1, wz.1⟩ hW nl
  have sqW : W ^ 2 = w.getX.val ^ 2 + w.getY.val ^ 2 + w.getZ.val ^ 2 := by rw [hW]; exact Real.sq_sqrt (by positivity)
  have cw : ∀ {t : ℝ}, t ^ 2 ≤ W ^ 2 → |t| ≤ W := fun h => abs_le_of_sq_le_sq h W0.le
  have cx := cw (t := w.getX.val) (by rw [sqW]; nlinarith [sq_nonneg w.getY.val, sq_nonneg w.getZ.val])
  have cy := cw (t := w.getY.val) (by rw [sqW]; nlinarith [sq_nonneg w.getX.val, sq_nonneg w.getZ.val])
  have cz := cw (t := w.getZ.val) (by rw [sqW]; nlinarith [sq_nonneg w.getX.val, sq_nonneg w.getY.val])
  have le2 : ∀ {c : F32} {t : ℝ}, UnitComp c t W → |t| ≤ W → |c.val| ≤ 2 := by
    intro c t h1 h2
    have a : |t| / W ≤ 1 := (div_le_one W0).2 h2
    have b := abs_add_le (c.val - t / W) (t / W)
    rw [sub_add_cancel, abs_div t, abs_of_pos W0] at b
    have := h1.2
    generalize |t| / W = s at *
    generalize |c.val - t / W| = s' at *
    norm_num at this ⊢; linarith
  exact ⟨unit_comp_near f1' V0 W0 wx.2 ln cx, unit_comp_near f2' V0 W0 wy.2 ln cy, unit_comp_near f3' V0 W0 wz.2 ln cz,
    le2 f1' cx, le2 f2' cy, le2 f3' cz⟩

/-- C122: `graphene_plane_init_from_points` (and so `graphene_triangle_get_plane`): for three points with coordinates up to 2^20 where the
angle at the second has a sine of at least `1/k`, the normal is within k·2^-17 of the exact unit normal, and the equation of the plane is
the exact one up to that times the distance from the first point. -/
theorem C122_from_points (bk : Backend) (he : EstAccurate bk) (a b c : Point3D F32) (ha : Tame a) (hb : Tame b) (hc : Tame c) {k V : ℝ} {X : Point3D ℝ}
    (hX : X = ⟨(ccw (exactP a) (exactP b) (exactP c)).getX, (ccw (exactP a) (exactP b) (exactP c)).getY, (ccw (exactP a) (exactP b) (exactP c)).getZ⟩)
    (hV : V = norm3 X) (V1 : 1 / 2 ^ 10 ≤ V) (k2 : k ≤ 2 ^ 16) (hk : gap (exactP b) (exactP c) * gap (exactP b) (exactP a) ≤ k * V) :
    let pl := Plane.initFromPoints bk a b c
    FinPlane pl ∧
    |pl.normal.getX.val - X.x / V| ≤ k / 2 ^ 17 ∧ |pl.normal.getY.val - X.y / V| ≤ k / 2 ^ 17 ∧ |pl.normal.getZ.val - X.z / V| ≤ k / 2 ^ 17 ∧
    ∀ q, |planeOf pl q - along X (exactP a) q / V| ≤ k / 2 ^ 17 * taxi (exactP a) q + dotErr (2 * taxi ⟨0, 0, 0⟩ (exactP a)) := by
  have bnd : gap (exactP b) (exactP c) * gap (exactP b) (exactP a) ≤ 2 ^ 44 :=
    (mul_le_mul (gap_le hb hc) (gap_le hb ha) (Real.sqrt_nonneg _) (by positivity)).trans (by norm_num)
  have p0 : 0 ≤ gap (exactP b) (exactP c) * gap (exactP b) (exactP a) := mul_nonneg (Real.sqrt_nonneg _) (Real.sqrt_nonneg _)
  have V0 : 0 < V := lt_of_lt_of_le (by positivity) V1
  have gle : V ≤ gap (exactP b) (exactP c) * gap (exactP b) (exactP a) := by
    rw [hV, hX, norm3, Real.sqrt_le_left p0, mul_pow, gap_sq, gap_sq]
    simp only [ccw, exactP, Vec3.getX, Vec3.getY, Vec3.getZ, Simd4f.get]
    nlinarith [sq_nonneg ((c.x.val - b.x.val) * (a.x.val - b.x.val) + (c.y.val - b.y.val) * (a.y.val - b.y.val) + (c.z.val - b.z.val) * (a.z.val - b.z.val))]
  obtain ⟨hf, hE⟩ := cross_edges bk (Vec3.subtract c.toVec3 b.toVec3) (Vec3.subtract a.toVec3 b.toVec3) (edge_approx hb.1 hc.1) (edge_approx hb.2.1 hc.2.1)
    (edge_approx hb.2.2 hc.2.2) (edge_approx hb.1 ha.1) (edge_approx hb.2.1 ha.2.1) (edge_approx hb.2.2 ha.2.2)
    (Real.sqrt_nonneg _) (Real.sqrt_nonneg _) (gap_sq (exactP b) (exactP c)) (gap_sq (exactP b) (exactP a)) (bnd.trans (by norm_num))
  obtain ⟨w, hw⟩ : ∃ w, w = Vec3.cross bk (Vec3.subtract c.toVec3 b.toVec3) (Vec3.subtract a.toVec3 b.toVec3) := ⟨_, rfl⟩
  rw [← hw] at hf hE
  obtain ⟨η, hη⟩ : ∃ η, η = 13 / 2 ^ 24 * (gap (exactP b) (exactP c) * gap (exactP b) (exactP a)) + 1 / 2 ^ 146 := ⟨_, rfl⟩
  change _ ≤ 13 / 2 ^ 24 * (gap (exactP b) (exactP c) * gap (exactP b) (exactP a)) + 1 / 2 ^ 146 at hE
  rw [← hη] at hE
  have ex : (c.y.val - b.y.val) * (a.z.val - b.z.val) - (c.z.val - b.z.val) * (a.y.val - b.y.val) = X.x := by
    rw [hX]; simp only [ccw, exactP, Vec3.getX, Simd4f.get]; ring
  have ey : (c.z.val - b.z.val) * (a.x.val - b.x.val) - (c.x.val - b.x.val) * (a.z.val - b.z.val) = X.y := by
    rw [hX]; simp only [ccw, exactP, Vec3.getY, Simd4f.get]; ring
  have ez : (c.x.val - b.x.val) * (a.y.val - b.y.val) - (c.y.val - b.y.val) * (a.x.val - b.x.val) = X.z := by
    rw [hX]; simp only [ccw, exactP, Vec3.getZ, Simd4f.get]; ring
  replace hE : |w.getX.val - X.x| + |w.getY.val - X.y| + |w.getZ.val - X.z| ≤ η := by rw [← ex, ← ey, ← ez]; exact hE
  generalize gap (exactP b) (exactP c) * gap (exactP b) (exactP a) = P at *
  have k1 : 1 ≤ k := by
    by_contra h
    have := mul_lt_mul_of_pos_right (_root_.not_le.1 h) V0
    linarith
  have kV := mul_le_mul_of_nonneg_right k1 V0.le
  have dk : η ≤ 27 / 2 ^ 25 * (k * V) := by rw [hη]; norm_num at hk V1 kV ⊢; linarith
  have kV2 := mul_le_mul_of_nonneg_right k2 V0.le
  have sm : η ≤ V / 4 := by norm_num at kV2 dk ⊢; linarith
  have a1 := abs_nonneg (w.getX.val - X.x)
  have a2 := abs_nonneg (w.getY.val - X.y)
  have a3 := abs_nonneg (w.getZ.val - X.z)
  obtain ⟨⟨x1, x2⟩, ⟨y1, y2⟩, ⟨z1, z2⟩, b1, b2, b3⟩ := normalize_near bk he w X ⟨hf.1, by linarith⟩ ⟨hf.2.1, by linarith⟩ ⟨hf.2.2, by linarith⟩ hV V1
    (by norm_num at gle bnd ⊢; linarith) sm
  have ee : 1 / 2 ^ 18 + 3 * η / V ≤ k / 2 ^ 17 := by
    have : 3 * η / V ≤ 3 * 27 / 2 ^ 25 * k := by
      rw [div_le_iff₀ V0]; norm_num at dk ⊢; linarith
    norm_num at this ⊢; linarith
  have X1 := x2.trans ee
  have Y1 := y2.trans ee
  have Z1 := z2.trans ee
  intro pl
  have hpl : pl = Plane.initFromPoint bk (Vec3.normalize bk w) a := by rw [hw]; rfl
  have sb : |a.x.val * (Vec3.normalize bk w).getX.val| + |a.y.val * (Vec3.normalize bk w).getY.val| + |a.z.val * (Vec3.normalize bk w).getZ.val| ≤
      2 * taxi ⟨0, 0, 0⟩ (exactP a) := by
    have t : ∀ {s t : ℝ}, |t| ≤ 2 → |s * t| ≤ 2 * |s| := fun {s t} h => by
      rw [_root_.abs_mul]; nlinarith [abs_nonneg s]
    have e : 2 * taxi ⟨0, 0, 0⟩ (exactP a) = 2 * |a.x.val| + 2 * |a.y.val| + 2 * |a.z.val| := by
      simp only [taxi, exactP, _root_.sub_zero]; ring
    rw [e]
    exact add_le_add (add_le_add (t b1) (t b2)) (t b3)
  have sb2 : 2 * taxi ⟨0, 0, 0⟩ (exactP a) ≤ 2 ^ 126 := by
    have e : 2 * taxi ⟨0, 0, 0⟩ (exactP a) = 2 * |a.x.val| + 2 * |a.y.val| + 2 * |a.z.val| := by
      simp only [taxi, exactP, _root_.sub_zero]; ring
    rw [e]
    have := ha.1.2
    have := ha.2.1.2
    have := ha.2.2.2
    norm_num at *; linarith
  obtain ⟨g1, g2, g3, g4⟩ := C122_from_point bk (Vec3.normalize bk w) a ⟨x1, y1, z1⟩ ⟨ha.1.1, ha.2.1.1, ha.2.2.1⟩ rfl (sb.trans sb2)
  rw [hpl]
  refine ⟨g1, X1, Y1, Z1, fun q => ?_⟩
  have g3' : |planeOf (Plane.initFromPoint bk (Vec3.normalize bk w) a) (exactP a)| ≤ dotErr (2 * taxi ⟨0, 0, 0⟩ (exactP a)) :=
    g3.trans (by unfold dotErr; gcongr)
  have := plane_near (pl := Plane.initFromPoint bk (Vec3.normalize bk w) a) (u := ⟨X.x / V, X.y / V, X.z / V⟩) (q := q) X1 Y1 Z1 g3'
  have e : along ⟨X.x / V, X.y / V, X.z / V⟩ (exactP a) q = along X (exactP a) q / V := by unfold along; simp only; field_simp
  rw [e] at this
  exact this

/-! ### The clip planes of a matrix -/

/-- the coefficients of the clip coordinate `w + s·x` (or y, z) of a matrix, as a linear function of `(x, y, z, 1)` -/
noncomputable def Spec.clipCoeff (m : M4 F32) (i : Fin 3) (s : ℝ) (j : Fin 4) : ℝ := rmat m j 3 + s * rmat m j i.castSucc
/-- the exact clip coordinate `w + s·x` (or y, z) of a point -/
noncomputable def Spec.clipAt (m : M4 F32) (i : Fin 3) (s : ℝ) (q : Point3D ℝ) : ℝ :=
  clipCoeff m i s 0 * q.x + clipCoeff m i s 1 * q.y + clipCoeff m i s 2 * q.z + clipCoeff m i s 3
/-- the magnitude of its terms -/
noncomputable def Spec.clipMag (m : M4 F32) (i : Fin 3) (s : ℝ) (q : Point3D ℝ) : ℝ :=
  |clipCoeff m i s 0 * q.x| + |clipCoeff m i s 1 * q.y| + |clipCoeff m i s 2 * q.z| + |clipCoeff m i s 3|
/-- the length of the normal -/
noncomputable def Spec.clipLen (m : M4 F32) (i : Fin 3) (s : ℝ) : ℝ :=
  norm3 ⟨clipCoeff m i s 0, clipCoeff m i s 1, clipCoeff m i s 2⟩

/-- the plane made of four coefficients that are rounded once -/
theorem clip_core (bk : Backend) (he : EstAccurate bk) (v : Vec4 F32) (e : Fin 4 → ℝ) {L : ℝ}
    (hv : ∀ j, (vec v.value j).isFin = true ∧ |rvec v.value j - e j| ≤ |e j| / 2 ^ 24) (hL : L = norm3 ⟨e 0, e 1, e 2⟩)
    (L1 : 1 / 2 ^ 10 ≤ L) (L2 : L ≤ 2 ^ 61) (hc : |e 3| / L ≤ 2 ^ 120) :
    let pl := Frustum.clipPlane bk v
    FinPlane pl ∧ |pl.normal.getX.val - e 0 / L| ≤ |e 0| / L / 2 ^ 18 + 1 / 2 ^ 149 ∧ |pl.normal.getY.val - e 1 / L| ≤ |e 1| / L / 2 ^ 18 + 1 / 2 ^ 149 ∧
    |pl.normal.getZ.val - e 2 / L| ≤ |e 2| / L / 2 ^ 18 + 1 / 2 ^ 149 ∧ |pl.constant.val - e 3 / L| ≤ |e 3| / L / 2 ^ 16 + 1 / 2 ^ 149 := by
  have L0 : 0 < L := lt_of_lt_of_le (by positivity) L1
  have Lsq : L ^ 2 = e 0 ^ 2 + e 1 ^ 2 + e 2 ^ 2 := by rw [hL]; exact Real.sq_sqrt (by positivity)
  obtain ⟨W, hW⟩ : ∃ W, W = √(rvec v.value 0 ^ 2 + rvec v.value 1 ^ 2 + rvec v.value 2 ^ 2) := ⟨_, rfl⟩
  have near := len_near (e 0) (e 1) (e 2) (rvec v.value 0) (rvec v.value 1) (rvec v.value 2)
  rw [← hW] at near
  change |W - norm3 ⟨e 0, e 1, e 2⟩| ≤ _ at near
  rw [← hL] at near
  have s3 : |e 0| + |e 1| + |e 2| ≤ 2 * L := by
    have a := sq_abs (e 0)
    have b := sq_abs (e 1)
    have c := sq_abs (e 2)
    refine (abs_le_of_sq_le_sq' ?_ (by positivity)).2
    nlinarith [sq_nonneg (|e 0| - |e 1|), sq_nonneg (|e 1| - |e 2|), sq_nonneg (|e 0| - |e 2|)]
  have near' : |W - L| ≤ L / 2 ^ 23 := by
    have := (hv 0).2
    have := (hv 1).2
    have := (hv 2).2
    norm_num at *; linarith
  obtain ⟨n1, n2⟩ := _root_.abs_le.1 near'
  have W1 : 99 / 100 * L ≤ W := by norm_num at n1; linarith
  have W0 : 0 < W := by linarith
  have nl : NormLen bk W := ⟨by norm_num at L1 n1 ⊢; linarith, by norm_num at L2 n2 ⊢; linarith, fun _ _ => by norm_num at L1 n1 ⊢; linarith⟩
  -- a quotient of rounded coefficients
  have quo : ∀ j, |rvec v.value j / W - e j / L| ≤ |e j| / L / 2 ^ 22 := by
    intro j
    have h := (hv j).2
    have e1 : rvec v.value j / W - e j / L = ((rvec v.value j - e j) + e j / L * (L - W)) / W := by field_simp; ring
    rw [e1, abs_div, abs_of_pos W0, div_le_iff₀ W0]
    refine (abs_add_le _ _).trans ?_
    rw [_root_.abs_mul, abs_div, abs_of_pos L0, _root_.abs_sub_comm L]
    obtain ⟨t, ht⟩ : ∃ t, t = |e j| / L := ⟨_, rfl⟩
    have t0 : 0 ≤ t := by rw [ht]; positivity
    have et : |e j| = t * L := by rw [ht]; field_simp
    rw [← ht]
    rw [et] at h
    have b2 := mul_le_mul_of_nonneg_left near' t0
    have b3 := mul_le_mul_of_nonneg_left W1 t0
    have b4 := mul_nonneg t0 L0.le
    norm_num at h b2 b3 ⊢
    linarith
  have quo2 : ∀ j, |rvec v.value j| / W ≤ 102 / 100 * (|e j| / L) := by
    intro j
    have a := abs_add_le (rvec v.value j / W - e j / L) (e j / L)
    rw [sub_add_cancel, abs_div, abs_of_pos W0, abs_div (e j), abs_of_pos L0] at a
    have b := quo j
    have t0 : 0 ≤ |e j| / L := by positivity
    norm_num at b ⊢; linarith
  obtain ⟨f1, f2, f3, f4, f5⟩ := C99_plane bk he (Plane.initFromVec4 v) ⟨(hv 0).1, (hv 1).1, (hv 2).1⟩ (hv 3).1 hW nl (by
    have := quo2 3
    change |rvec v.value 3| / W ≤ _
    norm_num at this hc ⊢; linarith)
  intro pl
  have fin : ∀ {x y z a b : ℝ}, |x - y| ≤ a → |y - z| ≤ b → |x - z| ≤ a + b := fun h1 h2 => (abs_sub_le _ _ _).trans (add_le_add h1 h2)
  have g : ∀ j, ∀ {c : F32}, UnitComp c (rvec v.value j) W → |c.val - e j / L| ≤ |e j| / L / 2 ^ 18 + 1 / 2 ^ 149 := by
    intro j c h
    refine (fin h.2 (quo j)).trans ?_
    have := quo2 j
    have t0 : 0 ≤ |e j| / L := by positivity
    generalize |e j| / L = t at *
    generalize |rvec v.value j| / W = t' at *
    norm_num at this ⊢; linarith
  refine ⟨⟨f1.1, f2.1, f3.1, f4⟩, g 0 f1, g 1 f2, g 2 f3, ?_⟩
  change |pl.constant.val - rvec v.value 3 / W| ≤ |rvec v.value 3| / W / 2 ^ 17 + 1 / 2 ^ 149 at f5
  refine (fin f5 (quo 3)).trans ?_
  have := quo2 3
  have t0 : 0 ≤ |e 3| / L := by positivity
  generalize |e 3| / L = t at *
  generalize |rvec v.value 3| / W = t' at *
  norm_num at this ⊢; linarith

/-- the equation of such a plane -/
theorem clip_eq {pl : Plane F32} {a b c d L : ℝ} (L0 : 0 < L) (h1 : |pl.normal.getX.val - a / L| ≤ |a| / L / 2 ^ 18 + 1 / 2 ^ 149)
    (h2 : |pl.normal.getY.val - b / L| ≤ |b| / L / 2 ^ 18 + 1 / 2 ^ 149) (h3 : |pl.normal.getZ.val - c / L| ≤ |c| / L / 2 ^ 18 + 1 / 2 ^ 149)
    (h4 : |pl.constant.val - d / L| ≤ |d| / L / 2 ^ 16 + 1 / 2 ^ 149) (q : Point3D ℝ) :
    |planeOf pl q - (a * q.x + b * q.y + c * q.z + d) / L| ≤ (|a * q.x| + |b * q.y| + |c * q.z| + |d|) / L / 2 ^ 16 +
      (|q.x| + |q.y| + |q.z| + 1) / 2 ^ 149 := by
  have e : planeOf pl q - (a * q.x + b * q.y + c * q.z + d) / L = (pl.normal.getX.val - a / L) * q.x + (pl.normal.getY.val - b / L) * q.y +
      (pl.normal.getZ.val - c / L) * q.z + (pl.constant.val - d / L) := by unfold planeOf planeAt; field_simp; ring
  have k : ∀ {n a x : ℝ}, |n - a / L| ≤ |a| / L / 2 ^ 18 + 1 / 2 ^ 149 → |(n - a / L) * x| ≤ |a * x| / L / 2 ^ 16 + |x| / 2 ^ 149 := by
    intro n a x h
    rw [_root_.abs_mul, _root_.abs_mul]
    refine (mul_le_mul_of_nonneg_right h (abs_nonneg x)).trans ?_
    have e : (|a| / L / 2 ^ 18 + 1 / 2 ^ 149) * |x| = |a| * |x| / L / 2 ^ 18 + |x| / 2 ^ 149 := by ring
    rw [e]
    gcongr <;> norm_num
  rw [e]
  refine (abs_add_le _ _).trans ((add_le_add ((abs_add_le _ _).trans (add_le_add ((abs_add_le _ _).trans (add_le_add (k h1) (k h2))) (k h3))) h4).trans
    (le_of_eq ?_))
  ring

/-- the magnitude of its terms -/
theorem clip_mag {pl : Plane F32} {a b c d L : ℝ} (L0 : 0 < L) (h1 : |pl.normal.getX.val - a / L| ≤ |a| / L / 2 ^ 18 + 1 / 2 ^ 149)
    (h2 : |pl.normal.getY.val - b / L| ≤ |b| / L / 2 ^ 18 + 1 / 2 ^ 149) (h3 : |pl.normal.getZ.val - c / L| ≤ |c| / L / 2 ^ 18 + 1 / 2 ^ 149)
    (h4 : |pl.constant.val - d / L| ≤ |d| / L / 2 ^ 16 + 1 / 2 ^ 149) (p : Point3D F32) :
    planeMag pl p ≤ 2 * ((|a * p.x.val| + |b * p.y.val| + |c * p.z.val| + |d|) / L) + (|p.x.val| + |p.y.val| + |p.z.val| + 1) / 2 ^ 149 := by
  have k : ∀ {n a x : ℝ}, |n - a / L| ≤ |a| / L / 2 ^ 16 + 1 / 2 ^ 149 → |n * x| ≤ 2 * (|a * x| / L) + |x| / 2 ^ 149 := by
    intro n a x h
    rw [_root_.abs_mul, _root_.abs_mul]
    have b := abs_add_le (n - a / L) (a / L)
    rw [sub_add_cancel, abs_div a, abs_of_pos L0] at b
    have t0 : 0 ≤ |a| / L := by positivity
    have c : |n| ≤ 2 * (|a| / L) + 1 / 2 ^ 149 := by
      generalize |a| / L = t at *
      norm_num at h ⊢; linarith
    refine (mul_le_mul_of_nonneg_right c (abs_nonneg x)).trans (le_of_eq ?_)
    ring
  have w : ∀ {n a : ℝ}, |n - a / L| ≤ |a| / L / 2 ^ 18 + 1 / 2 ^ 149 → |n - a / L| ≤ |a| / L / 2 ^ 16 + 1 / 2 ^ 149 := by
    intro n a h
    refine h.trans ?_
    gcongr <;> norm_num
  have r4 := k (x := 1) h4
  rw [_root_.mul_one, _root_.mul_one] at r4
  unfold planeMag
  refine (add_le_add (add_le_add (add_le_add (k (w h1)) (k (w h2))) (k (w h3))) r4).trans (le_of_eq ?_)
  rw [abs_one]; ring

/-- finite entries up to `2^59`, and none of the six clip planes degenerates -/
structure Spec.ClipOk (m : M4 F32) : Prop where
  fin : FinMat m
  le : ∀ i j, |rmat m i j| ≤ 2 ^ 59
  len : ∀ i s, s = 1 ∨ s = -1 → 1 / 2 ^ 10 ≤ clipLen m i s

/-- the planes of a frustum, with the axis and the sign of the clip coordinate each stands for -/
def Spec.clipList (f : Frustum F32) : List (Plane F32 × Fin 3 × ℝ) :=
  [(f.p0, 0, -1), (f.p1, 0, 1), (f.p2, 1, -1), (f.p3, 1, 1), (f.p4, 2, -1), (f.p5, 2, 1)]

/-- the components of the four-vectors the planes are made of -/
theorem clip_sub_coeff (m : M4 F32) (i : Fin 3) (j : Fin 4) :
    vec (Vec4.subtract (GMatrix.getRow (GMatrix.transpose m) 3) (GMatrix.getRow (GMatrix.transpose m) i)).value j =
      Fp.sub (mat m j 3) (mat m j i.castSucc) := by
  fin_cases i <;> fin_cases j <;> rfl
/-- the components of the four-vectors the planes are made of -/
theorem clip_add_coeff (m : M4 F32) (i : Fin 3) (j : Fin 4) :
    vec (Vec4.add (GMatrix.getRow (GMatrix.transpose m) 3) (GMatrix.getRow (GMatrix.transpose m) i)).value j =
      Fp.add (mat m j 3) (mat m j i.castSucc) := by
  fin_cases i <;> fin_cases j <;> rfl

/-- the coefficients of the six planes -/
theorem clip_all (bk : Backend) (he : EstAccurate bk) (m : M4 F32) (h : ClipOk m) :
    ∀ x ∈ clipList (Frustum.initFromMatrix bk m), (x.2.2 = 1 ∨ x.2.2 = -1) ∧ FinPlane x.1 ∧
      |x.1.normal.getX.val - clipCoeff m x.2.1 x.2.2 0 / clipLen m x.2.1 x.2.2| ≤ |clipCoeff m x.2.1 x.2.2 0| / clipLen m x.2.1 x.2.2 / 2 ^ 18 + 1 / 2 ^ 149 ∧
      |x.1.normal.getY.val - clipCoeff m x.2.1 x.2.2 1 / clipLen m x.2.1 x.2.2| ≤ |clipCoeff m x.2.1 x.2.2 1| / clipLen m x.2.1 x.2.2 / 2 ^ 18 + 1 / 2 ^ 149 ∧
      |x.1.normal.getZ.val - clipCoeff m x.2.1 x.2.2 2 / clipLen m x.2.1 x.2.2| ≤ |clipCoeff m x.2.1 x.2.2 2| / clipLen m x.2.1 x.2.2 / 2 ^ 18 + 1 / 2 ^ 149 ∧
      |x.1.constant.val - clipCoeff m x.2.1 x.2.2 3 / clipLen m x.2.1 x.2.2| ≤ |clipCoeff m x.2.1 x.2.2 3| / clipLen m x.2.1 x.2.2 / 2 ^ 16 + 1 / 2 ^ 149 := by
  have cb : ∀ i s j, s = 1 ∨ s = -1 → |clipCoeff m i s j| ≤ 2 ^ 60 := by
    intro i s j hs
    have h1 := h.le j 3
    have h2 := h.le j i.castSucc
    have hs' : |s| = 1 := by rcases hs with rfl | rfl <;> simp
    unfold clipCoeff
    refine (abs_add_le _ _).trans ?_
    rw [_root_.abs_mul, hs', _root_.one_mul]
    norm_num at h1 h2 ⊢; linarith
  have key : ∀ (v : Vec4 F32) (i : Fin 3) (s : ℝ), s = 1 ∨ s = -1 →
      (∀ j, (vec v.value j).isFin = true ∧ |rvec v.value j - clipCoeff m i s j| ≤ |clipCoeff m i s j| / 2 ^ 24) → _ := fun v i s hs hv =>
    clip_core bk he v (clipCoeff m i s) hv rfl (h.len i s hs) (by
      unfold norm3
      rw [Real.sqrt_le_left (by positivity)]
      have q : ∀ {a : ℝ}, |a| ≤ 2 ^ 60 → a ^ 2 ≤ (2 ^ 60) ^ 2 := fun h => by rw [← sq_abs]; exact pow_le_pow_left₀ (abs_nonneg _) h 2
      have a := q (cb i s 0 hs)
      have b := q (cb i s 1 hs)
      have c := q (cb i s 2 hs)
      norm_num at a b c ⊢; linarith) (by
      have L1 := h.len i s hs
      unfold clipLen at L1
      have L0 := lt_of_lt_of_le (by positivity) L1
      rw [div_le_iff₀ L0]
      refine (cb i s 3 hs).trans ?_
      norm_num at L1 ⊢; linarith)
  have sub : ∀ {a b : F32}, a.isFin = true → b.isFin = true → |a.val + -1 * b.val| ≤ 2 ^ 60 →
      (Fp.sub a b).isFin = true ∧ |(Fp.sub a b).val - (a.val + -1 * b.val)| ≤ |a.val + -1 * b.val| / 2 ^ 24 := by
    intro a b ha hb hab
    have e : a.val + -1 * b.val = a.val - b.val := by ring
    rw [e] at hab ⊢
    have := Approx.sub_exact hp32 ha hb (hab.trans (le_trans (by norm_num) le_max32))
    refine ⟨this.fin, this.err.trans (le_of_eq ?_)⟩
    rw [u32]; norm_num; ring
  have add : ∀ {a b : F32}, a.isFin = true → b.isFin = true → |a.val + 1 * b.val| ≤ 2 ^ 60 →
      (Fp.add a b).isFin = true ∧ |(Fp.add a b).val - (a.val + 1 * b.val)| ≤ |a.val + 1 * b.val| / 2 ^ 24 := by
    intro a b ha hb hab
    rw [_root_.one_mul] at hab ⊢
    have := Approx.add_exact hp32 ha hb (hab.trans (le_trans (by norm_num) le_max32))
    refine ⟨this.fin, this.err.trans (le_of_eq ?_)⟩
    rw [u32]; norm_num; ring
  have F := h.fin
  have o1 : (1 : ℝ) = 1 ∨ (1 : ℝ) = -1 := Or.inl rfl
  have o2 : (-1 : ℝ) = 1 ∨ (-1 : ℝ) = -1 := Or.inr rfl
  have ks := fun i : Fin 3 => key (Vec4.subtract (GMatrix.getRow (GMatrix.transpose m) 3) (GMatrix.getRow (GMatrix.transpose m) i)) i (-1) o2 fun j => by
    have := sub (F j 3) (F j i.castSucc) (cb i (-1) j o2)
    unfold rvec
    rw [clip_sub_coeff]; exact this
  have ka := fun i : Fin 3 => key (Vec4.add (GMatrix.getRow (GMatrix.transpose m) 3) (GMatrix.getRow (GMatrix.transpose m) i)) i 1 o1 fun j => by
    have := add (F j 3) (F j i.castSucc) (cb i 1 j o1)
    unfold rvec
    rw [clip_add_coeff]; exact this
  intro x hx
  simp only [clipList, List.mem_cons, List.not_mem_nil, or_false] at hx
  rcases hx with rfl | rfl | rfl | rfl | rfl | rfl
  · exact ⟨o2, ks 0⟩
  · exact ⟨o1, ka 0⟩
  · exact ⟨o2, ks 1⟩
  · exact ⟨o1, ka 1⟩
  · exact ⟨o2, ks 2⟩
  · exact ⟨o1, ka 2⟩

/-- C122: the six planes of `graphene_frustum_init_from_matrix` are the clip inequalities `w ± x ≥ 0`, `w ± y ≥ 0`, `w ± z ≥ 0` of the matrix,
divided by the length of the normal, up to a relative 2^-16 of the terms. -/
theorem C122_clip_planes (bk : Backend) (he : EstAccurate bk) (m : M4 F32) (h : ClipOk m) :
    (Frustum.initFromMatrix bk m).getPlanes = (clipList (Frustum.initFromMatrix bk m)).map Prod.fst ∧
    ∀ x ∈ clipList (Frustum.initFromMatrix bk m), FinPlane x.1 ∧ ∀ q,
      |planeOf x.1 q - clipAt m x.2.1 x.2.2 q / clipLen m x.2.1 x.2.2| ≤
        clipMag m x.2.1 x.2.2 q / clipLen m x.2.1 x.2.2 / 2 ^ 16 + (|q.x| + |q.y| + |q.z| + 1) / 2 ^ 149 := by
  refine ⟨rfl, fun x hx => ?_⟩
  obtain ⟨hs, hf, h1, h2, h3, h4⟩ := clip_all bk he m h x hx
  exact ⟨hf, fun q => clip_eq (lt_of_lt_of_le (by positivity) (h.len _ _ hs)) h1 h2 h3 h4 q⟩

theorem clip_exists (f : Frustum F32) (i : Fin 3) (s : ℝ) (hs : s = 1 ∨ s = -1) : ∃ pl, (pl, i, s) ∈ clipList f := by
  unfold clipList
  rcases hs with rfl | rfl <;> fin_cases i
  · exact ⟨f.p1, by simp⟩
  · exact ⟨f.p3, by simp⟩
  · exact ⟨f.p5, by simp⟩
  · exact ⟨f.p0, by simp⟩
  · exact ⟨f.p2, by simp⟩
  · exact ⟨f.p4, by simp⟩

/-- the rounding allowed for a clip coordinate -/
noncomputable def Spec.clipTol (m : M4 F32) (i : Fin 3) (s : ℝ) (q : Point3D ℝ) : ℝ :=
  clipMag m i s q / 2 ^ 15 + clipLen m i s * (|q.x| + |q.y| + |q.z| + 1) / 2 ^ 144

/-- C122: a point in the frustum of a matrix: decided by the clip coordinates of the point, except within rounding of a clip plane. -/
theorem C122_contains_point (bk : Backend) (he : EstAccurate bk) (m : M4 F32) (h : ClipOk m) (p : Point3D F32) (hp : FinPoint p)
    (hb : |p.x.val| ≤ 2 ^ 50 ∧ |p.y.val| ≤ 2 ^ 50 ∧ |p.z.val| ≤ 2 ^ 50) :
    let f := Frustum.initFromMatrix bk m
    ((∀ i s, s = 1 ∨ s = -1 → clipTol m i s (exactP p) ≤ clipAt m i s (exactP p)) → f.containsPoint bk (some p) = true) ∧
    (f.containsPoint bk (some p) = true → ∀ i s, s = 1 ∨ s = -1 → -clipTol m i s (exactP p) ≤ clipAt m i s (exactP p)) := by
  intro f
  obtain ⟨gp, _⟩ := C122_clip_planes bk he m h
  have all := clip_all bk he m h
  have key : ∀ x ∈ clipList f, planeMag x.1 p ≤ 2 ^ 126 ∧
      (|planeEq x.1 p - clipAt m x.2.1 x.2.2 (exactP p) / clipLen m x.2.1 x.2.2| + planeErr (planeMag x.1 p)) * clipLen m x.2.1 x.2.2 ≤
        clipTol m x.2.1 x.2.2 (exactP p) := by
    intro x hx
    obtain ⟨hs, hf, h1, h2, h3, h4⟩ := all x hx
    have L1 := h.len x.2.1 x.2.2 hs
    have L0 : 0 < clipLen m x.2.1 x.2.2 := lt_of_lt_of_le (by positivity) L1
    have a := clip_eq L0 h1 h2 h3 h4 (exactP p)
    have b := clip_mag L0 h1 h2 h3 h4 p
    change |planeEq x.1 p - clipAt m x.2.1 x.2.2 (exactP p) / clipLen m x.2.1 x.2.2| ≤
      clipMag m x.2.1 x.2.2 (exactP p) / clipLen m x.2.1 x.2.2 / 2 ^ 16 + (|p.x.val| + |p.y.val| + |p.z.val| + 1) / 2 ^ 149 at a
    change planeMag x.1 p ≤ 2 * (clipMag m x.2.1 x.2.2 (exactP p) / clipLen m x.2.1 x.2.2) + (|p.x.val| + |p.y.val| + |p.z.val| + 1) / 2 ^ 149 at b
    have mb : clipMag m x.2.1 x.2.2 (exactP p) / clipLen m x.2.1 x.2.2 ≤ 2 ^ 124 := by
      rw [div_le_iff₀ L0]
      have cb : ∀ j, |clipCoeff m x.2.1 x.2.2 j| ≤ 2 ^ 60 := by
        intro j
        have h1 := h.le j 3
        have h2 := h.le j x.2.1.castSucc
        have hs' : |x.2.2| = 1 := by rcases hs with h | h <;> rw [h] <;> simp
        unfold clipCoeff
        refine (abs_add_le _ _).trans ?_
        rw [_root_.abs_mul, hs', _root_.one_mul]
        generalize |rmat m j 3| = A at *
        generalize |rmat m j x.2.1.castSucc| = B at *
        norm_num at h1 h2 ⊢; linarith
      have pr : ∀ {j : Fin 4} {t : ℝ}, |t| ≤ 2 ^ 50 → |clipCoeff m x.2.1 x.2.2 j * t| ≤ 2 ^ 60 * 2 ^ 50 := fun {j t} h => by
        rw [_root_.abs_mul]; exact mul_le_mul (cb j) h (abs_nonneg _) (by positivity)
      have e1 := pr (j := 0) hb.1
      have e2 := pr (j := 1) hb.2.1
      have e3 := pr (j := 2) hb.2.2
      have e4 := cb 3
      change |clipCoeff m x.2.1 x.2.2 0 * p.x.val| + |clipCoeff m x.2.1 x.2.2 1 * p.y.val| + |clipCoeff m x.2.1 x.2.2 2 * p.z.val| +
        |clipCoeff m x.2.1 x.2.2 3| ≤ _
      generalize |clipCoeff m x.2.1 x.2.2 0 * p.x.val| = A at *
      generalize |clipCoeff m x.2.1 x.2.2 1 * p.y.val| = B at *
      generalize |clipCoeff m x.2.1 x.2.2 2 * p.z.val| = C at *
      generalize |clipCoeff m x.2.1 x.2.2 3| = D at *
      norm_num at e1 e2 e3 e4 L1 ⊢; linarith
    have S0 : 1 ≤ |p.x.val| + |p.y.val| + |p.z.val| + 1 := by
      have := abs_nonneg p.x.val
      have := abs_nonneg p.y.val
      have := abs_nonneg p.z.val
      linarith
    have S1 : |p.x.val| + |p.y.val| + |p.z.val| + 1 ≤ 2 ^ 62 := by
      obtain ⟨x1, x2, x3⟩ := hb
      norm_num at x1 x2 x3 ⊢; linarith
    have te : clipTol m x.2.1 x.2.2 (exactP p) = (clipMag m x.2.1 x.2.2 (exactP p) / clipLen m x.2.1 x.2.2 / 2 ^ 15 +
        (|p.x.val| + |p.y.val| + |p.z.val| + 1) / 2 ^ 144) * clipLen m x.2.1 x.2.2 := by
      unfold clipTol
      change _ + clipLen m x.2.1 x.2.2 * (|p.x.val| + |p.y.val| + |p.z.val| + 1) / 2 ^ 144 = _
      field_simp
    rw [te]
    have T0 : 0 ≤ clipMag m x.2.1 x.2.2 (exactP p) / clipLen m x.2.1 x.2.2 := by unfold clipMag; positivity
    generalize clipMag m x.2.1 x.2.2 (exactP p) / clipLen m x.2.1 x.2.2 = T at *
    generalize |p.x.val| + |p.y.val| + |p.z.val| + 1 = S at *
    generalize planeMag x.1 p = P at *
    refine ⟨by norm_num at b mb S1 ⊢; linarith, mul_le_mul_of_nonneg_right ?_ L0.le⟩
    unfold planeErr
    norm_num at a b S0 ⊢; linarith
  have fin : FinFrustum f := by
    intro pl hpl
    rw [show f.getPlanes = (clipList f).map Prod.fst from gp] at hpl
    obtain ⟨x, hx, rfl⟩ := List.mem_map.1 hpl
    exact (all x hx).2.1
  obtain ⟨c1, c2⟩ := C97_contains_point bk f p fin hp (by
    intro pl hpl
    rw [show f.getPlanes = (clipList f).map Prod.fst from gp] at hpl
    obtain ⟨x, hx, rfl⟩ := List.mem_map.1 hpl
    exact (key x hx).1)
  constructor
  · intro hc
    refine c1 fun pl hpl => ?_
    rw [show f.getPlanes = (clipList f).map Prod.fst from gp] at hpl
    obtain ⟨x, hx, rfl⟩ := List.mem_map.1 hpl
    have k := (key x hx).2
    have hs := (all x hx).1
    have L0 : 0 < clipLen m x.2.1 x.2.2 := lt_of_lt_of_le (by positivity) (h.len _ _ hs)
    have g := k.trans (hc x.2.1 x.2.2 hs)
    rw [← le_div_iff₀ L0] at g
    have := (_root_.abs_le.1 (le_refl |planeEq x.1 p - clipAt m x.2.1 x.2.2 (exactP p) / clipLen m x.2.1 x.2.2|)).1
    linarith
  · intro hc i s hs
    obtain ⟨pl, hx⟩ := clip_exists f i s hs
    have k := (key _ hx).2
    have L0 : 0 < clipLen m i s := lt_of_lt_of_le (by positivity) (h.len _ _ hs)
    have g := c2 hc pl (by rw [show f.getPlanes = (clipList f).map Prod.fst from gp]; exact List.mem_map.2 ⟨_, hx, rfl⟩)
    simp only at k
    have := (_root_.abs_le.1 (le_refl |planeEq pl p - clipAt m i s (exactP p) / clipLen m i s|)).2
    have g2 : -(|planeEq pl p - clipAt m i s (exactP p) / clipLen m i s| + planeErr (planeMag pl p)) ≤ clipAt m i s (exactP p) / clipLen m i s := by linarith
    rw [le_div_iff₀ L0, neg_mul] at g2
    linarith

/-! ### Transformed planes -/

/-- The plane of `graphene_plane_transform` without a normal matrix is the plane with the transposed inverse as its normal matrix. -/
theorem C122_transform_default (bk : Backend) (p : Plane F32) (m : M4 F32) :
    Plane.transform bk p m none = (GMatrix.inverse bk m).bind fun i => Plane.transform bk p m (some (GMatrix.transpose i)) := by
  unfold Plane.transform
  cases GMatrix.inverse bk m <;> rfl

/-- the image of the reference point of the plane -/
theorem ref_near (m : M4 F32) (n : Vec3 F32) (c : F32) (hm : FinMat m) (hn : FinPoint ⟨n.getX, n.getY, n.getZ⟩) (hc : c.isFin = true) {A C N B : ℝ}
    (hA : |n.getX.val| ≤ A ∧ |n.getY.val| ≤ A ∧ |n.getZ.val| ≤ A) (hC : |c.val| ≤ C) (hN : ∀ i j, |rmat m i j| ≤ N)
    (hB : B = (3 * (A * C) + 1) * N) (AC : A * C ≤ 2 ^ 120) (bB : B ≤ 2 ^ 120) (N1 : 1 / 2 ^ 20 ≤ N) (j : Fin 4) :
    let v := Vec4.initFromVec3 (Vec3.scale n (Scalar.neg c)) f1
    let R := -c.val * n.getX.val * rmat m 0 j + -c.val * n.getY.val * rmat m 1 j + -c.val * n.getZ.val * rmat m 2 j + rmat m 3 j
    (vec (GMatrix.transformVec4 m v).value j).isFin = true ∧ |rvec (GMatrix.transformVec4 m v).value j - R| ≤ B / 2 ^ 21 ∧ |R| ≤ B := by
  have C0 : 0 ≤ C := (abs_nonneg _).trans hC
  have A0 : 0 ≤ A := (abs_nonneg _).trans hA.1
  have AC0 : 0 ≤ A * C := mul_nonneg A0 C0
  have N0 : 0 < N := lt_of_lt_of_le (by positivity) N1
  have comp : ∀ {a : F32}, a.isFin = true → |a.val| ≤ A →
      (Fp.mul a (Fp.neg c)).isFin = true ∧ |(Fp.mul a (Fp.neg c)).val - -c.val * a.val| ≤ A * C / 2 ^ 24 + 1 / 2 ^ 150 ∧ |-c.val * a.val| ≤ A * C := by
    intro a ha h
    have b : |a.val * (Fp.neg c).val| ≤ A * C := by
      rw [val_neg, _root_.abs_mul, _root_.abs_neg]; exact mul_le_mul h hC (abs_nonneg _) A0
    have r := rnd_mul ha (show (Fp.neg c).isFin = true by simpa using hc)
    have f := r.isFin hp32 ((b.trans AC).trans (le_trans (by norm_num) le_max32))
    have e := r.err_add f
    rw [u32, eta32] at e
    have q : a.val * (Fp.neg c).val = -c.val * a.val := by rw [val_neg]; ring
    rw [q] at b e
    refine ⟨f, e.trans ?_, b⟩
    norm_num at b ⊢; linarith
  obtain ⟨x1, x2, x3⟩ := comp hn.1 hA.1
  obtain ⟨y1, y2, y3⟩ := comp hn.2.1 hA.2.1
  obtain ⟨z1, z2, z3⟩ := comp hn.2.2 hA.2.2
  intro v R
  have ve : ∀ i, rvec v.value i = ![(Fp.mul n.getX (Fp.neg c)).val, (Fp.mul n.getY (Fp.neg c)).val, (Fp.mul n.getZ (Fp.neg c)).val, 1] i := by
    intro i
    fin_cases i
    · rfl
    · rfl
    · rfl
    · exact is_f1.val
  have fv : FinVec v.value := by
    intro i
    fin_cases i
    · exact x1
    · exact y1
    · exact z1
    · exact is_f1.fin
  have pr : ∀ {s t K : ℝ}, |s| ≤ K → |t| ≤ N → |s * t| ≤ K * N := fun h1 h2 => by
    rw [_root_.abs_mul]; exact mul_le_mul h1 h2 (abs_nonneg _) ((abs_nonneg _).trans h1)
  have big : ∀ {s t : ℝ}, |s - t| ≤ A * C / 2 ^ 24 + 1 / 2 ^ 150 → |t| ≤ A * C → |s| ≤ A * C * (1 + 1 / 2 ^ 24) + 1 / 2 ^ 150 := by
    intro s t h1 h2
    have := abs_add_le (s - t) t
    rw [sub_add_cancel] at this
    norm_num at h1 h2 ⊢; linarith
  have S : ∑ i, |rvec v.value i * rmat m i j| ≤ 3 * ((A * C * (1 + 1 / 2 ^ 24) + 1 / 2 ^ 150) * N) + N := by
    rw [Fin.sum_univ_four, ve, ve, ve, ve]
    simp only [Matrix.cons_val]
    have e1 := pr (big x2 x3) (hN 0 j)
    have e2 := pr (big y2 y3) (hN 1 j)
    have e3 := pr (big z2 z3) (hN 2 j)
    have e4 := hN 3 j
    rw [_root_.one_mul]
    linarith
  obtain ⟨K, hK⟩ : ∃ K, K = A * C * N := ⟨_, rfl⟩
  have K0 : 0 ≤ K := by rw [hK]; positivity
  have eB : B = 3 * K + N := by rw [hB, hK]; ring
  have S' : ∑ i, |rvec v.value i * rmat m i j| ≤ 1001 / 1000 * B := by
    refine S.trans ?_
    have : 3 * ((A * C * (1 + 1 / 2 ^ 24) + 1 / 2 ^ 150) * N) + N = 3 * (K * (1 + 1 / 2 ^ 24)) + 3 / 2 ^ 150 * N + N := by rw [hK]; ring
    rw [this, eB]
    norm_num; linarith
  obtain ⟨t1, t2⟩ := C87_transform_vec4 m v hm fv j (S'.trans (by norm_num at bB ⊢; linarith))
  have eR : |(∑ i, rvec v.value i * rmat m i j) - R| ≤ 3 * K / 2 ^ 24 + 3 / 2 ^ 150 * N := by
    rw [Fin.sum_univ_four, ve, ve, ve, ve]
    simp only [Matrix.cons_val]
    have e : (Fp.mul n.getX (Fp.neg c)).val * rmat m 0 j + (Fp.mul n.getY (Fp.neg c)).val * rmat m 1 j + (Fp.mul n.getZ (Fp.neg c)).val * rmat m 2 j +
        1 * rmat m 3 j - R = ((Fp.mul n.getX (Fp.neg c)).val - -c.val * n.getX.val) * rmat m 0 j +
        ((Fp.mul n.getY (Fp.neg c)).val - -c.val * n.getY.val) * rmat m 1 j + ((Fp.mul n.getZ (Fp.neg c)).val - -c.val * n.getZ.val) * rmat m 2 j := by
      simp only [R]; ring
    rw [e]
    refine (abs_add_le _ _).trans ((add_le_add ((abs_add_le _ _).trans (add_le_add (pr x2 (hN 0 j)) (pr y2 (hN 1 j)))) (pr z2 (hN 2 j))).trans (le_of_eq ?_))
    rw [hK]; ring
  have bR : |R| ≤ B := by
    have e1 := pr x3 (hN 0 j)
    have e2 := pr y3 (hN 1 j)
    have e3 := pr z3 (hN 2 j)
    have e4 := hN 3 j
    simp only [R]
    refine (abs_add_le _ _).trans ((add_le_add ((abs_add_le _ _).trans (add_le_add ((abs_add_le _ _).trans (add_le_add e1 e2)) e3)) e4).trans (le_of_eq ?_))
    rw [eB, hK]; ring
  refine ⟨t1, (abs_sub_le _ _ _).trans ((add_le_add t2 eR).trans ?_), bR⟩
  unfold dotErr
  generalize ∑ i, |rvec v.value i * rmat m i j| = S'' at *
  have N2 : N ≤ B := by rw [eB]; linarith
  norm_num at S' N1 ⊢; linarith

/-- C122: `graphene_plane_transform` with a normal matrix: the plane through the exact image of the reference point `-c·n` whose normal is the exact
image of the normal under the normal matrix, normalised; up to the rounding of the two images. -/
theorem C122_transform (bk : Backend) (he : EstAccurate bk) (p : Plane F32) (m nm : M4 F32) (hp : FinPlane p) (hm : FinMat m) (hnm : FinMat nm)
    {A C N N' B V η : ℝ} (hA : |p.normal.getX.val| ≤ A ∧ |p.normal.getY.val| ≤ A ∧ |p.normal.getZ.val| ≤ A) (hC : |p.constant.val| ≤ C)
    (hN : ∀ i j, |rmat m i j| ≤ N) (hN' : ∀ i j, |rmat nm i j| ≤ N') (hB : B = (3 * (A * C) + 1) * N) (AC : A * C ≤ 2 ^ 120) (bB : B ≤ 2 ^ 120)
    (N1 : 1 / 2 ^ 20 ≤ N) (hAN : 3 * A * N' ≤ 2 ^ 126) (hη : η = dotErr (3 * A * N'))
    (hV : V = norm3 (imageVec (exactMat nm) (exactVec3 p.normal))) (V1 : 1 / 2 ^ 10 ≤ V) (V2 : V ≤ 2 ^ 61) (sm : η ≤ V / 4) :
    let d := imageVec (exactMat nm) (exactVec3 p.normal)
    let R := image (exactMat m) ⟨-p.constant.val * p.normal.getX.val, -p.constant.val * p.normal.getY.val, -p.constant.val * p.normal.getZ.val⟩
    ∃ pl, Plane.transform bk p m (some nm) = some pl ∧ FinPlane pl ∧
      |pl.normal.getX.val - d.x / V| ≤ 1 / 2 ^ 18 + 3 * η / V ∧ |pl.normal.getY.val - d.y / V| ≤ 1 / 2 ^ 18 + 3 * η / V ∧
      |pl.normal.getZ.val - d.z / V| ≤ 1 / 2 ^ 18 + 3 * η / V ∧
      ∀ q, |planeOf pl q - along d R q / V| ≤ (1 / 2 ^ 18 + 3 * η / V) * taxi R q + B / 2 ^ 17 := by
  intro d R
  obtain ⟨n1, n2, n3, hc⟩ := hp
  have N0' : 0 ≤ N' := (abs_nonneg _).trans (hN' 0 0)
  have mono : ∀ {S T : ℝ}, S ≤ T → dotErr S ≤ dotErr T := fun h => by unfold dotErr; gcongr
  have pr : ∀ {x a B : ℝ}, |x| ≤ B → |a| ≤ N' → |x * a| ≤ B * N' := fun h1 h2 => by
    rw [_root_.abs_mul]; exact mul_le_mul h1 h2 (abs_nonneg _) ((abs_nonneg _).trans h1)
  have rf := ref_near m p.normal p.constant hm ⟨n1, n2, n3⟩ hc hA hC hN hB AC bB N1
  obtain ⟨ref, href⟩ : ∃ ref, ref = GMatrix.transformVec4 m (Vec4.initFromVec3 (Vec3.scale p.normal (Scalar.neg p.constant)) f1) := ⟨_, rfl⟩
  have R1 : (vec ref.value 0).isFin = true ∧ |rvec ref.value 0 - R.x| ≤ B / 2 ^ 21 ∧ |R.x| ≤ B := by
    rw [href]; simp only [R, image_eq]; exact rf 0
  have R2 : (vec ref.value 1).isFin = true ∧ |rvec ref.value 1 - R.y| ≤ B / 2 ^ 21 ∧ |R.y| ≤ B := by
    rw [href]; simp only [R, image_eq]; exact rf 1
  have R3 : (vec ref.value 2).isFin = true ∧ |rvec ref.value 2 - R.z| ≤ B / 2 ^ 21 ∧ |R.z| ≤ B := by
    rw [href]; simp only [R, image_eq]; exact rf 2
  have db : ∀ j : Fin 3, |p.normal.getX.val * rmat nm 0 j.castSucc| + |p.normal.getY.val * rmat nm 1 j.castSucc|
      + |p.normal.getZ.val * rmat nm 2 j.castSucc| ≤ 3 * A * N' := fun j => by
    have e1 := pr hA.1 (hN' 0 j.castSucc)
    have e2 := pr hA.2.1 (hN' 1 j.castSucc)
    have e3 := pr hA.2.2 (hN' 2 j.castSucc)
    have : 3 * A * N' = A * N' + A * N' + A * N' := by ring
    rw [this]; linarith
  have dg := fun j => C87_transform_vec3 nm p.normal hnm n1 n2 n3 j ((db j).trans hAN)
  obtain ⟨w, hw⟩ : ∃ w, w = GMatrix.transformVec3 nm p.normal := ⟨_, rfl⟩
  have wx : w.getX.isFin = true ∧ |w.getX.val - d.x| ≤ η := by rw [hw, hη]; exact ⟨(dg 0).1, (dg 0).2.trans (mono (db 0))⟩
  have wy : w.getY.isFin = true ∧ |w.getY.val - d.y| ≤ η := by rw [hw, hη]; exact ⟨(dg 1).1, (dg 1).2.trans (mono (db 1))⟩
  have wz : w.getZ.isFin = true ∧ |w.getZ.val - d.z| ≤ η := by rw [hw, hη]; exact ⟨(dg 2).1, (dg 2).2.trans (mono (db 2))⟩
  obtain ⟨⟨x1, x2⟩, ⟨y1, y2⟩, ⟨z1, z2⟩, b1, b2, b3⟩ := normalize_near bk he w d wx wy wz hV V1 V2 sm
  obtain ⟨n', hn'⟩ : ∃ n', n' = Vec3.normalize bk w := ⟨_, rfl⟩
  rw [← hn'] at x1 x2 y1 y2 z1 z2 b1 b2 b3
  have e0 : Plane.transform bk p m (some nm) = some ⟨n', Fp.neg (Vec3.dot bk n' (Vec4.getXYZ ref))⟩ := by rw [hn', hw, href]; rfl
  have B0 : 0 ≤ B := (abs_nonneg _).trans R1.2.2
  have cb : ∀ {a r R : ℝ}, |a| ≤ 2 → |r - R| ≤ B / 2 ^ 21 → |R| ≤ B → |a * r| ≤ 201 / 100 * B := by
    intro a r R h1 h2 h3
    have := abs_add_le (r - R) R
    rw [sub_add_cancel] at this
    have q : |r| ≤ 1001 / 1000 * B := by norm_num at h2 ⊢; linarith
    rw [_root_.abs_mul]
    refine (mul_le_mul h1 q (abs_nonneg _) (by norm_num)).trans ?_
    linarith
  have c1 := cb b1 R1.2.1 R1.2.2
  have c2 := cb b2 R2.2.1 R2.2.2
  have c3 := cb b3 R3.2.1 R3.2.2
  have sS : |n'.getX.val * rvec ref.value 0| + |n'.getY.val * rvec ref.value 1| + |n'.getZ.val * rvec ref.value 2| ≤ 7 * B := by linarith
  obtain ⟨d1, d2⟩ := C85_dot3 bk n' (Vec4.getXYZ ref) ⟨x1, y1, z1, R1.1, R2.1, R3.1⟩ (sS.trans (by norm_num at bB ⊢; linarith))
  change |(Vec3.dot bk n' (Vec4.getXYZ ref)).val - (n'.getX.val * rvec ref.value 0 + n'.getY.val * rvec ref.value 1 + n'.getZ.val * rvec ref.value 2)| ≤
    dotErr (|n'.getX.val * rvec ref.value 0| + |n'.getY.val * rvec ref.value 1| + |n'.getZ.val * rvec ref.value 2|) at d2
  have d3 := d2.trans (mono sS)
  refine ⟨⟨n', Fp.neg (Vec3.dot bk n' (Vec4.getXYZ ref))⟩, e0, ⟨x1, y1, z1, by simpa using d1⟩, x2, y2, z2, fun q => ?_⟩
  have hr : |planeOf ⟨n', Fp.neg (Vec3.dot bk n' (Vec4.getXYZ ref))⟩ R| ≤ B / 2 ^ 17 := by
    have e : planeOf ⟨n', Fp.neg (Vec3.dot bk n' (Vec4.getXYZ ref))⟩ R = -((Vec3.dot bk n' (Vec4.getXYZ ref)).val -
        (n'.getX.val * rvec ref.value 0 + n'.getY.val * rvec ref.value 1 + n'.getZ.val * rvec ref.value 2)) -
        (n'.getX.val * (rvec ref.value 0 - R.x) + n'.getY.val * (rvec ref.value 1 - R.y) + n'.getZ.val * (rvec ref.value 2 - R.z)) := by
      unfold planeOf planeAt
      simp only [val_neg]; ring
    rw [e]
    refine (abs_sub _ _).trans ?_
    rw [_root_.abs_neg]
    have t : ∀ {a r : ℝ}, |a| ≤ 2 → |r| ≤ B / 2 ^ 21 → |a * r| ≤ 2 * (B / 2 ^ 21) := fun h1 h2 => by
      rw [_root_.abs_mul]; exact mul_le_mul h1 h2 (abs_nonneg _) (by norm_num)
    have t1 := t b1 R1.2.1
    have t2 := t b2 R2.2.1
    have t3 := t b3 R3.2.1
    have u := (abs_add_le (n'.getX.val * (rvec ref.value 0 - R.x) + n'.getY.val * (rvec ref.value 1 - R.y)) (n'.getZ.val * (rvec ref.value 2 - R.z))).trans
      (add_le_add (abs_add_le _ _) le_rfl)
    have BN : 1 / 2 ^ 20 ≤ B := by
      rw [hB]
      have : 0 ≤ A * C := mul_nonneg ((abs_nonneg _).trans hA.1) ((abs_nonneg _).trans hC)
      have N0 : 0 ≤ N := (abs_nonneg _).trans (hN 0 0)
      nlinarith [mul_nonneg this N0]
    unfold dotErr at d3
    norm_num at d3 t1 t2 t3 u BN ⊢; linarith
  have := plane_near (pl := ⟨n', Fp.neg (Vec3.dot bk n' (Vec4.getXYZ ref))⟩) (u := ⟨d.x / V, d.y / V, d.z / V⟩) (q := q) x2 y2 z2 hr
  have e : along ⟨d.x / V, d.y / V, d.z / V⟩ R q = along d R q / V := by
    have V0 : 0 < V := lt_of_lt_of_le (by positivity) V1
    unfold along; simp only; field_simp
  rw [e] at this
  exact this

/-! ### The conditions are met -/

/-- the plane of (0,0,0), (4,0,0), (0,3,0): within 2^-11 of the plane z = 0 at (5,6,7) -/
example (bk : Backend) (he : EstAccurate bk) : |planeOf (Plane.initFromPoints bk ⟨lit 0 1, lit 0 1, lit 0 1⟩ ⟨lit 4 1, lit 0 1, lit 0 1⟩ ⟨lit 0 1, lit 3 1, lit 0 1⟩) ⟨5, 6, 7⟩ - 7| ≤ 1 / 2 ^ 11 := by
  have A := tame_lit 0 0 0 (by decide) (by decide) (by decide)
  have B := tame_lit 4 0 0 (by decide) (by decide) (by decide)
  have C := tame_lit 0 3 0 (by decide) (by decide) (by decide)
  have eA : exactP (⟨lit 0 1, lit 0 1, lit 0 1⟩ : Point3D F32) = ⟨0, 0, 0⟩ := A.2.trans (by push_cast; rfl)
  have eB : exactP (⟨lit 4 1, lit 0 1, lit 0 1⟩ : Point3D F32) = ⟨4, 0, 0⟩ := B.2.trans (by push_cast; rfl)
  have eC : exactP (⟨lit 0 1, lit 3 1, lit 0 1⟩ : Point3D F32) = ⟨0, 3, 0⟩ := C.2.trans (by push_cast; rfl)
  have X : (⟨0, 0, 12⟩ : Point3D ℝ) = ⟨(ccw ⟨0, 0, 0⟩ ⟨4, 0, 0⟩ ⟨0, 3, 0⟩).getX, (ccw ⟨0, 0, 0⟩ ⟨4, 0, 0⟩ ⟨0, 3, 0⟩).getY, (ccw ⟨0, 0, 0⟩ ⟨4, 0, 0⟩ ⟨0, 3, 0⟩).getZ⟩ := by
    simp only [ccw, Vec3.getX, Vec3.getY, Vec3.getZ, Simd4f.get]; norm_num
  have V : (12 : ℝ) = norm3 ⟨0, 0, 12⟩ := by
    unfold norm3; rw [show (0 : ℝ) ^ 2 + 0 ^ 2 + 12 ^ 2 = 12 ^ 2 by norm_num, Real.sqrt_sq (by norm_num)]
  have d1 : gap ⟨4, 0, 0⟩ ⟨0, 3, 0⟩ = 5 := by
    unfold gap; rw [show ((0 : ℝ) - 4) ^ 2 + (3 - 0) ^ 2 + (0 - 0) ^ 2 = 5 ^ 2 by norm_num, Real.sqrt_sq (by norm_num)]
  have d2 : gap ⟨4, 0, 0⟩ ⟨0, 0, 0⟩ = 4 := by
    unfold gap; rw [show ((0 : ℝ) - 4) ^ 2 + (0 - 0) ^ 2 + (0 - 0) ^ 2 = 4 ^ 2 by norm_num, Real.sqrt_sq (by norm_num)]
  obtain ⟨_, _, _, _, h⟩ := C122_from_points bk he _ _ _ A.1 B.1 C.1 (k := 2) (V := 12) (X := ⟨0, 0, 12⟩) (by erw [eA, eB, eC]; exact X) V (by norm_num) (by norm_num)
    (by erw [eA, eB, eC, d1, d2]; norm_num)
  have := h ⟨5, 6, 7⟩
  erw [eA] at this
  have e1 : along ⟨0, 0, 12⟩ ⟨0, 0, 0⟩ ⟨5, 6, 7⟩ / 12 = 7 := by unfold along; norm_num
  have e2 : taxi ⟨0, 0, 0⟩ ⟨5, 6, 7⟩ = 18 := by unfold taxi; norm_num
  have e3 : taxi ⟨0, 0, 0⟩ ⟨0, 0, 0⟩ = 0 := by unfold taxi; norm_num
  rw [e1, e2, e3] at this
  refine this.trans ?_
  unfold dotErr; norm_num

/-- a perspective projection, none of whose clip planes degenerates: the point (1, 1, 2) is in its frustum -/
example (bk : Backend) (he : EstAccurate bk) : (Frustum.initFromMatrix bk (⟨⟨lit 1 1, lit 0 1, lit 0 1, lit 0 1⟩, ⟨lit 0 1, lit 1 1, lit 0 1, lit 0 1⟩,
    ⟨lit 0 1, lit 0 1, lit 2 1, lit 1 1⟩, ⟨lit 0 1, lit 0 1, lit (-3) 1, lit 0 1⟩⟩ : M4 F32)).containsPoint bk (some ⟨lit 1 1, lit 1 1, lit 2 1⟩) = true := by
  have g : ∀ n : ℤ, n.natAbs ≤ 7 → (lit n 1 : F32).isFin = true ∧ (lit n 1 : F32).val = n := fun n hn => lit_int n (by omega)
  have c0 := g 0 (by decide)
  have c1 := g 1 (by decide)
  have c2 := g 2 (by decide)
  have d3 := g (-3) (by decide)
  have v0 : (lit 0 1 : F32).val = 0 := by simpa using c0.2
  have v1 : (lit 1 1 : F32).val = 1 := by simpa using c1.2
  have v2 : (lit 2 1 : F32).val = 2 := by simpa using c2.2
  have w3 : (lit (-3) 1 : F32).val = -3 := by simpa using d3.2
  obtain ⟨m, hm⟩ : ∃ m : M4 F32, m = ⟨⟨lit 1 1, lit 0 1, lit 0 1, lit 0 1⟩, ⟨lit 0 1, lit 1 1, lit 0 1, lit 0 1⟩,
    ⟨lit 0 1, lit 0 1, lit 2 1, lit 1 1⟩, ⟨lit 0 1, lit 0 1, lit (-3) 1, lit 0 1⟩⟩ := ⟨_, rfl⟩
  have rm : ∀ i j, rmat m i j = ![![1, 0, 0, 0], ![0, 1, 0, 0], ![0, 0, 2, 1], ![0, 0, -3, 0]] i j := by
    intro i j; rw [hm]; fin_cases i <;> fin_cases j <;> first | exact v0 | exact v1 | exact v2 | exact w3
  rw [← hm]
  have ok : ClipOk m := by
    refine ⟨?_, ?_, ?_⟩
    · intro i j; rw [hm]; fin_cases i <;> fin_cases j <;> first | exact c0.1 | exact c1.1 | exact c2.1 | exact d3.1
    · intro i j; rw [rm]; fin_cases i <;> fin_cases j <;> norm_num
    · intro i s hs
      unfold clipLen norm3 clipCoeff
      simp only [rm]
      refine Real.le_sqrt_of_sq_le ?_
      rcases hs with rfl | rfl <;> fin_cases i <;> simp <;> norm_num
  refine (C122_contains_point bk he m ok ⟨lit 1 1, lit 1 1, lit 2 1⟩ ⟨c1.1, c1.1, c2.1⟩ ?_).1 fun i s hs => ?_
  · simp only [v1, v2]; norm_num
  · have l : clipLen m i s ≤ 10 := by
      unfold clipLen norm3 clipCoeff
      simp only [rm]
      rw [Real.sqrt_le_left (by norm_num)]
      rcases hs with rfl | rfl <;> fin_cases i <;> simp <;> norm_num
    have e : |(exactP (⟨lit 1 1, lit 1 1, lit 2 1⟩ : Point3D F32)).x| + |(exactP (⟨lit 1 1, lit 1 1, lit 2 1⟩ : Point3D F32)).y| +
        |(exactP (⟨lit 1 1, lit 1 1, lit 2 1⟩ : Point3D F32)).z| + 1 = 5 := by simp only [exactP, v1, v2]; norm_num
    have t : clipTol m i s (exactP ⟨lit 1 1, lit 1 1, lit 2 1⟩) ≤ clipMag m i s (exactP ⟨lit 1 1, lit 1 1, lit 2 1⟩) / 2 ^ 15 + 10 * 5 / 2 ^ 144 := by
      unfold clipTol
      rw [e]; gcongr
    refine t.trans ?_
    unfold clipMag clipAt clipCoeff
    simp only [rm, exactP, v1, v2]
    rcases hs with rfl | rfl <;> fin_cases i <;> simp <;> norm_num

/-- a plane, a matrix turning and stretching it, and a normal matrix that meet the conditions of the transformation -/
example : ∃ (p : Plane F32) (m : M4 F32), FinPlane p ∧ FinMat m ∧ (∀ i j, |rmat m i j| ≤ 7) ∧ rmat m 0 1 ≠ 0 ∧
    |p.normal.getX.val| ≤ 1 ∧ p.constant.val = -7 ∧ norm3 (imageVec (exactMat m) (exactVec3 p.normal)) = 5 := by
  have g : ∀ n : ℤ, n.natAbs ≤ 7 → (lit n 1 : F32).isFin = true ∧ (lit n 1 : F32).val = n := fun n hn => lit_int n (by omega)
  have c0 := g 0 (by decide)
  have c1 := g 1 (by decide)
  have c3 := g 3 (by decide)
  have c4 := g 4 (by decide)
  have d7 := g (-7) (by decide)
  have d4 := g (-4) (by decide)
  have v0 : (lit 0 1 : F32).val = 0 := by simpa using c0.2
  have v1 : (lit 1 1 : F32).val = 1 := by simpa using c1.2
  have v3 : (lit 3 1 : F32).val = 3 := by simpa using c3.2
  have v4 : (lit 4 1 : F32).val = 4 := by simpa using c4.2
  have w7 : (lit (-7) 1 : F32).val = -7 := by simpa using d7.2
  have w4 : (lit (-4) 1 : F32).val = -4 := by simpa using d4.2
  refine ⟨⟨Vec3.init (lit 1 1) (lit 0 1) (lit 0 1), lit (-7) 1⟩,
    ⟨⟨lit 3 1, lit 4 1, lit 0 1, lit 0 1⟩, ⟨lit (-4) 1, lit 3 1, lit 0 1, lit 0 1⟩, ⟨lit 0 1, lit 0 1, lit 1 1, lit 0 1⟩,
    ⟨lit 3 1, lit 3 1, lit 1 1, lit 1 1⟩⟩, ⟨c1.1, c0.1, c0.1, d7.1⟩, ?_, ?_, ?_, ?_, w7, ?_⟩
  · intro i j; fin_cases i <;> fin_cases j <;> first | exact c0.1 | exact c1.1 | exact c3.1 | exact c4.1 | exact d4.1
  · have k0 : |(lit 0 1 : F32).val| ≤ 7 := by rw [v0]; norm_num
    have k1 : |(lit 1 1 : F32).val| ≤ 7 := by rw [v1]; norm_num
    have k3 : |(lit 3 1 : F32).val| ≤ 7 := by rw [v3]; norm_num
    have k4 : |(lit 4 1 : F32).val| ≤ 7 := by rw [v4]; norm_num
    have j4 : |(lit (-4) 1 : F32).val| ≤ 7 := by rw [w4]; norm_num
    intro i j; fin_cases i <;> fin_cases j <;> first | exact k0 | exact k1 | exact k3 | exact k4 | exact j4
  · change (lit 4 1 : F32).val ≠ 0; rw [v4]; norm_num
  · change |(lit 1 1 : F32).val| ≤ 1; rw [v1]; norm_num
  · have e : exactVec3 (⟨Vec3.init (lit 1 1) (lit 0 1) (lit 0 1), lit (-7) 1⟩ : Plane F32).normal = ⟨1, 0, 0⟩ := by
      change (⟨(lit 1 1 : F32).val, (lit 0 1 : F32).val, (lit 0 1 : F32).val⟩ : Point3D ℝ) = _
      rw [v1, v0]
    rw [e]
    simp only [norm3, imageVec, exactMat, v0, v1, v3, v4, w4]
    rw [show ((1 : ℝ) * 3 + 0 * -4 + 0 * 0) ^ 2 + (1 * 4 + 0 * 3 + 0 * 0) ^ 2 + (1 * 0 + 0 * 0 + 0 * 1) ^ 2 = 5 ^ 2 by norm_num]
    exact Real.sqrt_sq (by norm_num)

end Graphene

/-
  C118: rays and triangles in single precision.
-/
import Verif.Props.Float21
import Verif.Props.Float27

set_option exponentiation.threshold 3000

namespace Graphene
open Fp Spec
variable [Libm binary32]

/-! ### Determinants of rounded vectors -/

omit [Libm binary32] in
theorem dot_pert_arith {A M a1 a2 a3 t1 t2 t3 p1 p2 p3 q1 q2 q3 : ℝ} (c : t1 + t2 + t3 ≤ M) (M0 : 0 ≤ M) (A0 : 0 ≤ A)
    (h1 : p1 ≤ (1 + 1 / 2 ^ 24) * (t1 + a1)) (h2 : p2 ≤ (1 + 1 / 2 ^ 24) * (t2 + a2)) (h3 : p3 ≤ (1 + 1 / 2 ^ 24) * (t3 + a3))
    (k1 : q1 ≤ (1 + 1 / 2 ^ 24) * a1 + t1 / 2 ^ 24) (k2 : q2 ≤ (1 + 1 / 2 ^ 24) * a2 + t2 / 2 ^ 24) (k3 : q3 ≤ (1 + 1 / 2 ^ 24) * a3 + t3 / 2 ^ 24)
    (h : a1 + a2 + a3 ≤ 13 / 2 ^ 24 * M + A * (1 / 2 ^ 146)) :
    p1 + p2 + p3 ≤ 101 / 100 * M + A / 2 ^ 145 ∧ (p1 + p2 + p3) / 2 ^ 22 + 1 / 2 ^ 147 + (q1 + q2 + q3) ≤ 19 / 4 / 2 ^ 22 * M + (A + 1) / 2 ^ 144 := by
  norm_num at *
  constructor <;> linarith

/-- the inner product of a vector rounded once and a vector known up to a small error -/
theorem dot_pert (bk : Backend) (a b : Vec3 F32) {x y z u v w A B : ℝ} (hx : Near a.getX x) (hy : Near a.getY y) (hz : Near a.getZ z)
    (fu : b.getX.isFin = true) (fv : b.getY.isFin = true) (fw : b.getZ.isFin = true)
    (hE : |b.getX.val - u| + |b.getY.val - v| + |b.getZ.val - w| ≤ 13 / 2 ^ 24 * B + 1 / 2 ^ 146)
    (A0 : 0 ≤ A) (B0 : 0 ≤ B) (hA : x ^ 2 + y ^ 2 + z ^ 2 ≤ A ^ 2) (hB : u ^ 2 + v ^ 2 + w ^ 2 ≤ B ^ 2) (hAB : A * B ≤ 2 ^ 120) (hA1 : A ≤ 2 ^ 60) :
    (Vec3.dot bk a b).isFin = true ∧ |(Vec3.dot bk a b).val - (x * u + y * v + z * w)| ≤ 19 / 4 / 2 ^ 22 * (A * B) + (A + 1) / 2 ^ 144 ∧
    |x * u + y * v + z * w| ≤ A * B := by
  have c := cs3s A0 B0 hA hB
  have AB0 := mul_nonneg A0 B0
  have xA : |x| ≤ A := abs_le_of_sq_le_sq (by nlinarith [sq_nonneg y, sq_nonneg z]) A0
  have yA : |y| ≤ A := abs_le_of_sq_le_sq (by nlinarith [sq_nonneg x, sq_nonneg z]) A0
  have zA : |z| ≤ A := abs_le_of_sq_le_sq (by nlinarith [sq_nonneg x, sq_nonneg y]) A0
  -- one product
  have one : ∀ {p q : F32} {s t e : ℝ}, Near p s → |q.val - t| ≤ e → |s| ≤ A →
      |p.val * q.val| ≤ (1 + 1 / 2 ^ 24) * (|s * t| + A * e) ∧ |p.val * q.val - s * t| ≤ (1 + 1 / 2 ^ 24) * (A * e) + |s * t| / 2 ^ 24 := by
    intro p q s t e hp hq hs
    have e0 := (abs_nonneg _).trans hq
    have pb : |p.val| ≤ (1 + 1 / 2 ^ 24) * |s| := by
      have := abs_add_le (p.val - s) s
      rw [sub_add_cancel] at this
      have := hp.2
      linarith
    have k1 : |p.val * (q.val - t)| ≤ (1 + 1 / 2 ^ 24) * (A * e) := by
      rw [_root_.abs_mul]
      refine (mul_le_mul (pb.trans (mul_le_mul_of_nonneg_left hs (by norm_num))) hq (abs_nonneg _) (by positivity)).trans (le_of_eq (by ring))
    have k2 : |(p.val - s) * t| ≤ |s * t| / 2 ^ 24 := by
      rw [_root_.abs_mul, _root_.abs_mul]
      refine (mul_le_mul_of_nonneg_right hp.2 (abs_nonneg _)).trans (le_of_eq (by ring))
    have k3 : |p.val * t| ≤ (1 + 1 / 2 ^ 24) * |s * t| := by
      rw [_root_.abs_mul, _root_.abs_mul]
      refine (mul_le_mul_of_nonneg_right pb (abs_nonneg _)).trans (le_of_eq (by ring))
    constructor
    · rw [show p.val * q.val = p.val * t + p.val * (q.val - t) by ring]
      refine (abs_add_le _ _).trans ?_
      linarith
    · rw [show p.val * q.val - s * t = p.val * (q.val - t) + (p.val - s) * t by ring]
      exact (abs_add_le _ _).trans (add_le_add k1 k2)
  obtain ⟨p1, q1⟩ := one hx (le_refl |b.getX.val - u|) xA
  obtain ⟨p2, q2⟩ := one hy (le_refl |b.getY.val - v|) yA
  obtain ⟨p3, q3⟩ := one hz (le_refl |b.getZ.val - w|) zA
  have AE := mul_le_mul_of_nonneg_left hE A0
  rw [show A * (13 / 2 ^ 24 * B + 1 / 2 ^ 146) = 13 / 2 ^ 24 * (A * B) + A * (1 / 2 ^ 146) by ring, _root_.mul_add, _root_.mul_add] at AE
  obtain ⟨S, T⟩ := dot_pert_arith c AB0 A0 p1 p2 p3 q1 q2 q3 AE
  obtain ⟨fd, ed⟩ := C85_dot3 bk a b ⟨hx.1, hy.1, hz.1, fu, fv, fw⟩ (S.trans (by norm_num at hAB hA1 ⊢; linarith))
  refine ⟨fd, ?_, ((abs_add_le _ _).trans (add_le_add (abs_add_le _ _) le_rfl)).trans c⟩
  refine _root_.le_trans ?_ T
  unfold dotErr at ed
  rw [show (Vec3.dot bk a b).val - (x * u + y * v + z * w) = ((Vec3.dot bk a b).val - (a.getX.val * b.getX.val + a.getY.val * b.getY.val + a.getZ.val * b.getZ.val)) +
    ((a.getX.val * b.getX.val - x * u) + (a.getY.val * b.getY.val - y * v) + (a.getZ.val * b.getZ.val - z * w)) by ring]
  exact (abs_add_le _ _).trans (add_le_add ed ((abs_add_le _ _).trans (add_le_add (abs_add_le _ _) le_rfl)))

omit [Libm binary32] in
/-- Cramer's rule: the determinants at a crossing -/
theorem tri_cramer {d1 d2 d3 e1 e2 e3 f1 f2 f3 q1 q2 q3 u v w : ℝ} (h1 : q1 + w * d1 = u * e1 + v * f1) (h2 : q2 + w * d2 = u * e2 + v * f2)
    (h3 : q3 + w * d3 = u * e3 + v * f3) :
    let N := d1 * (e2 * f3 - e3 * f2) + d2 * (e3 * f1 - e1 * f3) + d3 * (e1 * f2 - e2 * f1)
    d1 * (q2 * f3 - q3 * f2) + d2 * (q3 * f1 - q1 * f3) + d3 * (q1 * f2 - q2 * f1) = u * N ∧
    d1 * (e2 * q3 - e3 * q2) + d2 * (e3 * q1 - e1 * q3) + d3 * (e1 * q2 - e2 * q1) = v * N ∧
    q1 * (e2 * f3 - e3 * f2) + q2 * (e3 * f1 - e1 * f3) + q3 * (e1 * f2 - e2 * f1) = -(w * N) := by
  have h1 : q1 = u * e1 + v * f1 - w * d1 := by linarith
  have h2 : q2 = u * e2 + v * f2 - w * d2 := by linarith
  have h3 : q3 = u * e3 + v * f3 - w * d3 := by linarith
  subst h1 h2 h3
  refine ⟨by ring, by ring, by ring⟩

omit [Libm binary32] in
/-- Cramer's rule: the crossing the determinants describe -/
theorem tri_crossing {d1 d2 d3 e1 e2 e3 f1 f2 f3 q1 q2 q3 N U V W : ℝ} (hN : N = d1 * (e2 * f3 - e3 * f2) + d2 * (e3 * f1 - e1 * f3) + d3 * (e1 * f2 - e2 * f1))
    (hU : U = d1 * (q2 * f3 - q3 * f2) + d2 * (q3 * f1 - q1 * f3) + d3 * (q1 * f2 - q2 * f1))
    (hV : V = d1 * (e2 * q3 - e3 * q2) + d2 * (e3 * q1 - e1 * q3) + d3 * (e1 * q2 - e2 * q1))
    (hW : W = q1 * (e2 * f3 - e3 * f2) + q2 * (e3 * f1 - e1 * f3) + q3 * (e1 * f2 - e2 * f1)) (h0 : N ≠ 0) :
    q1 + -W / N * d1 = U / N * e1 + V / N * f1 ∧ q2 + -W / N * d2 = U / N * e2 + V / N * f2 ∧ q3 + -W / N * d3 = U / N * e3 + V / N * f3 := by
  refine ⟨?_, ?_, ?_⟩ <;> field_simp <;> rw [hU, hV, hW, hN] <;> ring

omit [Libm binary32] in
theorem tri_crossing' {d1 d2 d3 o1 o2 o3 a1 a2 a3 b1 b2 b3 c1 c2 c3 N U V W : ℝ} (hN : N = d1 * ((b2 - a2) * (c3 - a3) - (b3 - a3) * (c2 - a2)) + d2 * ((b3 - a3) * (c1 - a1) - (b1 - a1) * (c3 - a3)) + d3 * ((b1 - a1) * (c2 - a2) - (b2 - a2) * (c1 - a1)))
    (hU : U = d1 * ((o2 - a2) * (c3 - a3) - (o3 - a3) * (c2 - a2)) + d2 * ((o3 - a3) * (c1 - a1) - (o1 - a1) * (c3 - a3)) + d3 * ((o1 - a1) * (c2 - a2) - (o2 - a2) * (c1 - a1)))
    (hV : V = d1 * ((b2 - a2) * (o3 - a3) - (b3 - a3) * (o2 - a2)) + d2 * ((b3 - a3) * (o1 - a1) - (b1 - a1) * (o3 - a3)) + d3 * ((b1 - a1) * (o2 - a2) - (b2 - a2) * (o1 - a1)))
    (hW : W = (o1 - a1) * ((b2 - a2) * (c3 - a3) - (b3 - a3) * (c2 - a2)) + (o2 - a2) * ((b3 - a3) * (c1 - a1) - (b1 - a1) * (c3 - a3)) + (o3 - a3) * ((b1 - a1) * (c2 - a2) - (b2 - a2) * (c1 - a1))) (h0 : N ≠ 0) :
    (⟨o1 + -W / N * d1, o2 + -W / N * d2, o3 + -W / N * d3⟩ : Point3D ℝ) = ⟨a1 + U / N * (b1 - a1) + V / N * (c1 - a1),
      a2 + U / N * (b2 - a2) + V / N * (c2 - a2), a3 + U / N * (b3 - a3) + V / N * (c3 - a3)⟩ := by
  obtain ⟨x, y, z⟩ := tri_crossing hN hU hV hW h0
  rw [Point3D.mk.injEq]
  exact ⟨by linarith, by linarith, by linarith⟩

omit [Libm binary32] in
/-- the length of a cross product -/
theorem cross_len {e1 e2 e3 f1 f2 f3 A B : ℝ} (A0 : 0 ≤ A) (h1 : e1 ^ 2 + e2 ^ 2 + e3 ^ 2 ≤ A ^ 2) (h2 : f1 ^ 2 + f2 ^ 2 + f3 ^ 2 ≤ B ^ 2) :
    (e2 * f3 - e3 * f2) ^ 2 + (e3 * f1 - e1 * f3) ^ 2 + (e1 * f2 - e2 * f1) ^ 2 ≤ (A * B) ^ 2 := by
  have := sq_nonneg (e1 * f1 + e2 * f2 + e3 * f3)
  have k := mul_le_mul h1 h2 (by positivity) (by positivity)
  nlinarith

/-! ### The decisions -/

/-- the decisions of `graphene_ray_intersect_triangle`, once the signs are normalised, from the four computed determinants -/
theorem tri_core {ddn U1 V1 Q1 : F32} (fd : ddn.isFin = true) (fu : U1.isFin = true) (fv : V1.isFin = true) (fq : Q1.isFin = true) {D U V Q R : ℝ} (kind : IntersectionKind)
    (hk : kind ≠ .none) (R0 : 1 / 2 ^ 19 ≤ R) (R1 : R ≤ 2 ^ 19) (hD : |ddn.val - D| ≤ 5 * R ^ 2 / 2 ^ 22) (hU : |U1.val - U| ≤ 5 * R ^ 2 / 2 ^ 22)
    (hV : |V1.val - V| ≤ 5 * R ^ 2 / 2 ^ 22) (hQ : |Q1.val - Q| ≤ 5 * R ^ 3 / 2 ^ 22) (bD : |D| ≤ 2 * R ^ 2) (bU : |U| ≤ 101 / 100 * R ^ 2) (bV : |V| ≤ 101 / 100 * R ^ 2)
    (bQ : |Q| ≤ R ^ 3) (hd : 1 / 2 ^ 23 ≤ ddn.val) :
    let res : IntersectionKind × Option F32 := if (U1 <. f0) = true then (.none, none) else if (V1 <. f0) = true then (.none, none) else
      if (U1 +. V1 >. ddn) = true then (.none, none) else if (Q1 <. f0) = true then (.none, none) else (kind, some (Q1 /. ddn))
    let ε := R ^ 2 / 2 ^ 18
    (res.1 ≠ .none → res.1 = kind ∧ ∃ t : F32, res.2 = some t ∧ t.isFin = true ∧ 0 ≤ t.val ∧ -ε ≤ U ∧ -ε ≤ V ∧ U + V ≤ D + ε ∧
      |Q - t.val * D| ≤ (R + 2 * t.val) * ε + 1 / 2 ^ 59) ∧
    (ε ≤ U → ε ≤ V → U + V + ε ≤ D → R * ε ≤ Q → res.1 = kind) := by
  intro res ε
  have Rp : 0 < R := lt_of_lt_of_le (by positivity) R0
  have s0 : 0 ≤ R ^ 2 := sq_nonneg _
  have c0 : 0 ≤ R ^ 3 := by positivity
  have lt0 : ∀ {x : F32}, x.isFin = true → ((x <. f0) = true ↔ x.val < 0) := by
    intro x hx
    rw [f0_eq]; exact (lt_iff_val (isNaN_of_isFin hx) rfl).trans (by rw [val_zero])
  have sb : R ^ 2 ≤ 2 ^ 38 := (pow_le_pow_left₀ Rp.le R1 2).trans (by norm_num)
  have cb : R ^ 3 ≤ 2 ^ 57 := (pow_le_pow_left₀ Rp.le R1 3).trans (by norm_num)
  have cl : ∀ {a b e f : ℝ}, |a - b| ≤ e → |b| ≤ f → |a| ≤ e + f := by
    intro a b e f h1 h2
    have := abs_add_le (a - b) b
    rw [sub_add_cancel] at this; linarith
  obtain ⟨fs, es⟩ := add_near' fu fv (A := 21 / 10 * R ^ 2) (by
    have := cl hU bU; have := cl hV bV; norm_num at *; linarith) (by norm_num at sb ⊢; linarith)
  have les : (U1 +. V1 >. ddn) = true ↔ ddn.val < (Fp.add U1 V1).val := lt_iff_val (isNaN_of_isFin fd) (isNaN_of_isFin fs)
  have εv : ε = R ^ 2 / 2 ^ 18 := rfl
  have Rε : R * ε = R ^ 3 / 2 ^ 18 := by rw [εv]; ring
  obtain ⟨hD1, hD2⟩ := _root_.abs_le.1 hD
  obtain ⟨hU1, hU2⟩ := _root_.abs_le.1 hU
  obtain ⟨hV1, hV2⟩ := _root_.abs_le.1 hV
  obtain ⟨hQ1, hQ2⟩ := _root_.abs_le.1 hQ
  obtain ⟨hS1, hS2⟩ := _root_.abs_le.1 es
  constructor
  · intro hne
    simp only [res] at hne ⊢
    by_cases c1 : (U1 <. f0) = true
    · rw [if_pos c1] at hne; exact absurd rfl hne
    rw [if_neg c1] at hne ⊢
    by_cases c2 : (V1 <. f0) = true
    · rw [if_pos c2] at hne; exact absurd rfl hne
    rw [if_neg c2] at hne ⊢
    by_cases c3 : (U1 +. V1 >. ddn) = true
    · rw [if_pos c3] at hne; exact absurd rfl hne
    rw [if_neg c3] at hne ⊢
    by_cases c4 : (Q1 <. f0) = true
    · rw [if_pos c4] at hne; exact absurd rfl hne
    rw [if_neg c4]
    rw [lt0 fu] at c1
    rw [lt0 fv] at c2
    rw [les] at c3
    rw [lt0 fq] at c4
    have dpos : 0 < ddn.val := lt_of_lt_of_le (by positivity) hd
    obtain ⟨ft, et, st, -⟩ := plane_quot fq fd (N := Q) (D := D) (A := 3 * R ^ 3) (B := 5 * R ^ 2) (by positivity) (by positivity)
      (by norm_num at cb ⊢; linarith) (by norm_num at sb ⊢; linarith) (hQ.trans (by norm_num; linarith)) (by linarith)
      (hD.trans (by norm_num)) (by linarith) (by rw [abs_of_pos dpos]; exact hd)
    have t0 := st (div_nonneg (not_lt.1 c4) dpos.le)
    refine ⟨rfl, Fp.div Q1 ddn, rfl, ft, t0, ?_, ?_, ?_, ?_⟩
    · rw [εv]; norm_num at hU2 ⊢; linarith
    · rw [εv]; norm_num at hV2 ⊢; linarith
    · rw [εv]; norm_num at hU1 hV1 hD2 hS1 ⊢; linarith
    · rw [abs_of_nonneg t0] at et
      refine et.trans ?_
      have := mul_nonneg t0 s0
      rw [_root_.add_mul, Rε, εv]
      rw [show 2 * (Fp.div Q1 ddn).val * (R ^ 2 / 2 ^ 18) = (Fp.div Q1 ddn).val * R ^ 2 * (2 / 2 ^ 18) by ring,
        show (Fp.div Q1 ddn).val * (5 * R ^ 2) = (Fp.div Q1 ddn).val * R ^ 2 * 5 by ring]
      generalize (Fp.div Q1 ddn).val * R ^ 2 = z at *
      norm_num; linarith
  · intro h1 h2 h3 h4
    rw [εv] at h1 h2 h3
    rw [Rε] at h4
    have n1 : ¬ (U1 <. f0) = true := by rw [lt0 fu]; norm_num at h1 hU1; linarith
    have n2 : ¬ (V1 <. f0) = true := by rw [lt0 fv]; norm_num at h2 hV1; linarith
    have n3 : ¬ (U1 +. V1 >. ddn) = true := by rw [les]; norm_num at h3 hU2 hV2 hD1 hS2; linarith
    have n4 : ¬ (Q1 <. f0) = true := by rw [lt0 fq]; norm_num at h4 hQ1; linarith
    simp only [res]
    rw [if_neg n1, if_neg n2, if_neg n3, if_neg n4]

/-! ### The four determinants as computed -/

/-- a component of an edge: rounded once -/
def EdgeC (a : F32) (x : ℝ) : Prop := Near a x ∧ Approx a x |x| ((1 + 1 / 16777216) * |x|)

omit [Libm binary32] in
theorem edgeC {p q : F32} (hp : p.isFin = true) (hq : q.isFin = true) {R : ℝ} (h : |q.val - p.val| ≤ R) (hR : R ≤ 2 ^ 19) : EdgeC (Fp.sub q p) (q.val - p.val) := by
  have h2 : |q.val - p.val| ≤ 2 ^ 126 := h.trans (hR.trans (by norm_num))
  refine ⟨near_sub hq hp h2, ?_⟩
  have := Approx.sub_exact hp32 hq hp (h2.trans (_root_.le_trans (by norm_num) le_max32))
  rwa [u32] at this

/-- a triple product of a rounded vector and two rounded edges -/
theorem tri_det (bk : Backend) (a E F : Vec3 F32) {x y z e1 e2 e3 f1 f2 f3 A R : ℝ} (hx : Near a.getX x) (hy : Near a.getY y) (hz : Near a.getZ z)
    (h1 : EdgeC E.getX e1) (h2 : EdgeC E.getY e2) (h3 : EdgeC E.getZ e3) (k1 : EdgeC F.getX f1) (k2 : EdgeC F.getY f2) (k3 : EdgeC F.getZ f3)
    (A0 : 0 ≤ A) (hA : x ^ 2 + y ^ 2 + z ^ 2 ≤ A ^ 2) (R0 : 0 ≤ R) (hE : e1 ^ 2 + e2 ^ 2 + e3 ^ 2 ≤ R ^ 2) (hF : f1 ^ 2 + f2 ^ 2 + f3 ^ 2 ≤ R ^ 2)
    (R1 : R ≤ 2 ^ 19) (A1 : A ≤ 2 ^ 60) :
    let det := x * (e2 * f3 - e3 * f2) + y * (e3 * f1 - e1 * f3) + z * (e1 * f2 - e2 * f1)
    (Vec3.dot bk a (Vec3.cross bk E F)).isFin = true ∧
    |(Vec3.dot bk a (Vec3.cross bk E F)).val - det| ≤ 19 / 4 / 2 ^ 22 * (A * R ^ 2) + (A + 1) / 2 ^ 144 ∧ |det| ≤ A * R ^ 2 := by
  have sb : R ^ 2 ≤ 2 ^ 38 := (pow_le_pow_left₀ R0 R1 2).trans (by norm_num)
  have l : ∀ {a b c : ℝ}, a ^ 2 + b ^ 2 + c ^ 2 ≤ R ^ 2 → √(a ^ 2 + b ^ 2 + c ^ 2) ≤ R := fun h => Real.sqrt_le_iff.2 ⟨R0, h⟩
  have nm : √(e1 ^ 2 + e2 ^ 2 + e3 ^ 2) * √(f1 ^ 2 + f2 ^ 2 + f3 ^ 2) ≤ R ^ 2 := by
    exact (mul_le_mul (l hE) (l hF) (Real.sqrt_nonneg _) R0).trans (le_of_eq (by ring))
  obtain ⟨⟨g1, g2, g3⟩, ge⟩ := cross_edges bk E F h1.2 h2.2 h3.2 k1.2 k2.2 k3.2 (Real.sqrt_nonneg _) (Real.sqrt_nonneg _)
    (Real.sq_sqrt (by positivity)) (Real.sq_sqrt (by positivity)) (nm.trans (sb.trans (by norm_num)))
  have cl := cross_len R0 hE hF
  rw [show R * R = R ^ 2 by ring] at cl
  exact dot_pert bk a _ hx hy hz g1 g2 g3 (ge.trans (add_le_add (mul_le_mul_of_nonneg_left nm (by positivity)) le_rfl)) A0 (sq_nonneg _) hA cl
    ((mul_le_mul A1 sb (sq_nonneg _) (by positivity)).trans (by norm_num)) A1

/-! ### The theorem -/

/-- the point of the plane of a triangle at the weights `1 - u - v`, `u`, `v` of its three vertices -/
noncomputable def Spec.triPoint (tr : Triangle F32) (u v : ℝ) : Point3D ℝ :=
  let A := exactPoint3 (vtx tr.a)
  let B := exactPoint3 (vtx tr.b)
  let C := exactPoint3 (vtx tr.c)
  ⟨A.x + u * (B.x - A.x) + v * (C.x - A.x), A.y + u * (B.y - A.y) + v * (C.y - A.y), A.z + u * (B.z - A.z) + v * (C.z - A.z)⟩
/-- the exact inner product of the direction of the ray with the (not normalised) counter-clockwise normal of the triangle -/
noncomputable def Spec.facing (r : Ray F32) (tr : Triangle F32) : ℝ :=
  let A := exactPoint3 (vtx tr.a)
  let B := exactPoint3 (vtx tr.b)
  let C := exactPoint3 (vtx tr.c)
  r.getDirection.getX.val * ((B.y - A.y) * (C.z - A.z) - (B.z - A.z) * (C.y - A.y)) +
  r.getDirection.getY.val * ((B.z - A.z) * (C.x - A.x) - (B.x - A.x) * (C.z - A.z)) +
  r.getDirection.getZ.val * ((B.x - A.x) * (C.y - A.y) - (B.y - A.y) * (C.x - A.x))

theorem tri_setup (bk : Backend) (r : Ray F32) (tr : Triangle F32) (hr : UnitRay r) (ha : FinPoint (vtx tr.a)) (hb : FinPoint (vtx tr.b)) (hc : FinPoint (vtx tr.c))
    {R : ℝ} (R0 : 1 / 2 ^ 19 ≤ R) (R1 : R ≤ 2 ^ 19) (hab : distSq (exactPoint3 (vtx tr.b)) (exactPoint3 (vtx tr.a)) ≤ R ^ 2)
    (hac : distSq (exactPoint3 (vtx tr.c)) (exactPoint3 (vtx tr.a)) ≤ R ^ 2) (hao : distSq (exactPoint3 r.getOrigin) (exactPoint3 (vtx tr.a)) ≤ R ^ 2) :
    let E := Vec3.subtract tr.b tr.a
    let F := Vec3.subtract tr.c tr.a
    let G := Vec3.subtract r.origin tr.a
    let Ok := fun (d : F32) (D e b : ℝ) => d.isFin = true ∧ |d.val - D| ≤ e ∧ |D| ≤ b
    let N := facing r tr
    ∃ U V W : ℝ, Ok (Vec3.dot bk r.direction (Vec3.cross bk E F)) N (5 * R ^ 2 / 2 ^ 22) (101 / 100 * R ^ 2) ∧
      Ok (Vec3.dot bk r.direction (Vec3.cross bk G F)) U (5 * R ^ 2 / 2 ^ 22) (101 / 100 * R ^ 2) ∧
      Ok (Vec3.dot bk r.direction (Vec3.cross bk E G)) V (5 * R ^ 2 / 2 ^ 22) (101 / 100 * R ^ 2) ∧
      Ok (Vec3.dot bk G (Vec3.cross bk E F)) W (5 * R ^ 3 / 2 ^ 22) (R ^ 3) ∧
      (∀ u v w, rayPoint r w = triPoint tr u v → U = u * N ∧ V = v * N ∧ W = -(w * N)) ∧
      (N ≠ 0 → rayPoint r (-W / N) = triPoint tr (U / N) (V / N)) := by
  intro E F G Ok N
  obtain ⟨⟨o1, o2, o3⟩, ⟨d1, d2, d3⟩, hu⟩ := hr
  obtain ⟨a1, a2, a3⟩ := ha
  obtain ⟨b1, b2, b3⟩ := hb
  obtain ⟨c1, c2, c3⟩ := hc
  have Rp : 0 < R := lt_of_lt_of_le (by positivity) R0
  have comp : ∀ {x y z : ℝ}, x ^ 2 + y ^ 2 + z ^ 2 ≤ R ^ 2 → |x| ≤ R ∧ |y| ≤ R ∧ |z| ≤ R := by
    intro x y z h
    have h1 := sq_nonneg x
    have h2 := sq_nonneg y
    have h3 := sq_nonneg z
    refine ⟨?_, ?_, ?_⟩ <;> apply abs_le_of_sq_le_sq _ Rp.le <;> linarith
  have hab : ((vtx tr.b).x.val - (vtx tr.a).x.val) ^ 2 + ((vtx tr.b).y.val - (vtx tr.a).y.val) ^ 2 + ((vtx tr.b).z.val - (vtx tr.a).z.val) ^ 2 ≤ R ^ 2 := hab
  have hac : ((vtx tr.c).x.val - (vtx tr.a).x.val) ^ 2 + ((vtx tr.c).y.val - (vtx tr.a).y.val) ^ 2 + ((vtx tr.c).z.val - (vtx tr.a).z.val) ^ 2 ≤ R ^ 2 := hac
  have hao : (r.getOrigin.x.val - (vtx tr.a).x.val) ^ 2 + (r.getOrigin.y.val - (vtx tr.a).y.val) ^ 2 + (r.getOrigin.z.val - (vtx tr.a).z.val) ^ 2 ≤ R ^ 2 := hao
  obtain ⟨m1, m2, m3⟩ := comp hab
  obtain ⟨n1, n2, n3⟩ := comp hac
  obtain ⟨k1, k2, k3⟩ := comp hao
  have E1 : EdgeC E.getX _ := edgeC a1 b1 m1 R1
  have E2 : EdgeC E.getY _ := edgeC a2 b2 m2 R1
  have E3 : EdgeC E.getZ _ := edgeC a3 b3 m3 R1
  have F1 : EdgeC F.getX _ := edgeC a1 c1 n1 R1
  have F2 : EdgeC F.getY _ := edgeC a2 c2 n2 R1
  have F3 : EdgeC F.getZ _ := edgeC a3 c3 n3 R1
  have G1 : EdgeC G.getX _ := edgeC a1 o1 k1 R1
  have G2 : EdgeC G.getY _ := edgeC a2 o2 k2 R1
  have G3 : EdgeC G.getZ _ := edgeC a3 o3 k3 R1
  have hd : r.direction.getX.val ^ 2 + r.direction.getY.val ^ 2 + r.direction.getZ.val ^ 2 ≤ (1001 / 1000) ^ 2 := by
    have := le_of_abs_le hu
    have e : r.direction.getX.val ^ 2 + r.direction.getY.val ^ 2 + r.direction.getZ.val ^ 2 - 1 ≤ 1 / 2 ^ 17 := this
    norm_num at e ⊢; linarith
  have T1 := tri_det bk r.direction E F (Near.self d1) (Near.self d2) (Near.self d3) E1 E2 E3 F1 F2 F3 (by norm_num) hd Rp.le hab hac R1 (by norm_num)
  have T2 := tri_det bk r.direction G F (Near.self d1) (Near.self d2) (Near.self d3) G1 G2 G3 F1 F2 F3 (by norm_num) hd Rp.le hao hac R1 (by norm_num)
  have T3 := tri_det bk r.direction E G (Near.self d1) (Near.self d2) (Near.self d3) E1 E2 E3 G1 G2 G3 (by norm_num) hd Rp.le hab hao R1 (by norm_num)
  have T4 := tri_det bk G E F G1.1 G2.1 G3.1 E1 E2 E3 F1 F2 F3 Rp.le hao Rp.le hab hac R1 (R1.trans (by norm_num))
  have s1 : 1 / 2 ^ 38 ≤ R ^ 2 := _root_.le_trans (by norm_num) (pow_le_pow_left₀ (by positivity) R0 2)
  have s2 : 1 / 2 ^ 57 ≤ R ^ 3 := _root_.le_trans (by norm_num) (pow_le_pow_left₀ (by positivity) R0 3)
  have w1 : 19 / 4 / 2 ^ 22 * (1001 / 1000 * R ^ 2) + (1001 / 1000 + 1) / 2 ^ 144 ≤ 5 * R ^ 2 / 2 ^ 22 := by norm_num at s1 ⊢; linarith
  have w2 : 19 / 4 / 2 ^ 22 * (R * R ^ 2) + (R + 1) / 2 ^ 144 ≤ 5 * R ^ 3 / 2 ^ 22 := by
    rw [show R * R ^ 2 = R ^ 3 by ring]; norm_num at s2 R1 ⊢; linarith
  have w3 : 1001 / 1000 * R ^ 2 ≤ 101 / 100 * R ^ 2 := by linarith
  have w4 : R * R ^ 2 ≤ R ^ 3 := le_of_eq (by ring)
  refine ⟨_, _, _, ⟨T1.1, T1.2.1.trans w1, T1.2.2.trans w3⟩, ⟨T2.1, T2.2.1.trans w1, T2.2.2.trans w3⟩, ⟨T3.1, T3.2.1.trans w1, T3.2.2.trans w3⟩,
    ⟨T4.1, T4.2.1.trans w2, T4.2.2.trans w4⟩, ?_, ?_⟩
  · intro u v w h
    have hx := congrArg Point3D.x h
    have hy := congrArg Point3D.y h
    have hz := congrArg Point3D.z h
    simp only [rayPoint, triPoint, exactPoint3] at hx hy hz
    exact tri_cramer (show r.getOrigin.x.val - (vtx tr.a).x.val + w * r.getDirection.getX.val = u * ((vtx tr.b).x.val - (vtx tr.a).x.val) + v * ((vtx tr.c).x.val - (vtx tr.a).x.val) by linarith)
      (show r.getOrigin.y.val - (vtx tr.a).y.val + w * r.getDirection.getY.val = u * ((vtx tr.b).y.val - (vtx tr.a).y.val) + v * ((vtx tr.c).y.val - (vtx tr.a).y.val) by linarith)
      (show r.getOrigin.z.val - (vtx tr.a).z.val + w * r.getDirection.getZ.val = u * ((vtx tr.b).z.val - (vtx tr.a).z.val) + v * ((vtx tr.c).z.val - (vtx tr.a).z.val) by linarith)
  · intro h0
    exact tri_crossing' rfl rfl rfl rfl h0

/-- comparing with zero up to `FLT_EPSILON` -/
theorem approx0 {x : F32} (hx : x.isFin = true) : approxVal x f0 = true ↔ |x.val| < 1 / 2 ^ 23 := by
  have z : (f0 : F32) = zero false := f0_eq
  have e := eps_val32
  unfold approxVal fuzzyEquals
  rw [z]
  by_cases h : (x >. (zero false : F32)) = true
  · have hv : 0 < x.val := by
      have := (lt_iff_val rfl (isNaN_of_isFin hx)).1 h
      rwa [val_zero] at this
    rw [if_pos h, abs_of_pos hv]
    have s : Is (Fp.sub x (zero false)) x.val := (Is.sub_of (Is.self hx) Is.zero_is (c := x) ((Is.self hx).congr (by ring))).congr (by ring)
    refine (lt_iff_val (isNaN_of_isFin s.fin) (isNaN_of_isFin e.fin)).trans ?_
    rw [s.val, e.val]
  · have hv : x.val ≤ 0 := by
      by_contra hc
      exact h ((lt_iff_val rfl (isNaN_of_isFin hx)).2 (by rw [val_zero]; linarith))
    rw [if_neg h, abs_of_nonpos hv]
    have s : Is (Fp.sub (zero false) x) (-x.val) := (Is.sub_of Is.zero_is (Is.self hx) (c := Fp.neg x) ((Is.neg (Is.self hx)).congr (by ring))).congr (by ring)
    refine (lt_iff_val (isNaN_of_isFin s.fin) (isNaN_of_isFin e.fin)).trans ?_
    rw [s.val, e.val]

omit [Libm binary32] in
/-- multiplying by a sign is exact -/
theorem sign_mul {s x : F32} {σ : ℝ} (hs : Is s σ) (h : σ = 1 ∨ σ = -1) (hx : x.isFin = true) : Is (Fp.mul s x) (σ * x.val) := by
  rcases h with rfl | rfl
  · exact Is.mul_of hs (Is.self hx) (c := x) ((Is.self hx).congr (by ring))
  · exact Is.mul_of hs (Is.self hx) (c := Fp.neg x) ((Is.neg (Is.self hx)).congr (by ring))

/-- the function after its first test, for either sign -/
theorem tri_signed {n0 u0 v0 w0 sg ddn : F32} {N U V W R σ : ℝ} (kind : IntersectionKind) (hk : kind ≠ .none) (hs : Is sg σ) (hσ : σ = 1 ∨ σ = -1) (hdd : Is ddn (σ * n0.val))
    (R0 : 1 / 2 ^ 19 ≤ R) (R1 : R ≤ 2 ^ 19)
    (hn : |n0.val - N| ≤ 5 * R ^ 2 / 2 ^ 22 ∧ |N| ≤ 101 / 100 * R ^ 2)
    (hu : u0.isFin = true ∧ |u0.val - U| ≤ 5 * R ^ 2 / 2 ^ 22 ∧ |U| ≤ 101 / 100 * R ^ 2)
    (hv : v0.isFin = true ∧ |v0.val - V| ≤ 5 * R ^ 2 / 2 ^ 22 ∧ |V| ≤ 101 / 100 * R ^ 2)
    (hw : w0.isFin = true ∧ |w0.val - W| ≤ 5 * R ^ 3 / 2 ^ 22 ∧ |W| ≤ R ^ 3) (pos : 1 / 2 ^ 23 ≤ σ * n0.val) :
    let res : IntersectionKind × Option F32 := if (Fp.mul sg u0 <. f0) = true then (.none, none) else if (Fp.mul sg v0 <. f0) = true then (.none, none) else
      if (Fp.mul sg u0 +. Fp.mul sg v0 >. ddn) = true then (.none, none) else if (Fp.mul (Fp.neg sg) w0 <. f0) = true then (.none, none) else
      (kind, some (Fp.mul (Fp.neg sg) w0 /. ddn))
    let ε := R ^ 2 / 2 ^ 18
    (ε < |N| → 0 < σ * N) ∧
    (ε < |N| → res.1 ≠ .none → ∃ t : F32, res.2 = some t ∧ t.isFin = true ∧ 0 ≤ t.val ∧ -(ε / |N|) ≤ U / N ∧ -(ε / |N|) ≤ V / N ∧
      U / N + V / N ≤ 1 + ε / |N| ∧ |t.val - -W / N| ≤ ((R + 2 * t.val) * ε + 1 / 2 ^ 59) / |N|) ∧
    (res.1 ≠ .none → res.1 = kind) ∧
    (ε < |N| → ε / |N| ≤ U / N → ε / |N| ≤ V / N → U / N + V / N ≤ 1 - ε / |N| → R * (ε / |N|) ≤ -W / N → res.1 = kind) := by
  intro res ε
  have a1 : |σ| = 1 := by rcases hσ with rfl | rfl <;> simp
  have ss : σ * σ = 1 := by rcases hσ with rfl | rfl <;> norm_num
  have sc : ∀ {x y e : ℝ}, |x - y| ≤ e → |σ * x - σ * y| ≤ e := by
    intro x y e h; rw [← _root_.mul_sub, _root_.abs_mul, a1, _root_.one_mul]; exact h
  have sb : ∀ {x e : ℝ}, |x| ≤ e → |σ * x| ≤ e := by
    intro x e h; rw [_root_.abs_mul, a1, _root_.one_mul]; exact h
  have uI := sign_mul hs hσ hu.1
  have vI := sign_mul hs hσ hv.1
  have wI := sign_mul (σ := -σ) (Is.neg hs) (by rcases hσ with rfl | rfl <;> simp) hw.1
  have s0 : 0 ≤ R ^ 2 := sq_nonneg R
  obtain ⟨c1, c2⟩ := tri_core (D := σ * N) (U := σ * U) (V := σ * V) (Q := -(σ * W)) (R := R) hdd.fin uI.fin vI.fin wI.fin kind hk R0 R1
    (by rw [hdd.val]; exact sc hn.1) (by rw [uI.val]; exact sc hu.2.1) (by rw [vI.val]; exact sc hv.2.1)
    (by rw [wI.val, show -σ * w0.val - -(σ * W) = -(σ * w0.val - σ * W) by ring, _root_.abs_neg]; exact sc hw.2.1)
    (sb (hn.2.trans (by linarith))) (sb hu.2.2) (sb hv.2.2) (by rw [_root_.abs_neg]; exact sb hw.2.2) (by rw [hdd.val]; exact pos)
  have εv : ε = R ^ 2 / 2 ^ 18 := rfl
  have nz : ε < |N| → 0 < σ * N ∧ σ * N = |N| := by
    intro h
    have e : |σ * N| = |N| := by rw [_root_.abs_mul, a1, _root_.one_mul]
    have p : 0 < σ * N := by
      by_contra hc
      rw [abs_of_nonpos (not_lt.1 hc)] at e
      have := (_root_.abs_le.1 (sc hn.1)).2
      rw [← e, εv] at h
      norm_num at h this pos; linarith
    exact ⟨p, by rw [← e, abs_of_pos p]⟩
  have dv : ∀ x, 0 < σ * N → x / N = (σ * x) / (σ * N) := by
    intro x hp
    have : σ ≠ 0 := by rintro rfl; simp at hp
    rw [mul_div_mul_left _ _ this]
  refine ⟨fun h => (nz h).1, fun h hne => ?_, fun h => (c1 h).1, fun h h1 h2 h3 h4 => ?_⟩
  · obtain ⟨hp, he⟩ := nz h
    obtain ⟨-, t, e1, e2, e3, e4, e5, e6, e7⟩ := c1 hne
    rw [← he]
    refine ⟨t, e1, e2, e3, ?_, ?_, ?_, ?_⟩
    · rw [dv U hp, ← neg_div]; exact (div_le_div_iff_of_pos_right hp).2 e4
    · rw [dv V hp, ← neg_div]; exact (div_le_div_iff_of_pos_right hp).2 e5
    · rw [dv U hp, dv V hp, ← add_div, div_le_iff₀ hp, _root_.add_mul, div_mul_cancel₀ _ hp.ne', _root_.one_mul]; exact e6
    · rw [dv (-W) hp, le_div_iff₀ hp]
      nth_rewrite 2 [← abs_of_pos hp]
      rw [← _root_.abs_mul, _root_.sub_mul, div_mul_cancel₀ _ hp.ne', ← _root_.abs_neg]
      rw [show -(t.val * (σ * N) - σ * -W) = -(σ * W) - t.val * (σ * N) by ring]
      exact e7
  · obtain ⟨hp, he⟩ := nz h
    rw [← he] at h1 h2 h3 h4
    rw [dv U hp] at h1 h3
    rw [dv V hp] at h2 h3
    rw [dv (-W) hp] at h4
    refine c2 ((div_le_div_iff_of_pos_right hp).1 h1) ((div_le_div_iff_of_pos_right hp).1 h2) ?_ ?_
    · rw [← add_div, div_le_iff₀ hp, _root_.sub_mul, div_mul_cancel₀ _ hp.ne', _root_.one_mul] at h3
      linarith
    · rw [← mul_div_assoc] at h4
      have := (div_le_div_iff_of_pos_right hp).1 h4
      change R * ε ≤ _; linarith

/-- C118: `graphene_ray_intersect_triangle` in single precision, on every backend, for vertices and origin within `R` of the first
vertex, `N` the exact inner product of the direction with the normal, `ε = R² / 2^18`, `ρ = ε / |N|`.  When the ray is not parallel
(`ε < |N|`), a reported parameter is finite, not negative, and within `((R + 2t) ε + 2^-59) / |N|` of the exact parameter of the
crossing with the plane, whose weights in the triangle are non-negative up to `ρ`; a crossing with weights at least `ρ`, at a
parameter at least `Rρ`, is reported (if `|N|` is above the cut-off 2^-23); the kind tells from which side; and a parallel ray reports nothing. -/
theorem C118_triangle (bk : Backend) (r : Ray F32) (tr : Triangle F32) (hr : UnitRay r) (ha : FinPoint (vtx tr.a)) (hb : FinPoint (vtx tr.b)) (hc : FinPoint (vtx tr.c))
    {R : ℝ} (R0 : 1 / 2 ^ 19 ≤ R) (R1 : R ≤ 2 ^ 19) (hab : distSq (exactPoint3 (vtx tr.b)) (exactPoint3 (vtx tr.a)) ≤ R ^ 2)
    (hac : distSq (exactPoint3 (vtx tr.c)) (exactPoint3 (vtx tr.a)) ≤ R ^ 2) (hao : distSq (exactPoint3 r.getOrigin) (exactPoint3 (vtx tr.a)) ≤ R ^ 2) :
    let k := (r.intersectTriangle bk tr).1
    let out := (r.intersectTriangle bk tr).2
    let N := facing r tr
    let ε := R ^ 2 / 2 ^ 18
    let ρ := ε / |N|
    (ε < |N| → k ≠ .none → ∃ (t : F32) (u v w : ℝ), out = some t ∧ t.isFin = true ∧ 0 ≤ t.val ∧ rayPoint r w = triPoint tr u v ∧
      -ρ ≤ u ∧ -ρ ≤ v ∧ u + v ≤ 1 + ρ ∧ |t.val - w| ≤ ((R + 2 * t.val) * ε + 1 / 2 ^ 59) / |N|) ∧
    (∀ u v w, rayPoint r w = triPoint tr u v → 1 / 2 ^ 23 + ε < |N| → ρ ≤ u → ρ ≤ v → u + v ≤ 1 - ρ → R * ρ ≤ w → k ≠ .none) ∧
    (ε < |N| → (k = .enter → N < 0) ∧ (k = .leave → 0 < N)) ∧
    (k = .none → out = none) ∧
    (|N| + ε < 1 / 2 ^ 23 → k = .none) := by
  intro k out N ε ρ
  obtain ⟨U, V, W, hn, hu, hv, hw, cr1, cr2⟩ := tri_setup bk r tr hr ha hb hc R0 R1 hab hac hao
  change _ ∧ |_ - N| ≤ _ ∧ |N| ≤ _ at hn
  change ∀ u v w, rayPoint r w = triPoint tr u v → U = u * N ∧ V = v * N ∧ W = -(w * N) at cr1
  change N ≠ 0 → rayPoint r (-W / N) = triPoint tr (U / N) (V / N) at cr2
  obtain ⟨n0, hn0⟩ : ∃ x, x = Vec3.dot bk r.direction (Vec3.cross bk (Vec3.subtract tr.b tr.a) (Vec3.subtract tr.c tr.a)) := ⟨_, rfl⟩
  obtain ⟨u0, hu0⟩ : ∃ x, x = Vec3.dot bk r.direction (Vec3.cross bk (Vec3.subtract r.origin tr.a) (Vec3.subtract tr.c tr.a)) := ⟨_, rfl⟩
  obtain ⟨v0, hv0⟩ : ∃ x, x = Vec3.dot bk r.direction (Vec3.cross bk (Vec3.subtract tr.b tr.a) (Vec3.subtract r.origin tr.a)) := ⟨_, rfl⟩
  obtain ⟨w0, hw0⟩ : ∃ x, x = Vec3.dot bk (Vec3.subtract r.origin tr.a) (Vec3.cross bk (Vec3.subtract tr.b tr.a) (Vec3.subtract tr.c tr.a)) := ⟨_, rfl⟩
  rw [← hn0] at hn
  rw [← hu0] at hu
  rw [← hv0] at hv
  rw [← hw0] at hw
  have res : r.intersectTriangle bk tr = if approxVal n0 f0 = true then (.none, none) else
      if (n0 >. f0) = true then
        (if (Fp.mul f1 u0 <. f0) = true then (.none, none) else if (Fp.mul f1 v0 <. f0) = true then (.none, none) else
          if (Fp.mul f1 u0 +. Fp.mul f1 v0 >. n0) = true then (.none, none) else if (Fp.mul (Fp.neg f1) w0 <. f0) = true then (.none, none) else
          (.leave, some (Fp.mul (Fp.neg f1) w0 /. n0)))
      else
        (if (Fp.mul (Fp.lit (-1) 1) u0 <. f0) = true then (.none, none) else if (Fp.mul (Fp.lit (-1) 1) v0 <. f0) = true then (.none, none) else
          if (Fp.mul (Fp.lit (-1) 1) u0 +. Fp.mul (Fp.lit (-1) 1) v0 >. Fp.neg n0) = true then (.none, none) else
          if (Fp.mul (Fp.neg (Fp.lit (-1) 1)) w0 <. f0) = true then (.none, none) else
          (.enter, some (Fp.mul (Fp.neg (Fp.lit (-1) 1)) w0 /. Fp.neg n0))) := by
    rw [hn0, hu0, hv0, hw0]
    unfold Ray.intersectTriangle
    dsimp only
    by_cases h : (Vec3.dot bk r.direction (Vec3.cross bk (Vec3.subtract tr.b tr.a) (Vec3.subtract tr.c tr.a)) >. f0) = true
    · rw [if_pos h]; simp only [h, if_true]; rfl
    · rw [if_neg h]; simp only [h]; rfl
  have s0 : 0 ≤ R ^ 2 := sq_nonneg R
  have a0 := approx0 hn.1
  have sa : ∀ {x y e : ℝ}, |x - y| ≤ e → |x| ≤ |y| + e ∧ |y| ≤ |x| + e := by
    intro x y e h
    have h1 := abs_add_le (x - y) y
    have h2 := abs_sub x (x - y)
    rw [sub_add_cancel] at h1
    rw [sub_sub_cancel] at h2
    constructor <;> linarith
  obtain ⟨na, nb⟩ := sa hn.2.1
  have none_out : k = .none → out = none := by
    simp only [k, out]
    rw [res]
    repeat' split
    all_goals simp
  by_cases hpar : |n0.val| < 1 / 2 ^ 23
  · rw [if_pos (a0.2 hpar)] at res
    have ek : k = .none := by simp only [k, res]
    rw [ek]
    refine ⟨fun _ h => absurd rfl h, fun u v w _ h => ?_, fun _ => ⟨by simp, by simp⟩, fun _ => none_out ek, fun _ => rfl⟩
    exfalso
    change 1 / 2 ^ 23 + R ^ 2 / 2 ^ 18 < |N| at h
    norm_num at h nb hpar; linarith
  · rw [if_neg (fun h => hpar (a0.1 h))] at res
    have nopar : ¬ (|N| + ε < 1 / 2 ^ 23) := by
      intro h
      change |N| + R ^ 2 / 2 ^ 18 < _ at h
      norm_num at h na hpar; linarith
    have eps0 : 0 ≤ ε := by simp only [ε]; positivity
    have fin : ∀ {kind : IntersectionKind} {σ : ℝ}, kind ≠ .none →
        (ε < |N| → k ≠ .none → ∃ t : F32, out = some t ∧ t.isFin = true ∧ 0 ≤ t.val ∧ -(ε / |N|) ≤ U / N ∧ -(ε / |N|) ≤ V / N ∧
          U / N + V / N ≤ 1 + ε / |N| ∧ |t.val - -W / N| ≤ ((R + 2 * t.val) * ε + 1 / 2 ^ 59) / |N|) →
        (ε < |N| → ε / |N| ≤ U / N → ε / |N| ≤ V / N → U / N + V / N ≤ 1 - ε / |N| → R * (ε / |N|) ≤ -W / N → k = kind) →
        (ε < |N| → k ≠ .none → ∃ (t : F32) (u v w : ℝ), out = some t ∧ t.isFin = true ∧ 0 ≤ t.val ∧ rayPoint r w = triPoint tr u v ∧
          -ρ ≤ u ∧ -ρ ≤ v ∧ u + v ≤ 1 + ρ ∧ |t.val - w| ≤ ((R + 2 * t.val) * ε + 1 / 2 ^ 59) / |N|) ∧
        (∀ u v w, rayPoint r w = triPoint tr u v → 1 / 2 ^ 23 + ε < |N| → ρ ≤ u → ρ ≤ v → u + v ≤ 1 - ρ → R * ρ ≤ w → k ≠ .none) := by
      intro kind σ hk h1 h2
      constructor
      · intro h hne
        have n0 : N ≠ 0 := by intro h0; rw [h0, abs_zero] at h; linarith
        obtain ⟨t, b1, b2, b3, b4, b5, b6, b7⟩ := h1 h hne
        exact ⟨t, U / N, V / N, -W / N, b1, b2, b3, cr2 n0, b4, b5, b6, b7⟩
      · intro u v w hp h c1 c2 c3 c4
        have hN : ε < |N| := lt_of_le_of_lt (by linarith [show (0:ℝ) < 1 / 2 ^ 23 by positivity]) h
        have n0 : N ≠ 0 := by intro h0; rw [h0, abs_zero] at hN; linarith
        obtain ⟨d1, d2, d3⟩ := cr1 u v w hp
        have f1 : U / N = u := by rw [d1, mul_div_cancel_right₀ _ n0]
        have f2 : V / N = v := by rw [d2, mul_div_cancel_right₀ _ n0]
        have f3 : -W / N = w := by rw [d3, _root_.neg_neg, mul_div_cancel_right₀ _ n0]
        rw [h2 hN (by rw [f1]; exact c1) (by rw [f2]; exact c2) (by rw [f1, f2]; exact c3) (by rw [f3]; exact c4)]
        exact hk
    by_cases hpos : (n0 >. f0) = true
    · rw [if_pos hpos] at res
      have hv0 : 0 < n0.val := by
        rw [f0_eq] at hpos
        have := (lt_iff_val rfl (isNaN_of_isFin hn.1)).1 hpos
        rwa [val_zero] at this
      rw [abs_of_pos hv0] at hpar
      obtain ⟨s1, s2, s3, s4⟩ := tri_signed (n0 := n0) (sg := f1) (ddn := n0) (σ := 1) .leave (by simp) is_f1 (.inl rfl)
        ((Is.self hn.1).congr (by ring)) R0 R1 hn.2 hu hv hw (by rw [_root_.one_mul]; exact not_lt.1 hpar)
      rw [← res] at s2 s3 s4
      obtain ⟨g1, g2⟩ := fin (kind := .leave) (σ := 1) (by simp) s2 s4
      refine ⟨g1, g2, fun h => ⟨fun hk => ?_, fun _ => by have := s1 h; linarith⟩, none_out, fun h => absurd h nopar⟩
      have : k = .leave := s3 (by change k ≠ _; rw [hk]; simp)
      rw [hk] at this; simp at this
    · rw [if_neg hpos] at res
      have hv0 : n0.val ≤ 0 := by
        by_contra hc'
        apply hpos
        rw [f0_eq]
        exact (lt_iff_val rfl (isNaN_of_isFin hn.1)).2 (by rw [val_zero]; linarith)
      rw [abs_of_nonpos hv0] at hpar
      have m1 : Is (Fp.lit (-1) 1 : F32) (-1) := ⟨(lit_int (-1) (by decide)).1, by rw [(lit_int (-1) (by decide)).2]; norm_num⟩
      obtain ⟨s1, s2, s3, s4⟩ := tri_signed (n0 := n0) (sg := Fp.lit (-1) 1) (ddn := Fp.neg n0) (σ := -1) .enter (by simp) m1 (.inr rfl)
        ((Is.neg (Is.self hn.1)).congr (by ring)) R0 R1 hn.2 hu hv hw (by rw [neg_one_mul]; exact not_lt.1 hpar)
      rw [← res] at s2 s3 s4
      obtain ⟨g1, g2⟩ := fin (kind := .enter) (σ := -1) (by simp) s2 s4
      refine ⟨g1, g2, fun h => ⟨fun _ => by have := s1 h; linarith, fun hk => ?_⟩, none_out, fun h => absurd h nopar⟩
      have : k = .enter := s3 (by change k ≠ _; rw [hk]; simp)
      rw [hk] at this; simp at this

/-- a triangle the ray from the origin along the third axis leaves through, well inside its edges -/
example : let l := fun n => (Fp.lit n 1 : F32)
    let r : Ray F32 := ⟨Vec3.init (l 0) (l 0) (l 0), Vec3.init (l 0) (l 0) (l 1)⟩
    let tr : Triangle F32 := ⟨Vec3.init (l (-1)) (l (-1)) (l 2), Vec3.init (l 3) (l (-1)) (l 2), Vec3.init (l (-1)) (l 3) (l 2)⟩
    UnitRay r ∧ FinPoint (vtx tr.a) ∧ FinPoint (vtx tr.b) ∧ FinPoint (vtx tr.c) ∧
    distSq (exactPoint3 (vtx tr.b)) (exactPoint3 (vtx tr.a)) ≤ 4 ^ 2 ∧ distSq (exactPoint3 (vtx tr.c)) (exactPoint3 (vtx tr.a)) ≤ 4 ^ 2 ∧
    distSq (exactPoint3 r.getOrigin) (exactPoint3 (vtx tr.a)) ≤ 4 ^ 2 ∧ facing r tr = 16 ∧ 1 / 2 ^ 23 + (4 : ℝ) ^ 2 / 2 ^ 18 < |facing r tr| ∧
    rayPoint r 2 = triPoint tr (1 / 4) (1 / 4) := by
  intro l r tr
  have lf : ∀ n : ℤ, n.natAbs ≤ 2 ^ 24 → (l n).isFin = true := fun n h => (lit_int n h).1
  have lv : ∀ (n : ℤ) (x : ℝ), n.natAbs ≤ 2 ^ 24 → (n : ℝ) = x → (l n).val = x := fun n x h e => (lit_int n h).2.trans e
  have e0 := lv 0 0 (by decide) (by norm_num)
  have e1 := lv 1 1 (by decide) (by norm_num)
  have m1 := lv (-1) (-1) (by decide) (by norm_num)
  have e2 := lv 2 2 (by decide) (by norm_num)
  have e3 := lv 3 3 (by decide) (by norm_num)
  have o : exactPoint3 r.getOrigin = ⟨0, 0, 0⟩ := Point3D.ext e0 e0 e0
  have a : exactPoint3 (vtx tr.a) = ⟨-1, -1, 2⟩ := Point3D.ext m1 m1 e2
  have b : exactPoint3 (vtx tr.b) = ⟨3, -1, 2⟩ := Point3D.ext e3 m1 e2
  have c : exactPoint3 (vtx tr.c) = ⟨-1, 3, 2⟩ := Point3D.ext m1 e3 e2
  have ox : r.getOrigin.x.val = 0 := e0
  have oy : r.getOrigin.y.val = 0 := e0
  have oz : r.getOrigin.z.val = 0 := e0
  have dx : r.getDirection.getX.val = 0 := e0
  have dy : r.getDirection.getY.val = 0 := e0
  have dz : r.getDirection.getZ.val = 1 := e1
  have fc : facing r tr = 16 := by simp only [facing, a, b, c, dx, dy, dz]; norm_num
  have f0 := lf 0 (by decide)
  have f1 := lf 1 (by decide)
  have g1 := lf (-1) (by decide)
  have f2 := lf 2 (by decide)
  have f3 := lf 3 (by decide)
  refine ⟨⟨⟨f0, f0, f0⟩, ⟨f0, f0, f1⟩, ?_⟩, ⟨g1, g1, f2⟩, ⟨f3, g1, f2⟩, ⟨g1, f3, f2⟩, ?_, ?_, ?_, fc, ?_, ?_⟩
  · rw [dx, dy, dz]; norm_num
  · rw [a, b]; norm_num [distSq]
  · rw [a, c]; norm_num [distSq]
  · rw [a, o]; norm_num [distSq]
  · rw [fc]; norm_num
  · simp only [rayPoint, triPoint, a, b, c, dx, dy, dz, ox, oy, oz]; norm_num

end Graphene

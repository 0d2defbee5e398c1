/-
  C110: triangles in floating point (IEEE binary32).
-/
import Verif.Props.Float19
import Verif.Props.Triangles
import Verif.Props.Float12
import Verif.Proofs.KDecide

set_option exponentiation.threshold 3000

namespace Graphene
open Fp Spec
variable [Libm binary32]

omit [Libm binary32] in
theorem cs3 {a b c d e f A B : ℝ} (hA : 0 ≤ A) (hB : 0 ≤ B) (h1 : A ^ 2 = a ^ 2 + b ^ 2 + c ^ 2)
    (h2 : B ^ 2 = d ^ 2 + e ^ 2 + f ^ 2) : |a * d| + |b * e| + |c * f| ≤ A * B := by
  have := abs4_le a b c 0 d e f 0 hA hB (by rw [h1]; ring) (by rw [h2]; ring)
  simpa using this

/-- the dot product of two vectors whose components are themselves rounded once -/
theorem dot_edges (bk : Backend) (E F : Vec3 F32) {x y z x' y' z' N M : ℝ}
    (ex : Approx E.getX x |x| ((1 + 1 / 16777216) * |x|)) (ey : Approx E.getY y |y| ((1 + 1 / 16777216) * |y|))
    (ez : Approx E.getZ z |z| ((1 + 1 / 16777216) * |z|)) (fx : Approx F.getX x' |x'| ((1 + 1 / 16777216) * |x'|))
    (fy : Approx F.getY y' |y'| ((1 + 1 / 16777216) * |y'|)) (fz : Approx F.getZ z' |z'| ((1 + 1 / 16777216) * |z'|))
    (hN : 0 ≤ N) (hM : 0 ≤ M) (h1 : N ^ 2 = x ^ 2 + y ^ 2 + z ^ 2) (h2 : M ^ 2 = x' ^ 2 + y' ^ 2 + z' ^ 2)
    (hb : N * M ≤ 2 ^ 125) :
    Approx (Vec3.dot bk E F) (x * x' + y * y' + z * z') (N * M) ((1 + 13 / 2 ^ 25) * (N * M) + 1 / 2 ^ 147) := by
  have cs := cs3 hN hM h1 h2
  have pert : ∀ {p q : F32} {s t : ℝ}, Approx p s |s| ((1 + 1 / 16777216) * |s|) → Approx q t |t| ((1 + 1 / 16777216) * |t|) →
      |p.val * q.val| ≤ (1 + 1 / 16777216) ^ 2 * |s * t| ∧ |p.val * q.val - s * t| ≤ ((1 + 1 / 16777216) ^ 2 - 1) * |s * t| := by
    intro p q s t hp hq
    have a1 := hp.abs_le
    have a2 := hq.abs_le
    have b1 := hp.err
    have b2 := hq.err
    constructor
    · rw [_root_.abs_mul, _root_.abs_mul]
      calc |p.val| * |q.val| ≤ ((1 + 1 / 16777216) * |s|) * ((1 + 1 / 16777216) * |t|) :=
            mul_le_mul a1 a2 (abs_nonneg _) (by positivity)
        _ = _ := by ring
    · have e : p.val * q.val - s * t = (p.val - s) * q.val + s * (q.val - t) := by ring
      rw [e, _root_.abs_mul s t]
      refine (abs_add_le _ _).trans ?_
      rw [_root_.abs_mul, _root_.abs_mul]
      have c1 : |p.val - s| * |q.val| ≤ (1 / 16777216 * |s|) * ((1 + 1 / 16777216) * |t|) :=
        mul_le_mul (by linarith) a2 (abs_nonneg _) (by positivity)
      have c2 : |s| * |q.val - t| ≤ |s| * (1 / 16777216 * |t|) := mul_le_mul_of_nonneg_left (by linarith) (abs_nonneg _)
      nlinarith [c1, c2]
  obtain ⟨p1, q1⟩ := pert ex fx
  obtain ⟨p2, q2⟩ := pert ey fy
  obtain ⟨p3, q3⟩ := pert ez fz
  have n1 := abs_nonneg (x * x')
  have n2 := abs_nonneg (y * y')
  have n3 := abs_nonneg (z * z')
  obtain ⟨df, de⟩ := C85_dot3 bk E F ⟨ex.fin, ey.fin, ez.fin, fx.fin, fy.fin, fz.fin⟩ (by
    refine (add_le_add (add_le_add p1 p2) p3).trans ?_
    norm_num [-_root_.abs_mul] at hb ⊢; linarith)
  refine ⟨df, (abs_add_three _ _ _).trans cs, ?_⟩
  have t := abs_add_three (E.getX.val * F.getX.val - x * x') (E.getY.val * F.getY.val - y * y') (E.getZ.val * F.getZ.val - z * z')
  have e : E.getX.val * F.getX.val - x * x' + (E.getY.val * F.getY.val - y * y') + (E.getZ.val * F.getZ.val - z * z') =
    (E.getX.val * F.getX.val + E.getY.val * F.getY.val + E.getZ.val * F.getZ.val) - (x * x' + y * y' + z * z') := by ring
  rw [e] at t
  have t2 := abs_sub_le (Vec3.dot bk E F).val (E.getX.val * F.getX.val + E.getY.val * F.getY.val + E.getZ.val * F.getZ.val) (x * x' + y * y' + z * z')
  refine t2.trans ?_
  unfold Spec.dotErr at de
  generalize |(Vec3.dot bk E F).val - (E.getX.val * F.getX.val + E.getY.val * F.getY.val + E.getZ.val * F.getZ.val)| = X at *
  generalize |E.getX.val * F.getX.val + E.getY.val * F.getY.val + E.getZ.val * F.getZ.val - (x * x' + y * y' + z * z')| = Y at *
  norm_num [-_root_.abs_mul] at de p1 p2 p3 q1 q2 q3 cs ⊢
  linarith

/-- a difference of products of such dot products -/
theorem cross_dots {p q r s : F32} {x y z w A B C D L : ℝ}
    (hp : Approx p x A ((1 + 13 / 2 ^ 25) * A + 1 / 2 ^ 147)) (hq : Approx q y B ((1 + 13 / 2 ^ 25) * B + 1 / 2 ^ 147))
    (hr : Approx r z C ((1 + 13 / 2 ^ 25) * C + 1 / 2 ^ 147)) (hs : Approx s w D ((1 + 13 / 2 ^ 25) * D + 1 / 2 ^ 147))
    (hA : A ≤ 2 ^ 46) (hB : B ≤ 2 ^ 46) (hC : C ≤ 2 ^ 46) (hD : D ≤ 2 ^ 46) (h1 : A * B = L) (h2 : C * D = L) :
    let n := Fp.sub (Fp.mul p q) (Fp.mul r s)
    n.isFin = true ∧ |n.val - (x * y - z * w)| ≤ 31 / 2 ^ 24 * L + 1 / 2 ^ 96 := by
  have prod : ∀ {A B : ℝ}, 0 ≤ A → 0 ≤ B → A ≤ 2 ^ 46 → B ≤ 2 ^ 46 →
      ((1 + 13 / 2 ^ 25) * A + 1 / 2 ^ 147) * ((1 + 13 / 2 ^ 25) * B + 1 / 2 ^ 147) ≤ (1 + 13 / 2 ^ 25) ^ 2 * (A * B) + 1 / 2 ^ 99 := by
    intro A B a0 b0 a1 b1
    have : ((1 + 13 / 2 ^ 25) * A + 1 / 2 ^ 147) * ((1 + 13 / 2 ^ 25) * B + 1 / 2 ^ 147) =
      (1 + 13 / 2 ^ 25) ^ 2 * (A * B) + 1 / 2 ^ 147 * (1 + 13 / 2 ^ 25) * (A + B) + (1 / 2 ^ 147) ^ 2 := by ring
    rw [this]
    norm_num at a1 b1 ⊢; linarith
  have a0 := hp.nonneg
  have b0 := hq.nonneg
  have c0 := hr.nonneg
  have d0 := hs.nonneg
  have e1 := prod a0 b0 hA hB
  have e2 := prod c0 d0 hC hD
  rw [h1] at e1
  rw [h2] at e2
  have L0 : 0 ≤ L := h1 ▸ mul_nonneg a0 b0
  have L1 : L ≤ 2 ^ 92 := by
    rw [← h1]
    calc A * B ≤ 2 ^ 46 * 2 ^ 46 := mul_le_mul hA hB b0 (by positivity)
      _ = 2 ^ 92 := by norm_num
  have m1 := mul2_approx hp hq (e1.trans (by norm_num at L1 ⊢; linarith))
  have m2 := mul2_approx hr hs (e2.trans (by norm_num at L1 ⊢; linarith))
  have g := sub2_approx m1 m2 (by norm_num at L1 e1 e2 ⊢; linarith)
  refine ⟨g.fin, g.err.trans ?_⟩
  rw [h1, h2]
  norm_num at L1 e1 e2 ⊢; linarith

/-- a quotient computed as the product with a rounded reciprocal -/
theorem quot_err {n d : F32} {D u K T L : ℝ} (hn : n.isFin = true) (hd : d.isFin = true) (D1 : 1 / 2 ^ 22 ≤ D) (D2 : D ≤ 2 ^ 92)
    (ed : |d.val - D| ≤ K * D / 2 ^ 19) (K1 : 1 ≤ K) (K2 : K ≤ 2 ^ 16) (T0 : 0 ≤ T) (TT : T ≤ 2 ^ 75) (hu : |u| ≤ 2 ^ 75)
    (hL : L ≤ K * T * D)
    (en : |n.val - u * D| ≤ 31 / 2 ^ 24 * L + 1 / 2 ^ 96) :
    let r := Fp.mul n (Fp.div f1 d)
    r.isFin = true ∧ |r.val - u| ≤ K * (|u| + T) / 2 ^ 18 + 1 / 2 ^ 70 := by
  have D0 : 0 < D := lt_of_lt_of_le (by positivity) D1
  have KD : K * D / 2 ^ 19 ≤ D / 8 := by
    have := mul_le_mul_of_nonneg_right K2 D0.le
    norm_num at this ⊢; linarith
  obtain ⟨dl, du⟩ := _root_.abs_le.1 (ed.trans KD)
  have d0 : 0 < d.val := by linarith
  have u0 := abs_nonneg u
  set W := K * (|u| + T) with hW
  have Wu : |u| ≤ W := by nlinarith
  have WT : 0 ≤ W := u0.trans Wu
  have W2 : W ≤ 2 ^ 92 := by
    calc W ≤ 2 ^ 16 * (2 ^ 75 + 2 ^ 75) := mul_le_mul K2 (add_le_add hu TT) (by positivity) (by positivity)
      _ = 2 ^ 92 := by norm_num
  -- the reciprocal
  have hi := rnd_div is_f1.fin hd d0.ne'
  rw [is_f1.val] at hi
  have i1 : |1 / d.val| ≤ 2 ^ 23 := by
    rw [abs_of_pos (by positivity), div_le_iff₀ d0]; norm_num at D1 ⊢; linarith
  have fi : (Fp.div f1 d).isFin = true := hi.isFin hp32 (i1.trans (le_trans (by norm_num) le_max32))
  have ei := hi.err_add fi
  rw [u32, eta32, abs_of_pos (show 0 < 1 / d.val by positivity)] at ei
  set i := Fp.div f1 d with hidef
  -- the numerator
  have N1 : |n.val - u * D| ≤ K * T * D / 2 ^ 19 + 1 / 2 ^ 96 := by
    have : 0 ≤ K * T * D := by positivity
    norm_num at en ⊢; linarith
  have dD : |u * (D - d.val)| ≤ K * |u| * D / 2 ^ 19 := by
    rw [_root_.abs_mul, _root_.abs_sub_comm]
    calc |u| * |d.val - D| ≤ |u| * (K * D / 2 ^ 19) := mul_le_mul_of_nonneg_left ed u0
      _ = _ := by ring
  have diff : |n.val - u * d.val| ≤ W * D / 2 ^ 19 + 1 / 2 ^ 96 := by
    have e : n.val - u * d.val = (n.val - u * D) + u * (D - d.val) := by ring
    rw [e]
    refine (abs_add_le _ _).trans ((add_le_add N1 dD).trans (le_of_eq ?_))
    rw [hW]; ring
  have q1 : |n.val / d.val - u| ≤ 8 / 7 * (W / 2 ^ 19) + 1 / 2 ^ 73 := by
    have e : n.val / d.val - u = (n.val - u * d.val) / d.val := by field_simp
    rw [e, abs_div, abs_of_pos d0, div_le_iff₀ d0]
    refine diff.trans ?_
    have a : W * (7 / 8 * D) ≤ W * d.val := mul_le_mul_of_nonneg_left (by linarith) WT
    have b : 1 / 2 ^ 96 ≤ 1 / 2 ^ 73 * d.val := by norm_num at D1 ⊢; linarith
    have c : (8 / 7 * (W / 2 ^ 19) + 1 / 2 ^ 73) * d.val = 8 / 7 * (W * d.val) / 2 ^ 19 + 1 / 2 ^ 73 * d.val := by ring
    rw [c]
    norm_num at a b ⊢; linarith
  have q2 : |n.val / d.val| ≤ 2 * W + 1 / 2 ^ 73 := by
    have := abs_add_le (n.val / d.val - u) u
    rw [sub_add_cancel] at this
    generalize |n.val / d.val| = X at *
    generalize |n.val / d.val - u| = Y at *
    norm_num at *; linarith
  have n3 : |n.val| ≤ (2 * W + 1 / 2 ^ 73) * 2 ^ 93 := by
    have e : |n.val| = |n.val / d.val| * d.val := by
      rw [abs_div, abs_of_pos d0]; field_simp
    rw [e]
    exact mul_le_mul q2 (by norm_num at D2 ⊢; linarith) d0.le (by positivity)
  -- product with the reciprocal
  have q3 : |n.val * i.val - n.val / d.val| ≤ 1 / 16777216 * |n.val / d.val| + |n.val| * (1 / 2 ^ 150) := by
    have e : n.val * i.val - n.val / d.val = n.val * (i.val - 1 / d.val) := by ring
    rw [e, _root_.abs_mul]
    refine (mul_le_mul_of_nonneg_left ei (abs_nonneg _)).trans (le_of_eq ?_)
    rw [abs_div, abs_of_pos d0]; ring
  have q4 : |n.val * i.val - u| ≤ 8 / 7 * (W / 2 ^ 19) + 2 * W / 16777216 + W / 2 ^ 55 + 1 / 2 ^ 72 := by
    have := abs_sub_le (n.val * i.val) (n.val / d.val) u
    generalize |n.val * i.val - u| = X at *
    generalize |n.val * i.val - n.val / d.val| = Y at *
    generalize |n.val / d.val - u| = Z at *
    generalize |n.val / d.val| = V at *
    generalize |n.val| = U at *
    norm_num at q1 q2 n3 q3 ⊢; linarith
  have q5 : |n.val * i.val| ≤ 2 * W + 1 / 2 ^ 72 := by
    have := abs_add_le (n.val * i.val - u) u
    rw [sub_add_cancel] at this
    generalize |n.val * i.val| = X at *
    generalize |n.val * i.val - u| = Y at *
    norm_num at q4 Wu ⊢; linarith
  have hr := rnd_mul hn fi
  have fr : (Fp.mul n i).isFin = true := hr.isFin hp32 (q5.trans (le_trans (by norm_num at W2 ⊢; linarith) le_max32))
  have er := hr.err_add fr
  rw [u32, eta32] at er
  refine ⟨fr, (abs_sub_le _ (n.val * i.val) _).trans ?_⟩
  generalize |n.val * i.val - u| = X at *
  generalize |(Fp.mul n i).val - n.val * i.val| = Y at *
  generalize |n.val * i.val| = Z at *
  norm_num at q4 q5 er ⊢; linarith

/-! ### Barycentric coordinates -/

/-- the triangle with exactly the stored vertices -/
noncomputable def Spec.exactT (t : Triangle F32) : Triangle ℝ := ⟨exactV t.a, exactV t.b, exactV t.c⟩
/-- the point with exactly the stored coordinates -/
noncomputable def Spec.exactP (p : Point3D F32) : Point3D ℝ := ⟨p.x.val, p.y.val, p.z.val⟩
/-- finite, with coordinates up to `2^20` -/
def Spec.Tame (p : Point3D F32) : Prop :=
  (p.x.isFin = true ∧ |p.x.val| ≤ 2 ^ 20) ∧ (p.y.isFin = true ∧ |p.y.val| ≤ 2 ^ 20) ∧ (p.z.isFin = true ∧ |p.z.val| ≤ 2 ^ 20)
/-- the distance of two points -/
noncomputable def Spec.gap (p q : Point3D ℝ) : ℝ := √((q.x - p.x) ^ 2 + (q.y - p.y) ^ 2 + (q.z - p.z) ^ 2)

/-- the edge from one tame vertex to another -/
theorem edge_approx {p q : F32} (hp : p.isFin = true ∧ |p.val| ≤ 2 ^ 20) (hq : q.isFin = true ∧ |q.val| ≤ 2 ^ 20) :
    Approx (Fp.sub q p) (q.val - p.val) |q.val - p.val| ((1 + 1 / 16777216) * |q.val - p.val|) := by
  have := Approx.sub_exact hp32 hq.1 hp.1 (((abs_sub _ _).trans (add_le_add hq.2 hp.2)).trans (le_trans (by norm_num) le_max32))
  rwa [u32] at this

omit [Libm binary32] in
theorem gap_sq (p q : Point3D ℝ) : gap p q ^ 2 = (q.x - p.x) ^ 2 + (q.y - p.y) ^ 2 + (q.z - p.z) ^ 2 :=
  Real.sq_sqrt (by positivity)

theorem gap_le {p q : Point3D F32} (hp : Tame p) (hq : Tame q) : gap (exactP p) (exactP q) ≤ 2 ^ 22 := by
  have k : ∀ {a b : ℝ}, |a| ≤ 2 ^ 20 → |b| ≤ 2 ^ 20 → (b - a) ^ 2 ≤ 2 ^ 42 := by
    intro a b ha hb
    have : |b - a| ≤ 2 ^ 21 := (abs_sub _ _).trans ((add_le_add hb ha).trans (by norm_num))
    calc (b - a) ^ 2 = |b - a| ^ 2 := (sq_abs _).symm
      _ ≤ (2 ^ 21) ^ 2 := pow_le_pow_left₀ (abs_nonneg _) this 2
      _ = 2 ^ 42 := by norm_num
  unfold gap
  rw [Real.sqrt_le_left (by positivity)]
  have := k hp.1.2 hq.1.2
  have := k hp.2.1.2 hq.2.1.2
  have := k hp.2.2.2 hq.2.2.2
  simp only [exactP]
  norm_num at *; linarith

/-- the arithmetic of `get_barycoords`, from the five dot products -/
theorem bary_core {p00 p01 p02 p11 p12 : F32} {N0 N1 N2 G u v D K : ℝ} (n0 : 0 ≤ N0) (n1 : 0 ≤ N1) (n2 : 0 ≤ N2)
    (l0 : N0 ≤ 2 ^ 22) (l1 : N1 ≤ 2 ^ 22) (l2 : N2 ≤ 2 ^ 22) (hD : 1 / 2 ^ 22 ≤ D) (K2 : K ≤ 2 ^ 16)
    (hK : N0 ^ 2 * N1 ^ 2 ≤ K * D) (lag : D = N0 ^ 2 * N1 ^ 2 - G ^ 2)
    (d00 : Approx p00 (N0 ^ 2) (N0 * N0) ((1 + 13 / 2 ^ 25) * (N0 * N0) + 1 / 2 ^ 147))
    (d01 : Approx p01 G (N0 * N1) ((1 + 13 / 2 ^ 25) * (N0 * N1) + 1 / 2 ^ 147))
    (d02 : Approx p02 (u * N0 ^ 2 + v * G) (N0 * N2) ((1 + 13 / 2 ^ 25) * (N0 * N2) + 1 / 2 ^ 147))
    (d11 : Approx p11 (N1 ^ 2) (N1 * N1) ((1 + 13 / 2 ^ 25) * (N1 * N1) + 1 / 2 ^ 147))
    (d12 : Approx p12 (u * G + v * N1 ^ 2) (N1 * N2) ((1 + 13 / 2 ^ 25) * (N1 * N2) + 1 / 2 ^ 147)) :
    let dd := Fp.sub (Fp.mul p00 p11) (Fp.mul p01 p01)
    let ru := Fp.mul (Fp.sub (Fp.mul p11 p02) (Fp.mul p01 p12)) (Fp.div f1 dd)
    let rv := Fp.mul (Fp.sub (Fp.mul p00 p12) (Fp.mul p01 p02)) (Fp.div f1 dd)
    (dd.isFin = true ∧ |dd.val - D| ≤ K * D / 2 ^ 19) ∧
    (ru.isFin = true ∧ |ru.val - u| ≤ K * (|u| + N2 / N0) / 2 ^ 18 + 1 / 2 ^ 70) ∧
    (rv.isFin = true ∧ |rv.val - v| ≤ K * (|v| + N2 / N1) / 2 ^ 18 + 1 / 2 ^ 70) := by
  have D0 : 0 < D := lt_of_lt_of_le (by positivity) hD
  have big : ∀ {a b : ℝ}, 0 ≤ a → a ≤ 2 ^ 22 → 0 ≤ b → b ≤ 2 ^ 22 → a * b ≤ 2 ^ 44 := fun {a b} h1 h2 h3 h4 =>
    (mul_le_mul h2 h4 h3 (by positivity)).trans (by norm_num)
  have big' : ∀ {a b : ℝ}, 0 ≤ a → a ≤ 2 ^ 22 → 0 ≤ b → b ≤ 2 ^ 22 → a * b ≤ 2 ^ 46 := fun {a b} h1 h2 h3 h4 =>
    (big h1 h2 h3 h4).trans (by norm_num)
  obtain ⟨df, de⟩ := cross_dots d00 d11 d01 d01 (big' n0 l0 n0 l0) (big' n1 l1 n1 l1) (big' n0 l0 n1 l1) (big' n0 l0 n1 l1)
    (L := N0 ^ 2 * N1 ^ 2) (by ring) (by ring)
  obtain ⟨uf, ue⟩ := cross_dots d11 d02 d01 d12 (big' n1 l1 n1 l1) (big' n0 l0 n2 l2) (big' n0 l0 n1 l1) (big' n1 l1 n2 l2)
    (L := N1 ^ 2 * (N0 * N2)) (by ring) (by ring)
  obtain ⟨vf, ve⟩ := cross_dots d00 d12 d01 d02 (big' n0 l0 n0 l0) (big' n1 l1 n2 l2) (big' n0 l0 n1 l1) (big' n0 l0 n2 l2)
    (L := N0 ^ 2 * (N1 * N2)) (by ring) (by ring)
  -- bounds
  have L0 : 0 ≤ N0 ^ 2 * N1 ^ 2 := by positivity
  have DL : D ≤ N0 ^ 2 * N1 ^ 2 := by rw [lag]; nlinarith [sq_nonneg G]
  have K1 : 1 ≤ K := by
    by_contra hc
    have := mul_lt_mul_of_pos_right (not_le.1 hc) D0
    linarith
  have D2 : D ≤ 2 ^ 92 := by
    refine DL.trans ?_
    calc N0 ^ 2 * N1 ^ 2 = (N0 * N1) * (N0 * N1) := by ring
      _ ≤ 2 ^ 44 * 2 ^ 44 := mul_le_mul (big n0 l0 n1 l1) (big n0 l0 n1 l1) (by positivity) (by positivity)
      _ ≤ 2 ^ 92 := by norm_num
  have de' : |(Fp.sub (Fp.mul p00 p11) (Fp.mul p01 p01)).val - D| ≤ K * D / 2 ^ 19 := by
    have e : N0 ^ 2 * N1 ^ 2 - G * G = D := by rw [lag]; ring
    rw [e] at de
    refine de.trans ?_
    norm_num at hD ⊢; linarith
  have low : ∀ {a b : ℝ}, 0 ≤ a → 0 ≤ b → b ≤ 2 ^ 22 → 1 / 2 ^ 22 ≤ a ^ 2 * b ^ 2 → 1 / 2 ^ 33 ≤ a := by
    intro a b ha hb hb2 hab
    by_contra hc
    have h1 : a * b ≤ a * 2 ^ 22 := mul_le_mul_of_nonneg_left hb2 ha
    have h2 : a * b < 1 / 2 ^ 11 := by
      have := not_le.1 hc
      norm_num at this h1 ⊢; linarith
    have h3 : (a * b) ^ 2 < (1 / 2 ^ 11) ^ 2 := pow_lt_pow_left₀ h2 (by positivity) (by norm_num)
    rw [mul_pow] at h3
    norm_num at h3 hab; linarith
  have N0p := low n0 n1 l1 (hD.trans DL)
  have N1p := low n1 n0 l0 ((hD.trans DL).trans (le_of_eq (_root_.mul_comm _ _)))
  have N0q : 0 < N0 := lt_of_lt_of_le (by positivity) N0p
  have N1q : 0 < N1 := lt_of_lt_of_le (by positivity) N1p
  have ratio : ∀ {a : ℝ}, 1 / 2 ^ 33 ≤ a → N2 / a ≤ 2 ^ 55 := by
    intro a h
    rw [div_le_iff₀ (lt_of_lt_of_le (by positivity) h)]
    norm_num at h l2 ⊢; linarith
  have Lu : N1 ^ 2 * (N0 * N2) ≤ K * (N2 / N0) * D := by
    have e : N1 ^ 2 * (N0 * N2) = N0 ^ 2 * N1 ^ 2 * (N2 / N0) := by field_simp
    rw [e]
    calc N0 ^ 2 * N1 ^ 2 * (N2 / N0) ≤ K * D * (N2 / N0) := mul_le_mul_of_nonneg_right hK (by positivity)
      _ = _ := by ring
  have Lv : N0 ^ 2 * (N1 * N2) ≤ K * (N2 / N1) * D := by
    have e : N0 ^ 2 * (N1 * N2) = N0 ^ 2 * N1 ^ 2 * (N2 / N1) := by field_simp
    rw [e]
    calc N0 ^ 2 * N1 ^ 2 * (N2 / N1) ≤ K * D * (N2 / N1) := mul_le_mul_of_nonneg_right hK (by positivity)
      _ = _ := by ring
  have hG : |G| ≤ N0 * N1 := d01.hx
  have ub : ∀ {w a T L : ℝ}, |w * D| ≤ 2 * L → L ≤ K * T * D → T ≤ 2 ^ 55 → 0 ≤ T → |w| ≤ 2 ^ 75 := by
    intro w a T L h1 h2 h3 h4
    rw [_root_.abs_mul, abs_of_pos D0] at h1
    have : |w| * D ≤ 2 * (K * T) * D := by linarith
    have := le_of_mul_le_mul_right this D0
    have kt : K * T ≤ 2 ^ 16 * 2 ^ 55 := mul_le_mul K2 h3 h4 (by positivity)
    norm_num at kt ⊢; linarith
  have num : ∀ {x y z w A B C E L : ℝ}, |x| ≤ A → |y| ≤ B → |z| ≤ C → |w| ≤ E → A * B = L → C * E = L → |x * y - z * w| ≤ 2 * L := by
    intro x y z w A B C E L h1 h2 h3 h4 h5 h6
    have a := mul_le_mul h1 h2 (abs_nonneg _) ((abs_nonneg _).trans h1)
    have b := mul_le_mul h3 h4 (abs_nonneg _) ((abs_nonneg _).trans h3)
    rw [← _root_.abs_mul] at a b
    have := abs_sub (x * y) (z * w)
    linarith
  have eu : N1 ^ 2 * (u * N0 ^ 2 + v * G) - G * (u * G + v * N1 ^ 2) = u * D := by rw [lag]; ring
  have ev : N0 ^ 2 * (u * G + v * N1 ^ 2) - G * (u * N0 ^ 2 + v * G) = v * D := by rw [lag]; ring
  rw [eu] at ue
  rw [ev] at ve
  have bu : |u| ≤ 2 ^ 75 := by
    have := num d11.hx d02.hx hG d12.hx (L := N1 ^ 2 * (N0 * N2)) (by ring) (by ring)
    rw [eu] at this
    exact ub (a := 0) this Lu (ratio N0p) (by positivity)
  have bv : |v| ≤ 2 ^ 75 := by
    have := num d00.hx d12.hx hG d02.hx (L := N0 ^ 2 * (N1 * N2)) (by ring) (by ring)
    rw [ev] at this
    exact ub (a := 0) this Lv (ratio N1p) (by positivity)
  obtain ⟨ru, eu'⟩ := quot_err uf df hD D2 de' K1 K2 (T := N2 / N0) (by positivity) ((ratio N0p).trans (by norm_num)) bu Lu ue
  obtain ⟨rv, ev'⟩ := quot_err vf df hD D2 de' K1 K2 (T := N2 / N1) (by positivity) ((ratio N1p).trans (by norm_num)) bv Lv ve
  exact ⟨⟨df, de'⟩, ⟨ru, eu'⟩, ⟨rv, ev'⟩⟩

/-- For a triangle whose squared doubled area is at least `2^-22` (the code gives up at `2^-23`) and whose angle at the first
vertex is not too small (the squared sine is at least `1/K`), `get_barycoords` succeeds, and returns the barycentric
coordinates of the projection of the point up to a relative error of about `K/2^18`. -/
theorem C110_barycoords (bk : Backend) (t : Triangle F32) (p : Point3D F32) (ha : Tame (vtx t.a)) (hb : Tame (vtx t.b))
    (hc : Tame (vtx t.c)) (hp : Tame p) {u v K : ℝ}
    (h1 : inner3 (baryPoint (exactT t) u v) (exactP p) (exactP (vtx t.a)) (exactP (vtx t.b)) = 0)
    (h2 : inner3 (baryPoint (exactT t) u v) (exactP p) (exactP (vtx t.a)) (exactP (vtx t.c)) = 0)
    (hD : 1 / 2 ^ 22 ≤ gram (exactT t)) (K2 : K ≤ 2 ^ 16)
    (hK : gap (exactP (vtx t.a)) (exactP (vtx t.c)) ^ 2 * gap (exactP (vtx t.a)) (exactP (vtx t.b)) ^ 2 ≤ K * gram (exactT t)) :
    ∃ r, t.getBarycoords bk (some p) = some r ∧ r.getX.isFin = true ∧ r.getY.isFin = true ∧
      |r.getX.val - u| ≤ K * (|u| + gap (exactP (vtx t.a)) (exactP p) / gap (exactP (vtx t.a)) (exactP (vtx t.c))) / 2 ^ 18 + 1 / 2 ^ 70 ∧
      |r.getY.val - v| ≤ K * (|v| + gap (exactP (vtx t.a)) (exactP p) / gap (exactP (vtx t.a)) (exactP (vtx t.b))) / 2 ^ 18 + 1 / 2 ^ 70 := by
  have s0 := gap_sq (exactP (vtx t.a)) (exactP (vtx t.c))
  have s1 := gap_sq (exactP (vtx t.a)) (exactP (vtx t.b))
  have s2 := gap_sq (exactP (vtx t.a)) (exactP p)
  have l0 := gap_le ha hc
  have l1 := gap_le ha hb
  have l2 := gap_le ha hp
  have n0 : 0 ≤ gap (exactP (vtx t.a)) (exactP (vtx t.c)) := Real.sqrt_nonneg _
  have n1 : 0 ≤ gap (exactP (vtx t.a)) (exactP (vtx t.b)) := Real.sqrt_nonneg _
  have n2 : 0 ≤ gap (exactP (vtx t.a)) (exactP p) := Real.sqrt_nonneg _
  set N0 := gap (exactP (vtx t.a)) (exactP (vtx t.c))
  set N1 := gap (exactP (vtx t.a)) (exactP (vtx t.b))
  set N2 := gap (exactP (vtx t.a)) (exactP p)
  set D := gram (exactT t) with hDdef
  have D0 : 0 < D := lt_of_lt_of_le (by positivity) hD
  -- the true dot products
  obtain ⟨⟨⟨ax, ay, az, aw⟩⟩, ⟨⟨bx, by_, bz, bw⟩⟩, ⟨⟨cx, cy, cz, cw⟩⟩⟩ := t
  obtain ⟨px, py, pz⟩ := p
  simp only [vtx, exactP] at s0 s1 s2
  simp only [Tame, vtx] at ha hb hc hp
  obtain ⟨ax', ay', az'⟩ := ha
  obtain ⟨bx', by', bz'⟩ := hb
  obtain ⟨cx', cy', cz'⟩ := hc
  obtain ⟨px', py', pz'⟩ := hp
  have lag : D = N0 ^ 2 * N1 ^ 2 - ((cx.val - ax.val) * (bx.val - ax.val) + (cy.val - ay.val) * (by_.val - ay.val) + (cz.val - az.val) * (bz.val - az.val)) ^ 2 := by
    rw [hDdef, s0, s1]
    simp only [gram, triCross, ccw, vtx, exactT, exactV, Vec3.getX, Vec3.getY, Vec3.getZ, Simd4f.get]
    ring
  simp only [inner3, baryPoint, exactT, exactV, exactP, vtx, Vec3.getX, Vec3.getY, Vec3.getZ, Simd4f.get] at h1 h2
  have e2 : (cx.val - ax.val) * (px.val - ax.val) + (cy.val - ay.val) * (py.val - ay.val) + (cz.val - az.val) * (pz.val - az.val) =
      u * N0 ^ 2 + v * ((cx.val - ax.val) * (bx.val - ax.val) + (cy.val - ay.val) * (by_.val - ay.val) + (cz.val - az.val) * (bz.val - az.val)) := by
    rw [s0]; linear_combination h2
  have e1 : (bx.val - ax.val) * (px.val - ax.val) + (by_.val - ay.val) * (py.val - ay.val) + (bz.val - az.val) * (pz.val - az.val) =
      u * ((cx.val - ax.val) * (bx.val - ax.val) + (cy.val - ay.val) * (by_.val - ay.val) + (cz.val - az.val) * (bz.val - az.val)) + v * N1 ^ 2 := by
    rw [s1]; linear_combination h1
  -- the computed ones
  set E0 : Vec3 F32 := Vec3.subtract ⟨⟨cx, cy, cz, cw⟩⟩ ⟨⟨ax, ay, az, aw⟩⟩ with hE0
  set E1 : Vec3 F32 := Vec3.subtract ⟨⟨bx, by_, bz, bw⟩⟩ ⟨⟨ax, ay, az, aw⟩⟩ with hE1
  set E2 : Vec3 F32 := Vec3.subtract (Point3D.toVec3 ⟨px, py, pz⟩) ⟨⟨ax, ay, az, aw⟩⟩ with hE2
  have bg : ∀ {a b : ℝ}, 0 ≤ a → a ≤ 2 ^ 22 → 0 ≤ b → b ≤ 2 ^ 22 → a * b ≤ 2 ^ 125 := fun {a b} h1 h2 h3 h4 =>
    (mul_le_mul h2 h4 h3 (by positivity)).trans (by norm_num)
  have d00 := dot_edges bk E0 E0 (edge_approx ax' cx') (edge_approx ay' cy') (edge_approx az' cz') (edge_approx ax' cx')
    (edge_approx ay' cy') (edge_approx az' cz') n0 n0 s0 s0 (bg n0 l0 n0 l0)
  have d01 := dot_edges bk E0 E1 (edge_approx ax' cx') (edge_approx ay' cy') (edge_approx az' cz') (edge_approx ax' bx')
    (edge_approx ay' by') (edge_approx az' bz') n0 n1 s0 s1 (bg n0 l0 n1 l1)
  have d02 := dot_edges bk E0 E2 (edge_approx ax' cx') (edge_approx ay' cy') (edge_approx az' cz') (edge_approx ax' px')
    (edge_approx ay' py') (edge_approx az' pz') n0 n2 s0 s2 (bg n0 l0 n2 l2)
  have d11 := dot_edges bk E1 E1 (edge_approx ax' bx') (edge_approx ay' by') (edge_approx az' bz') (edge_approx ax' bx')
    (edge_approx ay' by') (edge_approx az' bz') n1 n1 s1 s1 (bg n1 l1 n1 l1)
  have d12 := dot_edges bk E1 E2 (edge_approx ax' bx') (edge_approx ay' by') (edge_approx az' bz') (edge_approx ax' px')
    (edge_approx ay' py') (edge_approx az' pz') n1 n2 s1 s2 (bg n1 l1 n2 l2)
  replace d02 := d02.congr e2 rfl
  replace d12 := d12.congr e1 rfl
  replace d00 := d00.congr (x' := N0 ^ 2) (by rw [s0]; ring) rfl
  replace d11 := d11.congr (x' := N1 ^ 2) (by rw [s1]; ring) rfl
  have d01 := d01.congr (x' := (cx.val - ax.val) * (bx.val - ax.val) + (cy.val - ay.val) * (by_.val - ay.val) + (cz.val - az.val) * (bz.val - az.val)) rfl rfl
  obtain ⟨⟨df, de⟩, ⟨ru, eu⟩, ⟨rv, ev⟩⟩ := bary_core n0 n1 n2 l0 l1 l2 hD K2 hK lag d00 d01 d02 d11 d12
  refine ⟨Vec2.init (Fp.mul (Fp.sub (Fp.mul (Vec3.dot bk E1 E1) (Vec3.dot bk E0 E2)) (Fp.mul (Vec3.dot bk E0 E1) (Vec3.dot bk E1 E2)))
      (Fp.div f1 (Fp.sub (Fp.mul (Vec3.dot bk E0 E0) (Vec3.dot bk E1 E1)) (Fp.mul (Vec3.dot bk E0 E1) (Vec3.dot bk E0 E1)))))
    (Fp.mul (Fp.sub (Fp.mul (Vec3.dot bk E0 E0) (Vec3.dot bk E1 E2)) (Fp.mul (Vec3.dot bk E0 E1) (Vec3.dot bk E0 E2)))
      (Fp.div f1 (Fp.sub (Fp.mul (Vec3.dot bk E0 E0) (Vec3.dot bk E1 E1)) (Fp.mul (Vec3.dot bk E0 E1) (Vec3.dot bk E0 E1))))),
    ?_, ru, rv, eu, ev⟩
  unfold Triangle.getBarycoords
  simp only [← hE0, ← hE1, ← hE2]
  generalize Vec3.dot bk E0 E0 = q00 at *
  generalize Vec3.dot bk E0 E1 = q01 at *
  generalize Vec3.dot bk E0 E2 = q02 at *
  generalize Vec3.dot bk E1 E1 = q11 at *
  generalize Vec3.dot bk E1 E2 = q12 at *
  have gt : (Scalar.abs (q00 *. q11 -. q01 *. q01) <=. (fltEps : F32)) = false := by
    rw [Bool.eq_false_iff]; intro hc
    have hc' : (Fp.abs (Fp.sub (Fp.mul q00 q11) (Fp.mul q01 q01))).le (fltEps : F32) = true := hc
    rw [le_iff_val (isNaN_of_isFin (by simpa using df)) (by kdecide), val_abs] at hc'
    have e : (fltEps : F32).val = 1 / 2 ^ 23 := by
      have := (lit_dyadic 1 23 (by decide) (by decide)).2
      rw [show (fltEps : F32) = Fp.lit 1 (2 ^ 23) from rfl, this]; norm_num
    rw [e] at hc'
    have k1 := (_root_.abs_le.1 hc').2
    have k2 := (_root_.abs_le.1 de).1
    have k3 := mul_le_mul_of_nonneg_right K2 D0.le
    norm_num at k1 k2 k3 hD; linarith
  rw [gt]
  rfl

/-- Points clearly inside the triangle are reported as contained, points clearly outside are not. -/
theorem C110_contains (bk : Backend) (t : Triangle F32) (p : Point3D F32) (ha : Tame (vtx t.a)) (hb : Tame (vtx t.b))
    (hc : Tame (vtx t.c)) (hp : Tame p) {u v K : ℝ}
    (h1 : inner3 (baryPoint (exactT t) u v) (exactP p) (exactP (vtx t.a)) (exactP (vtx t.b)) = 0)
    (h2 : inner3 (baryPoint (exactT t) u v) (exactP p) (exactP (vtx t.a)) (exactP (vtx t.c)) = 0)
    (hD : 1 / 2 ^ 22 ≤ gram (exactT t)) (K2 : K ≤ 2 ^ 16)
    (hK : gap (exactP (vtx t.a)) (exactP (vtx t.c)) ^ 2 * gap (exactP (vtx t.a)) (exactP (vtx t.b)) ^ 2 ≤ K * gram (exactT t)) :
    let du := K * (|u| + gap (exactP (vtx t.a)) (exactP p) / gap (exactP (vtx t.a)) (exactP (vtx t.c))) / 2 ^ 18 + 1 / 2 ^ 70
    let dv := K * (|v| + gap (exactP (vtx t.a)) (exactP p) / gap (exactP (vtx t.a)) (exactP (vtx t.b))) / 2 ^ 18 + 1 / 2 ^ 70
    (du ≤ u → dv ≤ v → u + v ≤ 1 - du - dv - 1 / 2 ^ 24 → t.containsPoint bk (some p) = true) ∧
    (u < -du ∨ v < -dv ∨ 1 + du + dv ≤ u + v → t.containsPoint bk (some p) = false) := by
  obtain ⟨r, hr, xf, yf, xe, ye⟩ := C110_barycoords bk t p ha hb hc hp h1 h2 hD K2 hK
  intro du dv
  change |r.getX.val - u| ≤ du at xe
  change |r.getY.val - v| ≤ dv at ye
  clear_value du dv
  obtain ⟨x1, x2⟩ := _root_.abs_le.1 xe
  obtain ⟨y1, y2⟩ := _root_.abs_le.1 ye
  have z : (f0 : F32).val = 0 := by rw [f0_eq]; simp
  have zn : (f0 : F32).isNaN = false := by rw [f0_eq]; rfl
  have ge0 : ∀ {w : F32}, w.isFin = true → ((w >=. (f0 : F32)) = true ↔ 0 ≤ w.val) := by
    intro w hw
    change (f0 : F32).le w = true ↔ _
    rw [le_iff_val zn (isNaN_of_isFin hw), z]
  have hs := rnd_add xf yf
  have one := is_f1
  obtain ⟨lf, lv⟩ := lit_dyadic 16777215 24 (by norm_num) (by norm_num)
  have un : Triangle.containsPoint bk t (some p) = (r.getX >=. (f0 : F32) && r.getY >=. (f0 : F32) && (r.getX +. r.getY) <. (f1 : F32)) := by
    unfold Triangle.containsPoint; rw [hr]
  rw [un]
  constructor
  · intro a b c
    rw [Bool.and_eq_true, Bool.and_eq_true]
    refine ⟨⟨(ge0 xf).2 (by linarith), (ge0 yf).2 (by linarith)⟩, ?_⟩
    change (Fp.add r.getX r.getY).lt (f1 : F32) = true
    have le := hs.le_of lf (by rw [lv]; push_cast; norm_num at c ⊢; linarith)
    have nn : (Fp.add r.getX r.getY).isNaN = false := hs.not_nan
    rw [le_iff_val nn (isNaN_of_isFin lf), lv] at le
    have f : (Fp.add r.getX r.getY).isFin = true := by
      refine hs.isFin hp32 ?_
      rw [abs_of_nonneg (by linarith)]
      refine le_trans ?_ le_max32
      have : (0 : ℝ) < 1 / 2 ^ 24 := by positivity
      norm_num at c ⊢; linarith
    rw [lt_iff_val nn (isNaN_of_isFin one.fin), one.val]
    refine lt_of_le_of_lt le ?_
    push_cast; norm_num
  · intro h
    rw [Bool.eq_false_iff]
    intro hc
    rw [Bool.and_eq_true, Bool.and_eq_true] at hc
    obtain ⟨⟨a, b⟩, c⟩ := hc
    rw [ge0 xf] at a
    rw [ge0 yf] at b
    rcases h with h | h | h
    · linarith
    · linarith
    · have ge := hs.ge_of one.fin (by rw [one.val]; linarith)
      have nn : (Fp.add r.getX r.getY).isNaN = false := hs.not_nan
      rw [le_iff_val (isNaN_of_isFin one.fin) nn] at ge
      change (Fp.add r.getX r.getY).lt (f1 : F32) = true at c
      rw [lt_iff_val nn (isNaN_of_isFin one.fin)] at c
      linarith

/-! ### Midpoint, area, normal -/

/-- The midpoint is the mean of the vertices, up to a few units in the last place of the coordinates. -/
theorem C110_midpoint (t : Triangle F32) (ha : Tame (vtx t.a)) (hb : Tame (vtx t.b)) (hc : Tame (vtx t.c)) :
    let m := t.getMidpoint
    let err := fun x y z : ℝ => (|x| + |y| + |z|) / 2 ^ 23 + 1 / 2 ^ 149
    (m.x.isFin = true ∧ m.y.isFin = true ∧ m.z.isFin = true) ∧
    |m.x.val - (t.a.getX.val + t.b.getX.val + t.c.getX.val) / 3| ≤ err t.a.getX.val t.b.getX.val t.c.getX.val ∧
    |m.y.val - (t.a.getY.val + t.b.getY.val + t.c.getY.val) / 3| ≤ err t.a.getY.val t.b.getY.val t.c.getY.val ∧
    |m.z.val - (t.a.getZ.val + t.b.getZ.val + t.c.getZ.val) / 3| ≤ err t.a.getZ.val t.b.getZ.val t.c.getZ.val := by
  obtain ⟨tf, tv⟩ := lit_int 3 (by decide)
  have third : Approx (Fp.div (f1 : F32) (lit 3 1)) (1 / 3) (1 / 3) ((1 + 2 / 16777216) * (1 / 3)) := by
    have h := rnd_div is_f1.fin tf (by rw [tv]; norm_num)
    rw [is_f1.val, tv] at h
    push_cast at h
    have f := h.isFin hp32 (le_trans (by norm_num) le_max32)
    have e := h.err_add f
    rw [u32, eta32] at e
    refine ⟨f, by norm_num, e.trans (by norm_num)⟩
  have k : ∀ {a b c : F32}, (a.isFin = true ∧ |a.val| ≤ 2 ^ 20) → (b.isFin = true ∧ |b.val| ≤ 2 ^ 20) → (c.isFin = true ∧ |c.val| ≤ 2 ^ 20) →
      let r := Fp.mul (Fp.add (Fp.add a b) c) (Fp.div (f1 : F32) (lit 3 1))
      r.isFin = true ∧ |r.val - (a.val + b.val + c.val) / 3| ≤ (|a.val| + |b.val| + |c.val|) / 2 ^ 23 + 1 / 2 ^ 149 := by
    intro a b c ha hb hc
    have s1 := sum2_approx (Approx.exact ha.1) (Approx.exact hb.1) (by have := ha.2; have := hb.2; norm_num at *; linarith)
    have s2 := sum2_approx s1 (Approx.exact hc.1) (by have := ha.2; have := hb.2; have := hc.2; norm_num at *; linarith)
    have m := mul2_approx s2 third (by have := ha.2; have := hb.2; have := hc.2; norm_num at *; linarith)
    refine ⟨m.fin, ?_⟩
    have e := m.err
    rw [mul_one_div] at e
    refine e.trans ?_
    have := abs_nonneg a.val
    have := abs_nonneg b.val
    have := abs_nonneg c.val
    norm_num; linarith
  intro m err
  have x := k ha.1 hb.1 hc.1
  have y := k ha.2.1 hb.2.1 hc.2.1
  have z := k ha.2.2 hb.2.2 hc.2.2
  exact ⟨⟨x.1, y.1, z.1⟩, x.2, y.2, z.2⟩

omit [Libm binary32] in
/-- lengths of nearby vectors -/
theorem len_near (x y z x' y' z' : ℝ) :
    |√(x' ^ 2 + y' ^ 2 + z' ^ 2) - √(x ^ 2 + y ^ 2 + z ^ 2)| ≤ |x' - x| + |y' - y| + |z' - z| := by
  have n : ∀ a b c : ℝ, ‖quat ⟨a, b, c, 0⟩‖ = √(a ^ 2 + b ^ 2 + c ^ 2) := by
    intro a b c
    rw [← Real.sqrt_sq (norm_nonneg (quat ⟨a, b, c, 0⟩)), quat_norm_sq]
    congr 1; simp
  rw [← n, ← n]
  refine (abs_norm_sub_norm_le _ _).trans ?_
  have e : quat ⟨x', y', z', 0⟩ - quat ⟨x, y, z, 0⟩ = quat ⟨x' - x, y' - y, z' - z, 0⟩ := by
    ext
    · rw [Quaternion.re_sub]; simp [quat]
    · rw [Quaternion.imI_sub]; rfl
    · rw [Quaternion.imJ_sub]; rfl
    · rw [Quaternion.imK_sub]; rfl
  rw [e, n, Real.sqrt_le_left (by positivity)]
  have a := abs_nonneg (x' - x)
  have b := abs_nonneg (y' - y)
  have c := abs_nonneg (z' - z)
  rw [← sq_abs (x' - x), ← sq_abs (y' - y), ← sq_abs (z' - z)]
  nlinarith [mul_nonneg a b, mul_nonneg b c, mul_nonneg a c]

/-- the cross product of two vectors whose components are themselves rounded once -/
theorem cross_edges (bk : Backend) (E F : Vec3 F32) {x y z x' y' z' N M : ℝ}
    (ex : Approx E.getX x |x| ((1 + 1 / 16777216) * |x|)) (ey : Approx E.getY y |y| ((1 + 1 / 16777216) * |y|))
    (ez : Approx E.getZ z |z| ((1 + 1 / 16777216) * |z|)) (fx : Approx F.getX x' |x'| ((1 + 1 / 16777216) * |x'|))
    (fy : Approx F.getY y' |y'| ((1 + 1 / 16777216) * |y'|)) (fz : Approx F.getZ z' |z'| ((1 + 1 / 16777216) * |z'|))
    (hN : 0 ≤ N) (hM : 0 ≤ M) (h1 : N ^ 2 = x ^ 2 + y ^ 2 + z ^ 2) (h2 : M ^ 2 = x' ^ 2 + y' ^ 2 + z' ^ 2)
    (hb : N * M ≤ 2 ^ 60) :
    let r := Vec3.cross bk E F
    (r.getX.isFin = true ∧ r.getY.isFin = true ∧ r.getZ.isFin = true) ∧
    |r.getX.val - (y * z' - z * y')| + |r.getY.val - (z * x' - x * z')| + |r.getZ.val - (x * y' - y * x')| ≤
      13 / 2 ^ 24 * (N * M) + 1 / 2 ^ 146 := by
  have k : ∀ {a b c d : F32} {s t p q : ℝ}, Approx a s |s| ((1 + 1 / 16777216) * |s|) → Approx b t |t| ((1 + 1 / 16777216) * |t|) →
      Approx c p |p| ((1 + 1 / 16777216) * |p|) → Approx d q |q| ((1 + 1 / 16777216) * |q|) → |s * t| + |p * q| ≤ N * M →
      let r := Fp.sub (Fp.mul a b) (Fp.mul c d)
      r.isFin = true ∧ |r.val - (s * t - p * q)| ≤ 17 / 2 ^ 26 * (N * M) + 1 / 2 ^ 148 := by
    intro a b c d s t p q ha hb' hc hd h
    have e1 : (1 + 1 / 16777216) * |s| * ((1 + 1 / 16777216) * |t|) = (1 + 1 / 16777216) ^ 2 * |s * t| := by
      rw [_root_.abs_mul]; ring
    have e2 : (1 + 1 / 16777216) * |p| * ((1 + 1 / 16777216) * |q|) = (1 + 1 / 16777216) ^ 2 * |p * q| := by
      rw [_root_.abs_mul]; ring
    have n1 := abs_nonneg (s * t)
    have n2 := abs_nonneg (p * q)
    have m1 := mul2_approx ha hb' (by rw [e1]; norm_num [-_root_.abs_mul] at hb ⊢; linarith)
    have m2 := mul2_approx hc hd (by rw [e2]; norm_num [-_root_.abs_mul] at hb ⊢; linarith)
    rw [e1, ← _root_.abs_mul] at m1
    rw [e2, ← _root_.abs_mul] at m2
    have g := sub2_approx m1 m2 (by norm_num [-_root_.abs_mul] at hb ⊢; linarith)
    refine ⟨g.fin, g.err.trans ?_⟩
    norm_num [-_root_.abs_mul]; linarith
  have q : ∀ {a b c d : ℝ}, a ^ 2 + c ^ 2 ≤ N ^ 2 → b ^ 2 + d ^ 2 ≤ M ^ 2 → |a * b| + |c * d| ≤ N * M :=
    fun h1 h2 => cs2 hN hM h1 h2
  have x0 := sq_nonneg x
  have y0 := sq_nonneg y
  have z0 := sq_nonneg z
  have x0' := sq_nonneg x'
  have y0' := sq_nonneg y'
  have z0' := sq_nonneg z'
  have X := k ey fz ez fy (q (by linarith) (by linarith))
  have Y := k ez fx ex fz (q (by linarith) (by linarith))
  have Z := k ex fy ey fx (q (by linarith) (by linarith))
  have e : (Vec3.cross bk E F).getX = Fp.sub (Fp.mul E.getY F.getZ) (Fp.mul E.getZ F.getY) ∧
      (Vec3.cross bk E F).getY = Fp.sub (Fp.mul E.getZ F.getX) (Fp.mul E.getX F.getZ) ∧
      (Vec3.cross bk E F).getZ = Fp.sub (Fp.mul E.getX F.getY) (Fp.mul E.getY F.getX) := by
    rcases bk with _ | _ | _ | _
    · exact ⟨rfl, rfl, rfl⟩
    · exact ⟨rfl, rfl, rfl⟩
    · rw [fmul_comm E.getY F.getZ, fmul_comm E.getZ F.getX, fmul_comm E.getX F.getY]
      exact ⟨rfl, rfl, rfl⟩
    · exact ⟨rfl, rfl, rfl⟩
  intro r
  simp only [r]
  rw [e.1, e.2.1, e.2.2]
  refine ⟨⟨X.1, Y.1, Z.1⟩, (add_le_add (add_le_add X.2 Y.2) Z.2).trans ?_⟩
  have := mul_nonneg hN hM
  norm_num; linarith

/-- the cross product the area and the normal are computed from -/
theorem edgeCross_near (bk : Backend) (t : Triangle F32) (ha : Tame (vtx t.a)) (hb : Tame (vtx t.b)) (hc : Tame (vtx t.c)) :
    let r := t.edgeCross bk
    let X := triCross (exactT t)
    (r.getX.isFin = true ∧ r.getY.isFin = true ∧ r.getZ.isFin = true) ∧
    |r.getX.val - X.getX| + |r.getY.val - X.getY| + |r.getZ.val - X.getZ| ≤
      13 / 2 ^ 24 * (gap (exactP (vtx t.b)) (exactP (vtx t.c)) * gap (exactP (vtx t.b)) (exactP (vtx t.a))) + 1 / 2 ^ 146 := by
  have h := cross_edges bk (Vec3.subtract t.c t.b) (Vec3.subtract t.a t.b) (edge_approx hb.1 hc.1) (edge_approx hb.2.1 hc.2.1)
    (edge_approx hb.2.2 hc.2.2) (edge_approx hb.1 ha.1) (edge_approx hb.2.1 ha.2.1) (edge_approx hb.2.2 ha.2.2)
    (Real.sqrt_nonneg _) (Real.sqrt_nonneg _) (gap_sq (exactP (vtx t.b)) (exactP (vtx t.c))) (gap_sq (exactP (vtx t.b)) (exactP (vtx t.a)))
    ((mul_le_mul (gap_le hb hc) (gap_le hb ha) (Real.sqrt_nonneg _) (by positivity)).trans (by norm_num))
  refine ⟨h.1, le_trans (le_of_eq ?_) h.2⟩
  congr 1
  · congr 1
    · congr 1
      simp only [triCross, ccw, vtx, exactT, exactV, Vec3.getX, Vec3.getY, Vec3.getZ, Simd4f.get, Triangle.edgeCross]
      ring
    · congr 1
      simp only [triCross, ccw, vtx, exactT, exactV, Vec3.getX, Vec3.getY, Vec3.getZ, Simd4f.get, Triangle.edgeCross]
      ring
  · congr 1
    simp only [triCross, ccw, vtx, exactT, exactV, Vec3.getX, Vec3.getY, Vec3.getZ, Simd4f.get, Triangle.edgeCross]
    ring

/-- The area, for the product of the two edges at the second vertex (backends with an exact square root). -/
theorem C110_area (bk : Backend) (hbk : bk ≠ .neon) (t : Triangle F32) (ha : Tame (vtx t.a)) (hb : Tame (vtx t.b)) (hc : Tame (vtx t.c)) :
    (t.getArea bk).isFin = true ∧
    |(t.getArea bk).val - √(gram (exactT t)) / 2| ≤
      gap (exactP (vtx t.b)) (exactP (vtx t.c)) * gap (exactP (vtx t.b)) (exactP (vtx t.a)) / 2 ^ 20 + 1 / 2 ^ 70 := by
  obtain ⟨hf, he⟩ := edgeCross_near bk t ha hb hc
  have bnd : gap (exactP (vtx t.b)) (exactP (vtx t.c)) * gap (exactP (vtx t.b)) (exactP (vtx t.a)) ≤ 2 ^ 44 :=
    (mul_le_mul (gap_le hb hc) (gap_le hb ha) (Real.sqrt_nonneg _) (by positivity)).trans (by norm_num)
  have p0 : 0 ≤ gap (exactP (vtx t.b)) (exactP (vtx t.c)) * gap (exactP (vtx t.b)) (exactP (vtx t.a)) :=
    mul_nonneg (Real.sqrt_nonneg _) (Real.sqrt_nonneg _)
  have gle : √(gram (exactT t)) ≤ gap (exactP (vtx t.b)) (exactP (vtx t.c)) * gap (exactP (vtx t.b)) (exactP (vtx t.a)) := by
    rw [Real.sqrt_le_left p0, mul_pow, gap_sq, gap_sq]
    simp only [gram, triCross, ccw, vtx, exactT, exactV, exactP, Vec3.getX, Vec3.getY, Vec3.getZ, Simd4f.get]
    nlinarith [sq_nonneg ((t.c.value.x.val - t.b.value.x.val) * (t.a.value.x.val - t.b.value.x.val) + (t.c.value.y.val - t.b.value.y.val) * (t.a.value.y.val - t.b.value.y.val) + (t.c.value.z.val - t.b.value.z.val) * (t.a.value.z.val - t.b.value.z.val))]
  set P := gap (exactP (vtx t.b)) (exactP (vtx t.c)) * gap (exactP (vtx t.b)) (exactP (vtx t.a)) with hP
  set r := t.edgeCross bk with hr
  have near := (len_near (triCross (exactT t)).getX (triCross (exactT t)).getY (triCross (exactT t)).getZ r.getX.val r.getY.val r.getZ.val).trans he
  have g : √((triCross (exactT t)).getX ^ 2 + (triCross (exactT t)).getY ^ 2 + (triCross (exactT t)).getZ ^ 2) = √(gram (exactT t)) := rfl
  rw [g] at near
  set L := √(gram (exactT t)) with hL
  have L0 : 0 ≤ L := Real.sqrt_nonneg _
  obtain ⟨n1, n2⟩ := _root_.abs_le.1 near
  have up : √(r.getX.val ^ 2 + r.getY.val ^ 2 + r.getZ.val ^ 2) ≤ 2 ^ 45 := by norm_num at n2 bnd ⊢; linarith
  have up2 : r.getX.val ^ 2 + r.getY.val ^ 2 + r.getZ.val ^ 2 ≤ 2 ^ 126 := by
    rw [Real.sqrt_le_left (by positivity)] at up
    exact up.trans (by norm_num)
  obtain ⟨lf, le⟩ := C85_length3 bk hbk r hf up2
  unfold Spec.lengthErr at le
  set l := √(r.getX.val ^ 2 + r.getY.val ^ 2 + r.getZ.val ^ 2)
  have hl := rnd_mul lf Newton.half.1
  rw [Newton.half.2] at hl
  have e1 : |(Vec3.length bk r).val - L| ≤ 22 / 2 ^ 24 * P + 1 / 2 ^ 71 := by
    have := abs_sub_le (Vec3.length bk r).val l L
    generalize |(Vec3.length bk r).val - l| = A at *
    generalize |(Vec3.length bk r).val - L| = B at *
    generalize |l - L| = C at *
    norm_num at n2 le near gle ⊢; linarith
  have e2 : |(Vec3.length bk r).val * (1 / 2)| ≤ P + 1 / 2 ^ 71 := by
    rw [_root_.abs_mul, abs_of_pos (show (0 : ℝ) < 1 / 2 by norm_num)]
    have := abs_sub_abs_le_abs_sub (Vec3.length bk r).val L
    rw [abs_of_nonneg L0] at this
    generalize |(Vec3.length bk r).val - L| = A at *
    generalize |(Vec3.length bk r).val| = B at *
    norm_num at e1 ⊢; linarith
  have fr : (Fp.mul (Vec3.length bk r) (lit 1 2)).isFin = true :=
    hl.isFin hp32 (e2.trans (le_trans (by norm_num at bnd ⊢; linarith) le_max32))
  have er := hl.err_add fr
  rw [u32, eta32] at er
  refine ⟨fr, ?_⟩
  change |(Fp.mul (Vec3.length bk r) (lit 1 2)).val - L / 2| ≤ _
  have e3 : |(Vec3.length bk r).val * (1 / 2) - L / 2| ≤ 11 / 2 ^ 24 * P + 1 / 2 ^ 72 := by
    have : (Vec3.length bk r).val * (1 / 2) - L / 2 = ((Vec3.length bk r).val - L) * (1 / 2) := by ring
    rw [this, _root_.abs_mul, abs_of_pos (show (0 : ℝ) < 1 / 2 by norm_num)]
    norm_num at e1 ⊢; linarith
  refine (abs_sub_le _ ((Vec3.length bk r).val * (1 / 2)) _).trans ?_
  generalize |(Fp.mul (Vec3.length bk r) (lit 1 2)).val - (Vec3.length bk r).val * (1 / 2)| = A at *
  generalize |(Vec3.length bk r).val * (1 / 2) - L / 2| = B at *
  generalize |(Vec3.length bk r).val * (1 / 2)| = C at *
  norm_num at er e2 e3 ⊢; linarith

/-- The normal is the unit vector along the cross product, provided that the angle at the second vertex is not too small
(its sine is at least `1/k`). -/
theorem C110_normal (bk : Backend) (t : Triangle F32) (ha : Tame (vtx t.a)) (hb : Tame (vtx t.b)) (hc : Tame (vtx t.c)) {k : ℝ}
    (hD : 1 / 2 ^ 90 ≤ gram (exactT t)) (k2 : k ≤ 2 ^ 16)
    (hk : gap (exactP (vtx t.b)) (exactP (vtx t.c)) * gap (exactP (vtx t.b)) (exactP (vtx t.a)) ≤ k * √(gram (exactT t))) :
    let n := t.getNormal bk
    let X := triCross (exactT t)
    (n.getX.isFin = true ∧ n.getY.isFin = true ∧ n.getZ.isFin = true) ∧
    |n.getX.val - X.getX / √(gram (exactT t))| ≤ k / 2 ^ 18 ∧ |n.getY.val - X.getY / √(gram (exactT t))| ≤ k / 2 ^ 18 ∧
    |n.getZ.val - X.getZ / √(gram (exactT t))| ≤ k / 2 ^ 18 := by
  obtain ⟨hf, he⟩ := edgeCross_near bk t ha hb hc
  have bnd : gap (exactP (vtx t.b)) (exactP (vtx t.c)) * gap (exactP (vtx t.b)) (exactP (vtx t.a)) ≤ 2 ^ 44 :=
    (mul_le_mul (gap_le hb hc) (gap_le hb ha) (Real.sqrt_nonneg _) (by positivity)).trans (by norm_num)
  have p0 : 0 ≤ gap (exactP (vtx t.b)) (exactP (vtx t.c)) * gap (exactP (vtx t.b)) (exactP (vtx t.a)) :=
    mul_nonneg (Real.sqrt_nonneg _) (Real.sqrt_nonneg _)
  have gle : √(gram (exactT t)) ≤ gap (exactP (vtx t.b)) (exactP (vtx t.c)) * gap (exactP (vtx t.b)) (exactP (vtx t.a)) := by
    rw [Real.sqrt_le_left p0, mul_pow, gap_sq, gap_sq]
    simp only [gram, triCross, ccw, vtx, exactT, exactV, exactP, Vec3.getX, Vec3.getY, Vec3.getZ, Simd4f.get]
    nlinarith [sq_nonneg ((t.c.value.x.val - t.b.value.x.val) * (t.a.value.x.val - t.b.value.x.val) + (t.c.value.y.val - t.b.value.y.val) * (t.a.value.y.val - t.b.value.y.val) + (t.c.value.z.val - t.b.value.z.val) * (t.a.value.z.val - t.b.value.z.val))]
  set P := gap (exactP (vtx t.b)) (exactP (vtx t.c)) * gap (exactP (vtx t.b)) (exactP (vtx t.a)) with hP
  set r := t.edgeCross bk with hr
  set X := triCross (exactT t) with hX
  have near := (len_near X.getX X.getY X.getZ r.getX.val r.getY.val r.getZ.val).trans he
  have g : √(X.getX ^ 2 + X.getY ^ 2 + X.getZ ^ 2) = √(gram (exactT t)) := rfl
  rw [g] at near
  set L := √(gram (exactT t)) with hL
  have Llo : 1 / 2 ^ 45 ≤ L := Real.le_sqrt_of_sq_le (by norm_num at hD ⊢; exact hD)
  have L0 : 0 < L := lt_of_lt_of_le (by positivity) Llo
  have k1 : 1 ≤ k := by
    by_contra h
    have := mul_lt_mul_of_pos_right (not_le.1 h) L0
    linarith
  -- the error of the cross product, relative to its length
  set δ := 13 / 2 ^ 24 * P + 1 / 2 ^ 146 with hδ
  have kL := mul_le_mul_of_nonneg_right k1 L0.le
  have dk : δ ≤ 27 / 2 ^ 25 * (k * L) := by rw [hδ]; norm_num at hk Llo kL ⊢; linarith
  have dL : δ ≤ L / 16 := by
    have := mul_le_mul_of_nonneg_right k2 L0.le
    norm_num at this dk ⊢; linarith
  set l := √(r.getX.val ^ 2 + r.getY.val ^ 2 + r.getZ.val ^ 2) with hl
  obtain ⟨n1, n2⟩ := _root_.abs_le.1 near
  have l0 : 15 / 16 * L ≤ l := by linarith
  have lp : 0 < l := lt_of_lt_of_le (by positivity) l0
  have l2 : l ≤ 2 ^ 45 := by norm_num at bnd ⊢; linarith
  have lsq : l ^ 2 = r.getX.val ^ 2 + r.getY.val ^ 2 + r.getZ.val ^ 2 := Real.sq_sqrt (by positivity)
  have S1 : 1 / 2 ^ 100 ≤ r.getX.val ^ 2 + r.getY.val ^ 2 + r.getZ.val ^ 2 := by
    rw [← lsq]
    calc (1 : ℝ) / 2 ^ 100 ≤ (1 / 2 ^ 46) ^ 2 := by norm_num
      _ ≤ l ^ 2 := pow_le_pow_left₀ (by positivity) (by norm_num at Llo ⊢; linarith) 2
  have S2 : r.getX.val ^ 2 + r.getY.val ^ 2 + r.getZ.val ^ 2 ≤ 2 ^ 125 := by
    rw [← lsq]
    calc l ^ 2 ≤ (2 ^ 45) ^ 2 := pow_le_pow_left₀ lp.le l2 2
      _ ≤ 2 ^ 125 := by norm_num
  obtain ⟨df, d0, de⟩ := dot3_self bk r hf (S2.trans (by norm_num))
  have dpos : 0 < (Vec3.dot bk r r).val := by
    have := (_root_.abs_le.1 de).1
    unfold Spec.dotErr at this
    norm_num at this S1; linarith
  obtain ⟨Rf, Re⟩ := norm_core .gcc trivial df de S1 S2 (by simp)
  have feq0 : Scalar.feq (Vec3.dot bk r r) (f0 : F32) = false := by
    rw [Bool.eq_false_iff]; intro hc
    have hc' : (Vec3.dot bk r r).feq (zero false) = true := by rw [f0_eq] at hc; exact hc
    have := (feq_iff_val (isNaN_of_isFin df) rfl).1 hc'
    rw [val_zero] at this; exact dpos.ne' this
  have rs : Simd4f.rsqrt1 .gcc (Vec3.dot bk r r) = Fp.div (f1 : F32) (Fp.sqrt (Vec3.dot bk r r)) := by
    unfold Simd4f.rsqrt1
    simp only [feq0]; rfl
  rw [rs] at Rf Re
  have gt : (Vec3.dot bk r r >. (f0 : F32)) = true := by
    change (f0 : F32).lt (Vec3.dot bk r r) = true
    rw [lt_iff_val (by rw [f0_eq]; rfl) (isNaN_of_isFin df), f0_eq, val_zero]; exact dpos
  have en : t.getNormal bk = Vec3.scale r (Fp.div (f1 : F32) (Fp.sqrt (Vec3.dot bk r r))) := by
    unfold Triangle.getNormal
    simp only [← hr, gt, if_true]; rfl
  set R := Fp.div (f1 : F32) (Fp.sqrt (Vec3.dot bk r r)) with hR
  have comp : ∀ {c : F32} {x : ℝ}, c.isFin = true → |c.val| ≤ l → |c.val - x| ≤ δ → |x| ≤ L →
      (Fp.mul c R).isFin = true ∧ |(Fp.mul c R).val - x / L| ≤ k / 2 ^ 18 := by
    intro c x cf cl cx xL
    obtain ⟨uf, ue⟩ := norm_comp cf Rf lp Re cl
    refine ⟨uf, (abs_sub_le _ (c.val / l) _).trans ?_⟩
    have a1 : |c.val| / l ≤ 1 := (div_le_one lp).2 cl
    have e : c.val / l - x / L = ((c.val - x) + x / L * (L - l)) / l := by field_simp; ring
    have a2 : |c.val / l - x / L| ≤ 2 * δ / l := by
      rw [e, abs_div, abs_of_pos lp]
      refine div_le_div_of_nonneg_right ?_ lp.le
      refine (abs_add_le _ _).trans ?_
      rw [_root_.abs_mul, abs_div, abs_of_pos L0, _root_.abs_sub_comm L]
      have b1 : |x| / L ≤ 1 := (div_le_one L0).2 xL
      have b2 := mul_le_mul b1 near (abs_nonneg _) (by norm_num)
      linarith
    have a3 : 2 * δ / l ≤ 2 * 27 / 2 ^ 25 * k * (16 / 15) := by
      rw [div_le_iff₀ lp]
      have := mul_le_mul_of_nonneg_left l0 (show 0 ≤ k by linarith)
      norm_num at this dk ⊢; linarith
    norm_num at ue a3 ⊢; linarith
  have sx := sq_nonneg X.getX
  have sy := sq_nonneg X.getY
  have sz := sq_nonneg X.getZ
  have LL : L ^ 2 = X.getX ^ 2 + X.getY ^ 2 + X.getZ ^ 2 := Real.sq_sqrt (by positivity)
  have tx := sq_nonneg r.getX.val
  have ty := sq_nonneg r.getY.val
  have tz := sq_nonneg r.getZ.val
  have ax := abs_nonneg (r.getX.val - X.getX)
  have ay := abs_nonneg (r.getY.val - X.getY)
  have az := abs_nonneg (r.getZ.val - X.getZ)
  have x := comp hf.1 (abs_le_of_sq_le_sq (by linarith) lp.le) (by linarith) (abs_le_of_sq_le_sq (by linarith) L0.le) (x := X.getX)
  have y := comp hf.2.1 (abs_le_of_sq_le_sq (by linarith) lp.le) (by linarith) (abs_le_of_sq_le_sq (by linarith) L0.le) (x := X.getY)
  have z := comp hf.2.2 (abs_le_of_sq_le_sq (by linarith) lp.le) (by linarith) (abs_le_of_sq_le_sq (by linarith) L0.le) (x := X.getZ)
  rw [en]
  exact ⟨⟨x.1, y.1, z.1⟩, x.2, y.2, z.2⟩

/-! ### The hypotheses are met: the triangle (0,0,0), (4,0,0), (0,3,0) and the point (1,1,0) -/

/-- a concrete triangle -/
def tri34 : Triangle F32 :=
  ⟨⟨⟨lit 0 1, lit 0 1, lit 0 1, lit 0 1⟩⟩, ⟨⟨lit 4 1, lit 0 1, lit 0 1, lit 0 1⟩⟩, ⟨⟨lit 0 1, lit 3 1, lit 0 1, lit 0 1⟩⟩⟩

omit [Libm binary32] in
theorem tame_lit (x y z : ℤ) (hx : x.natAbs ≤ 2 ^ 20) (hy : y.natAbs ≤ 2 ^ 20) (hz : z.natAbs ≤ 2 ^ 20) :
    Tame ⟨lit x 1, lit y 1, lit z 1⟩ ∧ exactP ⟨lit x 1, lit y 1, lit z 1⟩ = ⟨x, y, z⟩ := by
  have k : ∀ n : ℤ, n.natAbs ≤ 2 ^ 20 → ((lit n 1 : F32).isFin = true ∧ |(lit n 1 : F32).val| ≤ 2 ^ 20) ∧ (lit n 1 : F32).val = n := by
    intro n hn
    obtain ⟨f, v⟩ := lit_int n (hn.trans (by norm_num))
    refine ⟨⟨f, ?_⟩, v⟩
    rw [v, ← Int.cast_abs, Int.abs_eq_natAbs]
    exact_mod_cast hn
  refine ⟨⟨(k x hx).1, (k y hy).1, (k z hz).1⟩, ?_⟩
  simp only [exactP, (k x hx).2, (k y hy).2, (k z hz).2]

theorem tri34_exact : exactT tri34 = ⟨⟨⟨0, 0, 0, 0⟩⟩, ⟨⟨4, 0, 0, 0⟩⟩, ⟨⟨0, 3, 0, 0⟩⟩⟩ := by
  simp only [exactT, exactV, tri34, Vec3.getX, Vec3.getY, Vec3.getZ, Simd4f.get, (lit_int 0 (by decide)).2,
    (lit_int 3 (by decide)).2, (lit_int 4 (by decide)).2]
  push_cast; rfl

/-- it contains the point (1,1,0) and not the point (3,3,0), on every backend -/
example (bk : Backend) : tri34.containsPoint bk (some ⟨lit 1 1, lit 1 1, lit 0 1⟩) = true ∧
    tri34.containsPoint bk (some ⟨lit 3 1, lit 3 1, lit 0 1⟩) = false := by
  have A := tame_lit 0 0 0 (by decide) (by decide) (by decide)
  have B := tame_lit 4 0 0 (by decide) (by decide) (by decide)
  have C := tame_lit 0 3 0 (by decide) (by decide) (by decide)
  have P := tame_lit 1 1 0 (by decide) (by decide) (by decide)
  have Q := tame_lit 3 3 0 (by decide) (by decide) (by decide)
  have eA : exactP (vtx tri34.a) = ⟨0, 0, 0⟩ := A.2.trans (by push_cast; rfl)
  have eB : exactP (vtx tri34.b) = ⟨4, 0, 0⟩ := B.2.trans (by push_cast; rfl)
  have eC : exactP (vtx tri34.c) = ⟨0, 3, 0⟩ := C.2.trans (by push_cast; rfl)
  have eP : exactP (⟨lit 1 1, lit 1 1, lit 0 1⟩ : Point3D F32) = ⟨1, 1, 0⟩ := P.2.trans (by push_cast; rfl)
  have eQ : exactP (⟨lit 3 1, lit 3 1, lit 0 1⟩ : Point3D F32) = ⟨3, 3, 0⟩ := Q.2.trans (by push_cast; rfl)
  have d1 : gap ⟨0, 0, 0⟩ ⟨0, 3, 0⟩ = 3 := by
    unfold gap; rw [show ((0 : ℝ) - 0) ^ 2 + (3 - 0) ^ 2 + (0 - 0) ^ 2 = 3 ^ 2 by norm_num, Real.sqrt_sq (by norm_num)]
  have d2 : gap ⟨0, 0, 0⟩ ⟨4, 0, 0⟩ = 4 := by
    unfold gap; rw [show ((4 : ℝ) - 0) ^ 2 + (0 - 0) ^ 2 + (0 - 0) ^ 2 = 4 ^ 2 by norm_num, Real.sqrt_sq (by norm_num)]
  have d3 : gap ⟨0, 0, 0⟩ ⟨1, 1, 0⟩ ≤ 2 := by
    unfold gap; rw [Real.sqrt_le_left (by norm_num)]; norm_num
  have d4 : gap ⟨0, 0, 0⟩ ⟨3, 3, 0⟩ ≤ 5 := by
    unfold gap; rw [Real.sqrt_le_left (by norm_num)]; norm_num
  have g : gram ⟨⟨⟨0, 0, 0, 0⟩⟩, ⟨⟨4, 0, 0, 0⟩⟩, ⟨⟨0, 3, 0, 0⟩⟩⟩ = 144 := by
    simp only [gram, triCross, ccw, vtx, Vec3.getX, Vec3.getY, Vec3.getZ, Simd4f.get]; norm_num
  constructor
  · refine (C110_contains bk tri34 _ A.1 B.1 C.1 P.1 (u := 1 / 3) (v := 1 / 4) (K := 1) ?_ ?_ ?_ (by norm_num) ?_).1 ?_ ?_ ?_
    · rw [eA, eB, eP, tri34_exact]; simp only [inner3, baryPoint, vtx]; norm_num
    · rw [eA, eC, eP, tri34_exact]; simp only [inner3, baryPoint, vtx]; norm_num
    · rw [tri34_exact, g]; norm_num
    · rw [tri34_exact, g, eA, eB, eC, d1, d2]; norm_num
    · rw [eA, eC, eP, d1, abs_of_pos (by norm_num)]; norm_num at d3 ⊢; linarith
    · rw [eA, eB, eP, d2, abs_of_pos (by norm_num)]; norm_num at d3 ⊢; linarith
    · rw [eA, eB, eC, eP, d1, d2, abs_of_pos (by norm_num), abs_of_pos (by norm_num)]; norm_num at d3 ⊢; linarith
  · refine (C110_contains bk tri34 _ A.1 B.1 C.1 Q.1 (u := 1) (v := 3 / 4) (K := 1) ?_ ?_ ?_ (by norm_num) ?_).2 (.inr (.inr ?_))
    · rw [eA, eB, eQ, tri34_exact]; simp only [inner3, baryPoint, vtx]; norm_num
    · rw [eA, eC, eQ, tri34_exact]; simp only [inner3, baryPoint, vtx]; norm_num
    · rw [tri34_exact, g]; norm_num
    · rw [tri34_exact, g, eA, eB, eC, d1, d2]; norm_num
    · rw [eA, eB, eC, eQ, d1, d2, abs_of_pos (by norm_num), abs_of_pos (by norm_num)]; norm_num at d4 ⊢; linarith

/-- the area of that triangle -/
example (bk : Backend) (h : bk ≠ .neon) : |(tri34.getArea bk).val - 6| ≤ 1 / 2 ^ 15 := by
  have A := tame_lit 0 0 0 (by decide) (by decide) (by decide)
  have B := tame_lit 4 0 0 (by decide) (by decide) (by decide)
  have C := tame_lit 0 3 0 (by decide) (by decide) (by decide)
  have eA : exactP (vtx tri34.a) = ⟨0, 0, 0⟩ := A.2.trans (by push_cast; rfl)
  have eB : exactP (vtx tri34.b) = ⟨4, 0, 0⟩ := B.2.trans (by push_cast; rfl)
  have eC : exactP (vtx tri34.c) = ⟨0, 3, 0⟩ := C.2.trans (by push_cast; rfl)
  have h := (C110_area bk h tri34 A.1 B.1 C.1).2
  have g : gram ⟨⟨⟨0, 0, 0, 0⟩⟩, ⟨⟨4, 0, 0, 0⟩⟩, ⟨⟨0, 3, 0, 0⟩⟩⟩ = 12 ^ 2 := by
    simp only [gram, triCross, ccw, vtx, Vec3.getX, Vec3.getY, Vec3.getZ, Simd4f.get]; norm_num
  have d1 : gap ⟨4, 0, 0⟩ ⟨0, 3, 0⟩ = 5 := by
    unfold gap; rw [show ((0 : ℝ) - 4) ^ 2 + (3 - 0) ^ 2 + (0 - 0) ^ 2 = 5 ^ 2 by norm_num, Real.sqrt_sq (by norm_num)]
  have d2 : gap ⟨4, 0, 0⟩ ⟨0, 0, 0⟩ = 4 := by
    unfold gap; rw [show ((0 : ℝ) - 4) ^ 2 + (0 - 0) ^ 2 + (0 - 0) ^ 2 = 4 ^ 2 by norm_num, Real.sqrt_sq (by norm_num)]
  rw [tri34_exact, g, eA, eB, eC, d1, d2, Real.sqrt_sq (by norm_num)] at h
  norm_num at h ⊢; linarith

end Graphene

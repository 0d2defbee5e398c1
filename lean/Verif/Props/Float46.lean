/-
  C139: decomposing matrices that scale and translate, in floating point (IEEE binary32).
-/
import Verif.Props.Float44
import Verif.Props.Float16
import Verif.Props.Float36
import Verif.Props.Float12
import Verif.Model.Decompose

set_option exponentiation.threshold 3000

namespace Graphene
open Fp Spec
variable [Libm binary32]

/-- the values of the lanes -/
structure V4Is (v : V4 F32) (x y z w : ℝ) : Prop where
  x : Is v.x x
  y : Is v.y y
  z : Is v.z z
  w : Is v.w w

/-- `matrix_decompose_3d` after the perspective part has been dealt with -/
def affineParts (bk : Backend) (l : M4 F32) : Decomp3D F32 :=
  let translate : Vec3 F32 := ⟨Simd4f.mergeW l.w f0⟩
  let w := Simd4f.init f0 f0 f0 l.w.w
  let sx := (Simd4f.length4 bk l.x).x
  let x := Simd4f.normalize4 bk l.x
  let shXY := (Simd4f.dot4 x l.y).x
  let y1 := Simd4f.sub l.y (Simd4f.mul x (Simd4f.splat shXY))
  let sy := (Simd4f.length4 bk y1).x
  let y := Simd4f.normalize4 bk y1
  let shXZ := (Simd4f.dot4 x l.z).x
  let z1 := Simd4f.sub l.z (Simd4f.mul x (Simd4f.splat shXZ))
  let shYZ := (Simd4f.dot4 y z1).x
  let z2 := Simd4f.sub z1 (Simd4f.mul y (Simd4f.splat shYZ))
  let sz := (Simd4f.length4 bk z2).x
  let z := Simd4f.normalize4 bk z2
  let shear := Vec3.init (shXY /. sy) (shXZ /. sz) (shYZ /. sz)
  let flip := (Simd4f.dot3 bk x (Simd4f.cross3 bk y z)).x <. f0
  let mone : F32 := Scalar.lit (-1) 1
  let scale :=
    if flip then Vec3.init (sx *. mone) (sy *. mone) (sz *. mone) else Vec3.init sx sy sz
  let local' : M4 F32 :=
    if flip then ⟨Simd4f.neg bk x, Simd4f.neg bk y, Simd4f.neg bk z, w⟩ else ⟨x, y, z, w⟩
  ⟨translate, scale, Quat.initFromMatrix local', shear, Vec4.init f0 f0 f0 f1⟩

/-- the matrix with the last column forced to (0, 0, 0, 1) -/
def affineOf (n : M4 F32) : M4 F32 :=
  ⟨Simd4f.mergeW n.x f0, Simd4f.mergeW n.y f0, Simd4f.mergeW n.z f0, Simd4f.mergeW n.w f1⟩

theorem decompose3d_affine (bk : Backend) {m n : M4 F32} (h1 : approxVal m.w.w (f0 : F32) = false)
    (h2 : GMatrix.normalize m = some n) (h3 : approxVal (GMatrix.determinant bk (affineOf n)) (f0 : F32) = false)
    (h4 : Simd4f.isZero3 (Simd4f.init n.x.w n.y.w n.z.w n.w.w) = true) :
    GMatrix.decompose3d bk m = .ok (affineParts bk (affineOf n)) := by
  unfold GMatrix.decompose3d
  rw [if_neg (by rw [h1]; simp), h2]
  show (if approxVal (GMatrix.determinant bk (affineOf n)) (f0 : F32) = true then Res.fail else _) = _
  rw [if_neg (by rw [h3]; simp)]
  simp only [h4]
  rfl

/-- what `graphene_approx_val (x, 0)` says -/
theorem approx_zero_iff {x : F32} {v : ℝ} (h : Is x v) : approxVal x (f0 : F32) = decide (|v| < 1 / 2 ^ 23) := by
  have z := is_f0
  have e : approxVal x (f0 : F32) = ((if x >. f0 then x -. f0 else f0 -. x) <. fltEps) := rfl
  have e1 : Is (Fp.sub x f0) v := h.sub_zero z
  have e2 : Is (Fp.sub f0 x) (-v) := by
    have r := rnd_sub z.fin h.fin
    rw [z.val, h.val, zero_sub] at r
    exact r.is h.neg
  have k : (x >. (f0 : F32)) = decide (0 < v) := by
    have := z.lt_eq h
    rw [show (x >. (f0 : F32)) = ((0 : ℝ) <. v) from this, Bool.eq_iff_iff, RealScalar.lt_eq, decide_eq_true_iff]
  rw [e, k]
  by_cases hv : 0 < v
  · simp only [hv, decide_true, if_true]
    refine (e1.lt_eq GR.eps_is).trans ?_
    rw [Bool.eq_iff_iff, RealScalar.lt_eq, decide_eq_true_iff, fltEps_real, abs_of_pos hv]; norm_num [eps]
  · simp only [hv, decide_false, Bool.false_eq_true, if_false]
    refine (e2.lt_eq GR.eps_is).trans ?_
    rw [Bool.eq_iff_iff, RealScalar.lt_eq, decide_eq_true_iff, fltEps_real, abs_of_nonpos (not_lt.1 hv)]; norm_num [eps]


/-- scale factors the claims below are about -/
def Spec.Span (s : ℝ) : Prop := 1 / 2 ^ 11 ≤ |s| ∧ |s| ≤ 2 ^ 20

/-- normalising a row: one reciprocal length for all lanes -/
theorem row_core (bk : Backend) (he : Spec.EstAccurate bk) {v : V4 F32} {x y z w s : ℝ} (h : V4Is v x y z w)
    (hs : x ^ 2 + y ^ 2 + z ^ 2 + w ^ 2 = s ^ 2) (hr : Span s) :
    ∃ R : F32, R.isFin = true ∧ |R.val * |s| - 1| ≤ 8 / 5 / 2 ^ 20 ∧
      Simd4f.normalize4 bk v = ⟨Fp.mul v.x R, Fp.mul v.y R, Fp.mul v.z R, Fp.mul v.w R⟩ := by
  have e : (⟨v⟩ : Vec4 F32).getX.val ^ 2 + (⟨v⟩ : Vec4 F32).getY.val ^ 2 + (⟨v⟩ : Vec4 F32).getZ.val ^ 2 +
      (⟨v⟩ : Vec4 F32).getW.val ^ 2 = s ^ 2 := by
    rw [← hs, ← h.x.val, ← h.y.val, ← h.z.val, ← h.w.val]; rfl
  have lo : (1 / 2 ^ 11 : ℝ) ^ 2 ≤ s ^ 2 := by rw [← sq_abs s]; exact pow_le_pow_left₀ (by positivity) hr.1 2
  have hi : s ^ 2 ≤ (2 ^ 20) ^ 2 := by rw [← sq_abs s]; exact pow_le_pow_left₀ (abs_nonneg _) hr.2 2
  obtain ⟨f, n, g⟩ := dot4_self ⟨v⟩ ⟨h.x.fin, h.y.fin, h.z.fin, h.w.fin⟩ (by rw [e]; exact hi.trans (by norm_num))
  rw [e] at g
  obtain ⟨rf, re⟩ := norm_core bk he f g (_root_.le_trans (by norm_num) lo) (hi.trans (by norm_num))
    (fun _ _ => _root_.le_trans (by norm_num) lo)
  rw [Real.sqrt_sq_eq_abs] at re
  exact ⟨_, rf, re, rfl⟩

/-- the lane that is not zero -/
theorem unit_lane {v R : F32} {s : ℝ} (h : Is v s) (hr : Span s) (hR : R.isFin = true) (e : |R.val * |s| - 1| ≤ 8 / 5 / 2 ^ 20) :
    (Fp.mul v R).isFin = true ∧ (0 < s → |(Fp.mul v R).val - 1| ≤ 1 / 2 ^ 19) ∧ (s < 0 → |(Fp.mul v R).val + 1| ≤ 1 / 2 ^ 19) := by
  have r := rnd_mul h.fin hR
  rw [h.val] at r
  have hb := _root_.abs_le.1 e
  have ab : |s * R.val| ≤ 2 := by
    rw [_root_.abs_mul, ← abs_of_nonneg (abs_nonneg s), ← _root_.abs_mul, _root_.mul_comm]
    rw [_root_.abs_le]; norm_num at hb ⊢; constructor <;> linarith
  have hf : (Fp.mul v R).isFin = true := r.isFin hp32 (ab.trans (_root_.le_trans (by norm_num) le_max32))
  have er := r.err_add hf
  rw [u32, eta32] at er
  have er' : |(Fp.mul v R).val - s * R.val| ≤ 1 / 2 ^ 22 := by
    refine er.trans ?_
    generalize |s * R.val| = q at *
    norm_num at ab ⊢; linarith
  have eb := _root_.abs_le.1 er'
  refine ⟨hf, fun hs => ?_, fun hs => ?_⟩
  · rw [abs_of_pos hs] at hb
    rw [_root_.abs_le]
    have c : s * R.val = R.val * s := _root_.mul_comm _ _
    rw [c] at eb
    norm_num at hb eb ⊢; constructor <;> linarith
  · rw [abs_of_neg hs] at hb
    have c : s * R.val = -(R.val * -s) := by ring
    rw [c] at eb
    rw [_root_.abs_le]
    norm_num at hb eb ⊢; constructor <;> linarith


theorem mul_lane_zero {p q : F32} {x y : ℝ} (hp : Is p x) (hq : Is q y) (h : x = 0 ∨ y = 0) : Is (Fp.mul p q) 0 := by
  rcases h with rfl | rfl
  · exact hp.zero_mul hq
  · exact hp.mul_zero hq

theorem dot4_zero {p q : V4 F32} {x y z w x' y' z' w' : ℝ} (hp : V4Is p x y z w) (hq : V4Is q x' y' z' w')
    (h1 : x = 0 ∨ x' = 0) (h2 : y = 0 ∨ y' = 0) (h3 : z = 0 ∨ z' = 0) (h4 : w = 0 ∨ w' = 0) : Is (Simd4f.dot4 p q).x 0 :=
  ((mul_lane_zero hp.x hq.x h1).add_zero (mul_lane_zero hp.y hq.y h2)).add_zero
    ((mul_lane_zero hp.z hq.z h3).add_zero (mul_lane_zero hp.w hq.w h4))

theorem sub_shear {v p : V4 F32} {k : F32} {x y z w x' y' z' w' : ℝ} (h : V4Is v x y z w) (hp : V4Is p x' y' z' w') (hk : Is k 0) :
    V4Is (Simd4f.sub v (Simd4f.mul p (Simd4f.splat k))) x y z w :=
  ⟨h.x.sub_zero (hp.x.mul_zero hk), h.y.sub_zero (hp.y.mul_zero hk), h.z.sub_zero (hp.z.mul_zero hk), h.w.sub_zero (hp.w.mul_zero hk)⟩

/-- the normalised row of an axis -/
def Unit1 (X s : ℝ) : Prop := (0 < s → |X - 1| ≤ 1 / 2 ^ 19) ∧ (s < 0 → |X + 1| ≤ 1 / 2 ^ 19)

theorem row_x (bk : Backend) (hb : bk ≠ .neon) (he : Spec.EstAccurate bk) {v : V4 F32} {s : ℝ} (h : V4Is v s 0 0 0) (hr : Span s) :
    Is (Simd4f.length4 bk v).x |s| ∧ ∃ X, V4Is (Simd4f.normalize4 bk v) X 0 0 0 ∧ Unit1 X s := by
  constructor
  · have k := (C137_axis bk hb 0 v.x ⟨v⟩ ⟨v⟩ ⟨v⟩).2.2 ⟨by simpa using ⟨h.x.fin, h.y.fin, h.z.fin, h.w.fin⟩, rfl, by
      intro j t hj hne
      rcases j with _ | _ | _ | _ | j
      · exact absurd rfl hne
      · obtain rfl : (⟨v⟩ : Vec4 F32).getY = t := by simpa using hj
        exact h.y.val
      · obtain rfl : (⟨v⟩ : Vec4 F32).getZ = t := by simpa using hj
        exact h.z.val
      · obtain rfl : (⟨v⟩ : Vec4 F32).getW = t := by simpa using hj
        exact h.w.val
      · simp at hj, by rw [h.x.val]; exact _root_.le_trans (by norm_num) hr.1, by rw [h.x.val]; exact hr.2.trans (by norm_num)⟩
    rw [h.x.val] at k
    exact ⟨k.1, k.2⟩
  · obtain ⟨R, rf, re, e⟩ := row_core bk he h (s := s) (by ring) hr
    obtain ⟨f, u⟩ := unit_lane h.x hr rf re
    rw [e]
    exact ⟨_, ⟨Is.self f, h.y.zero_mul (Is.self rf), h.z.zero_mul (Is.self rf), h.w.zero_mul (Is.self rf)⟩, u⟩

theorem row_y (bk : Backend) (hb : bk ≠ .neon) (he : Spec.EstAccurate bk) {v : V4 F32} {s : ℝ} (h : V4Is v 0 s 0 0) (hr : Span s) :
    Is (Simd4f.length4 bk v).x |s| ∧ ∃ X, V4Is (Simd4f.normalize4 bk v) 0 X 0 0 ∧ Unit1 X s := by
  constructor
  · have k := (C137_axis bk hb 1 v.y ⟨v⟩ ⟨v⟩ ⟨v⟩).2.2 ⟨by simpa using ⟨h.x.fin, h.y.fin, h.z.fin, h.w.fin⟩, rfl, by
      intro j t hj hne
      rcases j with _ | _ | _ | _ | j
      · obtain rfl : (⟨v⟩ : Vec4 F32).getX = t := by simpa using hj
        exact h.x.val
      · exact absurd rfl hne
      · obtain rfl : (⟨v⟩ : Vec4 F32).getZ = t := by simpa using hj
        exact h.z.val
      · obtain rfl : (⟨v⟩ : Vec4 F32).getW = t := by simpa using hj
        exact h.w.val
      · simp at hj, by rw [h.y.val]; exact _root_.le_trans (by norm_num) hr.1, by rw [h.y.val]; exact hr.2.trans (by norm_num)⟩
    rw [h.y.val] at k
    exact ⟨k.1, k.2⟩
  · obtain ⟨R, rf, re, e⟩ := row_core bk he h (s := s) (by ring) hr
    obtain ⟨f, u⟩ := unit_lane h.y hr rf re
    rw [e]
    exact ⟨_, ⟨h.x.zero_mul (Is.self rf), Is.self f, h.z.zero_mul (Is.self rf), h.w.zero_mul (Is.self rf)⟩, u⟩

theorem row_z (bk : Backend) (hb : bk ≠ .neon) (he : Spec.EstAccurate bk) {v : V4 F32} {s : ℝ} (h : V4Is v 0 0 s 0) (hr : Span s) :
    Is (Simd4f.length4 bk v).x |s| ∧ ∃ X, V4Is (Simd4f.normalize4 bk v) 0 0 X 0 ∧ Unit1 X s := by
  constructor
  · have k := (C137_axis bk hb 2 v.z ⟨v⟩ ⟨v⟩ ⟨v⟩).2.2 ⟨by simpa using ⟨h.x.fin, h.y.fin, h.z.fin, h.w.fin⟩, rfl, by
      intro j t hj hne
      rcases j with _ | _ | _ | _ | j
      · obtain rfl : (⟨v⟩ : Vec4 F32).getX = t := by simpa using hj
        exact h.x.val
      · obtain rfl : (⟨v⟩ : Vec4 F32).getY = t := by simpa using hj
        exact h.y.val
      · exact absurd rfl hne
      · obtain rfl : (⟨v⟩ : Vec4 F32).getW = t := by simpa using hj
        exact h.w.val
      · simp at hj, by rw [h.z.val]; exact _root_.le_trans (by norm_num) hr.1, by rw [h.z.val]; exact hr.2.trans (by norm_num)⟩
    rw [h.z.val] at k
    exact ⟨k.1, k.2⟩
  · obtain ⟨R, rf, re, e⟩ := row_core bk he h (s := s) (by ring) hr
    obtain ⟨f, u⟩ := unit_lane h.z hr rf re
    rw [e]
    exact ⟨_, ⟨h.x.zero_mul (Is.self rf), h.y.zero_mul (Is.self rf), Is.self f, h.w.zero_mul (Is.self rf)⟩, u⟩

/-- a product of numbers near one in magnitude has the sign it should have -/
theorem unit_prod {p q : F32} {x y : ℝ} (hp : Is p x) (hq : Is q y) (hx : 1 / 2 ≤ |x| ∧ |x| ≤ 3 / 2) (hy : 1 / 4 ≤ |y| ∧ |y| ≤ 3) :
    ∃ P, Is (Fp.mul p q) P ∧ (0 < P ↔ 0 < x * y) ∧ (P < 0 ↔ x * y < 0) ∧ 1 / 16 ≤ |P| ∧ |P| ≤ 6 ∧ |P - x * y| ≤ |x * y| / 2 ^ 23 := by
  have r := rnd_mul hp.fin hq.fin
  rw [hp.val, hq.val] at r
  have l : 1 / 8 ≤ |x * y| := by
    rw [_root_.abs_mul]
    have := mul_le_mul hx.1 hy.1 (by norm_num) (abs_nonneg x)
    norm_num at this ⊢; linarith
  have u : |x * y| ≤ 9 / 2 := by
    rw [_root_.abs_mul]
    have := mul_le_mul hx.2 hy.2 (abs_nonneg y) (by norm_num)
    norm_num at this ⊢; linarith
  have hf : (Fp.mul p q).isFin = true := r.isFin hp32 (u.trans (_root_.le_trans (by norm_num) le_max32))
  have er := r.err_add hf
  rw [u32, eta32] at er
  have er' : |(Fp.mul p q).val - x * y| ≤ |x * y| / 2 ^ 23 := by
    refine er.trans ?_
    generalize |x * y| = t at *
    norm_num at l ⊢; linarith
  refine ⟨_, Is.self hf, ?_⟩
  generalize (Fp.mul p q).val = P at *
  generalize x * y = t at *
  have hb := _root_.abs_le.1 er'
  rcases abs_cases t with ⟨e, h0⟩ | ⟨e, h0⟩ <;> rw [e] at l u hb
  · have : 0 < P := by norm_num at l hb; linarith
    refine ⟨iff_of_true this (by norm_num at l; linarith), iff_of_false (by linarith) (by linarith), ?_, ?_, er'⟩ <;>
      rw [abs_of_pos this] <;> norm_num at l u hb ⊢ <;> linarith
  · have : P < 0 := by norm_num at l hb; linarith
    refine ⟨iff_of_false (by linarith) (by linarith), iff_of_true this h0, ?_, ?_, er'⟩ <;>
      rw [abs_of_neg this] <;> norm_num at l u hb ⊢ <;> linarith


theorem st_isx {m : M4 F32} (h : ScaleTranslate m) : V4Is m.x (rmat m 0 0) 0 0 0 :=
  ⟨⟨h.fin 0 0, rfl⟩, ⟨h.fin 0 1, h.x.1⟩, ⟨h.fin 0 2, h.x.2.1⟩, ⟨h.fin 0 3, h.x.2.2⟩⟩
theorem st_isy {m : M4 F32} (h : ScaleTranslate m) : V4Is m.y 0 (rmat m 1 1) 0 0 :=
  ⟨⟨h.fin 1 0, h.y.1⟩, ⟨h.fin 1 1, rfl⟩, ⟨h.fin 1 2, h.y.2.1⟩, ⟨h.fin 1 3, h.y.2.2⟩⟩
theorem st_isz {m : M4 F32} (h : ScaleTranslate m) : V4Is m.z 0 0 (rmat m 2 2) 0 :=
  ⟨⟨h.fin 2 0, h.z.1⟩, ⟨h.fin 2 1, h.z.2.1⟩, ⟨h.fin 2 2, rfl⟩, ⟨h.fin 2 3, h.z.2.2⟩⟩
theorem st_isw {m : M4 F32} (h : ScaleTranslate m) : V4Is m.w (rmat m 3 0) (rmat m 3 1) (rmat m 3 2) 1 :=
  ⟨⟨h.fin 3 0, rfl⟩, ⟨h.fin 3 1, rfl⟩, ⟨h.fin 3 2, rfl⟩, ⟨h.fin 3 3, h.one⟩⟩

theorem V4Is.mul_ones {v : V4 F32} {k : F32} {x y z w : ℝ} (h : V4Is v x y z w) (hk : Is k 1) :
    V4Is (Simd4f.mul v (Simd4f.splat k)) x y z w :=
  ⟨h.x.mul_one hk, h.y.mul_one hk, h.z.mul_one hk, h.w.mul_one hk⟩

theorem V4Is.mergeW {v : V4 F32} {k : F32} {x y z w t : ℝ} (h : V4Is v x y z w) (hk : Is k t) :
    V4Is (Simd4f.mergeW v k) x y z t := ⟨h.x, h.y, h.z, hk⟩

/-- four rows of a scale and translation -/
structure Rows (l : M4 F32) (a b c tx ty tz : ℝ) : Prop where
  x : V4Is l.x a 0 0 0
  y : V4Is l.y 0 b 0 0
  z : V4Is l.z 0 0 c 0
  w : V4Is l.w tx ty tz 1

theorem Rows.rmat {l : M4 F32} {a b c tx ty tz : ℝ} (h : Rows l a b c tx ty tz) :
    rmat l = !![a, 0, 0, 0; 0, b, 0, 0; 0, 0, c, 0; tx, ty, tz, 1] := by
  ext i j
  fin_cases i <;> fin_cases j
  · exact h.x.x.val
  · exact h.x.y.val
  · exact h.x.z.val
  · exact h.x.w.val
  · exact h.y.x.val
  · exact h.y.y.val
  · exact h.y.z.val
  · exact h.y.w.val
  · exact h.z.x.val
  · exact h.z.y.val
  · exact h.z.z.val
  · exact h.z.w.val
  · exact h.w.x.val
  · exact h.w.y.val
  · exact h.w.z.val
  · exact h.w.w.val

theorem Rows.st {l : M4 F32} {a b c tx ty tz : ℝ} (h : Rows l a b c tx ty tz) : ScaleTranslate l := by
  refine ⟨?_, ?_, ?_, ?_, ?_⟩
  · intro i j
    fin_cases i <;> fin_cases j
    · exact h.x.x.fin
    · exact h.x.y.fin
    · exact h.x.z.fin
    · exact h.x.w.fin
    · exact h.y.x.fin
    · exact h.y.y.fin
    · exact h.y.z.fin
    · exact h.y.w.fin
    · exact h.z.x.fin
    · exact h.z.y.fin
    · exact h.z.z.fin
    · exact h.z.w.fin
    · exact h.w.x.fin
    · exact h.w.y.fin
    · exact h.w.z.fin
    · exact h.w.w.fin
  · exact ⟨h.x.y.val, h.x.z.val, h.x.w.val⟩
  · exact ⟨h.y.x.val, h.y.z.val, h.y.w.val⟩
  · exact ⟨h.z.x.val, h.z.y.val, h.z.w.val⟩
  · exact h.w.w.val

theorem st_rows {m : M4 F32} (h : ScaleTranslate m) :
    Rows m (rmat m 0 0) (rmat m 1 1) (rmat m 2 2) (rmat m 3 0) (rmat m 3 1) (rmat m 3 2) :=
  ⟨st_isx h, st_isy h, st_isz h, st_isw h⟩

/-- `graphene_matrix_decompose` reaches its last part -/
theorem st_reach (bk : Backend) {m : M4 F32} (h : ScaleTranslate m) (hm : ∀ i j, Moderate (rmat m i j))
    (hd : (1 + 1 / 2 ^ 20) / 2 ^ 23 ≤ |(rmat m).det|) :
    ∃ l, Rows l (rmat m 0 0) (rmat m 1 1) (rmat m 2 2) (rmat m 3 0) (rmat m 3 1) (rmat m 3 2) ∧
      GMatrix.decompose3d bk m = .ok (affineParts bk l) := by
  have r := st_rows h
  have h1 : approxVal m.w.w (f0 : F32) = false := by rw [approx_zero_iff r.w.w]; norm_num
  have k1 : Is ((f1 : F32) /. m.w.w) 1 := by
    have q := rnd_div (f := binary32) is_f1.fin r.w.w.fin (by rw [r.w.w.val]; norm_num)
    rw [is_f1.val, r.w.w.val, div_one] at q
    exact q.is is_f1
  obtain ⟨n, hn⟩ : ∃ n : M4 F32, n = ⟨Simd4f.mul m.x (Simd4f.splat (f1 /. m.w.w)), Simd4f.mul m.y (Simd4f.splat (f1 /. m.w.w)),
    Simd4f.mul m.z (Simd4f.splat (f1 /. m.w.w)), Simd4f.mul m.w (Simd4f.splat (f1 /. m.w.w))⟩ := ⟨_, rfl⟩
  have h2 : GMatrix.normalize m = some n := by rw [GMatrix.normalize, h1, hn]; rfl
  have rn : Rows n (rmat m 0 0) (rmat m 1 1) (rmat m 2 2) (rmat m 3 0) (rmat m 3 1) (rmat m 3 2) := by
    rw [hn]
    exact ⟨r.x.mul_ones k1, r.y.mul_ones k1, r.z.mul_ones k1, r.w.mul_ones k1⟩
  have rl : Rows (affineOf n) (rmat m 0 0) (rmat m 1 1) (rmat m 2 2) (rmat m 3 0) (rmat m 3 1) (rmat m 3 2) :=
    ⟨rn.x.mergeW is_f0, rn.y.mergeW is_f0, rn.z.mergeW is_f0, rn.w.mergeW is_f1⟩
  have em : rmat (affineOf n) = rmat m := by rw [rl.rmat, r.rmat]; rfl
  refine ⟨_, rl, decompose3d_affine bk h1 h2 ?_ ?_⟩
  · obtain ⟨f, e, -⟩ := st_det_near bk rl.st (by rw [em]; exact hm)
    rw [em] at e
    have := approx_zero_iff (Is.self f)
    rw [show GMatrix.determinant bk (affineOf n) = (Simd4x4f.detVec bk (affineOf n)).x from rfl, this, decide_eq_false_iff_not, not_lt]
    have k := abs_sub_abs_le_abs_sub (-(rmat m).det) (Simd4x4f.detVec bk (affineOf n)).x.val
    rw [_root_.abs_sub_comm, _root_.abs_neg] at k
    generalize |(rmat m).det| = t at *
    generalize |(Simd4x4f.detVec bk (affineOf n)).x.val| = u at *
    norm_num at hd e k ⊢; linarith
  · have z : ∀ {x : F32}, Is x 0 → (Scalar.abs x <=. (fltEps : F32)) = true := by
      intro x hx
      have g : Is (Fp.abs x) 0 := ⟨by simpa using hx.fin, by rw [val_abs, hx.val, abs_zero]⟩
      refine (g.le_eq GR.eps_is).trans ?_
      rw [RealScalar.le_eq, fltEps_real]; norm_num [eps]
    show (_ && _ && _) = true
    rw [Bool.and_eq_true, Bool.and_eq_true]
    exact ⟨⟨z rn.x.w, z rn.y.w⟩, z rn.z.w⟩

theorem div_zero_is {x y : F32} {b : ℝ} (hx : Is x 0) (hy : Is y b) (h0 : b ≠ 0) : Is (Fp.div x y) 0 := by
  have q := rnd_div hx.fin hy.fin (by rw [hy.val]; exact h0)
  rw [hx.val, zero_div] at q
  exact q.is hx

/-- near plus or minus one, by the sign of `s` -/
theorem Unit1.bounds {X s : ℝ} (h : Unit1 X s) (h0 : s ≠ 0) : 1 / 2 ≤ |X| ∧ |X| ≤ 3 / 2 ∧ (0 < X ↔ 0 < s) ∧ (X < 0 ↔ s < 0) := by
  rcases lt_or_gt_of_ne h0 with hs | hs
  · have k := _root_.abs_le.1 (h.2 hs)
    have n : X < 0 := by norm_num at k; linarith
    rw [abs_of_neg n]
    norm_num at k ⊢
    refine ⟨by linarith, by linarith, iff_of_false (by linarith) (by linarith), iff_of_true n hs⟩
  · have k := _root_.abs_le.1 (h.1 hs)
    have n : 0 < X := by norm_num at k; linarith
    rw [abs_of_pos n]
    norm_num at k ⊢
    refine ⟨by linarith, by linarith, iff_of_true n hs, iff_of_false (by linarith) (by linarith)⟩


/-- the sign test of the three normalised rows -/
theorem flip_sign (bk : Backend) {x y z : V4 F32} {X Y Z a b c : ℝ} (hx : V4Is x X 0 0 0) (hy : V4Is y 0 Y 0 0) (hz : V4Is z 0 0 Z 0)
    (ux : Unit1 X a) (uy : Unit1 Y b) (uz : Unit1 Z c) (ha : a ≠ 0) (hb : b ≠ 0) (hc : c ≠ 0) :
    ((Simd4f.dot3 bk x (Simd4f.cross3 bk y z)).x <. (f0 : F32)) = decide (a * b * c < 0) := by
  obtain ⟨x1, x2, xp, xn⟩ := ux.bounds ha
  obtain ⟨y1, y2, yp, yn⟩ := uy.bounds hb
  obtain ⟨z1, z2, zp, zn⟩ := uz.bounds hc
  have sg : X * (Y * Z) < 0 ↔ a * b * c < 0 := by
    rw [← _root_.mul_assoc]
    simp only [mul_neg_iff, mul_pos_iff, xp, xn, yp, yn, zp, zn]
  have key : ∀ C : F32, ∀ c1, Is C c1 → (c1 < 0 ↔ Y * Z < 0) → (0 < c1 ↔ 0 < Y * Z) → 1 / 16 ≤ |c1| → |c1| ≤ 6 →
      ∃ D, Is (Fp.mul x.x C) D ∧ (D < 0 ↔ a * b * c < 0) := by
    intro C c1 hC hn hp hl hu
    have r := rnd_mul hx.x.fin hC.fin
    rw [hx.x.val, hC.val] at r
    have u : |X * c1| ≤ 9 := by
      rw [_root_.abs_mul]
      have := mul_le_mul x2 hu (abs_nonneg c1) (by norm_num)
      norm_num at this ⊢; linarith
    have l : 1 / 32 ≤ |X * c1| := by
      rw [_root_.abs_mul]
      have := mul_le_mul x1 hl (by norm_num) (abs_nonneg X)
      norm_num at this ⊢; linarith
    have hf : (Fp.mul x.x C).isFin = true := r.isFin hp32 (u.trans (_root_.le_trans (by norm_num) le_max32))
    have er := r.err_add hf
    rw [u32, eta32] at er
    refine ⟨_, Is.self hf, ?_⟩
    have e1 : X * c1 < 0 ↔ a * b * c < 0 := by
      rw [← sg, mul_neg_iff, mul_neg_iff, hn, hp]
    rw [← e1]
    generalize (Fp.mul x.x C).val = P at *
    generalize X * c1 = t at *
    have hb := _root_.abs_le.1 er
    rcases abs_cases t with ⟨e, h0⟩ | ⟨e, h0⟩ <;> rw [e] at l u hb <;> norm_num at l u hb
    · exact iff_of_false (by linarith) (by linarith)
    · exact iff_of_true (by linarith) h0
  have cx : ∃ c1, Is (Simd4f.cross3 bk y z).x c1 ∧ (c1 < 0 ↔ Y * Z < 0) ∧ (0 < c1 ↔ 0 < Y * Z) ∧ 1 / 16 ≤ |c1| ∧ |c1| ≤ 6 := by
    obtain ⟨P, hP, h1, h2, h3, h4, -⟩ := unit_prod hy.y hz.z ⟨y1, y2⟩ ⟨by linarith, by linarith⟩
    obtain ⟨P', hP', h1', h2', h3', h4', -⟩ := unit_prod hz.z hy.y ⟨z1, z2⟩ ⟨by linarith, by linarith⟩
    rw [_root_.mul_comm] at h1' h2'
    have d := hy.z.zero_mul hz.y
    cases bk
    case neon => exact ⟨P', hP'.sub_zero d, h2', h1', h3', h4'⟩
    all_goals exact ⟨P, hP.sub_zero d, h2, h1, h3, h4⟩
  have cy : Is (Simd4f.cross3 bk y z).y 0 := by
    have d := hy.x.zero_mul hz.z
    cases bk
    case neon => exact (hz.x.zero_mul hy.z).sub_zero d
    all_goals exact (hy.z.zero_mul hz.x).sub_zero d
  have cz : Is (Simd4f.cross3 bk y z).z 0 := by
    have d := hy.y.mul_zero hz.x
    cases bk
    case neon => exact (hz.y.zero_mul hy.x).sub_zero d
    all_goals exact (hy.x.zero_mul hz.y).sub_zero d
  obtain ⟨c1, k0, k1, k2, k3, k4⟩ := cx
  obtain ⟨D, hD, sD⟩ := key _ c1 k0 k1 k2 k3 k4
  have ey := hx.y.zero_mul cy
  have ez := hx.z.zero_mul cz
  have dd : Is (Simd4f.dot3 bk x (Simd4f.cross3 bk y z)).x D := by
    cases bk with
    | sse s1 s2 =>
      cases s1
      · exact (hD.add_zero ez).add_zero (ey.add_zero is_f0)
      · exact (hD.add_zero ey).add_zero (ez.add_zero is_f0)
    | _ => exact (hD.add_zero ey).add_zero ez
  rw [show ((Simd4f.dot3 bk x (Simd4f.cross3 bk y z)).x <. (f0 : F32)) = (D <. (0 : ℝ)) from dd.lt_eq is_f0,
    Bool.eq_iff_iff, RealScalar.lt_eq, decide_eq_true_iff, sD]


/-! ### Specification -/

/-- the components of a 3-vector are the given numbers, exactly -/
def Spec.Reads3 (v : Vec3 F32) (x y z : ℝ) : Prop :=
  (v.getX.isFin = true ∧ v.getX.val = x) ∧ (v.getY.isFin = true ∧ v.getY.val = y) ∧ (v.getZ.isFin = true ∧ v.getZ.val = z)

/-- the components of a 4-vector are the given numbers, exactly -/
def Spec.Reads4 (v : Vec4 F32) (x y z w : ℝ) : Prop :=
  (v.getX.isFin = true ∧ v.getX.val = x) ∧ (v.getY.isFin = true ∧ v.getY.val = y) ∧ (v.getZ.isFin = true ∧ v.getZ.val = z) ∧
    (v.getW.isFin = true ∧ v.getW.val = w)

/-- -1 for scale factors that handed, 1 for those that do not -/
noncomputable def Spec.handed (a b c : ℝ) : ℝ := if a * b * c < 0 then -1 else 1

/-- the components of the quaternion are within `e` of those of `p`, up to the signs of the imaginary ones -/
def Spec.CloseUpToSigns (q : Quat F32) (p : Quat ℝ) (e : ℝ) : Prop :=
  FiniteQ q ∧ |q.w.val - p.w| ≤ e ∧ |(|q.x.val|) - (|p.x|)| ≤ e ∧ |(|q.y.val|) - (|p.y|)| ≤ e ∧ |(|q.z.val|) - (|p.z|)| ≤ e

/-- what the signs of the scale factors leave for the rotation: nothing when they agree, otherwise half a turn around the axis
whose factor differs from the other two -/
noncomputable def Spec.signTurn (a b c : ℝ) : Quat ℝ :=
  if 0 < b * c then (if 0 < a * b then ⟨0, 0, 0, 1⟩ else ⟨1, 0, 0, 0⟩)
  else (if 0 < a * c then ⟨0, 1, 0, 0⟩ else ⟨0, 0, 1, 0⟩)

theorem root_small : rootError (1 / 2 ^ 19) ≤ 1 / 2 ^ 9 := by
  have : √(3 * (1 / 2 ^ 19) + 1 / 2 ^ 20 : ℝ) ≤ 3 / 1024 := by
    rw [Real.sqrt_le_left (by norm_num)]; norm_num
  unfold rootError
  norm_num at this ⊢
  linarith

theorem diag_rotation {l : M4 F32} {A B C : ℝ} (hx : V4Is l.x A 0 0 0) (hy : V4Is l.y 0 B 0 0) (hz : V4Is l.z 0 0 C 0)
    {p : Quat ℝ} (hp : UnitQuat p) (hw : 0 ≤ p.w) {α β γ : ℝ} (e : mat p.toMatrix = !![α, 0, 0, 0; 0, β, 0, 0; 0, 0, γ, 0; 0, 0, 0, 1])
    (ha : |A - α| ≤ 1 / 2 ^ 19) (hb : |B - β| ≤ 1 / 2 ^ 19) (hc : |C - γ| ≤ 1 / 2 ^ 19) :
    CloseUpToSigns (Quat.initFromMatrix l) p (1 / 2 ^ 9) ∧
    (p.w = 1 → |(Quat.initFromMatrix l).w.val - 1| ≤ 1 / 2 ^ 18) := by
  have nr : NearRotation l p (1 / 2 ^ 19) := by
    refine ⟨hp, fun i j hi hj => ?_⟩
    rw [e]
    have z : ∀ {x : F32}, Is x 0 → x.isFin = true ∧ |x.val - 0| ≤ 1 / 2 ^ 19 := fun h => ⟨h.fin, by rw [h.val]; norm_num⟩
    fin_cases i <;> fin_cases j
    · exact ⟨hx.x.fin, by rw [show mat l _ _ = l.x.x from rfl, hx.x.val]; exact ha⟩
    · exact z hx.y
    · exact z hx.z
    · exact absurd rfl hj
    · exact z hy.x
    · exact ⟨hy.y.fin, by rw [show mat l _ _ = l.y.y from rfl, hy.y.val]; exact hb⟩
    · exact z hy.z
    · exact absurd rfl hj
    · exact z hz.x
    · exact z hz.y
    · exact ⟨hz.z.fin, by rw [show mat l _ _ = l.z.z from rfl, hz.z.val]; exact hc⟩
    · exact absurd rfl hj
    · exact absurd rfl hi
    · exact absurd rfl hi
    · exact absurd rfl hi
    · exact absurd rfl hi
  obtain ⟨f, -, ⟨w, x, y, z⟩, w1, -⟩ := C129_accuracy l p _ nr (by norm_num) hw
  refine ⟨⟨f, w.trans root_small, x.trans root_small, y.trans root_small, z.trans root_small⟩, fun h => ?_⟩
  have := w1 (by rw [h]; norm_num)
  rw [h] at this
  exact this.trans (by norm_num)


theorem half_matrix : mat (⟨0, 0, 0, 1⟩ : Quat ℝ).toMatrix = !![1, 0, 0, 0; 0, 1, 0, 0; 0, 0, 1, 0; 0, 0, 0, 1] ∧
    mat (⟨1, 0, 0, 0⟩ : Quat ℝ).toMatrix = !![1, 0, 0, 0; 0, -1, 0, 0; 0, 0, -1, 0; 0, 0, 0, 1] ∧
    mat (⟨0, 1, 0, 0⟩ : Quat ℝ).toMatrix = !![-1, 0, 0, 0; 0, 1, 0, 0; 0, 0, -1, 0; 0, 0, 0, 1] ∧
    mat (⟨0, 0, 1, 0⟩ : Quat ℝ).toMatrix = !![-1, 0, 0, 0; 0, -1, 0, 0; 0, 0, 1, 0; 0, 0, 0, 1] := by
  simp only [toMatrix_real]
  norm_num

theorem unit_sign {X s σ : ℝ} (h : Unit1 X s) (h0 : s ≠ 0) (hσ : σ = 1 ∨ σ = -1) :
    |σ * X - (if 0 < σ * s then 1 else -1)| ≤ 1 / 2 ^ 19 := by
  rcases hσ with rfl | rfl <;> rcases lt_or_gt_of_ne h0 with hs | hs
  · rw [if_neg (by linarith)]
    simpa using h.2 hs
  · rw [if_pos (by linarith)]
    simpa using h.1 hs
  · rw [if_pos (by linarith)]
    have := h.2 hs
    rw [← _root_.abs_neg] at this
    refine (le_of_eq ?_).trans this
    congr 1; ring
  · rw [if_neg (by linarith)]
    have := h.1 hs
    rw [← _root_.abs_neg] at this
    refine (le_of_eq ?_).trans this
    congr 1; ring

theorem half_cases {a b c : ℝ} (ha : a ≠ 0) (hb : b ≠ 0) (hc : c ≠ 0) :
    UnitQuat (signTurn a b c) ∧ 0 ≤ (signTurn a b c).w ∧
    mat (signTurn a b c).toMatrix = !![if 0 < handed a b c * a then 1 else -1, 0, 0, 0;
      0, if 0 < handed a b c * b then 1 else -1, 0, 0; 0, 0, if 0 < handed a b c * c then 1 else -1, 0; 0, 0, 0, 1] := by
  obtain ⟨h1, h2, h3, h4⟩ := half_matrix
  have u1 : UnitQuat ⟨0, 0, 0, 1⟩ := by norm_num [UnitQuat]
  have u2 : UnitQuat ⟨1, 0, 0, 0⟩ := by norm_num [UnitQuat]
  have u3 : UnitQuat ⟨0, 1, 0, 0⟩ := by norm_num [UnitQuat]
  have u4 : UnitQuat ⟨0, 0, 1, 0⟩ := by norm_num [UnitQuat]
  rcases lt_or_gt_of_ne ha with sa | sa <;> rcases lt_or_gt_of_ne hb with sb | sb <;> rcases lt_or_gt_of_ne hc with sc | sc <;>
    simp only [signTurn, handed, mul_pos_iff, mul_neg_iff, sa, sb, sc, sa.not_gt, sb.not_gt, sc.not_gt, and_true, and_false,
      true_and, false_and, or_true, or_false, true_or, false_or, if_true, if_false, and_self, neg_mul, _root_.one_mul, Left.neg_pos_iff, neg_one_lt_zero] <;>
    first
    | exact ⟨u1, by norm_num, h1⟩
    | exact ⟨u2, by norm_num, h2⟩
    | exact ⟨u3, by norm_num, h3⟩
    | exact ⟨u4, by norm_num, h4⟩

theorem V4Is.neg (bk : Backend) {v : V4 F32} {x y z w : ℝ} (h : V4Is v x y z w) : V4Is (Simd4f.neg bk v) (-x) (-y) (-z) (-w) := by
  have k : ∀ {t : F32} {u : ℝ}, Is t u → Is (Simd4f.neg1 bk t) (-u) := by
    intro t u ht
    cases bk with
    | gcc =>
      have o := lit_int (-1) (by decide)
      have q := rnd_mul ht.fin o.1
      rw [ht.val, o.2] at q
      exact (q.is (c := Fp.neg t) (ht.neg.congr (by push_cast; ring))).congr (by push_cast; ring)
    | _ => exact ht.neg
  exact ⟨k h.x, k h.y, k h.z, k h.w⟩

theorem mone_mul {x : F32} {a : ℝ} (h : Is x a) : Is (Fp.mul x (Scalar.lit (-1) 1)) (-1 * a) := by
  have o := lit_int (-1) (by decide)
  have q := rnd_mul h.fin o.1
  rw [h.val, o.2] at q
  exact (q.is (c := Fp.neg x) (h.neg.congr (by push_cast; ring))).congr (by push_cast; ring)

/-- the parts of a scale and translation -/
theorem rows_parts (bk : Backend) (hb : bk ≠ .neon) (he : Spec.EstAccurate bk) {l : M4 F32} {a b c tx ty tz : ℝ}
    (h : Rows l a b c tx ty tz) (sa : Span a) (sb : Span b) (sc : Span c) :
    let d := affineParts bk l
    Reads3 d.translate tx ty tz ∧ Reads3 d.scale (handed a b c * |a|) (handed a b c * |b|) (handed a b c * |c|) ∧
    Reads3 d.shear 0 0 0 ∧ Reads4 d.perspective 0 0 0 1 ∧ CloseUpToSigns d.rotate (signTurn a b c) (1 / 2 ^ 9) ∧
    ((signTurn a b c).w = 1 → |d.rotate.w.val - 1| ≤ 1 / 2 ^ 18) := by
  have nz : ∀ {s : ℝ}, Span s → s ≠ 0 := by
    rintro s ⟨h1, -⟩ rfl
    norm_num at h1
  have pz : ∀ {s : ℝ}, Span s → |s| ≠ 0 := fun h => abs_ne_zero.2 (nz h)
  obtain ⟨lx, X, nx, ux⟩ := row_x bk hb he h.x sa
  have kxy := dot4_zero nx h.y (.inr rfl) (.inl rfl) (.inl rfl) (.inl rfl)
  have y1 := sub_shear h.y nx kxy
  obtain ⟨ly, Y, ny, uy⟩ := row_y bk hb he y1 sb
  have kxz := dot4_zero nx h.z (.inr rfl) (.inl rfl) (.inl rfl) (.inl rfl)
  have z1 := sub_shear h.z nx kxz
  have kyz := dot4_zero ny z1 (.inl rfl) (.inr rfl) (.inl rfl) (.inl rfl)
  have z2 := sub_shear z1 ny kyz
  obtain ⟨lz, Z, nz', uz⟩ := row_z bk hb he z2 sc
  have fl := flip_sign bk nx ny nz' ux uy uz (nz sa) (nz sb) (nz sc)
  obtain ⟨hu, hw, hm⟩ := half_cases (nz sa) (nz sb) (nz sc)
  have sg : handed a b c = 1 ∨ handed a b c = -1 := by unfold handed; split_ifs <;> simp
  have ex := unit_sign ux (nz sa) sg
  have ey := unit_sign uy (nz sb) sg
  have ez := unit_sign uz (nz sc) sg
  have mk : ∀ {p : F32} {t : ℝ}, Is p t → p.isFin = true ∧ p.val = t := fun q => ⟨q.fin, q.val⟩
  have rd : ∀ {p q r : F32} {t u v : ℝ}, Is p t → Is q u → Is r v → Reads3 (Vec3.init p q r) t u v :=
    fun a b c => ⟨mk a, mk b, mk c⟩
  have d0 := div_zero_is kxy ly (pz sb)
  have d1 := div_zero_is kxz lz (pz sc)
  have d2 := div_zero_is kyz lz (pz sc)
  intro d
  refine ⟨⟨mk h.w.x, mk h.w.y, mk h.w.z⟩, ?_, rd d0 d1 d2, ⟨mk is_f0, mk is_f0, mk is_f0, mk is_f1⟩, ?_⟩
  · simp only [d, affineParts, fl]
    by_cases hn : a * b * c < 0
    · have mv : handed a b c = -1 := if_pos hn
      rw [mv, if_pos (by simpa using hn)]
      exact rd (mone_mul lx) (mone_mul ly) (mone_mul lz)
    · have mv : handed a b c = 1 := if_neg hn
      rw [mv, if_neg (by simpa using hn)]
      exact rd (lx.congr (by ring)) (ly.congr (by ring)) (lz.congr (by ring))
  · simp only [d, affineParts, fl]
    by_cases hn : a * b * c < 0
    · have mv : handed a b c = -1 := if_pos hn
      rw [if_pos (by simpa using hn)]
      rw [mv] at ex ey ez hm
      have fx := nx.neg bk
      have fy := ny.neg bk
      have fz := nz'.neg bk
      rw [_root_.neg_zero] at fx fy fz
      rw [neg_one_mul] at ex ey ez
      exact diag_rotation fx fy fz hu hw hm (by simpa using ex) (by simpa using ey) (by simpa using ez)
    · have mv : handed a b c = 1 := if_neg hn
      rw [if_neg (by simpa using hn)]
      rw [mv] at ex ey ez hm
      simp only [_root_.one_mul] at ex ey ez hm
      exact diag_rotation nx ny nz' hu hw hm ex ey ez


/-! ## C139 -/

/-- C139: decomposing a scale and a translation in three dimensions gives them back exactly. The translation and the absolute
scale factors are the entries of the matrix; all scale factors get a minus sign when the matrix mirrors; there is no shear and no
perspective; the rotation is the half turn that is left, with components off by at most `2^-9` (the real part of the identity by
at most `2^-18`). -/
theorem C139_scale_translate {δ : Type} [Scalar δ] [FloatConv F32 δ] (bk : Backend) (hb : bk ≠ .neon) (he : Spec.EstAccurate bk)
    (m : M4 F32) (h : ScaleTranslate m) (hm : ∀ i j, Moderate (rmat m i j))
    (ha : Span (rmat m 0 0)) (hb' : Span (rmat m 1 1)) (hc : Span (rmat m 2 2))
    (hd : (1 + 1 / 2 ^ 20) / 2 ^ 23 ≤ |(rmat m).det|) (h2 : GMatrix.is2d m = false) (h1 : GMatrix.isIdentity bk m = false) :
    ∃ d, GMatrix.decompose δ bk m = .ok d ∧ Reads3 d.translate (rmat m 3 0) (rmat m 3 1) (rmat m 3 2) ∧
      (let σ := handed (rmat m 0 0) (rmat m 1 1) (rmat m 2 2)
       Reads3 d.scale (σ * |rmat m 0 0|) (σ * |rmat m 1 1|) (σ * |rmat m 2 2|)) ∧
      Reads3 d.shear 0 0 0 ∧ Reads4 d.perspective 0 0 0 1 ∧
      CloseUpToSigns d.rotate (signTurn (rmat m 0 0) (rmat m 1 1) (rmat m 2 2)) (1 / 2 ^ 9) ∧
      (0 < rmat m 0 0 * rmat m 1 1 → 0 < rmat m 1 1 * rmat m 2 2 → |d.rotate.w.val - 1| ≤ 1 / 2 ^ 18) := by
  obtain ⟨l, hl, e⟩ := st_reach bk h hm hd
  obtain ⟨k1, k2, k3, k4, k5, k6⟩ := rows_parts bk hb he hl ha hb' hc
  refine ⟨_, ?_, k1, k2, k3, k4, k5, fun p q => k6 ?_⟩
  · rw [GMatrix.decompose, h1, h2]
    exact e
  · rw [signTurn, if_pos q, if_pos p]

/-- the rounded product of two numbers that is not tiny -/
theorem prod_sign {p q : F32} {a b : ℝ} (hp : Is p a) (hq : Is q b) (hl : (1 + 1 / 2 ^ 20) / 2 ^ 23 ≤ |a * b|) (hu : |a * b| ≤ 2 ^ 126) :
    ∃ P, Is (Fp.mul p q) P ∧ 1 / 2 ^ 23 ≤ |P| ∧ (P < 0 ↔ a * b < 0) := by
  have r := rnd_mul hp.fin hq.fin
  rw [hp.val, hq.val] at r
  have hf : (Fp.mul p q).isFin = true := r.isFin hp32 (hu.trans (_root_.le_trans (by norm_num) le_max32))
  have er := r.err_add hf
  rw [u32, eta32] at er
  refine ⟨_, Is.self hf, ?_⟩
  generalize (Fp.mul p q).val = P at *
  generalize a * b = t at *
  have hb := _root_.abs_le.1 er
  rcases abs_cases t with ⟨e, h0⟩ | ⟨e, h0⟩ <;> rw [e] at hl hb <;> norm_num at hl hb
  · have : 0 < P := by linarith
    rw [abs_of_pos this]
    exact ⟨by norm_num; linarith, iff_of_false (by linarith) (by linarith)⟩
  · have : P < 0 := by linarith
    rw [abs_of_neg this]
    exact ⟨by norm_num; linarith, iff_of_true this h0⟩

/-- C139: a matrix that `graphene_matrix_is_2d` accepts gives back the two translations and the two scale factors exactly, on every
backend: as they are when exactly one is negative, without the signs otherwise. The third translation and the third scale factor
come out as zero whatever they were. -/
theorem C139_planar {δ : Type} [Scalar δ] [FloatConv F32 δ] (bk : Backend) (m : M4 F32) (h : ScaleTranslate m)
    (ha : 1 / 2 ^ 62 ≤ |rmat m 0 0| ∧ |rmat m 0 0| ≤ 2 ^ 63) (hb : 1 / 2 ^ 62 ≤ |rmat m 1 1| ∧ |rmat m 1 1| ≤ 2 ^ 63)
    (hd : (1 + 1 / 2 ^ 20) / 2 ^ 23 ≤ |rmat m 0 0 * rmat m 1 1|)
    (h2 : GMatrix.is2d m = true) (h1 : GMatrix.isIdentity bk m = false) :
    ∃ d, GMatrix.decompose δ bk m = .ok d ∧ Reads3 d.translate (rmat m 3 0) (rmat m 3 1) 0 ∧
      (rmat m 0 0 * rmat m 1 1 < 0 → Reads3 d.scale (rmat m 0 0) (rmat m 1 1) 0) ∧
      (0 < rmat m 0 0 * rmat m 1 1 → Reads3 d.scale |rmat m 0 0| |rmat m 1 1| 0) ∧
      Reads3 d.shear 0 0 0 ∧ Reads4 d.perspective 0 0 0 0 := by
  have r := st_rows h
  have hx := r.x.x
  have hy := r.y.y
  have h01 := r.x.y
  have h10 := r.y.x
  have ev : ∀ x : F32, ∀ {a : ℝ}, Is x a → x.val = a := fun x a h => h.val
  generalize ea : rmat m 0 0 = a at *
  generalize eb : rmat m 1 1 = b at *
  have ub : |a * b| ≤ 2 ^ 126 := by
    rw [_root_.abs_mul]
    refine (mul_le_mul ha.2 hb.2 (abs_nonneg _) (by norm_num)).trans (by norm_num)
  obtain ⟨P, hP, lP, sP⟩ := prod_sign hx hy hd ub
  have det : Is (Fp.sub (Fp.mul m.x.x m.y.y) (Fp.mul m.y.x m.x.y)) P := hP.sub_zero (h10.zero_mul h01)
  have s0 : Is (Fp.sqrt (Fp.add (Fp.mul m.x.x m.x.x) (Fp.mul m.y.x m.y.x))) |a| := by
    have q := (sq_self_is hx.fin (by rw [hx.val]; exact ha.2)).add_zero (h10.zero_mul h10)
    obtain ⟨f, e⟩ := sqrt_of_val hx.fin (by rw [hx.val]; exact ha.2) (by rw [hx.val]; exact ha.1) q.fin q.val
    exact ⟨f, by rw [e, hx.val]⟩
  have s1 : Is (Fp.sqrt (Fp.add (Fp.mul m.x.y m.x.y) (Fp.mul m.y.y m.y.y))) |b| := by
    have q := (h01.zero_mul h01).zero_add (sq_self_is hy.fin (by rw [hy.val]; exact hb.2))
    obtain ⟨f, e⟩ := sqrt_of_val hy.fin (by rw [hy.val]; exact hb.2) (by rw [hy.val]; exact hb.1) q.fin q.val
    exact ⟨f, by rw [e, hy.val]⟩
  have g1 : (Scalar.abs (Fp.sub (Fp.mul m.x.x m.y.y) (Fp.mul m.y.x m.x.y)) <. (fltEps : F32)) = false := by
    have g : Is (Fp.abs (Fp.sub (Fp.mul m.x.x m.y.y) (Fp.mul m.y.x m.x.y))) |P| := ⟨by simpa using det.fin, by rw [val_abs, det.val]⟩
    refine (g.lt_eq GR.eps_is).trans ?_
    rw [Bool.eq_false_iff, ne_eq, RealScalar.lt_eq, fltEps_real, not_lt]
    refine _root_.le_trans ?_ lP
    norm_num [eps]
  have g2 : (Fp.sub (Fp.mul m.x.x m.y.y) (Fp.mul m.y.x m.x.y) <. (f0 : F32)) = decide (a * b < 0) := by
    rw [show (Fp.sub (Fp.mul m.x.x m.y.y) (Fp.mul m.y.x m.x.y) <. (f0 : F32)) = (P <. (0 : ℝ)) from det.lt_eq is_f0,
      Bool.eq_iff_iff, RealScalar.lt_eq, decide_eq_true_iff, sP]
  have g3 : (m.x.x <. m.y.y) = decide (a < b) := by
    rw [show (m.x.x <. m.y.y) = (a <. b) from hx.lt_eq hy, Bool.eq_iff_iff, RealScalar.lt_eq, decide_eq_true_iff]
  have mk : ∀ {p : F32} {t : ℝ}, Is p t → p.isFin = true ∧ p.val = t := fun q => ⟨q.fin, q.val⟩
  obtain ⟨ang, rs, e⟩ : ∃ ang rs, (GMatrix.decompose2d m : Option (Decomp2D F32 δ)) = some ⟨Vec2.init m.w.x m.w.y,
      Vec2.init
        (if decide (a * b < 0) && decide (a < b) then Fp.neg (Fp.sqrt (Fp.add (Fp.mul m.x.x m.x.x) (Fp.mul m.y.x m.y.x)))
          else Fp.sqrt (Fp.add (Fp.mul m.x.x m.x.x) (Fp.mul m.y.x m.y.x)))
        (if decide (a * b < 0) && !decide (a < b) then Fp.neg (Fp.sqrt (Fp.add (Fp.mul m.x.y m.x.y) (Fp.mul m.y.y m.y.y)))
          else Fp.sqrt (Fp.add (Fp.mul m.x.y m.x.y) (Fp.mul m.y.y m.y.y))), ang, rs⟩ := by
    rw [← g2, ← g3]
    refine ⟨_, _, (if_neg ?_).trans rfl⟩
    exact fun h => Bool.noConfusion (g1.symm.trans h)
  rw [GMatrix.decompose, h1, h2, e]
  refine ⟨_, rfl, ⟨mk r.w.x, mk r.w.y, mk is_f0⟩, fun hn => ?_, fun hn => ?_, ⟨mk is_f0, mk is_f0, mk is_f0⟩,
    ⟨mk is_f0, mk is_f0, mk is_f0, mk is_f0⟩⟩
  · rcases mul_neg_iff.1 hn with ⟨pa, nb⟩ | ⟨na, pb⟩
    · have c : ¬ a < b := by linarith
      simp only [hn, c, decide_true, decide_false, Bool.and_false, Bool.not_false, Bool.and_self, if_true, Bool.false_eq_true, if_false]
      exact ⟨mk (s0.congr (abs_of_pos pa)), mk (s1.neg.congr (by rw [abs_of_neg nb, _root_.neg_neg])), mk is_f0⟩
    · have c : a < b := by linarith
      simp only [hn, c, decide_true, Bool.not_true, Bool.and_false, Bool.and_self, if_true, Bool.false_eq_true, if_false]
      exact ⟨mk (s0.neg.congr (by rw [abs_of_neg na, _root_.neg_neg])), mk (s1.congr (abs_of_pos pb)), mk is_f0⟩
  · have c : ¬ a * b < 0 := by linarith
    simp only [c, decide_false, Bool.false_and, Bool.false_eq_true, if_false]
    exact ⟨mk s0, mk s1, mk is_f0⟩

/-- a matrix that scales the third axis by 41 and moves along it by 1 -/
def deep41 : M4 F32 :=
  ⟨⟨Fp.lit 1 1, Fp.lit 0 1, Fp.lit 0 1, Fp.lit 0 1⟩, ⟨Fp.lit 0 1, Fp.lit 1 1, Fp.lit 0 1, Fp.lit 0 1⟩,
   ⟨Fp.lit 0 1, Fp.lit 0 1, Fp.lit 41 1, Fp.lit 0 1⟩, ⟨Fp.lit 0 1, Fp.lit 0 1, Fp.lit 1 1, Fp.lit 1 1⟩⟩

/-- C139: the rotation really is off by more than rounding: 41 times the rounded reciprocal of 41 is `1 - 2^-24`, and the root of
the difference turns it into components of `2^-13`. -/
theorem C139_spurious_rotation :
    ∃ d, GMatrix.decompose3d .gcc deep41 = .ok d ∧ d.rotate = ⟨Fp.lit 1 (2 ^ 13), Fp.lit 1 (2 ^ 13), Fp.lit 0 1, Fp.lit 1 1⟩ := by
  have k : (match GMatrix.decompose3d .gcc deep41 with
    | .ok d => decide (d.rotate = ⟨Fp.lit 1 (2 ^ 13), Fp.lit 1 (2 ^ 13), Fp.lit 0 1, Fp.lit 1 1⟩)
    | _ => false) = true := by kdecide
  split at k
  · rename_i d e
    exact ⟨d, e, by simpa using k⟩
  · simp at k

/-- scaling by `(1, -2, 41)` and then moving by `(7, 0, t)`, `e n` being the number `n` -/
def stretched (e : ℤ → F32) (t : ℤ) : M4 F32 :=
  ⟨⟨e 1, e 0, e 0, e 0⟩, ⟨e 0, e (-2), e 0, e 0⟩, ⟨e 0, e 0, e 41, e 0⟩, ⟨e 7, e 0, e t, e 1⟩⟩

theorem stretched_rows (e : ℤ → F32) (h : ∀ n : ℤ, n.natAbs ≤ 41 → Is (e n) n) (t : ℤ) (ht : t.natAbs ≤ 41) :
    Rows (stretched e t) 1 (-2) 41 7 0 t := by
  have a0 := (h 0 (by decide)).congr Int.cast_zero
  have a1 := (h 1 (by decide)).congr Int.cast_one
  have a2 := (h (-2) (by decide)).congr (y := -2) (by norm_num)
  have a3 := (h 41 (by decide)).congr (y := 41) (by norm_num)
  have a4 := (h 7 (by decide)).congr (y := 7) (by norm_num)
  exact ⟨⟨a1, a0, a0, a0⟩, ⟨a0, a2, a0, a0⟩, ⟨a0, a0, a3, a0⟩, ⟨a4, a0, h t ht, a1⟩⟩

theorem lit_is (n : ℤ) (h : n.natAbs ≤ 41) : Is (Fp.lit n 1 : F32) n := by
  have := lit_int n (h.trans (by norm_num))
  exact ⟨this.1, this.2⟩

theorem stretched_not_identity (bk : Backend) (t : ℤ) : GMatrix.isIdentity bk (stretched (Fp.lit · 1) t) = false := by
  have k : Simd4f.cmpEq bk (stretched (Fp.lit · 1) t).y (Simd4f.init f0 f1 f0 f0) = false := by
    rcases bk with ⟨_ | _, _ | _⟩ | _ | _ | ⟨_ | _⟩ <;> (unfold stretched; kdecide)
  rw [GMatrix.isIdentity, Simd4x4f.isIdentity, k, Bool.and_false, Bool.false_and, Bool.false_and]

/-- C139: the third scale factor is lost when the matrix counts as two-dimensional, and every factor above one counts: scaling by
`(1, -2, 41)` decomposes into the factors `(1, -2, 0)`. -/
theorem C139_depth_lost {δ : Type} [Scalar δ] [FloatConv F32 δ] (bk : Backend) :
    rmat (stretched (Fp.lit · 1) 0) 2 2 = 41 ∧
    ∃ d, GMatrix.decompose δ bk (stretched (Fp.lit · 1) 0) = .ok d ∧ Reads3 d.translate 7 0 0 ∧ Reads3 d.scale 1 (-2) 0 := by
  have r := stretched_rows (Fp.lit · 1) lit_is 0 (by decide)
  have h2 : GMatrix.is2d (stretched (Fp.lit · 1) 0) = true := by unfold stretched; kdecide
  have h1 := stretched_not_identity bk 0
  generalize stretched (Fp.lit · 1) 0 = m at *
  have e0 : rmat m 0 0 = 1 := r.x.x.val
  have e1 : rmat m 1 1 = -2 := r.y.y.val
  obtain ⟨d, a, b, c, -⟩ := C139_planar (δ := δ) bk m r.st (by rw [e0]; norm_num) (by rw [e1]; norm_num)
    (by rw [e0, e1]; norm_num) h2 h1
  rw [e0, e1] at c
  rw [show rmat m 3 0 = 7 from r.w.x.val, show rmat m 3 1 = 0 from r.w.y.val] at b
  exact ⟨r.z.z.val, d, a, b, c (by norm_num)⟩

/-- non-vacuity of `C139_scale_translate`: with a displacement along the third axis the same matrix is not two-dimensional -/
example (bk : Backend) : ∃ m : M4 F32, ScaleTranslate m ∧ (∀ i j, Moderate (rmat m i j)) ∧ Span (rmat m 0 0) ∧ Span (rmat m 1 1) ∧
    Span (rmat m 2 2) ∧ (1 + 1 / 2 ^ 20) / 2 ^ 23 ≤ |(rmat m).det| ∧ GMatrix.is2d m = false ∧ GMatrix.isIdentity bk m = false ∧
    handed (rmat m 0 0) (rmat m 1 1) (rmat m 2 2) = -1 ∧ rmat m 3 2 = 1 := by
  have r := stretched_rows (Fp.lit · 1) lit_is 1 (by decide)
  have h2 : GMatrix.is2d (stretched (Fp.lit · 1) 1) = false := by unfold stretched; kdecide
  have h1 := stretched_not_identity bk 1
  refine ⟨stretched (Fp.lit · 1) 1, r.st, ?_, ?_, ?_, ?_, ?_, h2, h1, ?_, ?_⟩
  · rw [r.rmat]
    intro i j
    fin_cases i <;> fin_cases j <;> norm_num [Moderate, abs_of_pos]
  · rw [show rmat (stretched (Fp.lit · 1) 1) 0 0 = 1 from r.x.x.val]; norm_num [Span]
  · rw [show rmat (stretched (Fp.lit · 1) 1) 1 1 = -2 from r.y.y.val]; norm_num [Span]
  · rw [show rmat (stretched (Fp.lit · 1) 1) 2 2 = 41 from r.z.z.val]; norm_num [Span, abs_of_pos]
  · rw [st_det r.st, show rmat (stretched (Fp.lit · 1) 1) 0 0 = 1 from r.x.x.val,
      show rmat (stretched (Fp.lit · 1) 1) 1 1 = -2 from r.y.y.val, show rmat (stretched (Fp.lit · 1) 1) 2 2 = 41 from r.z.z.val]
    norm_num
  · rw [show rmat (stretched (Fp.lit · 1) 1) 0 0 = 1 from r.x.x.val,
      show rmat (stretched (Fp.lit · 1) 1) 1 1 = -2 from r.y.y.val, show rmat (stretched (Fp.lit · 1) 1) 2 2 = 41 from r.z.z.val]
    norm_num [handed]
  · exact r.w.z.val.trans Int.cast_one

end Graphene

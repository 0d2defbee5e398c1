/-
  C140: interpolating between translations with graphene_matrix_interpolate, in floating point (IEEE binary32).
-/
import Verif.Props.Float46
import Verif.Props.Float7
import Verif.Props.Float19
import Mathlib.Analysis.Real.Pi.Bounds

set_option exponentiation.threshold 3000

namespace Graphene
open Fp Spec
variable [Libm binary32]

/-- subtracting from one: the error is at most half a unit in the last place below one -/
theorem compl_sharp {s : F32} (hs : s.isFin = true) (s0 : 0 ≤ s.val) (s1 : s.val ≤ 1) :
    |(Fp.sub (Fp.lit 1 1) s).val - (1 - s.val)| ≤ 1 / 2 ^ 25 := by
  obtain ⟨cf, -, -, -⟩ := compl32 hs s0 s1
  have r := rnd_sub one32_is.fin hs
  rw [one32_is.val] at r
  obtain ⟨n, hn⟩ : ∃ n : ℤ, n = round ((1 - s.val) * 2 ^ 24) := ⟨_, rfl⟩
  have hr := abs_sub_round ((1 - s.val) * 2 ^ 24)
  rw [← hn] at hr
  have n0 : 0 ≤ n := by
    by_contra h
    have : (n : ℝ) ≤ -1 := by exact_mod_cast (by omega : n ≤ -1)
    have := (_root_.abs_le.1 hr).2
    nlinarith
  have n1 : n ≤ 2 ^ 24 := by
    by_contra h
    have : (2 ^ 24 + 1 : ℝ) ≤ n := by exact_mod_cast (by omega : 2 ^ 24 + 1 ≤ n)
    have := (_root_.abs_le.1 hr).1
    norm_num at this
    linarith
  obtain ⟨lf, lv⟩ := lit_dyadic n 24 (by omega) (by norm_num)
  refine (r.nearest cf lf).trans ?_
  rw [lv]
  have : (n : ℝ) / 2 ^ 24 - (1 - s.val) = -((1 - s.val) * 2 ^ 24 - n) / 2 ^ 24 := by ring
  rw [this, abs_div, _root_.abs_neg]
  norm_num at hr ⊢
  linarith

/-- one minus the factor, plus the factor, is one -/
theorem compl_add {s : F32} (hs : s.isFin = true) (s0 : 0 ≤ s.val) (s1 : s.val ≤ 1) {p q : F32}
    (hp : Is p (Fp.sub (Fp.lit 1 1) s).val) (hq : Is q s.val) : Is (Fp.add p q) 1 := by
  have b := _root_.abs_le.1 (compl_sharp hs s0 s1)
  have r := rnd_add hp.fin hq.fin
  rw [hp.val, hq.val] at r
  obtain ⟨ef, ev⟩ := lit_dyadic 1 25 (by norm_num) (by norm_num)
  have o := one32_is
  have lo : Rnd (1 - 1 / 2 ^ 25) (Fp.sub (Fp.lit 1 1) (Fp.lit 1 (2 ^ 25)) : F32) := by
    have := rnd_sub o.fin ef
    rw [o.val, ev] at this
    simpa using this
  have hi : Rnd (1 + 1 / 2 ^ 25) (Fp.add (Fp.lit 1 1) (Fp.lit 1 (2 ^ 25)) : F32) := by
    have := rnd_add o.fin ef
    rw [o.val, ev] at this
    simpa using this
  have e1 : (Fp.sub (Fp.lit 1 1) (Fp.lit 1 (2 ^ 25)) : F32) = Fp.lit 1 1 := by decide +kernel
  have e2 : (Fp.add (Fp.lit 1 1) (Fp.lit 1 (2 ^ 25)) : F32) = Fp.lit 1 1 := by decide +kernel
  rw [e1] at lo
  rw [e2] at hi
  have g1 := lo.mono r (by linarith)
  have g2 := r.mono hi (by linarith)
  have f := isFin_of_between o.fin o.fin g1 g2
  rw [le_iff_val (isNaN_of_isFin o.fin) (isNaN_of_isFin f), o.val] at g1
  rw [le_iff_val (isNaN_of_isFin f) (isNaN_of_isFin o.fin), o.val] at g2
  exact ⟨f, le_antisymm g2 g1⟩

theorem factor32 {t : F64} (ht : Factor t) : let s := (Fp.convert binary32 t : F32)
    s.isFin = true ∧ 0 ≤ s.val ∧ s.val ≤ 1 := by
  intro s
  have r := rnd_convert (g := binary32) ht.1
  have lo := r.ge_of (a := zero false) rfl (by rw [val_zero]; exact ht.2.1)
  have hi := r.le_of one32_is.fin (by rw [one32_is.val]; exact ht.2.2)
  have sf := isFin_of_between rfl one32_is.fin lo hi
  rw [le_iff_val rfl (isNaN_of_isFin sf), val_zero] at lo
  rw [le_iff_val (isNaN_of_isFin sf) (isNaN_of_isFin one32_is.fin), one32_is.val] at hi
  exact ⟨sf, lo, hi⟩

theorem vlerp_one {t : F64} (ht : Factor t) {a b : F32} (ha : Is a 1) (hb : Is b 1) : Is (vlerp t a b) 1 := by
  obtain ⟨f, lo, hi⟩ := factor32 ht
  have c := compl32 f lo hi
  exact compl_add f lo hi ((Is.self c.1).mul_one ha) ((Is.self f).mul_one hb)

theorem vlerp_zero {t : F64} (ht : Factor t) {a b : F32} (ha : Is a 0) (hb : Is b 0) : Is (vlerp t a b) 0 := by
  obtain ⟨f, lo, hi⟩ := factor32 ht
  have c := compl32 f lo hi
  exact ((Is.self c.1).mul_zero ha).add_zero ((Is.self f).mul_zero hb)

theorem sqrt_one_is {d : F32} (h : Is d 1) : Is (Fp.sqrt d) 1 := by
  obtain ⟨f, e⟩ := sqrt_of_val (w := Fp.lit 1 1) one32_is.fin (by rw [one32_is.val]; norm_num) (by rw [one32_is.val]; norm_num) h.fin
    (by rw [h.val, (one32_is.mul_one one32_is).val])
  exact ⟨f, by rw [e, one32_is.val]; norm_num⟩

theorem rsqrt_one {bk : Backend} (hb : ExactRoot bk) {d : F32} (h : Is d 1) : Is (Simd4f.rsqrt1 bk d) 1 := by
  have k : Is ((f1 : F32) /. Fp.sqrt d) 1 := by
    have s := sqrt_one_is h
    have q := rnd_div is_f1.fin s.fin (by rw [s.val]; norm_num)
    rw [is_f1.val, s.val, div_one] at q
    exact q.is is_f1
  cases bk with
  | gcc =>
    have e : Scalar.feq d (f0 : F32) = false := by
      have := feq_iff_val (isNaN_of_isFin h.fin) (isNaN_of_isFin is_f0.fin)
      rw [h.val, is_f0.val] at this
      rw [Bool.eq_false_iff]
      intro c
      exact one_ne_zero (this.1 c)
    unfold Simd4f.rsqrt1
    rw [if_neg (by rw [e]; simp)]
    exact k
  | scalar _ =>
    have e : (Scalar.abs d >. (fltEps : F32)) = true := by
      have g : Is (Fp.abs d) 1 := ⟨by simpa using h.fin, by rw [val_abs, h.val, abs_one]⟩
      refine (GR.eps_is.lt_eq g).trans ?_
      rw [RealScalar.lt_eq, fltEps_real]; norm_num [eps]
    unfold Simd4f.rsqrt1
    rw [if_pos e]
    exact k
  | _ => exact absurd hb (by simp [ExactRoot])

/-- normalising a row of length one, exactly -/
theorem V4Is.normalized {bk : Backend} (hb : ExactRoot bk) {v : V4 F32} {x y z w : ℝ} (h : V4Is v x y z w)
    (hd : Is (Simd4f.dot4 v v).x 1) : V4Is (Simd4f.normalize4 bk v) x y z w := by
  have k := rsqrt_one hb hd
  exact ⟨h.x.mul_one k, h.y.mul_one k, h.z.mul_one k, h.w.mul_one k⟩


/-- `graphene_matrix_decompose` on a translation, whatever the finite displacement -/
theorem tr_reach (bk : Backend) {m : M4 F32} {tx ty tz : ℝ} (r : Rows m 1 1 1 tx ty tz) :
    ∃ l, Rows l 1 1 1 tx ty tz ∧ GMatrix.decompose3d bk m = .ok (affineParts bk l) := by
  have h1 : approxVal m.w.w (f0 : F32) = false := by rw [approx_zero_iff r.w.w]; norm_num
  have k1 : Is ((f1 : F32) /. m.w.w) 1 := by
    have q := rnd_div (f := binary32) is_f1.fin r.w.w.fin (by rw [r.w.w.val]; norm_num)
    rw [is_f1.val, r.w.w.val, div_one] at q
    exact q.is is_f1
  obtain ⟨n, hn⟩ : ∃ n : M4 F32, n = ⟨Simd4f.mul m.x (Simd4f.splat (f1 /. m.w.w)), Simd4f.mul m.y (Simd4f.splat (f1 /. m.w.w)),
    Simd4f.mul m.z (Simd4f.splat (f1 /. m.w.w)), Simd4f.mul m.w (Simd4f.splat (f1 /. m.w.w))⟩ := ⟨_, rfl⟩
  have h2 : GMatrix.normalize m = some n := by rw [GMatrix.normalize, h1, hn]; rfl
  have rn : Rows n 1 1 1 tx ty tz := by
    rw [hn]
    exact ⟨r.x.mul_ones k1, r.y.mul_ones k1, r.z.mul_ones k1, r.w.mul_ones k1⟩
  have rl : Rows (affineOf n) 1 1 1 tx ty tz :=
    ⟨rn.x.mergeW is_f0, rn.y.mergeW is_f0, rn.z.mergeW is_f0, rn.w.mergeW is_f1⟩
  refine ⟨_, rl, decompose3d_affine bk h1 h2 ?_ ?_⟩
  · have e0 : rmat (affineOf n) 0 0 = 1 := rl.x.x.val
    have e1 : rmat (affineOf n) 1 1 = 1 := rl.y.y.val
    have e2 : rmat (affineOf n) 2 2 = 1 := rl.z.z.val
    have c := st_exactR rl.st (by rw [e0]; norm_num) (by rw [e1]; norm_num) (by rw [e2]; norm_num)
    have dd : Is (Simd4x4f.detVec bk (affineOf n)).x (-(rmat (affineOf n)).det) := by rw [st_det rl.st]; exact c.det bk
    rw [st_det rl.st, e0, e1, e2] at dd
    rw [show GMatrix.determinant bk (affineOf n) = (Simd4x4f.detVec bk (affineOf n)).x from rfl, approx_zero_iff dd]
    norm_num
  · have z : ∀ {x : F32}, Is x 0 → (Scalar.abs x <=. (fltEps : F32)) = true := by
      intro x hx
      have g : Is (Fp.abs x) 0 := ⟨by simpa using hx.fin, by rw [val_abs, hx.val, abs_zero]⟩
      refine (g.le_eq GR.eps_is).trans ?_
      rw [RealScalar.le_eq, fltEps_real]; norm_num [eps]
    show (_ && _ && _) = true
    rw [Bool.and_eq_true, Bool.and_eq_true]
    exact ⟨⟨z rn.x.w, z rn.y.w⟩, z rn.z.w⟩

/-- what `graphene_matrix_decompose` finds in a translation -/
structure ExactParts (d : Decomp3D F32) (tx ty tz : ℝ) : Prop where
  translate : V4Is d.translate.value tx ty tz 0
  scale : V4Is d.scale.value 1 1 1 0
  shear : V4Is d.shear.value 0 0 0 0
  perspective : V4Is d.perspective.value 0 0 0 1
  rotate : Is d.rotate.x 0 ∧ Is d.rotate.y 0 ∧ Is d.rotate.z 0 ∧ Is d.rotate.w 1

theorem sqrt_zero_is {d : F32} (h : Is d 0) : Is (Fp.sqrt d) 0 := by
  have e := sqrt_err hs32 ht32 h.fin h.val.ge
  have := e.2
  rw [h.val, Real.sqrt_zero] at this
  refine ⟨e.1, ?_⟩
  simpa using this

theorem int_add {p q : F32} {a b : ℤ} (hp : Is p a) (hq : Is q b) (h : (a + b).natAbs ≤ 2 ^ 24) : Is (Fp.add p q) ((a + b : ℤ) : ℝ) := by
  obtain ⟨f, v⟩ := lit_int (a + b) h
  have r := rnd_add hp.fin hq.fin
  rw [hp.val, hq.val, ← Int.cast_add] at r
  exact r.is ⟨f, v⟩

theorem int_sub {p q : F32} {a b : ℤ} (hp : Is p a) (hq : Is q b) (h : (a - b).natAbs ≤ 2 ^ 24) : Is (Fp.sub p q) ((a - b : ℤ) : ℝ) := by
  obtain ⟨f, v⟩ := lit_int (a - b) h
  have r := rnd_sub hp.fin hq.fin
  rw [hp.val, hq.val, ← Int.cast_sub] at r
  exact r.is ⟨f, v⟩

theorem cMax_is {t : F32} {x : ℝ} (h : Is t x) (h0 : 0 ≤ x) : Is (cMax t f0) x := by
  obtain ⟨f, v⟩ := cMax_zero h.fin
  exact ⟨f, by rw [v, h.val, max_eq_left h0]⟩

theorem half_root_zero {t : F32} (h : Is t 0) : Is ((Scalar.lit 1 2 : F32) *. Scalar.sqrt (cMax t f0)) 0 :=
  (Is.self half_lit.1).mul_zero (sqrt_zero_is (cMax_is h le_rfl))

theorem half_root_four {t : F32} (h : Is t 4) : Is ((Scalar.lit 1 2 : F32) *. Scalar.sqrt (cMax t f0)) 1 := by
  have c := cMax_is h (by norm_num)
  obtain ⟨f2, v2⟩ := lit_int 2 (by norm_num)
  have v2' : (Fp.lit 2 1 : F32).val = 2 := by rw [v2]; norm_num
  have k : Is (Fp.sqrt (cMax t f0)) 2 := by
    obtain ⟨f, e⟩ := sqrt_of_val (w := Fp.lit 2 1) (D := cMax t f0) f2 (by rw [v2']; norm_num) (by rw [v2']; norm_num) c.fin (by
      have q := rnd_mul f2 f2
      rw [v2'] at q
      rw [c.val, (q.is (h.congr (by norm_num))).val]; norm_num)
    exact ⟨f, by rw [e, v2']; norm_num⟩
  have q := rnd_mul half_lit.1 k.fin
  rw [half_lit.2, k.val] at q
  exact (q.is (is_f1.congr (by norm_num))).congr (by norm_num)

/-- the quaternion of the identity matrix -/
theorem identity_quat {l : M4 F32} (hx : V4Is l.x 1 0 0 0) (hy : V4Is l.y 0 1 0 0) (hz : V4Is l.z 0 0 1 0) :
    Is (Quat.initFromMatrix l).x 0 ∧ Is (Quat.initFromMatrix l).y 0 ∧ Is (Quat.initFromMatrix l).z 0 ∧ Is (Quat.initFromMatrix l).w 1 := by
  have o : Is (f1 : F32) ((1 : ℤ) : ℝ) := is_f1.congr (by norm_num)
  have a : Is l.x.x ((1 : ℤ) : ℝ) := hx.x.congr (by norm_num)
  have b : Is l.y.y ((1 : ℤ) : ℝ) := hy.y.congr (by norm_num)
  have c : Is l.z.z ((1 : ℤ) : ℝ) := hz.z.congr (by norm_num)
  have ng : ∀ {p q r : F32}, Is p 0 → Is q 0 → Is r 0 → Is (if p >. q then Scalar.neg r else r) 0 := by
    intro p q r hp hq hr
    split
    · exact hr.neg.congr _root_.neg_zero
    · exact hr
  have sw := int_add (int_add (int_add o a (by decide)) b (by decide)) c (by decide)
  have sx := int_sub (int_sub (int_add o a (by decide)) b (by decide)) c (by decide)
  have sy := int_sub (int_add (int_sub o a (by decide)) b (by decide)) c (by decide)
  have sz := int_add (int_sub (int_sub o a (by decide)) b (by decide)) c (by decide)
  exact ⟨ng hz.y hy.z (half_root_zero (sx.congr (by norm_num))), ng hx.z hz.x (half_root_zero (sy.congr (by norm_num))),
    ng hy.x hx.y (half_root_zero (sz.congr (by norm_num))), half_root_four (sw.congr (by norm_num))⟩

theorem spanOne : Span 1 := by norm_num [Span]

theorem tr_parts {bk : Backend} (hb : ExactRoot bk) {l : M4 F32} {tx ty tz : ℝ} (h : Rows l 1 1 1 tx ty tz) :
    ExactParts (affineParts bk l) tx ty tz := by
  have hn : bk ≠ .neon := by rintro rfl; exact hb
  have he : Spec.EstAccurate bk := by
    cases bk <;> first | trivial | exact absurd hb (by simp [ExactRoot])
  obtain ⟨k1, k2, k3, k4, -⟩ := rows_parts bk hn he h spanOne spanOne spanOne
  have ee : handed 1 1 1 * |1| = 1 := by norm_num [handed]
  rw [ee] at k2
  have mk : ∀ {p : F32} {t : ℝ}, p.isFin = true ∧ p.val = t → Is p t := fun q => ⟨q.1, q.2⟩
  refine ⟨⟨mk k1.1, mk k1.2.1, mk k1.2.2, is_f0⟩, ⟨mk k2.1, mk k2.2.1, mk k2.2.2, ?_⟩, ⟨mk k3.1, mk k3.2.1, mk k3.2.2, is_f0⟩,
    ⟨mk k4.1, mk k4.2.1, mk k4.2.2.1, mk k4.2.2.2⟩, ?_⟩
  · simp only [affineParts]
    split <;> exact is_f0
  · have nx := h.x.normalized hb (((h.x.x.one_mul h.x.x).add_zero (h.x.y.zero_mul h.x.y)).add_zero
      ((h.x.z.zero_mul h.x.z).add_zero (h.x.w.zero_mul h.x.w)))
    have kxy := dot4_zero nx h.y (.inr rfl) (.inl rfl) (.inl rfl) (.inl rfl)
    have y1 := sub_shear h.y nx kxy
    have ny := y1.normalized hb (((y1.x.zero_mul y1.x).zero_add (y1.y.one_mul y1.y)).add_zero
      ((y1.z.zero_mul y1.z).add_zero (y1.w.zero_mul y1.w)))
    have kxz := dot4_zero nx h.z (.inr rfl) (.inl rfl) (.inl rfl) (.inl rfl)
    have z1 := sub_shear h.z nx kxz
    have kyz := dot4_zero ny z1 (.inl rfl) (.inr rfl) (.inl rfl) (.inl rfl)
    have z2 := sub_shear z1 ny kyz
    have nz := z2.normalized hb (((z2.x.zero_mul z2.x).add_zero (z2.y.zero_mul z2.y)).zero_add
      ((z2.z.one_mul z2.z).add_zero (z2.w.zero_mul z2.w)))
    have u1 : Unit1 1 1 := by norm_num [Unit1]
    have fl := flip_sign bk nx ny nz u1 u1 u1 one_ne_zero one_ne_zero one_ne_zero
    simp only [affineParts, fl]
    rw [if_neg (by norm_num)]
    exact identity_quat nx ny nz


/-- the product with a row of the identity picks a row -/
theorem pick_x {b : M4 F32} {v : V4 F32} {x y z w x1 y1 z1 w1 x2 y2 z2 w2 x3 y3 z3 w3 : ℝ} (hv : V4Is v 1 0 0 0) (hx : V4Is b.x x y z w)
    (hy : V4Is b.y x1 y1 z1 w1) (hz : V4Is b.z x2 y2 z2 w2) (hw : V4Is b.w x3 y3 z3 w3) : V4Is (Simd4x4f.vec4Mul b v) x y z w :=
  ⟨((hx.x.mul_one hv.x).add_zero (hy.x.mul_zero hv.y)).add_zero ((hz.x.mul_zero hv.z).add_zero (hw.x.mul_zero hv.w)),
   ((hx.y.mul_one hv.x).add_zero (hy.y.mul_zero hv.y)).add_zero ((hz.y.mul_zero hv.z).add_zero (hw.y.mul_zero hv.w)),
   ((hx.z.mul_one hv.x).add_zero (hy.z.mul_zero hv.y)).add_zero ((hz.z.mul_zero hv.z).add_zero (hw.z.mul_zero hv.w)),
   ((hx.w.mul_one hv.x).add_zero (hy.w.mul_zero hv.y)).add_zero ((hz.w.mul_zero hv.z).add_zero (hw.w.mul_zero hv.w))⟩

theorem pick_y {b : M4 F32} {v : V4 F32} {x y z w x1 y1 z1 w1 x2 y2 z2 w2 x3 y3 z3 w3 : ℝ} (hv : V4Is v 0 1 0 0) (hx : V4Is b.x x1 y1 z1 w1)
    (hy : V4Is b.y x y z w) (hz : V4Is b.z x2 y2 z2 w2) (hw : V4Is b.w x3 y3 z3 w3) : V4Is (Simd4x4f.vec4Mul b v) x y z w :=
  ⟨((hx.x.mul_zero hv.x).zero_add (hy.x.mul_one hv.y)).add_zero ((hz.x.mul_zero hv.z).add_zero (hw.x.mul_zero hv.w)),
   ((hx.y.mul_zero hv.x).zero_add (hy.y.mul_one hv.y)).add_zero ((hz.y.mul_zero hv.z).add_zero (hw.y.mul_zero hv.w)),
   ((hx.z.mul_zero hv.x).zero_add (hy.z.mul_one hv.y)).add_zero ((hz.z.mul_zero hv.z).add_zero (hw.z.mul_zero hv.w)),
   ((hx.w.mul_zero hv.x).zero_add (hy.w.mul_one hv.y)).add_zero ((hz.w.mul_zero hv.z).add_zero (hw.w.mul_zero hv.w))⟩

theorem pick_z {b : M4 F32} {v : V4 F32} {x y z w x1 y1 z1 w1 x2 y2 z2 w2 x3 y3 z3 w3 : ℝ} (hv : V4Is v 0 0 1 0) (hx : V4Is b.x x1 y1 z1 w1)
    (hy : V4Is b.y x2 y2 z2 w2) (hz : V4Is b.z x y z w) (hw : V4Is b.w x3 y3 z3 w3) : V4Is (Simd4x4f.vec4Mul b v) x y z w :=
  ⟨((hx.x.mul_zero hv.x).zero_add (hy.x.mul_zero hv.y)).zero_add ((hz.x.mul_one hv.z).add_zero (hw.x.mul_zero hv.w)),
   ((hx.y.mul_zero hv.x).zero_add (hy.y.mul_zero hv.y)).zero_add ((hz.y.mul_one hv.z).add_zero (hw.y.mul_zero hv.w)),
   ((hx.z.mul_zero hv.x).zero_add (hy.z.mul_zero hv.y)).zero_add ((hz.z.mul_one hv.z).add_zero (hw.z.mul_zero hv.w)),
   ((hx.w.mul_zero hv.x).zero_add (hy.w.mul_zero hv.y)).zero_add ((hz.w.mul_one hv.z).add_zero (hw.w.mul_zero hv.w))⟩

theorem pick_w {b : M4 F32} {v : V4 F32} {x y z w x1 y1 z1 w1 x2 y2 z2 w2 x3 y3 z3 w3 : ℝ} (hv : V4Is v 0 0 0 1) (hx : V4Is b.x x1 y1 z1 w1)
    (hy : V4Is b.y x2 y2 z2 w2) (hz : V4Is b.z x3 y3 z3 w3) (hw : V4Is b.w x y z w) : V4Is (Simd4x4f.vec4Mul b v) x y z w :=
  ⟨((hx.x.mul_zero hv.x).zero_add (hy.x.mul_zero hv.y)).zero_add ((hz.x.mul_zero hv.z).zero_add (hw.x.mul_one hv.w)),
   ((hx.y.mul_zero hv.x).zero_add (hy.y.mul_zero hv.y)).zero_add ((hz.y.mul_zero hv.z).zero_add (hw.y.mul_one hv.w)),
   ((hx.z.mul_zero hv.x).zero_add (hy.z.mul_zero hv.y)).zero_add ((hz.z.mul_zero hv.z).zero_add (hw.z.mul_one hv.w)),
   ((hx.w.mul_zero hv.x).zero_add (hy.w.mul_zero hv.y)).zero_add ((hz.w.mul_zero hv.z).zero_add (hw.w.mul_one hv.w))⟩

/-- the product with the identity -/
theorem keep_row {b : M4 F32} {v : V4 F32} {x y z w : ℝ} (hv : V4Is v x y z w) (hb : Rows b 1 1 1 0 0 0) :
    V4Is (Simd4x4f.vec4Mul b v) x y z w :=
  ⟨((hb.x.x.one_mul hv.x).add_zero (hb.y.x.zero_mul hv.y)).add_zero ((hb.z.x.zero_mul hv.z).add_zero (hb.w.x.zero_mul hv.w)),
   ((hb.x.y.zero_mul hv.x).zero_add (hb.y.y.one_mul hv.y)).add_zero ((hb.z.y.zero_mul hv.z).add_zero (hb.w.y.zero_mul hv.w)),
   ((hb.x.z.zero_mul hv.x).zero_add (hb.y.z.zero_mul hv.y)).zero_add ((hb.z.z.one_mul hv.z).add_zero (hb.w.z.zero_mul hv.w)),
   ((hb.x.w.zero_mul hv.x).zero_add (hb.y.w.zero_mul hv.y)).zero_add ((hb.z.w.zero_mul hv.z).zero_add (hb.w.w.one_mul hv.w))⟩

theorem mul_keep {a b : M4 F32} {sx sy sz tx ty tz : ℝ} (ha : Rows a sx sy sz tx ty tz) (hb : Rows b 1 1 1 0 0 0) :
    Rows (Simd4x4f.matrixMul a b) sx sy sz tx ty tz :=
  ⟨keep_row ha.x hb, keep_row ha.y hb, keep_row ha.z hb, keep_row ha.w hb⟩

theorem mul_pick {a b : M4 F32} {sx sy sz tx ty tz : ℝ} (ha : Rows a 1 1 1 0 0 0) (hb : Rows b sx sy sz tx ty tz) :
    Rows (Simd4x4f.matrixMul a b) sx sy sz tx ty tz :=
  ⟨pick_x ha.x hb.x hb.y hb.z hb.w, pick_y ha.y hb.x hb.y hb.z hb.w, pick_z ha.z hb.x hb.y hb.z hb.w, pick_w ha.w hb.x hb.y hb.z hb.w⟩

/-- what `graphene_approx_val (x, 1)` says of 1 -/
theorem approx_one {x : F32} (h : Is x 1) : approxVal x (f1 : F32) = true := by
  have z := is_f1
  have e : approxVal x (f1 : F32) = ((if x >. f1 then x -. f1 else f1 -. x) <. fltEps) := rfl
  have e1 : Is (Fp.sub x f1) 0 := by
    have r := rnd_sub h.fin z.fin
    rw [z.val, h.val, _root_.sub_self] at r
    exact r.is is_f0
  have e2 : Is (Fp.sub f1 x) 0 := by
    have r := rnd_sub z.fin h.fin
    rw [z.val, h.val, _root_.sub_self] at r
    exact r.is is_f0
  rw [e]
  split
  · refine (e1.lt_eq GR.eps_is).trans ?_
    rw [RealScalar.lt_eq, fltEps_real]; norm_num [eps]
  · refine (e2.lt_eq GR.eps_is).trans ?_
    rw [RealScalar.lt_eq, fltEps_real]; norm_num [eps]

/-- the matrix of the identity quaternion -/
theorem identity_matrix {q : Quat F32} (hx : Is q.x 0) (hy : Is q.y 0) (hz : Is q.z 0) (hw : Is q.w 1) : Rows q.toMatrix 1 1 1 0 0 0 := by
  have two : (f2 : F32).isFin = true := by kdecide
  have t2 := Is.self two
  have zz : ∀ {p q : F32}, Is p 0 → Is q 0 → Is (Fp.mul (f2 : F32) (Fp.add p q)) 0 := fun hp hq => t2.mul_zero (hp.add_zero hq)
  have zs : ∀ {p q : F32}, Is p 0 → Is q 0 → Is (Fp.mul (f2 : F32) (Fp.sub p q)) 0 := fun hp hq => t2.mul_zero (hp.sub_zero hq)
  have od : ∀ {p q : F32}, Is p 0 → Is q 0 → Is (Fp.sub (f1 : F32) (Fp.mul (f2 : F32) (Fp.add p q))) 1 :=
    fun hp hq => is_f1.sub_zero (zz hp hq)
  exact ⟨⟨od (hy.zero_mul hy) (hz.zero_mul hz), zz (hx.zero_mul hy) (hw.mul_zero hz), zs (hx.zero_mul hz) (hw.mul_zero hy), is_f0⟩,
    ⟨zs (hx.zero_mul hy) (hw.mul_zero hz), od (hx.zero_mul hx) (hz.zero_mul hz), zz (hy.zero_mul hz) (hw.mul_zero hx), is_f0⟩,
    ⟨zz (hx.zero_mul hz) (hw.mul_zero hy), zs (hy.zero_mul hz) (hw.mul_zero hx), od (hx.zero_mul hx) (hy.zero_mul hy), is_f0⟩,
    ⟨is_f0, is_f0, is_f0, is_f1⟩⟩


theorem slerp_same {a b : Quat F32} (hd : Is (Simd4f.dot4 a.vec b.vec).x 1) (t : F32) : Quat.slerp a b t = a := by
  have m1 : Is (Scalar.lit (-1) 1 : F32) (-1) := by
    have := lit_int (-1) (by decide)
    exact ⟨this.1, this.2.trans (by norm_num)⟩
  have c1 : ((Simd4f.dot4 a.vec b.vec).x <. (Scalar.lit (-1) 1 : F32)) = false := by
    rw [show ((Simd4f.dot4 a.vec b.vec).x <. (Scalar.lit (-1) 1 : F32)) = ((1 : ℝ) <. (-1 : ℝ)) from hd.lt_eq m1, Bool.eq_false_iff,
      ne_eq, RealScalar.lt_eq]; norm_num
  have c2 : ((Simd4f.dot4 a.vec b.vec).x >. (f1 : F32)) = false := by
    rw [show ((Simd4f.dot4 a.vec b.vec).x >. (f1 : F32)) = ((1 : ℝ) <. (1 : ℝ)) from is_f1.lt_eq hd, Bool.eq_false_iff,
      ne_eq, RealScalar.lt_eq]; norm_num
  have c3 : ((Simd4f.dot4 a.vec b.vec).x <. (f0 : F32)) = false := by
    rw [show ((Simd4f.dot4 a.vec b.vec).x <. (f0 : F32)) = ((1 : ℝ) <. (0 : ℝ)) from hd.lt_eq is_f0, Bool.eq_false_iff,
      ne_eq, RealScalar.lt_eq]; norm_num
  unfold Quat.slerp
  simp only [cClamp, c1, c2, c3, Bool.false_eq_true, if_false, approx_one hd, if_true]

/-- putting two translations together again -/
theorem tr_recompose (bk : Backend) {da db : Decomp3D F32} {ax ay az bx by' bz X Y Z : ℝ} {t : F64} (ht : Factor t)
    (ha : ExactParts da ax ay az) (hb : ExactParts db bx by' bz)
    (hX : Is (vlerp t da.translate.value.x db.translate.value.x) X) (hY : Is (vlerp t da.translate.value.y db.translate.value.y) Y)
    (hZ : Is (vlerp t da.translate.value.z db.translate.value.z) Z) : Rows (GMatrix.recompose3d bk da db t) 1 1 1 X Y Z := by
  have sl : Quat.slerp da.rotate db.rotate (FloatConv.narrow t) = da.rotate := by
    apply slerp_same
    exact ((ha.rotate.1.zero_mul hb.rotate.1).add_zero (ha.rotate.2.1.zero_mul hb.rotate.2.1)).zero_add
      ((ha.rotate.2.2.1.zero_mul hb.rotate.2.2.1).zero_add (ha.rotate.2.2.2.one_mul hb.rotate.2.2.2))
  have sh : ∀ {p q : F32}, Is p 0 → Is q 0 → approxVal (vlerp t p q) (f0 : F32) = true := by
    intro p q hp hq
    rw [approx_zero_iff (vlerp_zero ht hp hq)]; norm_num
  have sc : ∀ {p q : F32}, Is p 1 → Is q 1 → approxVal (vlerp t p q) (f1 : F32) = true :=
    fun hp hq => approx_one (vlerp_one ht hp hq)
  have i1 : Rows (⟨Simd4f.init f1 f0 f0 (vlerp t da.perspective.value.x db.perspective.value.x),
      Simd4f.init f0 f1 f0 (vlerp t da.perspective.value.y db.perspective.value.y),
      Simd4f.init f0 f0 f1 (vlerp t da.perspective.value.z db.perspective.value.z),
      Simd4f.init f0 f0 f0 (vlerp t da.perspective.value.w db.perspective.value.w)⟩ : M4 F32) 1 1 1 0 0 0 :=
    ⟨⟨is_f1, is_f0, is_f0, vlerp_zero ht ha.perspective.x hb.perspective.x⟩,
     ⟨is_f0, is_f1, is_f0, vlerp_zero ht ha.perspective.y hb.perspective.y⟩,
     ⟨is_f0, is_f0, is_f1, vlerp_zero ht ha.perspective.z hb.perspective.z⟩,
     ⟨is_f0, is_f0, is_f0, vlerp_one ht ha.perspective.w hb.perspective.w⟩⟩
  have i2 : Rows (Simd4x4f.translation (vlerp t da.translate.value.x db.translate.value.x)
      (vlerp t da.translate.value.y db.translate.value.y) (vlerp t da.translate.value.z db.translate.value.z)) 1 1 1 X Y Z :=
    ⟨⟨is_f1, is_f0, is_f0, is_f0⟩, ⟨is_f0, is_f1, is_f0, is_f0⟩, ⟨is_f0, is_f0, is_f1, is_f0⟩, ⟨hX, hY, hZ, is_f1⟩⟩
  have i3 := identity_matrix ha.rotate.1 ha.rotate.2.1 ha.rotate.2.2.1 ha.rotate.2.2.2
  have fin := mul_keep (mul_pick i1 i2) i3
  have e1 := sh ha.shear.x hb.shear.x
  have e2 := sh ha.shear.y hb.shear.y
  have e3 := sh ha.shear.z hb.shear.z
  have e4 := sc ha.scale.x hb.scale.x
  have e5 := sc ha.scale.y hb.scale.y
  have e6 := sc ha.scale.z hb.scale.z
  unfold GMatrix.recompose3d
  simp only [Vec3.interpolate, vlerp_lane, sl, Point3D.initFromVec3, Point3D.initFromSimd4f, Vec3.getX, Vec3.getY, Vec3.getZ, Simd4f.get]
  simp only [e1, e2, e3, e4, e5, e6, Bool.not_true, Bool.false_eq_true, if_false, Bool.or_self]
  exact fin

/-- the interpolation depends on the values only -/
theorem vlerp_val {t : F64} (ht : Factor t) {p q p' q' : F32} {x y : ℝ} (hp : Is p x) (hq : Is q y) (hp' : Is p' x) (hq' : Is q' y)
    (hb : |x| + |y| ≤ 2 ^ 127) : Is (vlerp t p q) (vlerp t p' q').val := by
  obtain ⟨sf, lo, hi⟩ := factor32 ht
  obtain ⟨cf, -⟩ := compl32 sf lo hi
  have n1 := vlerp_near ht hp.fin hq.fin (by rw [hp.val, hq.val]; exact hb)
  have n2 := vlerp_near ht hp'.fin hq'.fin (by rw [hp'.val, hq'.val]; exact hb)
  obtain ⟨c0, c1⟩ := (compl32 sf lo hi).2
  have k1 := scaled_spec cf c0 c1.1 hp.fin
  have k2 := scaled_spec sf lo hi hq.fin
  have k3 := scaled_spec cf c0 c1.1 hp'.fin
  have k4 := scaled_spec sf lo hi hq'.fin
  have nn : ∀ {u : F32}, u.isFin = true → u.isNaN = false := fun h => isNaN_of_isFin h
  have v1 := (feq_iff_val (nn k1.1) (nn k3.1)).1 (mul_val_congr cf hp.fin cf hp'.fin rfl (by rw [hp.val, hp'.val]))
  have v2 := (feq_iff_val (nn k2.1) (nn k4.1)).1 (mul_val_congr sf hq.fin sf hq'.fin rfl (by rw [hq.val, hq'.val]))
  exact ⟨n1.1, (feq_iff_val (nn n1.1) (nn n2.1)).1 (add_val_congr k1.1 k2.1 k3.1 k4.1 v1 v2)⟩

/-! ## C140 -/

/-- C140: on the backends with an exact root, interpolating between two translations, at least one of which moves in depth, gives
exactly a translation: the linear part is the identity, and the displacement is `graphene_vec3_interpolate` of the displacements. -/
theorem C140_translations [Libm binary64] (bk : Backend) (hb : ExactRoot bk) (a b : Point3D F32) (t : F64) (ht : Factor t)
    (a1 : a.x.isFin = true) (a2 : a.y.isFin = true) (a3 : a.z.isFin = true)
    (b1 : b.x.isFin = true) (b2 : b.y.isFin = true) (b3 : b.z.isFin = true)
    (hx : |a.x.val| + |b.x.val| ≤ 2 ^ 127) (hy : |a.y.val| + |b.y.val| ≤ 2 ^ 127) (hz : |a.z.val| + |b.z.val| ≤ 2 ^ 127)
    (h2 : (GMatrix.is2d (GMatrix.initTranslate a) && GMatrix.is2d (GMatrix.initTranslate b)) = false) :
    ∃ r, GMatrix.interpolate bk (GMatrix.initTranslate a) (GMatrix.initTranslate b) t = .ok r ∧ FinMat r ∧
      (let v := Vec3.interpolate (Vec3.init a.x a.y a.z) (Vec3.init b.x b.y b.z) t
       rmat r = !![1, 0, 0, 0; 0, 1, 0, 0; 0, 0, 1, 0; v.getX.val, v.getY.val, v.getZ.val, 1]) := by
  have ra : Rows (GMatrix.initTranslate a) 1 1 1 a.x.val a.y.val a.z.val := by
    have := st_rows (translate_st a a1 a2 a3)
    rw [rmat_translate] at this
    exact this
  have rb : Rows (GMatrix.initTranslate b) 1 1 1 b.x.val b.y.val b.z.val := by
    have := st_rows (translate_st b b1 b2 b3)
    rw [rmat_translate] at this
    exact this
  obtain ⟨la, qa, ea⟩ := tr_reach bk ra
  obtain ⟨lb, qb, eb⟩ := tr_reach bk rb
  have pa := tr_parts hb qa
  have pb := tr_parts hb qb
  have fin := tr_recompose bk ht pa pb
    (vlerp_val ht pa.translate.x pb.translate.x (Is.self a1) (Is.self b1) hx)
    (vlerp_val ht pa.translate.y pb.translate.y (Is.self a2) (Is.self b2) hy)
    (vlerp_val ht pa.translate.z pb.translate.z (Is.self a3) (Is.self b3) hz)
  refine ⟨_, ?_, fin.st.fin, fin.rmat⟩
  rw [GMatrix.interpolate, h2, ea, eb]
  rfl


/-- a vector interpolation starts at its first operand and ends at its second -/
theorem vlerp_ends {t : F64} (ht : t.isFin = true) {a b : F32} (ha : a.isFin = true) (hb : b.isFin = true) :
    (t.val = 0 → (vlerp t a b).val = a.val) ∧ (t.val = 1 → (vlerp t a b).val = b.val) := by
  have r := rnd_convert (g := binary32) ht
  constructor <;> intro h <;> rw [h] at r
  · have s := r.is is_f0
    have c : Is (Fp.sub (Fp.lit 1 1) (Fp.convert binary32 t)) 1 := one32_is.sub_zero s
    exact ((c.one_mul (Is.self ha)).add_zero (s.zero_mul (Is.self hb))).val
  · have s := r.is is_f1
    have c : Is (Fp.sub (Fp.lit 1 1) (Fp.convert binary32 t)) 0 := by
      have q := rnd_sub one32_is.fin s.fin
      rw [one32_is.val, s.val, _root_.sub_self] at q
      exact q.is is_f0
    exact ((c.zero_mul (Is.self ha)).zero_add (s.one_mul (Is.self hb))).val

/-- C140: the ends of that interpolation are the two translations. -/
theorem C140_endpoints [Libm binary64] (bk : Backend) (hb : ExactRoot bk) (a b : Point3D F32) (t : F64) (ht : t.isFin = true)
    (a1 : a.x.isFin = true) (a2 : a.y.isFin = true) (a3 : a.z.isFin = true)
    (b1 : b.x.isFin = true) (b2 : b.y.isFin = true) (b3 : b.z.isFin = true)
    (hx : |a.x.val| + |b.x.val| ≤ 2 ^ 127) (hy : |a.y.val| + |b.y.val| ≤ 2 ^ 127) (hz : |a.z.val| + |b.z.val| ≤ 2 ^ 127)
    (h2 : (GMatrix.is2d (GMatrix.initTranslate a) && GMatrix.is2d (GMatrix.initTranslate b)) = false) :
    (t.val = 0 → ∃ r, GMatrix.interpolate bk (GMatrix.initTranslate a) (GMatrix.initTranslate b) t = .ok r ∧ FinMat r ∧
      rmat r = rmat (GMatrix.initTranslate a)) ∧
    (t.val = 1 → ∃ r, GMatrix.interpolate bk (GMatrix.initTranslate a) (GMatrix.initTranslate b) t = .ok r ∧ FinMat r ∧
      rmat r = rmat (GMatrix.initTranslate b)) := by
  have vx := vlerp_ends ht a1 b1
  have vy := vlerp_ends ht a2 b2
  have vz := vlerp_ends ht a3 b3
  constructor <;> intro h
  · obtain ⟨r, e, f, q⟩ := C140_translations bk hb a b t ⟨ht, by rw [h], by rw [h]; norm_num⟩ a1 a2 a3 b1 b2 b3 hx hy hz h2
    refine ⟨r, e, f, q.trans ?_⟩
    rw [rmat_translate, ← vx.1 h, ← vy.1 h, ← vz.1 h]; rfl
  · obtain ⟨r, e, f, q⟩ := C140_translations bk hb a b t ⟨ht, by rw [h]; norm_num, by rw [h]⟩ a1 a2 a3 b1 b2 b3 hx hy hz h2
    refine ⟨r, e, f, q.trans ?_⟩
    rw [rmat_translate, ← vx.2 h, ← vy.2 h, ← vz.2 h]; rfl

/-- a two-dimensional translation taken apart -/
structure ExactParts2 (d : Decomp2D F32 F64) (tx ty : ℝ) : Prop where
  translate : V4Is d.translate.value tx ty 0 0
  scale : V4Is d.scale.value 1 1 0 0
  angle : Is d.angle 0
  m : V4Is d.m 1 0 0 1

/-- C99, annex F.10.1.4: the arc tangent of a zero over a positive number is a zero. -/
def Spec.Atan2Zero : Prop :=
  ∀ y x : F32, y.isFin = true → y.val = 0 → x.isFin = true → 0 < x.val → (Libm.atan2 y x).isFin = true ∧ (Libm.atan2 y x).val = 0

theorem recip_one {x : F32} (h : Is x 1) : Is ((f1 : F32) /. x) 1 := by
  have q := rnd_div (f := binary32) is_f1.fin h.fin (by rw [h.val]; norm_num)
  rw [is_f1.val, h.val, div_one] at q
  exact q.is is_f1

theorem tr_parts2 [Libm binary64] (hat : Atan2Zero) {m : M4 F32} {tx ty tz : ℝ} (h : Rows m 1 1 1 tx ty tz) :
    ∃ d, (GMatrix.decompose2d m : Option (Decomp2D F32 F64)) = some d ∧ ExactParts2 d tx ty := by
  have hx := h.x.x
  have hy := h.y.y
  have h01 := h.x.y
  have h10 := h.y.x
  have det : Is (m.x.x *. m.y.y -. m.y.x *. m.x.y) 1 := (hx.one_mul hy).sub_zero (h10.zero_mul h01)
  have s0 : Is (Scalar.sqrt (m.x.x *. m.x.x +. m.y.x *. m.y.x)) 1 :=
    sqrt_one_is ((hx.one_mul hx).add_zero (h10.zero_mul h10))
  have s1 : Is (Scalar.sqrt (m.x.y *. m.x.y +. m.y.y *. m.y.y)) 1 :=
    sqrt_one_is ((h01.zero_mul h01).zero_add (hy.one_mul hy))
  have g1 : (Scalar.abs (m.x.x *. m.y.y -. m.y.x *. m.x.y) <. (fltEps : F32)) = false := by
    have g : Is (Scalar.abs (m.x.x *. m.y.y -. m.y.x *. m.x.y)) 1 :=
      ⟨by simpa [Scalar.abs] using det.fin, by rw [show Scalar.abs (m.x.x *. m.y.y -. m.y.x *. m.x.y) = Fp.abs (m.x.x *. m.y.y -. m.y.x *. m.x.y) from rfl, val_abs, det.val, abs_one]⟩
    refine (g.lt_eq GR.eps_is).trans ?_
    rw [Bool.eq_false_iff, ne_eq, RealScalar.lt_eq, fltEps_real, not_lt]
    norm_num [eps]
  have g2 : ((m.x.x *. m.y.y -. m.y.x *. m.x.y) <. (f0 : F32)) = false := by
    rw [show ((m.x.x *. m.y.y -. m.y.x *. m.x.y) <. (f0 : F32)) = ((1 : ℝ) <. (0 : ℝ)) from det.lt_eq is_f0,
      Bool.eq_false_iff, ne_eq, RealScalar.lt_eq]
    norm_num
  have n0 : approxVal (Scalar.sqrt (m.x.x *. m.x.x +. m.y.x *. m.y.x)) (f0 : F32) = false := by
    rw [approx_zero_iff s0]; norm_num
  have n1 : approxVal (Scalar.sqrt (m.x.y *. m.x.y +. m.y.y *. m.y.y)) (f0 : F32) = false := by
    rw [approx_zero_iff s1]; norm_num
  have i0 := recip_one s0
  have i1 := recip_one s1
  have a0x : Is (m.x.x *. ((f1 : F32) /. Scalar.sqrt (m.x.x *. m.x.x +. m.y.x *. m.y.x))) 1 := hx.one_mul i0
  have a0y : Is (m.y.x *. ((f1 : F32) /. Scalar.sqrt (m.x.y *. m.x.y +. m.y.y *. m.y.y))) 0 := h10.zero_mul i1
  have a1x : Is (m.x.y *. ((f1 : F32) /. Scalar.sqrt (m.x.x *. m.x.x +. m.y.x *. m.y.x))) 0 := h01.zero_mul i0
  have a1y : Is (m.y.y *. ((f1 : F32) /. Scalar.sqrt (m.x.y *. m.x.y +. m.y.y *. m.y.y))) 1 := hy.one_mul i1
  obtain ⟨fa, va⟩ := hat _ _ a0y.fin a0y.val a0x.fin (by rw [a0x.val]; norm_num)
  have ang : Is (Scalar.atan2 (m.y.x *. ((f1 : F32) /. Scalar.sqrt (m.x.y *. m.x.y +. m.y.y *. m.y.y))) (m.x.x *. ((f1 : F32) /. Scalar.sqrt (m.x.x *. m.x.x +. m.y.x *. m.y.x)))) 0 := ⟨fa, va⟩
  have g3 : (Scalar.abs (Scalar.atan2 (m.y.x *. ((f1 : F32) /. Scalar.sqrt (m.x.y *. m.x.y +. m.y.y *. m.y.y))) (m.x.x *. ((f1 : F32) /. Scalar.sqrt (m.x.x *. m.x.x +. m.y.x *. m.y.x)))) >. (fltEps : F32)) = false := by
    have g : Is (Scalar.abs (Scalar.atan2 (m.y.x *. ((f1 : F32) /. Scalar.sqrt (m.x.y *. m.x.y +. m.y.y *. m.y.y))) (m.x.x *. ((f1 : F32) /. Scalar.sqrt (m.x.x *. m.x.x +. m.y.x *. m.y.x))))) 0 :=
      ⟨by simpa [Scalar.abs] using ang.fin, by rw [show Scalar.abs (Scalar.atan2 (m.y.x *. ((f1 : F32) /. Scalar.sqrt (m.x.y *. m.x.y +. m.y.y *. m.y.y))) (m.x.x *. ((f1 : F32) /. Scalar.sqrt (m.x.x *. m.x.x +. m.y.x *. m.y.x)))) = Fp.abs (Scalar.atan2 (m.y.x *. ((f1 : F32) /. Scalar.sqrt (m.x.y *. m.x.y +. m.y.y *. m.y.y))) (m.x.x *. ((f1 : F32) /. Scalar.sqrt (m.x.x *. m.x.x +. m.y.x *. m.y.x)))) from rfl, val_abs, ang.val, abs_zero]⟩
    refine (GR.eps_is.lt_eq g).trans ?_
    rw [Bool.eq_false_iff, ne_eq, RealScalar.lt_eq, fltEps_real, not_lt]
    norm_num [eps]
  have deg : (Fp.div (Scalar.lit 180 1 : F32) Scalar.pi).isFin = true := by kdecide
  have dz : Is (radToDeg (Scalar.atan2 (m.y.x *. ((f1 : F32) /. Scalar.sqrt (m.x.y *. m.x.y +. m.y.y *. m.y.y))) (m.x.x *. ((f1 : F32) /. Scalar.sqrt (m.x.x *. m.x.x +. m.y.x *. m.y.x))))) 0 := ang.zero_mul (Is.self deg)
  have dg := widen_is dz.fin
  refine ⟨⟨Vec2.init m.w.x m.w.y, Vec2.init (Scalar.sqrt (m.x.x *. m.x.x +. m.y.x *. m.y.x)) (Scalar.sqrt (m.x.y *. m.x.y +. m.y.y *. m.y.y)), FloatConv.widen (radToDeg (Scalar.atan2 (m.y.x *. ((f1 : F32) /. Scalar.sqrt (m.x.y *. m.x.y +. m.y.y *. m.y.y))) (m.x.x *. ((f1 : F32) /. Scalar.sqrt (m.x.x *. m.x.x +. m.y.x *. m.y.x))))),
      ⟨m.x.x *. ((f1 : F32) /. Scalar.sqrt (m.x.x *. m.x.x +. m.y.x *. m.y.x)), m.y.x *. ((f1 : F32) /. Scalar.sqrt (m.x.y *. m.x.y +. m.y.y *. m.y.y)), m.x.y *. ((f1 : F32) /. Scalar.sqrt (m.x.x *. m.x.x +. m.y.x *. m.y.x)), m.y.y *. ((f1 : F32) /. Scalar.sqrt (m.x.y *. m.x.y +. m.y.y *. m.y.y))⟩⟩, ?_, ⟨h.w.x, h.w.y, is_f0, is_f0⟩, ⟨s0, s1, is_f0, is_f0⟩, ?_, ⟨a0x, a0y, a1x, a1y⟩⟩
  · have e : ∀ i j : Fin 4, GMatrix.getValue m i j = mat m i j := by
      intro i j
      fin_cases i <;> fin_cases j <;> rfl
    have e00 : GMatrix.getValue m 0 0 = m.x.x := rfl
    have e01 : GMatrix.getValue m 0 1 = m.x.y := rfl
    have e10 : GMatrix.getValue m 1 0 = m.y.x := rfl
    have e11 : GMatrix.getValue m 1 1 = m.y.y := rfl
    have e30 : GMatrix.getValue m 3 0 = m.w.x := rfl
    have e31 : GMatrix.getValue m 3 1 = m.w.y := rfl
    unfold GMatrix.decompose2d
    simp only [e00, e01, e10, e11, e30, e31, g1, g2, Bool.false_and, Bool.false_eq_true, if_false, n0, n1, Bool.not_false, if_true, g3]
  · exact dg.congr dz.val


/-- the angle the 2D interpolation of two translations turns by: 360 degrees, in single precision -/
theorem full_turn {x : F32} (h : Is x 360) : (degToRad x).isFin = true ∧ (degToRad x).val = 13176795 / 2 ^ 21 := by
  have l := lit_int 360 (by decide)
  have e : (Fp.mul (Fp.lit 360 1 : F32) (Fp.div (Scalar.pi : F32) (Fp.lit 180 1))) = (Fp.lit 13176795 (2 ^ 21)) := by kdecide
  have k := lit_dyadic 13176795 21 (by norm_num) (by norm_num)
  have pf : (Fp.div (Scalar.pi : F32) (Fp.lit 180 1)).isFin = true := by kdecide
  have r1 := rnd_mul h.fin pf
  have r2 := rnd_mul l.1 pf
  rw [e, l.2] at r2
  rw [h.val] at r1
  have kk : Is (Fp.lit 13176795 (2 ^ 21) : F32) (13176795 / 2 ^ 21) := ⟨k.1, by rw [k.2]; norm_num⟩
  have g := r1.feq r2
  have fin : (Fp.mul x (Fp.div (Scalar.pi : F32) (Fp.lit 180 1))).isFin = true := isFin_of_between kk.fin kk.fin
    (feq_iff_le.1 g).2 (feq_iff_le.1 g).1
  exact ⟨fin, ((feq_iff_val (isNaN_of_isFin fin) (isNaN_of_isFin kk.fin)).1 g).trans kk.val⟩

theorem full_turn_trig : 1 / 2 ^ 23 + 1 / 2 ^ 25 ≤ Real.sin (13176795 / 2 ^ 21) ∧ Real.sin (13176795 / 2 ^ 21) ≤ 3 / 2 ^ 24 ∧
    |Real.cos (13176795 / 2 ^ 21) - 1| ≤ 1 / 2 ^ 40 := by
  have p1 := Real.pi_gt_d20
  have p2 := Real.pi_lt_d20
  have e1 : Real.sin (13176795 / 2 ^ 21) = Real.sin (13176795 / 2 ^ 21 - 2 * Real.pi) := (Real.sin_sub_two_pi _).symm
  have e2 : Real.cos (13176795 / 2 ^ 21) = Real.cos (13176795 / 2 ^ 21 - 2 * Real.pi) := (Real.cos_sub_two_pi _).symm
  rw [e1, e2]
  have l : 17 / 10 ^ 8 ≤ 13176795 / 2 ^ 21 - 2 * Real.pi := by norm_num at p1 p2 ⊢; linarith
  have u : 13176795 / 2 ^ 21 - 2 * Real.pi ≤ 3 / 2 ^ 24 := by norm_num at p1 p2 ⊢; linarith
  generalize 13176795 / 2 ^ 21 - 2 * Real.pi = x at *
  have x0 : 0 < x := lt_of_lt_of_le (by norm_num) l
  refine ⟨?_, (Real.sin_lt x0).le.trans u, ?_⟩
  · have := Real.sin_gt_sub_cube x0
    have c : x ^ 3 / 6 ≤ 1 / 10 ^ 10 := by
      have := pow_le_pow_left₀ x0.le u 3
      norm_num at this ⊢; linarith
    norm_num at l c ⊢; linarith
  · have := Real.one_sub_sq_div_two_le_cos (x := x)
    have c : x ^ 2 / 2 ≤ 1 / 2 ^ 40 := by
      have := pow_le_pow_left₀ x0.le u 2
      norm_num at this ⊢; linarith
    have h1 := Real.cos_le_one x
    rw [_root_.abs_le]
    constructor <;> [linarith; (norm_num; linarith)]

theorem add_swap {a b : F32} (ha : a.isFin = true) (hb : b.isFin = true) : Fp.add a b = Fp.add b a := by
  cases a <;> simp [isFin] at ha
  cases b <;> simp [isFin] at hb
  rename_i s m h t n g
  show ofInt (sgn s m + sgn t n) 1 (s && t) = ofInt (sgn t n + sgn s m) 1 (t && s)
  rw [Int.add_comm, Bool.and_comm]

/-- a lane of a displacement turned by a tiny angle -/
theorem turned_lane {p q k l : F32} {X Y E : ℝ} (hp : Is p X) (hq : Is q Y) (kf : k.isFin = true) (k1 : |k.val - 1| ≤ 1 / 2 ^ 22)
    (lf : l.isFin = true) (l1 : |l.val| ≤ 5 / 2 ^ 24) (hE : |X| + |Y| ≤ E) (hE2 : E ≤ 2 ^ 125) :
    (Fp.add (Fp.mul k p) (Fp.mul l q)).isFin = true ∧
    |(Fp.add (Fp.mul k p) (Fp.mul l q)).val - X| ≤ E / 2 ^ 20 + 1 / 2 ^ 148 ∧ Fp.add (Fp.mul k p) (Fp.mul l q) = Fp.add (Fp.mul l q) (Fp.mul k p) := by
  have r1 := rnd_mul kf hp.fin
  have r2 := rnd_mul lf hq.fin
  rw [hp.val, _root_.mul_comm] at r1
  rw [hq.val, _root_.mul_comm] at r2
  have x0 := abs_nonneg X
  have y0 := abs_nonneg Y
  have d1 : |X * k.val - X| ≤ |X| * (1 / 2 ^ 22) := by
    rw [show X * k.val - X = X * (k.val - 1) by ring, _root_.abs_mul]
    gcongr
  have d2 : |Y * l.val| ≤ |Y| * (5 / 2 ^ 24) := by
    rw [_root_.abs_mul]; gcongr
  have d3 : |X * k.val| ≤ |X| * (1 + 1 / 2 ^ 22) := by
    have := abs_add_le (X * k.val - X) X
    rw [sub_add_cancel] at this
    linarith
  have f1 : (Fp.mul k p).isFin = true := r1.isFin hp32 (_root_.le_trans (by norm_num at *; linarith [abs_nonneg X, abs_nonneg Y]) le_max32)
  have f2 : (Fp.mul l q).isFin = true := r2.isFin hp32 (_root_.le_trans (by norm_num at *; linarith [abs_nonneg X, abs_nonneg Y]) le_max32)
  have e1 := r1.err_add f1
  have e2 := r2.err_add f2
  rw [u32, eta32] at e1 e2
  have m1 : |(Fp.mul k p).val - X| ≤ |X| * (6 / 2 ^ 24) + 1 / 2 ^ 150 := by
    have := abs_sub_le (Fp.mul k p).val (X * k.val) X
    norm_num at *; linarith [abs_nonneg X, abs_nonneg Y]
  have m2 : |(Fp.mul l q).val| ≤ |Y| * (6 / 2 ^ 24) + 1 / 2 ^ 150 := by
    have := abs_add_le ((Fp.mul l q).val - Y * l.val) (Y * l.val)
    rw [sub_add_cancel] at this
    norm_num at *; linarith [abs_nonneg X, abs_nonneg Y]
  have r3 := rnd_add f1 f2
  have m3 : |(Fp.mul k p).val + (Fp.mul l q).val - X| ≤ E * (6 / 2 ^ 24) + 2 / 2 ^ 150 := by
    have := abs_add_le ((Fp.mul k p).val - X) (Fp.mul l q).val
    rw [show (Fp.mul k p).val - X + (Fp.mul l q).val = (Fp.mul k p).val + (Fp.mul l q).val - X by ring] at this
    norm_num at *; linarith [abs_nonneg X, abs_nonneg Y]
  have m4 : |(Fp.mul k p).val + (Fp.mul l q).val| ≤ E * 2 + 2 / 2 ^ 150 := by
    have := abs_add_le ((Fp.mul k p).val + (Fp.mul l q).val - X) X
    rw [sub_add_cancel] at this
    norm_num at *; linarith [abs_nonneg X, abs_nonneg Y]
  have f3 : (Fp.add (Fp.mul k p) (Fp.mul l q)).isFin = true := r3.isFin hp32 (_root_.le_trans (by norm_num at *; linarith [abs_nonneg X, abs_nonneg Y]) le_max32)
  have e3 := r3.err_add f3
  rw [u32, eta32] at e3
  refine ⟨f3, ?_, add_swap f1 f2⟩
  have := abs_sub_le (Fp.add (Fp.mul k p) (Fp.mul l q)).val ((Fp.mul k p).val + (Fp.mul l q).val) X
  norm_num at *; linarith [abs_nonneg X, abs_nonneg Y]

/-- a displacement turned by a tiny angle -/
theorem turned_row {v : V4 F32} {c s : F32} {X Y E : ℝ} (h : V4Is v X Y 0 1) (cf : c.isFin = true) (ca : |c.val - 1| ≤ 1 / 2 ^ 22)
    (sf : s.isFin = true) (sa : |s.val| ≤ 5 / 2 ^ 24) (hE : |X| + |Y| ≤ E) (hE2 : E ≤ 2 ^ 125) :
    ∃ x y : ℝ, V4Is (Simd4x4f.vec4Mul ⟨Simd4f.init c (Scalar.neg s) f0 f0, Simd4f.init s c f0 f0, Simd4f.init f0 f0 f1 f0,
      Simd4f.init f0 f0 f0 f1⟩ v) x y 0 1 ∧ |x - X| ≤ E / 2 ^ 20 + 1 / 2 ^ 148 ∧ |y - Y| ≤ E / 2 ^ 20 + 1 / 2 ^ 148 := by
  obtain ⟨fx, ex, -⟩ := turned_lane h.x h.y cf ca sf sa hE hE2
  obtain ⟨fy, ey, sw⟩ := turned_lane h.y h.x cf ca (l := Fp.neg s) (by simpa using sf) (by rw [val_neg, _root_.abs_neg]; exact sa)
    (by linarith) hE2
  rw [sw] at fy ey
  have hc : Is c c.val := Is.self cf
  have hs : Is s s.val := Is.self sf
  have z : Is (f0 : F32) 0 := is_f0
  have o : Is (f1 : F32) 1 := is_f1
  refine ⟨_, _, ⟨(Is.self fx).add_zero ((z.zero_mul h.z).add_zero (z.zero_mul h.w)),
     (Is.self fy).add_zero ((z.zero_mul h.z).add_zero (z.zero_mul h.w)),
     ((z.zero_mul h.x).zero_add (z.zero_mul h.y)).zero_add ((o.one_mul h.z).add_zero (z.zero_mul h.w)),
     ((z.zero_mul h.x).zero_add (z.zero_mul h.y)).zero_add ((z.zero_mul h.z).zero_add (o.one_mul h.w))⟩, ex, ey⟩

/-- what the interpolation of two-dimensional translations is, lane by lane -/
theorem tr_recompose2 [Libm binary64] (bk : Backend) {da db : Decomp2D F32 F64} {ax ay bx by' X Y : ℝ} {t : F64} (ht : Factor t)
    (trig : TrigAccurate) (ha : ExactParts2 da ax ay) (hb : ExactParts2 db bx by')
    (hX : Is (vlerp t da.translate.value.x db.translate.value.x) X) (hY : Is (vlerp t da.translate.value.y db.translate.value.y) Y)
    (E : ℝ) (hE : |X| + |Y| ≤ E) (hE2 : E ≤ 2 ^ 125) :
    ∃ c s : F32, (c.isFin = true ∧ |c.val - 1| ≤ 1 / 2 ^ 22) ∧ (s.isFin = true ∧ 1 / 2 ^ 25 ≤ s.val ∧ s.val ≤ 5 / 2 ^ 24) ∧
      V4Is (GMatrix.recompose2d bk da db t).x c.val (-s.val) 0 0 ∧ V4Is (GMatrix.recompose2d bk da db t).y s.val c.val 0 0 ∧
      V4Is (GMatrix.recompose2d bk da db t).z 0 0 1 0 ∧
      ((GMatrix.recompose2d bk da db t).w.x.isFin = true ∧ |(GMatrix.recompose2d bk da db t).w.x.val - X| ≤ E / 2 ^ 20 + 1 / 2 ^ 148) ∧
      ((GMatrix.recompose2d bk da db t).w.y.isFin = true ∧ |(GMatrix.recompose2d bk da db t).w.y.val - Y| ≤ E / 2 ^ 20 + 1 / 2 ^ 148) ∧
      Is (GMatrix.recompose2d bk da db t).w.z 0 ∧ Is (GMatrix.recompose2d bk da db t).w.w 1 := by
  have ng : ∀ {p : F32}, Is p 1 → (p <. (f0 : F32)) = false := by
    intro p hp
    rw [show (p <. (f0 : F32)) = ((1 : ℝ) <. (0 : ℝ)) from hp.lt_eq is_f0, Bool.eq_false_iff, ne_eq, RealScalar.lt_eq]
    norm_num
  have az : ∀ {p : F64}, Is p 0 → (Scalar.abs p <=. (GMatrix.dblEps : F64)) = true := by
    intro p hp
    have d0 : (Fp.zero false : F64).le GMatrix.dblEps = true := by kdecide
    have df : (GMatrix.dblEps : F64).isFin = true := by kdecide
    rw [le_iff_val rfl (isNaN_of_isFin df), val_zero] at d0
    refine (le_iff_val (a := Fp.abs p) (isNaN_of_isFin (by simpa using hp.fin)) (isNaN_of_isFin df)).2 ?_
    rw [val_abs, hp.val, abs_zero]
    exact d0
  have g1 := ng ha.scale.x
  have g2 := ng ha.scale.y
  have g3 := az ha.angle
  have g4 := az hb.angle
  have g5 : (Scalar.abs ((Scalar.lit 360 1 : F64) -. Scalar.lit 360 1) >. Scalar.lit 180 1) = false := by kdecide
  have rot : Is (FloatConv.narrow (GMatrix.flerp (Scalar.lit 360 1) (Scalar.lit 360 1) t) : F32) 360 := by
    have w : (FloatConv.widen (Fp.lit 360 1 : F32) : F64) = Scalar.lit 360 1 := by kdecide
    have l := lit_int 360 (by decide)
    have k := flerpf_const ht l.1
    unfold flerpf at k
    rw [w, l.2] at k
    exact ⟨k.1, k.2.trans (by norm_num)⟩
  obtain ⟨rf, rv⟩ := full_turn rot
  obtain ⟨⟨sf, se⟩, cf, ce⟩ := trig _ rf (by rw [rv, abs_of_pos (by norm_num)]; norm_num)
  obtain ⟨t1, t2, t3⟩ := full_turn_trig
  rw [rv] at se ce
  have sb := _root_.abs_le.1 se
  have hv : V4Is (⟨vlerp t da.m.x db.m.x, vlerp t da.m.y db.m.y, vlerp t da.m.z db.m.z, vlerp t da.m.w db.m.w⟩ : V4 F32) 1 0 0 1 :=
    ⟨vlerp_one ht ha.m.x hb.m.x, vlerp_zero ht ha.m.y hb.m.y, vlerp_zero ht ha.m.z hb.m.z, vlerp_one ht ha.m.w hb.m.w⟩
  have sx := vlerp_one ht ha.scale.x hb.scale.x
  have sy := vlerp_one ht ha.scale.y hb.scale.y
  have r0 : Rows (⟨Simd4f.init (vlerp t da.m.x db.m.x) (vlerp t da.m.z db.m.z) f0 f0,
      Simd4f.init (vlerp t da.m.y db.m.y) (vlerp t da.m.w db.m.w) f0 f0, Simd4f.init f0 f0 f1 f0,
      Simd4f.init (vlerp t da.translate.value.x db.translate.value.x *. vlerp t da.m.x db.m.x +.
          vlerp t da.translate.value.y db.translate.value.y *. vlerp t da.m.z db.m.z)
        (vlerp t da.translate.value.x db.translate.value.x *. vlerp t da.m.y db.m.y +.
          vlerp t da.translate.value.y db.translate.value.y *. vlerp t da.m.w db.m.w) f0 f1⟩ : M4 F32) 1 1 1 X Y 0 :=
    ⟨⟨hv.x, hv.z, is_f0, is_f0⟩, ⟨hv.y, hv.w, is_f0, is_f0⟩, ⟨is_f0, is_f0, is_f1, is_f0⟩,
      ⟨(hX.mul_one hv.x).add_zero (hY.mul_zero hv.z), (hX.mul_zero hv.y).zero_add (hY.mul_one hv.w), is_f0, is_f1⟩⟩
  have sc : Rows (Simd4x4f.scale (vlerp t da.scale.value.x db.scale.value.x) (vlerp t da.scale.value.y db.scale.value.y) (f1 : F32)) 1 1 1 0 0 0 :=
    ⟨⟨sx, is_f0, is_f0, is_f0⟩, ⟨is_f0, sy, is_f0, is_f0⟩, ⟨is_f0, is_f0, is_f1, is_f0⟩, ⟨is_f0, is_f0, is_f0, is_f1⟩⟩
  have e : GMatrix.recompose2d bk da db t = Simd4x4f.matrixMul (Simd4x4f.matrixMul
      (⟨Simd4f.init (vlerp t da.m.x db.m.x) (vlerp t da.m.z db.m.z) f0 f0,
      Simd4f.init (vlerp t da.m.y db.m.y) (vlerp t da.m.w db.m.w) f0 f0, Simd4f.init f0 f0 f1 f0,
      Simd4f.init (vlerp t da.translate.value.x db.translate.value.x *. vlerp t da.m.x db.m.x +.
          vlerp t da.translate.value.y db.translate.value.y *. vlerp t da.m.z db.m.z)
        (vlerp t da.translate.value.x db.translate.value.x *. vlerp t da.m.y db.m.y +.
          vlerp t da.translate.value.y db.translate.value.y *. vlerp t da.m.w db.m.w) f0 f1⟩ : M4 F32)
      ⟨Simd4f.init (Scalar.cos (degToRad (FloatConv.narrow (GMatrix.flerp (Scalar.lit 360 1) (Scalar.lit 360 1) t) : F32)))
         (Scalar.neg (Scalar.sin (degToRad (FloatConv.narrow (GMatrix.flerp (Scalar.lit 360 1) (Scalar.lit 360 1) t) : F32)))) f0 f0,
       Simd4f.init (Scalar.sin (degToRad (FloatConv.narrow (GMatrix.flerp (Scalar.lit 360 1) (Scalar.lit 360 1) t) : F32)))
         (Scalar.cos (degToRad (FloatConv.narrow (GMatrix.flerp (Scalar.lit 360 1) (Scalar.lit 360 1) t) : F32))) f0 f0,
       Simd4f.init f0 f0 f1 f0, Simd4f.init f0 f0 f0 f1⟩)
      (Simd4x4f.scale (vlerp t da.scale.value.x db.scale.value.x) (vlerp t da.scale.value.y db.scale.value.y) (f1 : F32)) := by
    unfold GMatrix.recompose2d
    simp only [Vec2.interpolate, vlerp_lane, Vec2.getX, Vec2.getY, Simd4f.get, g1, g2, g3, g4, g5, Bool.false_and, Bool.or_self,
      Bool.false_eq_true, if_false, if_true]
  rw [e]
  generalize degToRad (FloatConv.narrow (GMatrix.flerp (Scalar.lit 360 1) (Scalar.lit 360 1) t) : F32) = rad at *
  have hs : Is (Scalar.sin rad) (Libm.sin rad).val := ⟨sf, rfl⟩
  have hc : Is (Scalar.cos rad) (Libm.cos rad).val := ⟨cf, rfl⟩
  have bx : V4Is (Simd4f.init (Scalar.cos rad) (Scalar.neg (Scalar.sin rad)) (f0 : F32) f0) (Libm.cos rad).val (-(Libm.sin rad).val) 0 0 :=
    ⟨hc, hs.neg, is_f0, is_f0⟩
  have by2 : V4Is (Simd4f.init (Scalar.sin rad) (Scalar.cos rad) (f0 : F32) f0) (Libm.sin rad).val (Libm.cos rad).val 0 0 :=
    ⟨hs, hc, is_f0, is_f0⟩
  have bz : V4Is (Simd4f.init f0 f0 f1 (f0 : F32)) 0 0 1 0 := ⟨is_f0, is_f0, is_f1, is_f0⟩
  have bw : V4Is (Simd4f.init f0 f0 f0 (f1 : F32)) 0 0 0 1 := ⟨is_f0, is_f0, is_f0, is_f1⟩
  have sa : |(Libm.sin rad).val| ≤ 5 / 2 ^ 24 := by
    rw [_root_.abs_le]
    norm_num at t1 t2 sb ⊢
    constructor <;> linarith
  have ca : |(Libm.cos rad).val - 1| ≤ 1 / 2 ^ 22 :=
    (abs_sub_le _ (Real.cos (13176795 / 2 ^ 21)) _).trans ((add_le_add ce t3).trans (by norm_num))
  obtain ⟨x', y', wr, ex, ey⟩ := turned_row r0.w cf ca sf sa hE hE2
  have wrow := keep_row wr sc
  refine ⟨Libm.cos rad, Libm.sin rad, ⟨cf, ca⟩, ⟨sf, ?_, ?_⟩, keep_row (pick_x r0.x bx by2 bz bw) sc, keep_row (pick_y r0.y bx by2 bz bw) sc,
    keep_row (pick_z r0.z bx by2 bz bw) sc, ⟨wrow.x.fin, ?_⟩, ⟨wrow.y.fin, ?_⟩, wrow.z, wrow.w⟩
  · norm_num at t1 sb ⊢; linarith
  · norm_num at t2 sb ⊢; linarith
  · rw [← wrow.x.val] at ex; exact ex
  · rw [← wrow.y.val] at ey; exact ey

/-- C140: between two translations that stay in the plane the result is, on every back end, never a translation: the interpolation
goes through a rotation by 360 degrees, whose sine in single precision is not zero. The displacement is off by at most one part in
`2^20` of the interpolated displacement. -/
theorem C140_planar [Libm binary64] (bk : Backend) (trig : TrigAccurate) (hat : Atan2Zero) (a b : Point3D F32) (t : F64) (ht : Factor t)
    (a1 : a.x.isFin = true) (a2 : a.y.isFin = true) (a3 : a.z.isFin = true)
    (b1 : b.x.isFin = true) (b2 : b.y.isFin = true) (b3 : b.z.isFin = true)
    (h2 : GMatrix.is2d (GMatrix.initTranslate a) = true) (h3 : GMatrix.is2d (GMatrix.initTranslate b) = true)
    (hx : |a.x.val| + |b.x.val| ≤ 2 ^ 127) (hy : |a.y.val| + |b.y.val| ≤ 2 ^ 127) (E : ℝ)
    (hE : let v := Vec2.interpolate (Vec2.init a.x a.y) (Vec2.init b.x b.y) t; |v.getX.val| + |v.getY.val| ≤ E) (hE2 : E ≤ 2 ^ 125) :
    ∃ r, GMatrix.interpolate bk (GMatrix.initTranslate a) (GMatrix.initTranslate b) t = .ok r ∧ FinMat r ∧
      ∃ c s x y : ℝ, rmat r = !![c, -s, 0, 0; s, c, 0, 0; 0, 0, 1, 0; x, y, 0, 1] ∧
        |c - 1| ≤ 1 / 2 ^ 22 ∧ 1 / 2 ^ 25 ≤ s ∧ s ≤ 5 / 2 ^ 24 ∧
        (let v := Vec2.interpolate (Vec2.init a.x a.y) (Vec2.init b.x b.y) t
         |x - v.getX.val| ≤ E / 2 ^ 20 + 1 / 2 ^ 148 ∧ |y - v.getY.val| ≤ E / 2 ^ 20 + 1 / 2 ^ 148) := by
  have ra : Rows (GMatrix.initTranslate a) 1 1 1 a.x.val a.y.val a.z.val := by
    have := st_rows (translate_st a a1 a2 a3)
    rw [rmat_translate] at this
    exact this
  have rb : Rows (GMatrix.initTranslate b) 1 1 1 b.x.val b.y.val b.z.val := by
    have := st_rows (translate_st b b1 b2 b3)
    rw [rmat_translate] at this
    exact this
  obtain ⟨da, ea, pa⟩ := tr_parts2 hat ra
  obtain ⟨db, eb, pb⟩ := tr_parts2 hat rb
  obtain ⟨c, s, ⟨-, ca⟩, ⟨-, s1, s2⟩, rx, ry, rz, ⟨wx, ex⟩, ⟨wy, ey⟩, wz, ww⟩ := tr_recompose2 bk ht trig pa pb
    (vlerp_val ht pa.translate.x pb.translate.x (Is.self a1) (Is.self b1) hx)
    (vlerp_val ht pa.translate.y pb.translate.y (Is.self a2) (Is.self b2) hy) E hE hE2
  refine ⟨GMatrix.recompose2d bk da db t, ?_, ?_, c.val, s.val, (GMatrix.recompose2d bk da db t).w.x.val,
    (GMatrix.recompose2d bk da db t).w.y.val, ?_, ca, s1, s2, ex, ey⟩
  · rw [GMatrix.interpolate, h2, h3, ea, eb]
    rfl
  · intro i j
    fin_cases i <;> fin_cases j
    exacts [rx.x.fin, rx.y.fin, rx.z.fin, rx.w.fin, ry.x.fin, ry.y.fin, ry.z.fin, ry.w.fin, rz.x.fin, rz.y.fin, rz.z.fin, rz.w.fin,
      wx, wy, wz.fin, ww.fin]
  · ext i j
    fin_cases i <;> fin_cases j
    exacts [rx.x.val, rx.y.val, rx.z.val, rx.w.val, ry.x.val, ry.y.val, ry.z.val, ry.w.val, rz.x.val, rz.y.val, rz.z.val, rz.w.val,
      rfl, rfl, wz.val, ww.val]

/-- C140: so interpolating a planar translation with itself does not give it back. -/
theorem C140_planar_not_translation [Libm binary64] (bk : Backend) (trig : TrigAccurate) (hat : Atan2Zero) (a b p : Point3D F32)
    (t : F64) (ht : Factor t) (a1 : a.x.isFin = true) (a2 : a.y.isFin = true) (a3 : a.z.isFin = true)
    (b1 : b.x.isFin = true) (b2 : b.y.isFin = true) (b3 : b.z.isFin = true)
    (h2 : GMatrix.is2d (GMatrix.initTranslate a) = true) (h3 : GMatrix.is2d (GMatrix.initTranslate b) = true)
    (hx : |a.x.val| + |b.x.val| ≤ 2 ^ 120) (hy : |a.y.val| + |b.y.val| ≤ 2 ^ 120) (r : M4 F32)
    (h : GMatrix.interpolate bk (GMatrix.initTranslate a) (GMatrix.initTranslate b) t = .ok r) :
    rmat r ≠ rmat (GMatrix.initTranslate p) := by
  have bd : ∀ {p q : F32}, p.isFin = true → q.isFin = true → |p.val| + |q.val| ≤ 2 ^ 120 → |(vlerp t p q).val| ≤ 2 ^ 124 := by
    intro p q hp hq hb
    obtain ⟨-, n⟩ := vlerp_near ht hp hq (hb.trans (by norm_num))
    have t0 := ht.2.1
    have t1 := ht.2.2
    have l1 : |(1 - t.val) * p.val + t.val * q.val| ≤ |p.val| + |q.val| := by
      refine (abs_add_le _ _).trans ?_
      rw [_root_.abs_mul, _root_.abs_mul, abs_of_nonneg t0, abs_of_nonneg (by linarith : 0 ≤ 1 - t.val)]
      nlinarith [abs_nonneg p.val, abs_nonneg q.val]
    have l2 := abs_add_le ((vlerp t p q).val - ((1 - t.val) * p.val + t.val * q.val)) ((1 - t.val) * p.val + t.val * q.val)
    rw [sub_add_cancel] at l2
    generalize |(vlerp t p q).val - ((1 - t.val) * p.val + t.val * q.val)| = z at *
    generalize |(1 - t.val) * p.val + t.val * q.val| = z2 at *
    norm_num at hb n ⊢
    linarith
  obtain ⟨r', e, -, c, s, x, y, m, -, s1, -⟩ := C140_planar bk trig hat a b t ht a1 a2 a3 b1 b2 b3 h2 h3 (hx.trans (by norm_num))
    (hy.trans (by norm_num)) (2 ^ 125) ((add_le_add (bd a1 b1 hx) (bd a2 b2 hy)).trans (by norm_num)) le_rfl
  rw [h] at e
  obtain rfl : r = r' := by injection e
  intro g
  rw [m, rmat_translate] at g
  have k := congrFun (congrFun g 1) 0
  have k' : s = 0 := k
  rw [k'] at s1
  norm_num at s1

example [Libm binary64] : ExactRoot .gcc ∧ Factor (Fp.lit 1 4 : F64) ∧
    (GMatrix.is2d (GMatrix.initTranslate (⟨Fp.lit 7 1, Fp.lit 0 1, Fp.lit 1 1⟩ : Point3D F32)) &&
      GMatrix.is2d (GMatrix.initTranslate (⟨Fp.lit (-3) 1, Fp.lit 5 2, Fp.lit 0 1⟩ : Point3D F32))) = false := by
  refine ⟨trivial, ?_, by kdecide⟩
  have d := lit_dyadic 1 2 (by decide) (by decide)
  norm_num at d
  have w := widen_is d.1
  have e : (Fp.convert binary64 (Fp.lit 1 4 : F32) : F64) = Fp.lit 1 4 := by kdecide
  have w' : Is (Fp.lit 1 4 : F64) (Fp.lit 1 4 : F32).val := ⟨by kdecide, by rw [← e]; exact w.val⟩
  refine ⟨w'.fin, ?_, ?_⟩ <;> rw [w'.val, d.2] <;> norm_num

example : GMatrix.is2d (GMatrix.initTranslate (⟨Fp.lit 7 1, Fp.lit 1 3, Fp.lit 0 1⟩ : Point3D F32)) = true ∧
    (Fp.lit 1 3 : F32).isFin = true := by
  exact ⟨by kdecide, by kdecide⟩

omit [Libm binary32] in
/-- non-vacuity: there is a libm whose sine and cosine are accurate and whose arc tangent of zero is zero -/
example (L : Libm binary32) : ∃ M : Libm binary32, @Spec.TrigAccurate M ∧ @Spec.Atan2Zero M := by
  exact ⟨_, trig_exists { L with atan2 := fun _ _ => Fp.zero false }, fun y x _ _ _ _ => ⟨rfl, val_zero _⟩⟩

end Graphene

/-
  C99: normalising a vector in single precision, every backend: each component is the component of the unit vector
  up to a relative error of 2^-19, the result has length 1 up to 2^-17, and the length itself is accurate to 2^-18.
-/
import Verif.Props.Float1
import Verif.Proofs.Newton
import Verif.Model.Ray
import Verif.Model.Quat

set_option exponentiation.threshold 3000

namespace Graphene
open Fp
variable [Libm binary32]

/-- `c` is the component `v / L` of a unit vector, up to a relative error of 2^-19 (and half a subnormal step). -/
def Spec.UnitComp (c : F32) (v L : ℝ) : Prop :=
  c.isFin = true ∧ |c.val - v / L| ≤ |v| / L / 2 ^ 19 + 1 / 2 ^ 149

/-- The lengths for which normalising is accurate: not so short that the library rounds it to zero, nor so long that
the square overflows.  The scalar backend compares the *square* of the length with `FLT_EPSILON`, hence `2^-11`. -/
def Spec.NormLen (bk : Backend) (L : ℝ) : Prop :=
  1 / 2 ^ 22 ≤ L ∧ L ≤ 2 ^ 62 ∧ ∀ b, bk = .scalar b → 1 / 2 ^ 11 ≤ L

/-- the reciprocal square root of a rounded sum of squares -/
theorem norm_core (bk : Backend) (he : Spec.EstAccurate bk) {D : F32} {S : ℝ} (hD : D.isFin = true)
    (h : |D.val - S| ≤ Spec.dotErr S) (h1 : 1 / 2 ^ 100 ≤ S) (h2 : S ≤ 2 ^ 125) (hs : ∀ b, bk = .scalar b → 1 / 2 ^ 22 ≤ S) :
    (Simd4f.rsqrt1 bk D).isFin = true ∧ |(Simd4f.rsqrt1 bk D).val * √S - 1| ≤ 8 / 5 / 2 ^ 20 := by
  have S0 : 0 < S := lt_of_lt_of_le (by positivity) h1
  have hE : Spec.dotErr S ≤ S / 2 ^ 21 := by unfold Spec.dotErr; norm_num at h1 ⊢; linarith
  have h' := h.trans hE
  have hb := _root_.abs_le.1 h'
  have D0 : 0 < D.val := by norm_num at hb; linarith [hb.1]
  obtain ⟨rf, re⟩ := Newton.rsqrt1_near bk he hD (by norm_num at hb h1 ⊢; linarith [hb.1]) (by norm_num at hb h2 ⊢; linarith [hb.2])
    (fun b hb' => by have := hs b hb'; norm_num at hb this ⊢; linarith [hb.1])
  refine ⟨rf, ?_⟩
  set R := (Simd4f.rsqrt1 bk D).val with hR
  have k0 : 0 < √S := Real.sqrt_pos.2 S0
  have d0 : 0 < √D.val := Real.sqrt_pos.2 D0
  have ks : √S ^ 2 = S := Real.sq_sqrt S0.le
  have ds : √D.val ^ 2 = D.val := Real.sq_sqrt D0.le
  have hdk : |√D.val - √S| ≤ 1 / 2 ^ 21 * √S := by
    have e1 : |√D.val - √S| * (√D.val + √S) = |D.val - S| := by
      rw [← abs_of_pos (a := √D.val + √S) (by linarith), ← abs_mul, ← ds, ← ks]
      congr 1
      rw [ds, ks]; nlinarith [ds, ks]
    have e2 : |√D.val - √S| * √S ≤ |√D.val - √S| * (√D.val + √S) := by
      apply mul_le_mul_of_nonneg_left _ (abs_nonneg _); linarith
    have e3 : |√D.val - √S| * √S ≤ (1 / 2 ^ 21 * √S) * √S := by
      rw [e1] at e2
      refine (e2.trans h').trans (le_of_eq ?_)
      rw [mul_assoc, ← sq, ks]; ring
    exact le_of_mul_le_mul_right e3 k0
  set k := √S with hk
  set d := √D.val with hd
  have rb := _root_.abs_le.1 re
  have db := _root_.abs_le.1 hdk
  have dlo : 63 / 64 * k ≤ d := by norm_num at db; linarith [db.1]
  have R0 : 0 < R := by
    by_contra hc
    have : R * d ≤ 0 := mul_nonpos_of_nonpos_of_nonneg (by linarith) d0.le
    norm_num at rb; linarith [rb.1]
  have hRk : R * k ≤ 65 / 63 := by
    have : R * (63 / 64 * k) ≤ R * d := mul_le_mul_of_nonneg_left dlo R0.le
    norm_num at rb; linarith [rb.2]
  have e1 : |R * k - R * d| ≤ 1 / 2 ^ 21 * (65 / 63) := by
    rw [← mul_sub, abs_mul, abs_of_pos R0, _root_.abs_sub_comm]
    have := mul_le_mul_of_nonneg_left hdk R0.le
    norm_num at this ⊢; linarith
  have e2 := abs_add_le (R * k - R * d) (R * d - 1)
  rw [sub_add_sub_cancel] at e2
  norm_num [-abs_mul] at e1 re ⊢; linarith

/-- a component multiplied by that reciprocal square root -/
theorem norm_comp {v R : F32} {L : ℝ} (hv : v.isFin = true) (hR : R.isFin = true) (hL : 0 < L)
    (h : |R.val * L - 1| ≤ 8 / 5 / 2 ^ 20) (hvL : |v.val| ≤ L) : Spec.UnitComp (Fp.mul v R) v.val L := by
  have hr := rnd_mul hv hR
  set u := v.val / L with hu
  have huL : |u| = |v.val| / L := by rw [hu, abs_div, abs_of_pos hL]
  have hu1 : |u| ≤ 1 := by rw [huL, div_le_one hL]; exact hvL
  have eq : v.val * R.val = u * (R.val * L) := by rw [hu]; field_simp
  have rL : |R.val * L| ≤ 2 := by
    rw [_root_.abs_le] at h ⊢; norm_num at h; constructor <;> linarith [h.1, h.2]
  have b1 : |v.val * R.val - u| ≤ |u| * (8 / 5 / 2 ^ 20) := by
    rw [eq, show u * (R.val * L) - u = u * (R.val * L - 1) by ring, abs_mul]
    exact mul_le_mul_of_nonneg_left h (abs_nonneg _)
  have b2 : |v.val * R.val| ≤ |u| * 2 := by
    rw [eq, abs_mul]; exact mul_le_mul_of_nonneg_left rL (abs_nonneg _)
  have hf : (Fp.mul v R).isFin = true := hr.isFin hp32 (le_trans (b := (2 : ℝ)) (by linarith) (le_trans (by norm_num) le_max32))
  refine ⟨hf, ?_⟩
  rw [← huL]
  have b3 := hr.err_add hf
  rw [u32, eta32] at b3
  have e2 := abs_add_le ((Fp.mul v R).val - v.val * R.val) (v.val * R.val - u)
  rw [sub_add_sub_cancel] at e2
  have := abs_nonneg u
  norm_num [-abs_mul] at b1 b2 b3 ⊢; linarith

/-- the square root of every backend -/
theorem length_core (bk : Backend) (he : Spec.EstAccurate bk) {D : F32} {S : ℝ} (hD : D.isFin = true) (h0 : 0 ≤ D.val)
    (h : |D.val - S| ≤ Spec.dotErr S) (h1 : 1 / 2 ^ 100 ≤ S) (h2 : S ≤ 2 ^ 125) :
    (Simd4f.sqrt1 bk D).isFin = true ∧ |(Simd4f.sqrt1 bk D).val - √S| ≤ √S / 2 ^ 18 := by
  have S0 : 0 < S := lt_of_lt_of_le (by positivity) h1
  have k0 : 0 < √S := Real.sqrt_pos.2 S0
  have klo : 1 / 2 ^ 50 ≤ √S := Real.le_sqrt_of_sq_le (by norm_num at h1 ⊢; linarith)
  have khi : √S ≤ 2 ^ 63 := by rw [Real.sqrt_le_left (by positivity)]; norm_num at h2 ⊢; linarith
  by_cases hb : bk = .neon
  · subst hb
    obtain ⟨rf, re⟩ := norm_core .neon he hD h h1 h2 (by simp)
    have hne : (Scalar.feq D (f0 : F32) && !Scalar.signbit D) = false := by
      have : Scalar.feq D (f0 : F32) = false := by
        rw [Bool.eq_false_iff]; intro hc
        have hc' : D.feq (zero false) = true := by rw [f0_eq] at hc; exact hc
        have := (feq_iff_val (isNaN_of_isFin hD) rfl).1 hc'
        rw [val_zero] at this
        rw [this] at h
        have hb := _root_.abs_le.1 h
        unfold Spec.dotErr at hb
        norm_num at hb h1; linarith [hb.1]
      rw [this]; rfl
    have e : Simd4f.sqrt1 .neon D = Simd4f.recip1 .neon (Simd4f.rsqrt1 .neon D) := by
      unfold Simd4f.sqrt1; rw [hne]; rfl
    rw [e]
    set R := Simd4f.rsqrt1 .neon D with hR
    set k := √S with hk
    have rb := _root_.abs_le.1 re
    have R0 : 0 < R.val := by
      by_contra hc
      have : R.val * k ≤ 0 := mul_nonpos_of_nonpos_of_nonneg (by linarith) k0.le
      norm_num at rb; linarith [rb.1]
    have Rlo : 1 / 2 ^ 100 ≤ R.val := by
      have : R.val * k ≤ R.val * 2 ^ 63 := mul_le_mul_of_nonneg_left khi R0.le
      norm_num at rb this ⊢; linarith [rb.1]
    have Rhi : R.val ≤ 2 ^ 100 := by
      have : R.val * (1 / 2 ^ 50) ≤ R.val * k := mul_le_mul_of_nonneg_left klo R0.le
      norm_num at rb this ⊢; linarith [rb.2]
    obtain ⟨wf, we⟩ := Newton.recip1_near .neon he rf (by rw [abs_of_pos R0]; exact Rlo) (by rw [abs_of_pos R0]; exact Rhi) (by simp)
    refine ⟨wf, ?_⟩
    set w := (Simd4f.recip1 .neon R).val with hw
    -- `w - k = (w R - R k) / R` and `1 / R ≤ 2 k`
    have e1 : |w * R.val - R.val * k| ≤ 1 / 2 ^ 19 * (15 / 10) := by
      have := abs_sub_le (w * R.val) 1 (R.val * k)
      rw [_root_.abs_sub_comm 1] at this
      norm_num [-abs_mul] at we re ⊢; linarith
    have e2 : |w - k| * R.val ≤ 1 / 2 ^ 19 * (15 / 10) := by
      rw [← abs_of_pos R0, ← abs_mul, show (w - k) * R.val = w * R.val - R.val * k by ring]; exact e1
    have e3 : |w - k| * (R.val * k) ≤ 1 / 2 ^ 19 * (15 / 10) * k := by
      rw [← mul_assoc]; exact mul_le_mul_of_nonneg_right e2 k0.le
    have e4 : |w - k| * (99 / 100) ≤ |w - k| * (R.val * k) := by
      apply mul_le_mul_of_nonneg_left _ (abs_nonneg _); norm_num at rb; linarith [rb.1]
    norm_num at e3 ⊢; linarith
  · rw [sqrt1_ne_neon hb]
    obtain ⟨f, g⟩ := length_approx hD h0 S0.le h
    refine ⟨f, g.trans ?_⟩
    unfold Spec.lengthErr
    norm_num at klo ⊢; linarith

/-- the test that guards the normalisation -/
theorem length_gt {w : F32} {L : ℝ} (hw : w.isFin = true) (h : |w.val - L| ≤ L / 2 ^ 18) (hL : 1 / 2 ^ 22 ≤ L) :
    (Scalar.abs w >. (fltEps : F32)) = true := by
  apply Newton.abs_gt_eps hw
  have := _root_.abs_le.1 h
  have h2 := le_abs_self w.val
  norm_num at this hL ⊢; linarith [this.1]

theorem sq_le_of_len {L S : ℝ} (h0 : 0 ≤ S) (h : L = √S) {a b : ℝ} (ha : 0 ≤ a) (h1 : a ≤ L) (h2 : L ≤ b) : a ^ 2 ≤ S ∧ S ≤ b ^ 2 := by
  have hs : L ^ 2 = S := by rw [h, Real.sq_sqrt h0]
  rw [← hs]
  exact ⟨pow_le_pow_left₀ ha h1 2, pow_le_pow_left₀ (ha.trans h1) h2 2⟩

theorem normLen_sq {bk : Backend} {S : ℝ} (h0 : 0 ≤ S) (h : Spec.NormLen bk √S) :
    1 / 2 ^ 44 ≤ S ∧ S ≤ 2 ^ 124 ∧ (∀ b, bk = .scalar b → 1 / 2 ^ 22 ≤ S) := by
  obtain ⟨h1, h2, h3⟩ := h
  obtain ⟨a, b⟩ := sq_le_of_len h0 rfl (by positivity) h1 h2
  refine ⟨by norm_num at a ⊢; exact a, by norm_num at b ⊢; exact b, fun b hb => ?_⟩
  have := (sq_le_of_len h0 rfl (by positivity) (h3 b hb) h2).1
  norm_num at this ⊢; exact this

theorem comp_le_len {v S : ℝ} (h : v ^ 2 ≤ S) : |v| ≤ √S := by
  rw [← Real.sqrt_sq_eq_abs]; exact Real.sqrt_le_sqrt h

/-- the sum of the squares as the C computes it, for a vector of three components -/
theorem dot3_self (bk : Backend) (v : Vec3 F32)
    (hfin : v.getX.isFin = true ∧ v.getY.isFin = true ∧ v.getZ.isFin = true)
    (hbig : v.getX.val ^ 2 + v.getY.val ^ 2 + v.getZ.val ^ 2 ≤ 2 ^ 126) :
    (Vec3.dot bk v v).isFin = true ∧ 0 ≤ (Vec3.dot bk v v).val ∧
    |(Vec3.dot bk v v).val - (v.getX.val ^ 2 + v.getY.val ^ 2 + v.getZ.val ^ 2)| ≤ Spec.dotErr (v.getX.val ^ 2 + v.getY.val ^ 2 + v.getZ.val ^ 2) := by
  obtain ⟨h1, h2, h3⟩ := hfin
  have hab : ∀ t : ℝ, |t * t| = t ^ 2 := fun t => by rw [abs_mul_self, sq]
  have hd := C85_dot3 bk v v ⟨h1, h2, h3, h1, h2, h3⟩ (by simpa only [hab] using hbig)
  rw [hab, hab, hab, ← sq, ← sq, ← sq] at hd
  refine ⟨hd.1, ?_, hd.2⟩
  have s1 := sq_nonneg v.getX.val
  have s2 := sq_nonneg v.getY.val
  have s3 := sq_nonneg v.getZ.val
  have p1 := prod_approx h1 h1 (by rw [hab]; linarith)
  have p2 := prod_approx h2 h2 (by rw [hab]; linarith)
  have p3 := prod_approx h3 h3 (by rw [hab]; linarith)
  rw [hab] at p1 p2 p3
  have m1 := mul_self_nonneg_val h1
  have m2 := mul_self_nonneg_val h2
  have m3 := mul_self_nonneg_val h3
  have z : (0 : ℝ) ≤ (f0 : F32).val := by rw [f0_eq]; simp
  rcases bk with ⟨_ | _, _⟩ | _ | _ | _
  · have q1 := sum2_approx p1 p3 (by norm_num [-abs_mul] at hbig ⊢; linarith)
    have q2 := sum2_approx p2 zero_approx (by norm_num [-abs_mul] at hbig ⊢; linarith)
    exact add_nonneg_val q1.fin q2.fin (add_nonneg_val p1.fin p3.fin m1 m3)
      (add_nonneg_val p2.fin zero_approx.fin m2 z)
  · have q1 := sum2_approx p1 p2 (by norm_num [-abs_mul] at hbig ⊢; linarith)
    have q2 := sum2_approx p3 zero_approx (by norm_num [-abs_mul] at hbig ⊢; linarith)
    exact add_nonneg_val q1.fin q2.fin (add_nonneg_val p1.fin p2.fin m1 m2)
      (add_nonneg_val p3.fin zero_approx.fin m3 z)
  all_goals
    have q1 := sum2_approx p1 p2 (by norm_num [-abs_mul] at hbig ⊢; linarith)
    exact add_nonneg_val q1.fin p3.fin (add_nonneg_val p1.fin p2.fin m1 m2) m3

theorem dot2_self (v : Vec2 F32) (hfin : v.getX.isFin = true ∧ v.getY.isFin = true)
    (hbig : v.getX.val ^ 2 + v.getY.val ^ 2 ≤ 2 ^ 126) :
    (Vec2.dot v v).isFin = true ∧ 0 ≤ (Vec2.dot v v).val ∧
    |(Vec2.dot v v).val - (v.getX.val ^ 2 + v.getY.val ^ 2)| ≤ Spec.dotErr (v.getX.val ^ 2 + v.getY.val ^ 2) := by
  have hab : ∀ t : ℝ, |t * t| = t ^ 2 := fun t => by rw [abs_mul_self, sq]
  have hd := C85_dot2 v v ⟨hfin.1, hfin.2, hfin.1, hfin.2⟩ (by simpa only [hab] using hbig)
  rw [hab, hab, ← sq, ← sq] at hd
  refine ⟨hd.1, ?_, hd.2⟩
  have p1 := prod_approx hfin.1 hfin.1 (by rw [hab]; nlinarith [sq_nonneg v.getY.val])
  have p2 := prod_approx hfin.2 hfin.2 (by rw [hab]; nlinarith [sq_nonneg v.getX.val])
  exact add_nonneg_val p1.fin p2.fin (mul_self_nonneg_val hfin.1) (mul_self_nonneg_val hfin.2)

theorem dot4_self (v : Vec4 F32)
    (hfin : v.getX.isFin = true ∧ v.getY.isFin = true ∧ v.getZ.isFin = true ∧ v.getW.isFin = true)
    (hbig : v.getX.val ^ 2 + v.getY.val ^ 2 + v.getZ.val ^ 2 + v.getW.val ^ 2 ≤ 2 ^ 126) :
    (Vec4.dot v v).isFin = true ∧ 0 ≤ (Vec4.dot v v).val ∧
    |(Vec4.dot v v).val - (v.getX.val ^ 2 + v.getY.val ^ 2 + v.getZ.val ^ 2 + v.getW.val ^ 2)| ≤
      Spec.dotErr (v.getX.val ^ 2 + v.getY.val ^ 2 + v.getZ.val ^ 2 + v.getW.val ^ 2) := by
  obtain ⟨h1, h2, h3, h4⟩ := hfin
  have hab : ∀ t : ℝ, |t * t| = t ^ 2 := fun t => by rw [abs_mul_self, sq]
  have hd := C85_dot4 v v ⟨h1, h2, h3, h4, h1, h2, h3, h4⟩ (by simpa only [hab] using hbig)
  rw [hab, hab, hab, hab, ← sq, ← sq, ← sq, ← sq] at hd
  refine ⟨hd.1, ?_, hd.2⟩
  have s1 := sq_nonneg v.getX.val
  have s2 := sq_nonneg v.getY.val
  have s3 := sq_nonneg v.getZ.val
  have s4 := sq_nonneg v.getW.val
  have p1 := prod_approx h1 h1 (by rw [hab]; linarith)
  have p2 := prod_approx h2 h2 (by rw [hab]; linarith)
  have p3 := prod_approx h3 h3 (by rw [hab]; linarith)
  have p4 := prod_approx h4 h4 (by rw [hab]; linarith)
  rw [hab] at p1 p2 p3 p4
  have q1 := sum2_approx p1 p2 (by norm_num [-abs_mul] at hbig ⊢; linarith)
  have q2 := sum2_approx p3 p4 (by norm_num [-abs_mul] at hbig ⊢; linarith)
  exact add_nonneg_val q1.fin q2.fin
    (add_nonneg_val p1.fin p2.fin (mul_self_nonneg_val h1) (mul_self_nonneg_val h2))
    (add_nonneg_val p3.fin p4.fin (mul_self_nonneg_val h3) (mul_self_nonneg_val h4))

/-! ### Length, every backend -/

/-- The length of a `graphene_vec3_t`, every backend (NEON computes it as a reciprocal of a reciprocal square root). -/
theorem C99_length3 (bk : Backend) (he : Spec.EstAccurate bk) (v : Vec3 F32)
    (hfin : v.getX.isFin = true ∧ v.getY.isFin = true ∧ v.getZ.isFin = true) {L : ℝ}
    (hL : L = √(v.getX.val ^ 2 + v.getY.val ^ 2 + v.getZ.val ^ 2)) (h1 : 1 / 2 ^ 50 ≤ L) (h2 : L ≤ 2 ^ 62) :
    (Vec3.length bk v).isFin = true ∧ |(Vec3.length bk v).val - L| ≤ L / 2 ^ 18 := by
  obtain ⟨a, b⟩ := sq_le_of_len (by positivity) hL (by positivity) h1 h2
  obtain ⟨f, n, g⟩ := dot3_self bk v hfin (b.trans (by norm_num))
  subst hL
  exact length_core bk he f n g (by norm_num at a ⊢; exact a) (b.trans (by norm_num))

theorem C99_length2 (bk : Backend) (he : Spec.EstAccurate bk) (v : Vec2 F32)
    (hfin : v.getX.isFin = true ∧ v.getY.isFin = true) {L : ℝ}
    (hL : L = √(v.getX.val ^ 2 + v.getY.val ^ 2)) (h1 : 1 / 2 ^ 50 ≤ L) (h2 : L ≤ 2 ^ 62) :
    (Vec2.length bk v).isFin = true ∧ |(Vec2.length bk v).val - L| ≤ L / 2 ^ 18 := by
  obtain ⟨a, b⟩ := sq_le_of_len (by positivity) hL (by positivity) h1 h2
  obtain ⟨f, n, g⟩ := dot2_self v hfin (b.trans (by norm_num))
  subst hL
  exact length_core bk he f n g (by norm_num at a ⊢; exact a) (b.trans (by norm_num))

theorem C99_length4 (bk : Backend) (he : Spec.EstAccurate bk) (v : Vec4 F32)
    (hfin : v.getX.isFin = true ∧ v.getY.isFin = true ∧ v.getZ.isFin = true ∧ v.getW.isFin = true) {L : ℝ}
    (hL : L = √(v.getX.val ^ 2 + v.getY.val ^ 2 + v.getZ.val ^ 2 + v.getW.val ^ 2)) (h1 : 1 / 2 ^ 50 ≤ L) (h2 : L ≤ 2 ^ 62) :
    (Vec4.length bk v).isFin = true ∧ |(Vec4.length bk v).val - L| ≤ L / 2 ^ 18 := by
  obtain ⟨a, b⟩ := sq_le_of_len (by positivity) hL (by positivity) h1 h2
  obtain ⟨f, n, g⟩ := dot4_self v hfin (b.trans (by norm_num))
  subst hL
  exact length_core bk he f n g (by norm_num at a ⊢; exact a) (b.trans (by norm_num))

/-! ### Normalisation -/

theorem C99_normalize3 (bk : Backend) (he : Spec.EstAccurate bk) (v : Vec3 F32)
    (hfin : v.getX.isFin = true ∧ v.getY.isFin = true ∧ v.getZ.isFin = true) {L : ℝ}
    (hL : L = √(v.getX.val ^ 2 + v.getY.val ^ 2 + v.getZ.val ^ 2)) (hn : Spec.NormLen bk L) :
    Spec.UnitComp (Vec3.normalize bk v).getX v.getX.val L ∧
    Spec.UnitComp (Vec3.normalize bk v).getY v.getY.val L ∧
    Spec.UnitComp (Vec3.normalize bk v).getZ v.getZ.val L := by
  have hlen := C99_length3 bk he v hfin hL (le_trans (by norm_num) hn.1) hn.2.1
  have hg := length_gt hlen.1 hlen.2 hn.1
  have hL0 : 0 < L := lt_of_lt_of_le (by positivity) hn.1
  have s1 := sq_nonneg v.getX.val
  have s2 := sq_nonneg v.getY.val
  have s3 := sq_nonneg v.getZ.val
  subst hL
  obtain ⟨a, b, c⟩ := normLen_sq (by positivity) hn
  obtain ⟨f, n, g⟩ := dot3_self bk v hfin (b.trans (by norm_num))
  obtain ⟨rf, re⟩ := norm_core bk he f g (le_trans (by norm_num) a) (b.trans (by norm_num)) c
  unfold Vec3.normalize; rw [if_pos hg]
  have c0 := comp_le_len (v := v.getX.val) (S := v.getX.val ^ 2+v.getY.val ^ 2+v.getZ.val ^ 2) (by linarith)
  have c1 := comp_le_len (v := v.getY.val) (S := v.getX.val ^ 2+v.getY.val ^ 2+v.getZ.val ^ 2) (by linarith)
  have c2 := comp_le_len (v := v.getZ.val) (S := v.getX.val ^ 2+v.getY.val ^ 2+v.getZ.val ^ 2) (by linarith)
  exact ⟨norm_comp hfin.1 rf hL0 re c0, norm_comp hfin.2.1 rf hL0 re c1,
    norm_comp hfin.2.2 rf hL0 re c2⟩

theorem C99_normalize2 (bk : Backend) (he : Spec.EstAccurate bk) (v : Vec2 F32)
    (hfin : v.getX.isFin = true ∧ v.getY.isFin = true) {L : ℝ}
    (hL : L = √(v.getX.val ^ 2 + v.getY.val ^ 2)) (hn : Spec.NormLen bk L) :
    Spec.UnitComp (Vec2.normalize bk v).getX v.getX.val L ∧
    Spec.UnitComp (Vec2.normalize bk v).getY v.getY.val L := by
  have hlen := C99_length2 bk he v hfin hL (le_trans (by norm_num) hn.1) hn.2.1
  have hg := length_gt hlen.1 hlen.2 hn.1
  have hL0 : 0 < L := lt_of_lt_of_le (by positivity) hn.1
  have s1 := sq_nonneg v.getX.val
  have s2 := sq_nonneg v.getY.val
  subst hL
  obtain ⟨a, b, c⟩ := normLen_sq (by positivity) hn
  obtain ⟨f, n, g⟩ := dot2_self v hfin (b.trans (by norm_num))
  obtain ⟨rf, re⟩ := norm_core bk he f g (le_trans (by norm_num) a) (b.trans (by norm_num)) c
  unfold Vec2.normalize; rw [if_pos hg]
  have c0 := comp_le_len (v := v.getX.val) (S := v.getX.val ^ 2+v.getY.val ^ 2) (by linarith)
  have c1 := comp_le_len (v := v.getY.val) (S := v.getX.val ^ 2+v.getY.val ^ 2) (by linarith)
  exact ⟨norm_comp hfin.1 rf hL0 re c0, norm_comp hfin.2 rf hL0 re c1⟩

theorem C99_normalize4 (bk : Backend) (he : Spec.EstAccurate bk) (v : Vec4 F32)
    (hfin : v.getX.isFin = true ∧ v.getY.isFin = true ∧ v.getZ.isFin = true ∧ v.getW.isFin = true) {L : ℝ}
    (hL : L = √(v.getX.val ^ 2 + v.getY.val ^ 2 + v.getZ.val ^ 2 + v.getW.val ^ 2)) (hn : Spec.NormLen bk L) :
    Spec.UnitComp (Vec4.normalize bk v).getX v.getX.val L ∧
    Spec.UnitComp (Vec4.normalize bk v).getY v.getY.val L ∧
    Spec.UnitComp (Vec4.normalize bk v).getZ v.getZ.val L ∧
    Spec.UnitComp (Vec4.normalize bk v).getW v.getW.val L := by
  have hlen := C99_length4 bk he v hfin hL (le_trans (by norm_num) hn.1) hn.2.1
  have hg := length_gt hlen.1 hlen.2 hn.1
  have hL0 : 0 < L := lt_of_lt_of_le (by positivity) hn.1
  have s1 := sq_nonneg v.getX.val
  have s2 := sq_nonneg v.getY.val
  have s3 := sq_nonneg v.getZ.val
  have s4 := sq_nonneg v.getW.val
  subst hL
  obtain ⟨a, b, c⟩ := normLen_sq (by positivity) hn
  obtain ⟨f, n, g⟩ := dot4_self v hfin (b.trans (by norm_num))
  obtain ⟨rf, re⟩ := norm_core bk he f g (le_trans (by norm_num) a) (b.trans (by norm_num)) c
  unfold Vec4.normalize; rw [if_pos hg]
  have c0 := comp_le_len (v := v.getX.val) (S := v.getX.val ^ 2+v.getY.val ^ 2+v.getZ.val ^ 2+v.getW.val ^ 2) (by linarith)
  have c1 := comp_le_len (v := v.getY.val) (S := v.getX.val ^ 2+v.getY.val ^ 2+v.getZ.val ^ 2+v.getW.val ^ 2) (by linarith)
  have c2 := comp_le_len (v := v.getZ.val) (S := v.getX.val ^ 2+v.getY.val ^ 2+v.getZ.val ^ 2+v.getW.val ^ 2) (by linarith)
  have c3 := comp_le_len (v := v.getW.val) (S := v.getX.val ^ 2+v.getY.val ^ 2+v.getZ.val ^ 2+v.getW.val ^ 2) (by linarith)
  exact ⟨norm_comp hfin.1 rf hL0 re c0, norm_comp hfin.2.1 rf hL0 re c1,
    norm_comp hfin.2.2.1 rf hL0 re c2, norm_comp hfin.2.2.2 rf hL0 re c3⟩

/-- A quaternion: the same, without the test on the length. -/
theorem C99_quaternion (bk : Backend) (he : Spec.EstAccurate bk) (q : Quat F32)
    (hfin : q.x.isFin = true ∧ q.y.isFin = true ∧ q.z.isFin = true ∧ q.w.isFin = true) {L : ℝ}
    (hL : L = √(q.x.val ^ 2 + q.y.val ^ 2 + q.z.val ^ 2 + q.w.val ^ 2)) (hn : Spec.NormLen bk L) :
    Spec.UnitComp (Quat.normalize bk q).x q.x.val L ∧ Spec.UnitComp (Quat.normalize bk q).y q.y.val L ∧
    Spec.UnitComp (Quat.normalize bk q).z q.z.val L ∧ Spec.UnitComp (Quat.normalize bk q).w q.w.val L := by
  have hL0 : 0 < L := lt_of_lt_of_le (by positivity) hn.1
  have s1 := sq_nonneg q.x.val
  have s2 := sq_nonneg q.y.val
  have s3 := sq_nonneg q.z.val
  have s4 := sq_nonneg q.w.val
  subst hL
  obtain ⟨a, b, c⟩ := normLen_sq (by positivity) hn
  obtain ⟨f, n, g⟩ := dot4_self (⟨q.vec⟩ : Vec4 F32) hfin (b.trans (by norm_num))
  obtain ⟨rf, re⟩ := norm_core bk he f g (le_trans (by norm_num) a) (b.trans (by norm_num)) c
  have c0 := comp_le_len (v := q.x.val) (S := q.x.val ^ 2+q.y.val ^ 2+q.z.val ^ 2+q.w.val ^ 2) (by linarith)
  have c1 := comp_le_len (v := q.y.val) (S := q.x.val ^ 2+q.y.val ^ 2+q.z.val ^ 2+q.w.val ^ 2) (by linarith)
  have c2 := comp_le_len (v := q.z.val) (S := q.x.val ^ 2+q.y.val ^ 2+q.z.val ^ 2+q.w.val ^ 2) (by linarith)
  have c3 := comp_le_len (v := q.w.val) (S := q.x.val ^ 2+q.y.val ^ 2+q.z.val ^ 2+q.w.val ^ 2) (by linarith)
  exact ⟨norm_comp hfin.1 rf hL0 re c0, norm_comp hfin.2.1 rf hL0 re c1,
    norm_comp hfin.2.2.1 rf hL0 re c2, norm_comp hfin.2.2.2 rf hL0 re c3⟩

/-! ### The result has length one -/

theorem comp_sq {c : F32} {v L : ℝ} (h : Spec.UnitComp c v L) (hvL : |v| ≤ L) (hL : 0 < L) :
    |c.val ^ 2 - (v / L) ^ 2| ≤ (v / L) ^ 2 * (21 / 10 / 2 ^ 19) + 1 / 2 ^ 140 := by
  obtain ⟨-, h⟩ := h
  set u := v / L with hu
  have huL : |u| = |v| / L := by rw [hu, abs_div, abs_of_pos hL]
  have hu1 : |u| ≤ 1 := by rw [huL, div_le_one hL]; exact hvL
  rw [← huL] at h
  have e0 := abs_nonneg u
  have e1 : c.val ^ 2 - u ^ 2 = (c.val - u) * (c.val - u) + 2 * u * (c.val - u) := by ring
  have t1 : |c.val - u| ≤ 1 := h.trans (by norm_num; linarith)
  have e2 : |(c.val - u) * (c.val - u)| ≤ (|u| / 2 ^ 19 + 1 / 2 ^ 149) * (|u| / 2 ^ 19 + 1 / 2 ^ 149) := Newton.abs_mul_le h h
  have e3 : |2 * u * (c.val - u)| ≤ 2 * |u| * (|u| / 2 ^ 19 + 1 / 2 ^ 149) := by
    have := Newton.abs_mul_le (le_refl |2 * u|) h
    rwa [abs_mul 2 u, abs_two] at this
  rw [e1]
  refine (abs_add_le _ _).trans ((add_le_add e2 e3).trans ?_)
  rw [← sq_abs u]
  have : |u| ^ 2 = |u| * |u| := sq _
  rw [this]
  have q1 : 0 ≤ |u| * |u| := mul_nonneg e0 e0
  ring_nf
  norm_num
  nlinarith

/-- The normalised vector has length one, up to 2^-17 in the square. -/
theorem C99_unit3 (bk : Backend) (he : Spec.EstAccurate bk) (v : Vec3 F32)
    (hfin : v.getX.isFin = true ∧ v.getY.isFin = true ∧ v.getZ.isFin = true)
    (hn : Spec.NormLen bk √(v.getX.val ^ 2 + v.getY.val ^ 2 + v.getZ.val ^ 2)) :
    |(Vec3.normalize bk v).getX.val ^ 2 + (Vec3.normalize bk v).getY.val ^ 2 + (Vec3.normalize bk v).getZ.val ^ 2 - 1| ≤ 1 / 2 ^ 17 := by
  obtain ⟨h1, h2, h3⟩ := C99_normalize3 bk he v hfin rfl hn
  have hL0 : 0 < √(v.getX.val ^ 2 + v.getY.val ^ 2 + v.getZ.val ^ 2) := lt_of_lt_of_le (by positivity) hn.1
  have hL2 := Real.sq_sqrt (show 0 ≤ v.getX.val ^ 2 + v.getY.val ^ 2 + v.getZ.val ^ 2 by positivity)
  have s1 := sq_nonneg v.getX.val
  have s2 := sq_nonneg v.getY.val
  have s3 := sq_nonneg v.getZ.val
  have g1 := comp_sq h1 (comp_le_len (by linarith)) hL0
  have g2 := comp_sq h2 (comp_le_len (by linarith)) hL0
  have g3 := comp_sq h3 (comp_le_len (by linarith)) hL0
  set L := √(v.getX.val ^ 2 + v.getY.val ^ 2 + v.getZ.val ^ 2)
  have hsum : (v.getX.val / L) ^ 2 + (v.getY.val / L) ^ 2 + (v.getZ.val / L) ^ 2 = 1 := by
    rw [div_pow, div_pow, div_pow, ← add_div, ← add_div, ← hL2, div_self (by positivity)]
  generalize (v.getX.val / L) ^ 2 = a at *
  generalize (v.getY.val / L) ^ 2 = b at *
  generalize (v.getZ.val / L) ^ 2 = c at *
  rw [_root_.abs_le] at g1 g2 g3 ⊢
  norm_num at g1 g2 g3 ⊢
  constructor <;> linarith [g1.1, g1.2, g2.1, g2.2, g3.1, g3.2]

theorem C99_unit2 (bk : Backend) (he : Spec.EstAccurate bk) (v : Vec2 F32)
    (hfin : v.getX.isFin = true ∧ v.getY.isFin = true)
    (hn : Spec.NormLen bk √(v.getX.val ^ 2 + v.getY.val ^ 2)) :
    |(Vec2.normalize bk v).getX.val ^ 2 + (Vec2.normalize bk v).getY.val ^ 2 - 1| ≤ 1 / 2 ^ 17 := by
  obtain ⟨h1, h2⟩ := C99_normalize2 bk he v hfin rfl hn
  have hL0 : 0 < √(v.getX.val ^ 2 + v.getY.val ^ 2) := lt_of_lt_of_le (by positivity) hn.1
  have hL2 := Real.sq_sqrt (show 0 ≤ v.getX.val ^ 2 + v.getY.val ^ 2 by positivity)
  have s1 := sq_nonneg v.getX.val
  have s2 := sq_nonneg v.getY.val
  have g1 := comp_sq h1 (comp_le_len (by linarith)) hL0
  have g2 := comp_sq h2 (comp_le_len (by linarith)) hL0
  set L := √(v.getX.val ^ 2 + v.getY.val ^ 2)
  have hsum : (v.getX.val / L) ^ 2 + (v.getY.val / L) ^ 2 = 1 := by
    rw [div_pow, div_pow, ← add_div, ← hL2, div_self (by positivity)]
  generalize (v.getX.val / L) ^ 2 = a at *
  generalize (v.getY.val / L) ^ 2 = b at *
  rw [_root_.abs_le] at g1 g2 ⊢
  norm_num at g1 g2 ⊢
  constructor <;> linarith [g1.1, g1.2, g2.1, g2.2]

theorem unit4 {x y z w : F32} {a b c d : ℝ} (hL0 : 0 < √(a ^ 2 + b ^ 2 + c ^ 2 + d ^ 2))
    (h1 : Spec.UnitComp x a √(a ^ 2 + b ^ 2 + c ^ 2 + d ^ 2)) (h2 : Spec.UnitComp y b √(a ^ 2 + b ^ 2 + c ^ 2 + d ^ 2))
    (h3 : Spec.UnitComp z c √(a ^ 2 + b ^ 2 + c ^ 2 + d ^ 2)) (h4 : Spec.UnitComp w d √(a ^ 2 + b ^ 2 + c ^ 2 + d ^ 2)) :
    |x.val ^ 2 + y.val ^ 2 + z.val ^ 2 + w.val ^ 2 - 1| ≤ 1 / 2 ^ 17 := by
  have hL2 := Real.sq_sqrt (show 0 ≤ a ^ 2 + b ^ 2 + c ^ 2 + d ^ 2 by positivity)
  have s1 := sq_nonneg a
  have s2 := sq_nonneg b
  have s3 := sq_nonneg c
  have s4 := sq_nonneg d
  have g1 := comp_sq h1 (comp_le_len (by linarith)) hL0
  have g2 := comp_sq h2 (comp_le_len (by linarith)) hL0
  have g3 := comp_sq h3 (comp_le_len (by linarith)) hL0
  have g4 := comp_sq h4 (comp_le_len (by linarith)) hL0
  set L := √(a ^ 2 + b ^ 2 + c ^ 2 + d ^ 2)
  have hsum : (a / L) ^ 2 + (b / L) ^ 2 + (c / L) ^ 2 + (d / L) ^ 2 = 1 := by
    rw [div_pow, div_pow, div_pow, div_pow, ← add_div, ← add_div, ← add_div, ← hL2, div_self (by positivity)]
  generalize (a / L) ^ 2 = a at *
  generalize (b / L) ^ 2 = b at *
  generalize (c / L) ^ 2 = c at *
  generalize (d / L) ^ 2 = d at *
  rw [_root_.abs_le] at g1 g2 g3 g4 ⊢
  norm_num at g1 g2 g3 g4 ⊢
  constructor <;> linarith [g1.1, g1.2, g2.1, g2.2, g3.1, g3.2, g4.1, g4.2]

theorem C99_unit4 (bk : Backend) (he : Spec.EstAccurate bk) (v : Vec4 F32)
    (hfin : v.getX.isFin = true ∧ v.getY.isFin = true ∧ v.getZ.isFin = true ∧ v.getW.isFin = true)
    (hn : Spec.NormLen bk √(v.getX.val ^ 2 + v.getY.val ^ 2 + v.getZ.val ^ 2 + v.getW.val ^ 2)) :
    |(Vec4.normalize bk v).getX.val ^ 2 + (Vec4.normalize bk v).getY.val ^ 2 + (Vec4.normalize bk v).getZ.val ^ 2
      + (Vec4.normalize bk v).getW.val ^ 2 - 1| ≤ 1 / 2 ^ 17 := by
  obtain ⟨h1, h2, h3, h4⟩ := C99_normalize4 bk he v hfin rfl hn
  exact unit4 (lt_of_lt_of_le (by positivity) hn.1) h1 h2 h3 h4

theorem C99_unit_quaternion (bk : Backend) (he : Spec.EstAccurate bk) (q : Quat F32)
    (hfin : q.x.isFin = true ∧ q.y.isFin = true ∧ q.z.isFin = true ∧ q.w.isFin = true)
    (hn : Spec.NormLen bk √(q.x.val ^ 2 + q.y.val ^ 2 + q.z.val ^ 2 + q.w.val ^ 2)) :
    |(Quat.normalize bk q).x.val ^ 2 + (Quat.normalize bk q).y.val ^ 2 + (Quat.normalize bk q).z.val ^ 2
      + (Quat.normalize bk q).w.val ^ 2 - 1| ≤ 1 / 2 ^ 17 := by
  obtain ⟨h1, h2, h3, h4⟩ := C99_quaternion bk he q hfin rfl hn
  exact unit4 (lt_of_lt_of_le (by positivity) hn.1) h1 h2 h3 h4

/-- A ray made from an origin and a direction keeps the origin and has a direction of length one, parallel to the given one. -/
theorem C99_ray (bk : Backend) (he : Spec.EstAccurate bk) (o : Point3D F32) (d : Vec3 F32)
    (hfin : d.getX.isFin = true ∧ d.getY.isFin = true ∧ d.getZ.isFin = true) {L : ℝ}
    (hL : L = √(d.getX.val ^ 2 + d.getY.val ^ 2 + d.getZ.val ^ 2)) (hn : Spec.NormLen bk L) :
    let r := Ray.init bk (some o) (some d)
    r.getOrigin = o ∧
    Spec.UnitComp r.getDirection.getX d.getX.val L ∧ Spec.UnitComp r.getDirection.getY d.getY.val L ∧
    Spec.UnitComp r.getDirection.getZ d.getZ.val L ∧
    |r.getDirection.getX.val ^ 2 + r.getDirection.getY.val ^ 2 + r.getDirection.getZ.val ^ 2 - 1| ≤ 1 / 2 ^ 17 := by
  obtain ⟨h1, h2, h3⟩ := C99_normalize3 bk he d hfin hL hn
  exact ⟨rfl, h1, h2, h3, C99_unit3 bk he d hfin (hL ▸ hn)⟩

/-- A normalised plane: unit normal, and the constant divided by the length of the normal up to a relative error of 2^-17. -/
theorem C99_plane (bk : Backend) (he : Spec.EstAccurate bk) (p : Plane F32)
    (hfin : p.normal.getX.isFin = true ∧ p.normal.getY.isFin = true ∧ p.normal.getZ.isFin = true)
    (hc : p.constant.isFin = true) {L : ℝ}
    (hL : L = √(p.normal.getX.val ^ 2 + p.normal.getY.val ^ 2 + p.normal.getZ.val ^ 2)) (hn : Spec.NormLen bk L)
    (hbig : |p.constant.val| / L ≤ 2 ^ 126) :
    let q := Plane.normalize bk p
    Spec.UnitComp q.normal.getX p.normal.getX.val L ∧ Spec.UnitComp q.normal.getY p.normal.getY.val L ∧
    Spec.UnitComp q.normal.getZ p.normal.getZ.val L ∧
    q.constant.isFin = true ∧ |q.constant.val - p.constant.val / L| ≤ |p.constant.val| / L / 2 ^ 17 + 1 / 2 ^ 149 := by
  obtain ⟨h1, h2, h3⟩ := C99_normalize3 bk he p.normal hfin hL hn
  refine ⟨h1, h2, h3, ?_⟩
  have hL0 : 0 < L := lt_of_lt_of_le (by positivity) hn.1
  obtain ⟨lf, le⟩ := C99_length3 bk he p.normal hfin hL (_root_.le_trans (by norm_num) hn.1) hn.2.1
  show (Fp.div p.constant (Vec3.length bk p.normal)).isFin = true ∧ |(Fp.div p.constant (Vec3.length bk p.normal)).val - _| ≤ _
  set w := Vec3.length bk p.normal with hw
  set c := p.constant with hcc
  have wb := _root_.abs_le.1 le
  have wlo : 99 / 100 * L ≤ w.val := by norm_num at wb; linarith [wb.1]
  have w0 : 0 < w.val := by linarith
  have hr := rnd_div hc lf w0.ne'
  set t := |c.val| / L with ht
  have t0 : 0 ≤ t := by positivity
  have b1 : |c.val / w.val - c.val / L| ≤ t * (102 / 100 / 2 ^ 18) := by
    have e1 : c.val / w.val - c.val / L = c.val / L * ((L - w.val) / w.val) := by field_simp
    rw [e1, abs_mul, abs_div, abs_of_pos hL0, abs_div (L - w.val), abs_of_pos w0]
    apply mul_le_mul_of_nonneg_left _ t0
    rw [div_le_iff₀ w0, _root_.abs_sub_comm]
    refine le.trans ?_
    norm_num; linarith
  have b2 : |c.val / w.val| ≤ t * 2 := by
    have := abs_add_le (c.val / w.val - c.val / L) (c.val / L)
    rw [sub_add_cancel, abs_div c.val L, abs_of_pos hL0] at this
    change |c.val / w.val| ≤ |c.val / w.val - c.val / L| + t at this
    norm_num at b1; linarith
  have hf := hr.isFin hp32 (_root_.le_trans (b := (2 : ℝ) ^ 127) (by norm_num at hbig ⊢; linarith) le_max32)
  refine ⟨hf, ?_⟩
  have b3 := hr.err_add hf
  rw [u32, eta32] at b3
  have e2 := abs_add_le ((Fp.div c w).val - c.val / w.val) (c.val / w.val - c.val / L)
  rw [sub_add_sub_cancel] at e2
  norm_num at b1 b2 b3 ⊢; linarith

/-- Vectors shorter than half of `FLT_EPSILON` become the zero vector (backends with an exact square root). -/
theorem C99_short3 (bk : Backend) (hbk : bk ≠ .neon) (v : Vec3 F32)
    (hfin : v.getX.isFin = true ∧ v.getY.isFin = true ∧ v.getZ.isFin = true)
    (h : √(v.getX.val ^ 2 + v.getY.val ^ 2 + v.getZ.val ^ 2) ≤ 1 / 2 ^ 24) :
    Vec3.normalize bk v = Vec3.zero := by
  have hs : v.getX.val ^ 2 + v.getY.val ^ 2 + v.getZ.val ^ 2 ≤ (1 / 2 ^ 24) ^ 2 := by
    rw [Real.sqrt_le_left (by positivity)] at h; exact h
  obtain ⟨lf, le⟩ := C85_length3 bk hbk v hfin (hs.trans (by norm_num))
  have : (Scalar.abs (Vec3.length bk v) >. (fltEps : F32)) = false := by
    rw [Bool.eq_false_iff]; intro hc
    have hc' : (fltEps : F32).lt (Fp.abs (Vec3.length bk v)) = true := hc
    rw [lt_iff_val (by kdecide) (isNaN_of_isFin (by simpa using lf)), val_abs] at hc'
    have e : (fltEps : F32).val = 1 / 2 ^ 23 := by
      have := (lit_dyadic 1 23 (by decide) (by decide)).2
      rw [show (fltEps : F32) = Fp.lit 1 (2 ^ 23) from rfl, this]; norm_num
    rw [e] at hc'
    have := abs_sub_abs_le_abs_sub (Vec3.length bk v).val √(v.getX.val ^ 2 + v.getY.val ^ 2 + v.getZ.val ^ 2)
    rw [abs_of_nonneg (Real.sqrt_nonneg _)] at this
    unfold Spec.lengthErr at le
    norm_num at hc' h le; linarith
  unfold Vec3.normalize
  rw [this]; rfl

/-! ### The hypotheses are met -/

/-- Estimates satisfying the manuals' bounds exist: correctly rounded ones do. -/
theorem est_exists (L : Libm binary32) (bk : Backend) :
    @Spec.EstAccurate ⟨L.sin, L.cos, L.tan, L.asin, L.acos, L.atan2, fun a => Fp.div (Fp.lit 1 1) a,
      fun a => Fp.div (Fp.lit 1 1) (Fp.sqrt a)⟩ bk := by
  have h1 : ∀ v : F32, v.isFin = true → 1 / 2 ^ 100 ≤ |v.val| → |v.val| ≤ 2 ^ 100 →
      (Fp.div (Fp.lit 1 1) v).isFin = true ∧ |(Fp.div (Fp.lit 1 1) v).val * v.val - 1| ≤ 1 / 2 ^ 20 := fun v a b c => by
    have := Newton.recip1_near (.scalar true) (by exact trivial) a b c (by simp)
    exact this
  have h2 : ∀ v : F32, v.isFin = true → 1 / 2 ^ 120 ≤ v.val → v.val ≤ 2 ^ 126 →
      (Fp.div (Fp.lit 1 1) (Fp.sqrt v)).isFin = true ∧ |(Fp.div (Fp.lit 1 1) (Fp.sqrt v)).val * √v.val - 1| ≤ 1 / 2 ^ 20 := fun v a b c => by
    have := Newton.rsqrt1_near .gcc (by exact trivial) a b c (by simp)
    have e : Simd4f.rsqrt1 .gcc v = Fp.div (Fp.lit 1 1) (Fp.sqrt v) := by
      unfold Simd4f.rsqrt1
      have v0 : 0 < v.val := lt_of_lt_of_le (by positivity) b
      have : Scalar.feq v (f0 : F32) = false := by
        rw [Bool.eq_false_iff]; intro hc
        have hc' : v.feq (zero false) = true := by rw [f0_eq] at hc; exact hc
        have := (feq_iff_val (isNaN_of_isFin a) rfl).1 hc'
        rw [val_zero] at this; exact v0.ne' this
      simp only [this]; rfl
    rw [e] at this; exact this
  rcases bk with _ | _ | _ | _
  · exact ⟨fun v a b c => ⟨(h1 v a b c).1, (h1 v a b c).2.trans (by norm_num)⟩, fun v a b c => ⟨(h2 v a b c).1, (h2 v a b c).2.trans (by norm_num)⟩⟩
  · exact trivial
  · exact ⟨fun v a b c => ⟨(h1 v a b c).1, (h1 v a b c).2.trans (by norm_num)⟩, fun v a b c => ⟨(h2 v a b c).1, (h2 v a b c).2.trans (by norm_num)⟩⟩
  · exact trivial

/-- a concrete vector, every backend -/
example (bk : Backend) (he : Spec.EstAccurate bk) :
    |(Vec3.normalize bk (Vec3.init (Scalar.lit 3 1) (Scalar.lit 4 1) (Scalar.lit 12 1) : Vec3 F32)).getX.val - 3 / 13| ≤ 3 / 13 / 2 ^ 19 + 1 / 2 ^ 149 := by
  have e3 := lit_int 3 (by decide)
  have e4 := lit_int 4 (by decide)
  have e5 := lit_int 12 (by decide)
  let v : Vec3 F32 := Vec3.init (lit 3 1) (lit 4 1) (lit 12 1)
  have x : v.getX = lit 3 1 := rfl
  have y : v.getY = lit 4 1 := rfl
  have z : v.getZ = lit 12 1 := rfl
  have h2 : v.getX.val ^ 2 + v.getY.val ^ 2 + v.getZ.val ^ 2 = 13 ^ 2 := by
    rw [x, y, z, e3.2, e4.2, e5.2]; norm_num
  have hL : (13 : ℝ) = √(v.getX.val ^ 2 + v.getY.val ^ 2 + v.getZ.val ^ 2) := by rw [h2, Real.sqrt_sq (by norm_num)]
  have := (C99_normalize3 bk he v (by rw [x, y, z]; exact ⟨e3.1, e4.1, e5.1⟩) hL ⟨by norm_num, by norm_num, fun b _ => by norm_num⟩).1.2
  rw [x, e3.2] at this
  norm_num at this ⊢; exact this

/-- The bound for the scalar backend is needed: (2^-12, 0, 0) is far longer than `FLT_EPSILON`, yet becomes zero there. -/
example (b : Bool) : (Vec3.normalize (.scalar b) (Vec3.init (Scalar.lit 1 4096) f0 f0 : Vec3 F32)).getX = zero false := by
  cases b <;> kdecide

end Graphene

/-
  C137: lengths in floating point (IEEE binary32) are exact along the axes, monotone, and never below a component;
  components of normalised vectors never exceed one.
-/
import Verif.Proofs.Sqrt
import Verif.Props.Float42
import Verif.Props.Float5
import Verif.Props.Float3
import Verif.Proofs.KDecide

set_option exponentiation.threshold 3000

namespace Graphene
open Fp Spec
variable [Libm binary32]

omit [Libm binary32] in
theorem NN.not_fin {x : F32} (h : NN x) (hf : x.isFin = false) : x = .inf false := by
  cases x with
  | nan => exact absurd h.1 (by simp [Fp.isNaN])
  | inf s =>
    cases s with
    | true => exact absurd h.2 (not_le.2 inf_val_neg)
    | false => rfl
  | fin s m hm => simp [Fp.isFin] at hf

omit [Libm binary32] in
theorem fin_of_le_fin {x y : F32} (hx : NN x) (hy : y.isFin = true) (h : x.le y = true) : x.isFin = true := by
  refine isFin_of_between (a := zero false) rfl hy ?_ h
  rw [le_iff_val rfl hx.1]; simpa using hx.2

omit [Libm binary32] in
theorem NN.add_inf {x y : F32} (hx : NN x) (hy : NN y) (h : x = .inf false ∨ y = .inf false) : Fp.add x y = .inf false := by
  have k := hx.add hy
  by_contra hc
  have hf : (Fp.add x y).isFin = true := by
    cases g : (Fp.add x y).isFin
    · exact absurd (k.1.not_fin g) hc
    · rfl
  rcases h with h | h
  · have := fin_of_le_fin hx hf k.2.1; rw [h] at this; simp [Fp.isFin] at this
  · have := fin_of_le_fin hy hf k.2.2; rw [h] at this; simp [Fp.isFin] at this

omit [Libm binary32] in
/-- sums of floats that are not negative are monotone -/
theorem NN.add_mono {x y x' y' : F32} (hx : NN x) (hy : NN y) (hx' : NN x') (hy' : NN y') (h : x.le x' = true)
    (g : y.le y' = true) : (Fp.add x y).le (Fp.add x' y') = true := by
  cases fx : x'.isFin
  · rw [hx'.add_inf hy' (.inl (hx'.not_fin fx))]; exact le_inf (hx.add hy).1.1
  · cases fy : y'.isFin
    · rw [hx'.add_inf hy' (.inr (hy'.not_fin fy))]; exact le_inf (hx.add hy).1.1
    · have f1 := fin_of_le_fin hx fx h
      have f2 := fin_of_le_fin hy fy g
      rw [le_iff_val hx.1 hx'.1] at h
      rw [le_iff_val hy.1 hy'.1] at g
      exact (rnd_add f1 f2).mono (rnd_add fx fy) (by linarith)

theorem nn_self {a : F32} (ha : a.isFin = true) : NN (Fp.mul a a) :=
  ⟨(rnd_mul ha ha).not_nan, nonneg_of_rnd (rnd_mul ha ha) (mul_self_nonneg _)⟩

theorem sq_mono {a b : F32} (ha : a.isFin = true) (hb : b.isFin = true) (h : |a.val| ≤ |b.val|) :
    (Fp.mul a a).le (Fp.mul b b) = true := by
  refine (rnd_mul ha ha).mono (rnd_mul hb hb) ?_
  rw [← abs_mul_abs_self a.val, ← abs_mul_abs_self b.val]
  exact mul_le_mul h h (abs_nonneg _) (abs_nonneg _)

theorem NN.sqrt {a : F32} (h : NN a) : NN (Fp.sqrt a) := by
  cases fa : a.isFin
  · rw [h.not_fin fa]; exact (show NN (Fp.inf false : F32) from h.not_fin fa ▸ h)
  · rcases h.2.lt_or_eq with g | g
    · obtain ⟨N, -, -, -, r⟩ := sqrt_rnd fa g
      exact ⟨r.not_nan, nonneg_of_rnd r (by positivity)⟩
    · obtain ⟨f1, e⟩ := sqrt_err (f := binary32) hs32 ht32 fa h.2
      rw [← g, Real.sqrt_zero, mul_zero, _root_.sub_zero, abs_nonpos_iff] at e
      exact ⟨isNaN_of_isFin f1, e.ge⟩

/-- the rounded root is monotone on everything that is not negative -/
theorem NN.sqrt_mono {a b : F32} (ha : NN a) (hb : NN b) (h : a.le b = true) : (Fp.sqrt a).le (Fp.sqrt b) = true := by
  cases fb : b.isFin
  · rw [hb.not_fin fb]
    exact le_inf ha.sqrt.1
  · have fa := fin_of_le_fin ha fb h
    rw [le_iff_val ha.1 hb.1] at h
    rcases ha.2.lt_or_eq with g | g
    · exact Fp.sqrt_mono fa fb g h
    · obtain ⟨f1, e⟩ := sqrt_err (f := binary32) hs32 ht32 fa ha.2
      rw [← g, Real.sqrt_zero, mul_zero, _root_.sub_zero, abs_nonpos_iff] at e
      rw [le_iff_val ha.sqrt.1 hb.sqrt.1, e]
      exact hb.sqrt.2

/-! ## The rounded sums of squares -/

/-- the sum of squares under the root of `graphene_vec3_length` -/
def sum3 (bk : Backend) (v : Vec3 F32) : F32 := Simd4f.dot3Scalar bk v.value v.value
def sum2 (v : Vec2 F32) : F32 := Fp.add (Fp.mul v.getX v.getX) (Fp.mul v.getY v.getY)
def sum4 (v : Vec4 F32) : F32 :=
  Fp.add (Fp.add (Fp.mul v.getX v.getX) (Fp.mul v.getY v.getY)) (Fp.add (Fp.mul v.getZ v.getZ) (Fp.mul v.getW v.getW))

/-- finite components -/
def Spec.Fin2 (v : Vec2 F32) : Prop := v.getX.isFin = true ∧ v.getY.isFin = true
def Spec.Fin3 (v : Vec3 F32) : Prop := v.getX.isFin = true ∧ v.getY.isFin = true ∧ v.getZ.isFin = true
def Spec.Fin4 (v : Vec4 F32) : Prop :=
  v.getX.isFin = true ∧ v.getY.isFin = true ∧ v.getZ.isFin = true ∧ v.getW.isFin = true

theorem length2_eq {bk : Backend} (h : bk ≠ .neon) (v : Vec2 F32) : Vec2.length bk v = Fp.sqrt (sum2 v) :=
  sqrt1_ne_neon h _
theorem length3_eq {bk : Backend} (h : bk ≠ .neon) (v : Vec3 F32) : Vec3.length bk v = Fp.sqrt (sum3 bk v) :=
  sqrt1_ne_neon h _
theorem length4_eq {bk : Backend} (h : bk ≠ .neon) (v : Vec4 F32) : Vec4.length bk v = Fp.sqrt (sum4 v) :=
  sqrt1_ne_neon h _

/-- the three ways of adding three squares -/
theorem sum3_cases (bk : Backend) (v : Vec3 F32) (P : F32 → Prop)
    (h1 : P (Fp.add (Fp.add (Fp.mul v.getX v.getX) (Fp.mul v.getZ v.getZ)) (Fp.add (Fp.mul v.getY v.getY) f0)))
    (h2 : P (Fp.add (Fp.add (Fp.mul v.getX v.getX) (Fp.mul v.getY v.getY)) (Fp.add (Fp.mul v.getZ v.getZ) f0)))
    (h3 : P (Fp.add (Fp.add (Fp.mul v.getX v.getX) (Fp.mul v.getY v.getY)) (Fp.mul v.getZ v.getZ))) : P (sum3 bk v) := by
  rcases bk with ⟨_ | _, _⟩ | _ | _ | _
  · exact h1
  · exact h2
  all_goals exact h3

theorem nn_sum3 (bk : Backend) {v : Vec3 F32} (h : Fin3 v) : NN (sum3 bk v) ∧ (Fp.mul v.getX v.getX).le (sum3 bk v) = true ∧
    (Fp.mul v.getY v.getY).le (sum3 bk v) = true ∧ (Fp.mul v.getZ v.getZ).le (sum3 bk v) = true := by
  have nx := nn_self h.1
  have ny := nn_self h.2.1
  have nz := nn_self h.2.2
  have n0 := nn_zero
  refine sum3_cases bk v (fun d => NN d ∧ (Fp.mul v.getX v.getX).le d = true ∧
    (Fp.mul v.getY v.getY).le d = true ∧ (Fp.mul v.getZ v.getZ).le d = true) ?_ ?_ ?_
  · have a := nx.add nz
    have b := ny.add n0
    have c := a.1.add b.1
    exact ⟨c.1, Fp.le_trans a.2.1 c.2.1, Fp.le_trans b.2.1 c.2.2, Fp.le_trans a.2.2 c.2.1⟩
  · have a := nx.add ny
    have b := nz.add n0
    have c := a.1.add b.1
    exact ⟨c.1, Fp.le_trans a.2.1 c.2.1, Fp.le_trans a.2.2 c.2.1, Fp.le_trans b.2.1 c.2.2⟩
  · have a := nx.add ny
    have c := a.1.add nz
    exact ⟨c.1, Fp.le_trans a.2.1 c.2.1, Fp.le_trans a.2.2 c.2.1, c.2.2⟩

theorem nn_sum2 {v : Vec2 F32} (h : Fin2 v) : NN (sum2 v) ∧ (Fp.mul v.getX v.getX).le (sum2 v) = true ∧
    (Fp.mul v.getY v.getY).le (sum2 v) = true := (nn_self h.1).add (nn_self h.2)

theorem nn_sum4 {v : Vec4 F32} (h : Fin4 v) : NN (sum4 v) ∧ (Fp.mul v.getX v.getX).le (sum4 v) = true ∧
    (Fp.mul v.getY v.getY).le (sum4 v) = true ∧ (Fp.mul v.getZ v.getZ).le (sum4 v) = true ∧
    (Fp.mul v.getW v.getW).le (sum4 v) = true := by
  have a := (nn_self h.1).add (nn_self h.2.1)
  have b := (nn_self h.2.2.1).add (nn_self h.2.2.2)
  have c := a.1.add b.1
  exact ⟨c.1, Fp.le_trans a.2.1 c.2.1, Fp.le_trans a.2.2 c.2.1, Fp.le_trans b.2.1 c.2.2, Fp.le_trans b.2.2 c.2.2⟩

/-- C137: growing components never shrink a length, on every backend with a true square root, for all finite vectors
(also when the length overflows). -/
theorem C137_monotone (bk : Backend) (hbk : bk ≠ .neon) (a b : Vec2 F32) (c d : Vec3 F32) (v w : Vec4 F32) :
    (Fin2 a → Fin2 b → |a.getX.val| ≤ |b.getX.val| → |a.getY.val| ≤ |b.getY.val| →
      (Vec2.length bk a).le (Vec2.length bk b) = true) ∧
    (Fin3 c → Fin3 d → |c.getX.val| ≤ |d.getX.val| → |c.getY.val| ≤ |d.getY.val| → |c.getZ.val| ≤ |d.getZ.val| →
      (Vec3.length bk c).le (Vec3.length bk d) = true) ∧
    (Fin4 v → Fin4 w → |v.getX.val| ≤ |w.getX.val| → |v.getY.val| ≤ |w.getY.val| → |v.getZ.val| ≤ |w.getZ.val| →
      |v.getW.val| ≤ |w.getW.val| → (Vec4.length bk v).le (Vec4.length bk w) = true) := by
  refine ⟨?_, ?_, ?_⟩
  · intro fa fb h1 h2
    rw [length2_eq hbk, length2_eq hbk]
    exact (nn_sum2 fa).1.sqrt_mono (nn_sum2 fb).1 (NN.add_mono (nn_self fa.1) (nn_self fa.2) (nn_self fb.1) (nn_self fb.2)
      (sq_mono fa.1 fb.1 h1) (sq_mono fa.2 fb.2 h2))
  · intro fa fb h1 h2 h3
    rw [length3_eq hbk, length3_eq hbk]
    refine (nn_sum3 bk fa).1.sqrt_mono (nn_sum3 bk fb).1 ?_
    have ax := nn_self fa.1
    have ay := nn_self fa.2.1
    have az := nn_self fa.2.2
    have bx := nn_self fb.1
    have b_y := nn_self fb.2.1
    have bz := nn_self fb.2.2
    have mx := sq_mono fa.1 fb.1 h1
    have my := sq_mono fa.2.1 fb.2.1 h2
    have mz := sq_mono fa.2.2 fb.2.2 h3
    have n0 := nn_zero
    have m0 : (f0 : F32).le (f0 : F32) = true := by rw [f0_eq]; decide +kernel
    rcases bk with ⟨_ | _, _⟩ | _ | _ | _
    · exact NN.add_mono (ax.add az).1 (ay.add n0).1 (bx.add bz).1 (b_y.add n0).1 (ax.add_mono az bx bz mx mz)
        (ay.add_mono n0 b_y n0 my m0)
    · exact NN.add_mono (ax.add ay).1 (az.add n0).1 (bx.add b_y).1 (bz.add n0).1 (ax.add_mono ay bx b_y mx my)
        (az.add_mono n0 bz n0 mz m0)
    all_goals exact NN.add_mono (ax.add ay).1 az (bx.add b_y).1 bz (ax.add_mono ay bx b_y mx my) mz
  · intro fa fb h1 h2 h3 h4
    rw [length4_eq hbk, length4_eq hbk]
    have ax := nn_self fa.1
    have ay := nn_self fa.2.1
    have az := nn_self fa.2.2.1
    have aw := nn_self fa.2.2.2
    have bx := nn_self fb.1
    have b_y := nn_self fb.2.1
    have bz := nn_self fb.2.2.1
    have bw := nn_self fb.2.2.2
    exact (nn_sum4 fa).1.sqrt_mono (nn_sum4 fb).1 (NN.add_mono (ax.add ay).1 (az.add aw).1 (bx.add b_y).1 (bz.add bw).1
      (ax.add_mono ay bx b_y (sq_mono fa.1 fb.1 h1) (sq_mono fa.2.1 fb.2.1 h2))
      (az.add_mono aw bz bw (sq_mono fa.2.2.1 fb.2.2.1 h3) (sq_mono fa.2.2.2 fb.2.2.2 h4)))

/-! ## A length is never below a component -/

/-- the root of the rounded square, in single precision -/
theorem sqrt_sq32 {w : F32} (hw : w.isFin = true) (hq : (Fp.mul w w).isFin = true) (hn : 1 / 2 ^ 62 ≤ |w.val|) :
    (Fp.sqrt (Fp.mul w w)).isFin = true ∧ (Fp.sqrt (Fp.mul w w)).val = |w.val| := by
  refine Fp.sqrt_sq (f := binary32) (by decide) (by decide) hw hq ?_
  rw [u32, eta32, ← sq_abs]
  have := pow_le_pow_left₀ (by positivity) hn 2
  norm_num at this ⊢
  linarith

theorem abs_le_sqrt {w D : F32} (hw : w.isFin = true) (hD : NN D) (h : (Fp.mul w w).le D = true) (hn : 1 / 2 ^ 62 ≤ |w.val|) :
    (Fp.abs w).le (Fp.sqrt D) = true := by
  refine Fp.le_trans ?_ ((nn_self hw).sqrt_mono hD h)
  cases hq : (Fp.mul w w).isFin
  · rw [(nn_self hw).not_fin hq]; exact le_inf (by simpa using isNaN_of_isFin hw)
  · obtain ⟨f1, e⟩ := sqrt_sq32 hw hq hn
    rw [le_iff_val (by simpa using isNaN_of_isFin hw) (isNaN_of_isFin f1), val_abs, e]

/-- C137: no component (of at least `2^-62` in magnitude) exceeds the length, not even by a rounding error. -/
theorem C137_component (bk : Backend) (hbk : bk ≠ .neon) (a : Vec2 F32) (c : Vec3 F32) (v : Vec4 F32) :
    (Fin2 a → ∀ x ∈ [a.getX, a.getY], 1 / 2 ^ 62 ≤ |x.val| → (Fp.abs x).le (Vec2.length bk a) = true) ∧
    (Fin3 c → ∀ x ∈ [c.getX, c.getY, c.getZ], 1 / 2 ^ 62 ≤ |x.val| → (Fp.abs x).le (Vec3.length bk c) = true) ∧
    (Fin4 v → ∀ x ∈ [v.getX, v.getY, v.getZ, v.getW], 1 / 2 ^ 62 ≤ |x.val| → (Fp.abs x).le (Vec4.length bk v) = true) := by
  simp only [List.mem_cons, List.not_mem_nil, or_false, forall_eq_or_imp, forall_eq]
  rw [length2_eq hbk, length3_eq hbk, length4_eq hbk]
  refine ⟨fun h => ?_, fun h => ?_, fun h => ?_⟩
  · obtain ⟨n, hx, hy⟩ := nn_sum2 h
    exact ⟨abs_le_sqrt h.1 n hx, abs_le_sqrt h.2 n hy⟩
  · obtain ⟨n, hx, hy, hz⟩ := nn_sum3 bk h
    exact ⟨abs_le_sqrt h.1 n hx, abs_le_sqrt h.2.1 n hy, abs_le_sqrt h.2.2 n hz⟩
  · obtain ⟨n, hx, hy, hz, hw⟩ := nn_sum4 h
    exact ⟨abs_le_sqrt h.1 n hx, abs_le_sqrt h.2.1 n hy, abs_le_sqrt h.2.2.1 n hz, abs_le_sqrt h.2.2.2 n hw⟩

/-! ## Exact lengths -/

/-- the root of a number with the value of a rounded square -/
theorem sqrt_of_val {w D : F32} (hw : w.isFin = true) (hb : |w.val| ≤ 2 ^ 63) (hn : 1 / 2 ^ 62 ≤ |w.val|)
    (hD : D.isFin = true) (h : D.val = (Fp.mul w w).val) : (Fp.sqrt D).isFin = true ∧ (Fp.sqrt D).val = |w.val| := by
  have hq : (Fp.mul w w).isFin = true := (rnd_mul hw hw).isFin hp32 (by
    have := pow_le_pow_left₀ (abs_nonneg _) hb 2
    rw [abs_mul_self, ← sq, ← sq_abs]
    refine _root_.le_trans (_root_.le_trans this ?_) le_max32
    norm_num)
  obtain ⟨f1, e⟩ := sqrt_sq32 hw hq hn
  have nD : NN D := ⟨isNaN_of_isFin hD, by rw [h]; exact (nn_self hw).2⟩
  have l1 := nD.sqrt_mono (nn_self hw) (by rw [le_iff_val nD.1 (nn_self hw).1, h])
  have l2 := (nn_self hw).sqrt_mono nD (by rw [le_iff_val (nn_self hw).1 nD.1, h])
  rw [le_iff_val nD.sqrt.1 (nn_self hw).sqrt.1] at l1
  rw [le_iff_val (nn_self hw).sqrt.1 nD.sqrt.1] at l2
  exact ⟨(sqrt_err hs32 ht32 hD nD.2).1, by rw [← e]; exact le_antisymm l1 l2⟩

/-- adding squares of zeros changes nothing -/
theorem add_is {x y : F32} {v w : ℝ} (hx : Is x v) (hy : Is y w) (h : v = 0 ∨ w = 0) : Is (Fp.add x y) (v + w) := by
  have r := rnd_add hx.fin hy.fin
  rw [hx.val, hy.val] at r
  rcases h with h | h
  · subst h
    rw [zero_add] at r ⊢
    have e := r.exact hy.fin hy.val.symm
    refine ⟨?_, by rw [e, hy.val]⟩
    exact isFin_of_between hy.fin hy.fin (r.ge_of hy.fin hy.val.le) (r.le_of hy.fin hy.val.ge)
  · subst h
    rw [add_zero] at r ⊢
    have e := r.exact hx.fin hx.val.symm
    refine ⟨?_, by rw [e, hx.val]⟩
    exact isFin_of_between hx.fin hx.fin (r.ge_of hx.fin hx.val.le) (r.le_of hx.fin hx.val.ge)

theorem sq_zero_is {x : F32} (hx : x.isFin = true) (h : x.val = 0) : Is (Fp.mul x x) 0 := by
  have r := rnd_mul hx hx
  rw [h, mul_zero] at r
  have e := r.exact (a := zero false) rfl (by simp)
  refine ⟨isFin_of_between (a := zero false) (b := zero false) rfl rfl (r.ge_of rfl (by simp)) (r.le_of rfl (by simp)), ?_⟩
  rw [e]; simp

theorem sq_self_is {x : F32} (hx : x.isFin = true) (hb : |x.val| ≤ 2 ^ 63) : Is (Fp.mul x x) (Fp.mul x x).val := by
  refine ⟨(rnd_mul hx hx).isFin hp32 ?_, rfl⟩
  have := pow_le_pow_left₀ (abs_nonneg _) hb 2
  rw [abs_mul_self, ← sq, ← sq_abs]
  refine _root_.le_trans (_root_.le_trans this ?_) le_max32
  norm_num

/-- `w` is the only component of `l` that is not zero, and its square neither overflows nor underflows -/
def Spec.OnlyAt (l : List F32) (i : Nat) (w : F32) : Prop :=
  (∀ x ∈ l, x.isFin = true) ∧ l[i]? = some w ∧ (∀ j x, l[j]? = some x → j ≠ i → x.val = 0) ∧
  1 / 2 ^ 62 ≤ |w.val| ∧ |w.val| ≤ 2 ^ 63

theorem zero_is' : Is (f0 : F32) 0 := by rw [f0_eq]; exact ⟨rfl, by simp⟩

/-- C137: the length of a vector along an axis is exactly the magnitude of its only component. -/
theorem C137_axis (bk : Backend) (hbk : bk ≠ .neon) (i : Nat) (w : F32) (a : Vec2 F32) (c : Vec3 F32) (v : Vec4 F32) :
    (OnlyAt [a.getX, a.getY] i w → (Vec2.length bk a).isFin = true ∧ (Vec2.length bk a).val = |w.val|) ∧
    (OnlyAt [c.getX, c.getY, c.getZ] i w → (Vec3.length bk c).isFin = true ∧ (Vec3.length bk c).val = |w.val|) ∧
    (OnlyAt [v.getX, v.getY, v.getZ, v.getW] i w → (Vec4.length bk v).isFin = true ∧ (Vec4.length bk v).val = |w.val|) := by
  rw [length2_eq hbk, length3_eq hbk, length4_eq hbk]
  refine ⟨?_, ?_, ?_⟩
  · rintro ⟨hf, hi, hz, h1, h2⟩
    simp only [List.mem_cons, List.not_mem_nil, or_false, forall_eq_or_imp, forall_eq] at hf
    have key : Is (sum2 a) (Fp.mul w w).val := by
      rcases i with _ | _ | i
      · obtain rfl : a.getX = w := by simpa using hi
        simpa [sum2] using add_is (sq_self_is hf.1 h2) (sq_zero_is hf.2 (hz 1 _ rfl (by decide))) (.inr rfl)
      · obtain rfl : a.getY = w := by simpa using hi
        simpa [sum2] using add_is (sq_zero_is hf.1 (hz 0 _ rfl (by decide))) (sq_self_is hf.2 h2) (.inl rfl)
      · simp at hi
    have hw : w.isFin = true := by
      rcases i with _ | _ | i
      · obtain rfl : a.getX = w := by simpa using hi
        exact hf.1
      · obtain rfl : a.getY = w := by simpa using hi
        exact hf.2
      · simp at hi
    exact sqrt_of_val hw h2 h1 key.fin key.val
  · rintro ⟨hf, hi, hz, h1, h2⟩
    simp only [List.mem_cons, List.not_mem_nil, or_false, forall_eq_or_imp, forall_eq] at hf
    have key : w.isFin = true ∧ Is (sum3 bk c) (Fp.mul w w).val := by
      have z := zero_is'
      rcases i with _ | _ | _ | i
      · obtain rfl : c.getX = w := by simpa using hi
        have q := sq_self_is hf.1 h2
        have s := sq_zero_is hf.2.1 (hz 1 _ rfl (by decide))
        have t := sq_zero_is hf.2.2 (hz 2 _ rfl (by decide))
        refine ⟨hf.1, sum3_cases bk c (fun d => Is d _) ?_ ?_ ?_⟩
        · simpa using add_is (add_is q t (.inr rfl)) (add_is s z (.inr rfl)) (.inr (by simp))
        · simpa using add_is (add_is q s (.inr rfl)) (add_is t z (.inr rfl)) (.inr (by simp))
        · simpa using add_is (add_is q s (.inr rfl)) t (.inr rfl)
      · obtain rfl : c.getY = w := by simpa using hi
        have q := sq_self_is hf.2.1 h2
        have s := sq_zero_is hf.1 (hz 0 _ rfl (by decide))
        have t := sq_zero_is hf.2.2 (hz 2 _ rfl (by decide))
        refine ⟨hf.2.1, sum3_cases bk c (fun d => Is d _) ?_ ?_ ?_⟩
        · simpa using add_is (add_is s t (.inr rfl)) (add_is q z (.inr rfl)) (.inl (by simp))
        · simpa using add_is (add_is s q (.inl rfl)) (add_is t z (.inr rfl)) (.inr (by simp))
        · simpa using add_is (add_is s q (.inl rfl)) t (.inr rfl)
      · obtain rfl : c.getZ = w := by simpa using hi
        have q := sq_self_is hf.2.2 h2
        have s := sq_zero_is hf.1 (hz 0 _ rfl (by decide))
        have t := sq_zero_is hf.2.1 (hz 1 _ rfl (by decide))
        refine ⟨hf.2.2, sum3_cases bk c (fun d => Is d _) ?_ ?_ ?_⟩
        · simpa using add_is (add_is s q (.inl rfl)) (add_is t z (.inr rfl)) (.inr (by simp))
        · simpa using add_is (add_is s t (.inr rfl)) (add_is q z (.inr rfl)) (.inl (by simp))
        · simpa using add_is (add_is s t (.inr rfl)) q (.inl (by simp))
      · simp at hi
    exact sqrt_of_val key.1 h2 h1 key.2.fin key.2.val
  · rintro ⟨hf, hi, hz, h1, h2⟩
    simp only [List.mem_cons, List.not_mem_nil, or_false, forall_eq_or_imp, forall_eq] at hf
    have key : w.isFin = true ∧ Is (sum4 v) (Fp.mul w w).val := by
      rcases i with _ | _ | _ | _ | i
      · obtain rfl : v.getX = w := by simpa using hi
        have q := sq_self_is hf.1 h2
        have s := sq_zero_is hf.2.1 (hz 1 _ rfl (by decide))
        have t := sq_zero_is hf.2.2.1 (hz 2 _ rfl (by decide))
        have r := sq_zero_is hf.2.2.2 (hz 3 _ rfl (by decide))
        exact ⟨hf.1, by simpa [sum4] using add_is (add_is q s (.inr rfl)) (add_is t r (.inr rfl)) (.inr (by simp))⟩
      · obtain rfl : v.getY = w := by simpa using hi
        have q := sq_self_is hf.2.1 h2
        have s := sq_zero_is hf.1 (hz 0 _ rfl (by decide))
        have t := sq_zero_is hf.2.2.1 (hz 2 _ rfl (by decide))
        have r := sq_zero_is hf.2.2.2 (hz 3 _ rfl (by decide))
        exact ⟨hf.2.1, by simpa [sum4] using add_is (add_is s q (.inl rfl)) (add_is t r (.inr rfl)) (.inr (by simp))⟩
      · obtain rfl : v.getZ = w := by simpa using hi
        have q := sq_self_is hf.2.2.1 h2
        have s := sq_zero_is hf.1 (hz 0 _ rfl (by decide))
        have t := sq_zero_is hf.2.1 (hz 1 _ rfl (by decide))
        have r := sq_zero_is hf.2.2.2 (hz 3 _ rfl (by decide))
        exact ⟨hf.2.2.1, by simpa [sum4] using add_is (add_is s t (.inr rfl)) (add_is q r (.inr rfl)) (.inl (by simp))⟩
      · obtain rfl : v.getW = w := by simpa using hi
        have q := sq_self_is hf.2.2.2 h2
        have s := sq_zero_is hf.1 (hz 0 _ rfl (by decide))
        have t := sq_zero_is hf.2.1 (hz 1 _ rfl (by decide))
        have r := sq_zero_is hf.2.2.1 (hz 2 _ rfl (by decide))
        exact ⟨hf.2.2.2, by simpa [sum4] using add_is (add_is s t (.inr rfl)) (add_is r q (.inl rfl)) (.inl (by simp))⟩
      · simp at hi
    exact sqrt_of_val key.1 h2 h1 key.2.fin key.2.val

/-- the root of an exact sum of squares -/
theorem sqrt_is {D L : F32} {S : ℝ} (hD : Is D S) (hL : L.isFin = true) (h0 : 0 ≤ L.val) (h : S = L.val ^ 2) :
    (Fp.sqrt D).val = L.val := by
  have e : √D.val = L.val := by rw [hD.val, h, Real.sqrt_sq h0]
  rcases h0.lt_or_eq with g | g
  · exact Fp.sqrt_exact hD.fin (by rw [hD.val, h]; positivity) hL e
  · have s0 : D.val = 0 := by rw [hD.val, h, ← g]; norm_num
    have k := (sqrt_err (f := binary32) hs32 ht32 hD.fin s0.ge).2
    rw [s0, Real.sqrt_zero, mul_zero, _root_.sub_zero, abs_nonpos_iff] at k
    rw [k, ← g]

/-- C137: whole (or dyadic) components of up to 11 bits whose length is a float get exactly that length: 3, 4 gives 5. -/
theorem C137_pythagoras (bk : Backend) (hbk : bk ≠ .neon) {k : Nat} (hk : k + k ≤ 149) (a : Vec2 F32) (c : Vec3 F32) (v : Vec4 F32)
    (L : F32) (hL : L.isFin = true) (h0 : 0 ≤ L.val) :
    ((∀ x ∈ [a.getX, a.getY], Grid k (2 ^ 11) x) → L.val ^ 2 = a.getX.val ^ 2 + a.getY.val ^ 2 →
      (Vec2.length bk a).val = L.val) ∧
    ((∀ x ∈ [c.getX, c.getY, c.getZ], Grid k (2 ^ 11) x) → L.val ^ 2 = c.getX.val ^ 2 + c.getY.val ^ 2 + c.getZ.val ^ 2 →
      (Vec3.length bk c).val = L.val) ∧
    ((∀ x ∈ [v.getX, v.getY, v.getZ, v.getW], Grid k (2 ^ 11) x) →
      L.val ^ 2 = v.getX.val ^ 2 + v.getY.val ^ 2 + v.getZ.val ^ 2 + v.getW.val ^ 2 → (Vec4.length bk v).val = L.val) := by
  have sqg : ∀ {x : F32}, Grid k (2 ^ 11) x → OnGrid (k + k) (2 ^ 22) (Fp.mul x x) (x.val * x.val) :=
    fun h => h.on.mul hk h.on (by decide) (by decide)
  rw [length2_eq hbk, length3_eq hbk, length4_eq hbk]
  simp only [List.mem_cons, List.not_mem_nil, or_false, forall_eq_or_imp, forall_eq]
  refine ⟨?_, ?_, ?_⟩
  · rintro ⟨hx, hy⟩ e
    have s := (sqg hx).add hk (sqg hy) (D := 2 ^ 23) (by decide) (by decide)
    exact sqrt_is s.is hL h0 (by rw [e]; ring)
  · rintro ⟨hx, hy, hz⟩ e
    have z : OnGrid (k + k) 0 (f0 : F32) 0 := by rw [f0_eq]; exact OnGrid.zero
    have key : Is (sum3 bk c) (c.getX.val ^ 2 + c.getY.val ^ 2 + c.getZ.val ^ 2) := by
      refine sum3_cases bk c (fun d => Is d _) ?_ ?_ ?_
      · have s := ((sqg hx).add hk (sqg hz) (D := 2 ^ 23) (by decide) (by decide)).add hk
          ((sqg hy).add hk z (D := 2 ^ 22) (by decide) (by decide)) (D := 2 ^ 24) (by decide) (by decide)
        exact s.is.congr (by ring)
      · have s := ((sqg hx).add hk (sqg hy) (D := 2 ^ 23) (by decide) (by decide)).add hk
          ((sqg hz).add hk z (D := 2 ^ 22) (by decide) (by decide)) (D := 2 ^ 24) (by decide) (by decide)
        exact s.is.congr (by ring)
      · have s := ((sqg hx).add hk (sqg hy) (D := 2 ^ 23) (by decide) (by decide)).add hk (sqg hz) (D := 2 ^ 24)
          (by decide) (by decide)
        exact s.is.congr (by ring)
    exact sqrt_is key hL h0 e.symm
  · rintro ⟨hx, hy, hz, hw⟩ e
    have s := ((sqg hx).add hk (sqg hy) (D := 2 ^ 23) (by decide) (by decide)).add hk
      ((sqg hz).add hk (sqg hw) (D := 2 ^ 23) (by decide) (by decide)) (D := 2 ^ 24) (by decide) (by decide)
    exact sqrt_is s.is hL h0 (by rw [e]; ring)

/-! ## Components of normalised vectors -/

omit [Libm binary32] in
/-- the float after one -/
theorem above_one {y : F32} (hy : y.isFin = true) (h : 1 < y.val) : 1 + 1 / 2 ^ 23 ≤ y.val := by
  obtain ⟨k, gk, ek⟩ := units_of hy (by linarith)
  have hu : (2 : ℝ) ^ binary32.ubit = 2 ^ 149 := rfl
  rw [hu] at ek
  rw [ek, lt_div_iff₀ (by positivity), one_mul] at h
  have h1 : 2 ^ 149 < k := by exact_mod_cast h
  have hd : 2 ^ 126 ∣ k := by
    refine Nat.dvd_trans (pow_dvd_pow 2 ?_) gk
    have := (Nat.le_log2 (by omega)).2 h1.le
    show 126 ≤ k.log2 + 1 - 24
    omega
  obtain ⟨j, rfl⟩ := hd
  have h2 : 2 ^ 149 + 2 ^ 126 ≤ 2 ^ 126 * j := by
    have : 2 ^ 23 < j := by
      by_contra hc
      have := Nat.mul_le_mul_left (2 ^ 126) (not_lt.1 hc)
      norm_num at this h1; omega
    have := Nat.mul_le_mul_left (2 ^ 126) (Nat.succ_le_of_lt this)
    norm_num at this ⊢; omega
  have h3 : (2 : ℝ) ^ 149 + 2 ^ 126 ≤ ((2 ^ 126 * j : ℕ) : ℝ) := by exact_mod_cast h2
  rw [ek, le_div_iff₀ (by positivity)]
  refine _root_.le_trans (_root_.le_of_eq ?_) h3
  norm_num

/-- rounding something closer to one than to the next float does not exceed one -/
theorem rnd_le_one {p : ℝ} {r : F32} (h : Rnd p r) (hp : |p| < 1 + 1 / 2 ^ 24) : r.isFin = true ∧ |r.val| ≤ 1 := by
  have hf : r.isFin = true := h.isFin hp32 (hp.le.trans (_root_.le_trans (by norm_num) le_max32))
  refine ⟨hf, ?_⟩
  have o : (f1 : F32).val = 1 := is_f1.val
  have n := h.nearest hf is_f1.fin
  have n' := h.nearest (c := Fp.neg f1) hf (by simpa using is_f1.fin)
  rw [val_neg, o] at n'
  rw [o] at n
  rw [abs_lt] at hp
  rw [_root_.abs_le]
  constructor
  · by_contra hc
    have g := above_one (y := Fp.neg r) (by simpa using hf) (by rw [val_neg]; linarith)
    rw [val_neg] at g
    have : r.val - p < 0 := by norm_num at hp g ⊢; linarith
    rw [abs_of_neg this] at n'
    rcases abs_cases (-1 - p) with ⟨e, q⟩ | ⟨e, q⟩ <;> rw [e] at n' <;> norm_num at hp g n' <;> linarith
  · by_contra hc
    have g := above_one hf (by linarith)
    have : 0 < r.val - p := by norm_num at hp g ⊢; linarith
    rw [abs_of_pos this] at n
    rcases abs_cases (1 - p) with ⟨e, q⟩ | ⟨e, q⟩ <;> rw [e] at n <;> norm_num at hp g n <;> linarith


omit [Libm binary32] in
/-- every finite float is below `2^128` -/
theorem val_le_top {x : F32} (h : x.isFin = true) : x.val ≤ 2 ^ 128 := by
  cases x with
  | nan => simp [Fp.isFin] at h
  | inf s => simp [Fp.isFin] at h
  | fin s m hm =>
    have h1 : (m : ℝ) ≤ 2 ^ 277 := by exact_mod_cast hm.1.le
    have h0 : (0 : ℝ) ≤ m := Nat.cast_nonneg _
    have hu : (2 : ℝ) ^ binary32.ubit = 2 ^ 149 := rfl
    rw [val_fin, sgn_real, hu, div_le_iff₀ (by positivity)]
    cases s
    · simp only [Bool.false_eq_true, if_false]
      norm_num at h1 ⊢; linarith
    · simp only [if_true]
      have : (0 : ℝ) < 2 ^ 128 * 2 ^ 149 := by positivity
      linarith

/-- the reciprocal root of the backends that divide by the square root -/
theorem unit_core {x D : F32} (hx : x.isFin = true) (hD : NN D) (h : (Fp.mul x x).le D = true)
    (hL : (1 : ℝ) / 2 ^ 23 < (Fp.sqrt D).val ∨ (Fp.sqrt D).isFin = false) :
    (Fp.mul x (Fp.div f1 (Fp.sqrt D))).isFin = true ∧ |(Fp.mul x (Fp.div f1 (Fp.sqrt D))).val| ≤ 1 := by
  have nL := hD.sqrt
  cases hf : (Fp.sqrt D).isFin
  · have e : Fp.div (f1 : F32) (Fp.sqrt D) = zero false := by
      rw [nL.not_fin hf]; kdecide
    rw [e]
    refine rnd_le_one (rnd_mul hx rfl) ?_
    simp; norm_num
  · have hL : (1 : ℝ) / 2 ^ 23 < (Fp.sqrt D).val := by
      rcases hL with g | g
      · exact g
      · rw [hf] at g; simp at g
    have fD : D.isFin = true := by
      cases g : D.isFin
      · rw [hD.not_fin g] at hf; simp [Fp.sqrt, Fp.isFin] at hf
      · rfl
    set L := Fp.sqrt D with hLdef
    have hL0 : 0 < L.val := _root_.lt_trans (by norm_num) hL
    have hLup : L.val ≤ 2 ^ 65 := by
      have k := (sqrt_err (f := binary32) hs32 ht32 fD hD.2).2
      rw [← hLdef] at k
      have m : D.val ≤ 2 ^ 128 := val_le_top fD
      have q : √D.val ≤ 2 ^ 64 := by
        rw [Real.sqrt_le_left (by positivity)]
        exact m.trans (by norm_num)
      rw [u32] at k
      have k' := (_root_.abs_le.1 k).2
      have q0 := Real.sqrt_nonneg D.val
      norm_num at k' q ⊢; linarith
    have rR := rnd_div (is_f1).fin hf hL0.ne'
    rw [is_f1.val] at rR
    have hi : 1 / L.val < 2 ^ 23 := by
      rw [div_lt_iff₀ hL0]
      have := mul_lt_mul_of_pos_left hL (show (0:ℝ) < 2 ^ 23 by positivity)
      norm_num at this ⊢; linarith
    have hi0 : 1 / 2 ^ 65 ≤ 1 / L.val := by gcongr
    have hip : 0 < 1 / L.val := by positivity
    have fR : (Fp.div f1 L).isFin = true := rR.isFin hp32 (by
      rw [abs_of_pos hip]; exact hi.le.trans (_root_.le_trans (by norm_num) le_max32))
    set R := Fp.div f1 L with hR
    have eR : |R.val - 1 / L.val| < 1 / 2 ^ 24 * (1 / L.val) := by
      rcases rR.err_sharp fR with g | ⟨g, -⟩
      · refine _root_.lt_of_le_of_lt g ?_
        rw [eta32]
        refine _root_.lt_of_lt_of_le ?_ (mul_le_mul_of_nonneg_left hi0 (by positivity))
        norm_num
      · rw [u32, abs_of_pos hip] at g
        norm_num at g ⊢; exact g
    have hR0 : 0 ≤ R.val := nonneg_of_rnd rR hip.le
    have hRup := (abs_lt.1 eR).2
    refine rnd_le_one (rnd_mul hx fR) ?_
    rw [_root_.abs_mul, abs_of_nonneg hR0]
    by_cases hn : 1 / 2 ^ 62 ≤ |x.val|
    · have k := abs_le_sqrt hx hD h hn
      rw [le_iff_val (by simpa using isNaN_of_isFin hx) nL.1, val_abs] at k
      have hx0 : 0 < |x.val| := _root_.lt_of_lt_of_le (by positivity) hn
      calc |x.val| * R.val < |x.val| * ((1 + 1 / 2 ^ 24) * (1 / L.val)) := by
            refine mul_lt_mul_of_pos_left ?_ hx0
            linarith
        _ ≤ L.val * ((1 + 1 / 2 ^ 24) * (1 / L.val)) := by
            refine mul_le_mul_of_nonneg_right k (by positivity)
        _ = 1 + 1 / 2 ^ 24 := by field_simp
    · have hx1 := not_le.1 hn
      have hRc : R.val ≤ 2 ^ 24 := by
        have : 1 / 2 ^ 24 * (1 / L.val) ≤ 1 * (1 / L.val) := mul_le_mul_of_nonneg_right (by norm_num) hip.le
        norm_num at this hRup hi ⊢; linarith
      have := mul_le_mul hx1.le hRc hR0 (by positivity)
      refine _root_.lt_of_le_of_lt this ?_
      norm_num


/-- the backends whose reciprocal root divides by the correctly rounded root -/
def Spec.ExactRoot : Backend → Prop
  | .gcc => True
  | .scalar _ => True
  | _ => False

theorem unit_comp1 {bk : Backend} (hbk : ExactRoot bk) {x D : F32} (hx : x.isFin = true) (hD : NN D)
    (h : (Fp.mul x x).le D = true) (hL : (Scalar.abs (Fp.sqrt D) >. (fltEps : F32)) = true) :
    (Fp.mul x (Simd4f.rsqrt1 bk D)).isFin = true ∧ |(Fp.mul x (Simd4f.rsqrt1 bk D)).val| ≤ 1 := by
  have z : (Fp.mul x f0).isFin = true ∧ |(Fp.mul x f0).val| ≤ 1 := by
    refine rnd_le_one (rnd_mul hx zero_is'.fin) ?_
    rw [zero_is'.val]; norm_num
  have key : (1 : ℝ) / 2 ^ 23 < (Fp.sqrt D).val ∨ (Fp.sqrt D).isFin = false := by
    cases hf : (Fp.sqrt D).isFin
    · exact .inr rfl
    · left
      have hL' : (fltEps : F32).lt (Fp.abs (Fp.sqrt D)) = true := hL
      have e := lit_dyadic 1 23 (by decide) (by decide)
      have e1 : (fltEps : F32) = Fp.lit 1 (2 ^ 23) := rfl
      rw [e1, lt_iff_val (isNaN_of_isFin e.1) (by simpa using isNaN_of_isFin hf), val_abs, abs_of_nonneg hD.sqrt.2, e.2] at hL'
      push_cast at hL'; exact hL'
  have main := unit_core hx hD h key
  rcases bk with _ | _ | _ | _
  · exact hbk.elim
  · show (Fp.mul x (if Scalar.feq D f0 then f0 else Fp.div f1 (Fp.sqrt D))).isFin = true ∧ _ ≤ _
    simp only [Simd4f.rsqrt1]
    split_ifs
    · exact z
    · exact main
  · exact hbk.elim
  · show (Fp.mul x (if Scalar.abs D >. fltEps then Fp.div f1 (Fp.sqrt D) else f0)).isFin = true ∧ _ ≤ _
    simp only [Simd4f.rsqrt1]
    split_ifs
    · exact main
    · exact z

theorem initZero_unit : (f0 : F32).isFin = true ∧ |(f0 : F32).val| ≤ 1 := by
  rw [zero_is'.val]; exact ⟨zero_is'.fin, by norm_num⟩

/-- C137: whatever the finite vector - however long, short or lopsided - the components of the normalised vector are numbers of at
most one in magnitude, not even a rounding error above it, when the backend divides by a correctly rounded root. -/
theorem C137_unit (bk : Backend) (hbk : ExactRoot bk) (a : Vec2 F32) (c : Vec3 F32) (v : Vec4 F32) :
    (Fin2 a → ∀ x ∈ [(Vec2.normalize bk a).getX, (Vec2.normalize bk a).getY], x.isFin = true ∧ |x.val| ≤ 1) ∧
    (Fin3 c → ∀ x ∈ [(Vec3.normalize bk c).getX, (Vec3.normalize bk c).getY, (Vec3.normalize bk c).getZ],
      x.isFin = true ∧ |x.val| ≤ 1) ∧
    (Fin4 v → ∀ x ∈ [(Vec4.normalize bk v).getX, (Vec4.normalize bk v).getY, (Vec4.normalize bk v).getZ,
      (Vec4.normalize bk v).getW], x.isFin = true ∧ |x.val| ≤ 1) := by
  have hn : bk ≠ .neon := by rintro rfl; exact hbk
  simp only [List.mem_cons, List.not_mem_nil, or_false, forall_eq_or_imp, forall_eq]
  refine ⟨fun h => ?_, fun h => ?_, fun h => ?_⟩
  · obtain ⟨n, hx, hy⟩ := nn_sum2 h
    unfold Vec2.normalize
    split_ifs with g
    · rw [length2_eq hn] at g
      exact ⟨unit_comp1 hbk h.1 n hx g, unit_comp1 hbk h.2 n hy g⟩
    · exact ⟨initZero_unit, initZero_unit⟩
  · obtain ⟨n, hx, hy, hz⟩ := nn_sum3 bk h
    unfold Vec3.normalize
    split_ifs with g
    · rw [length3_eq hn] at g
      exact ⟨unit_comp1 hbk h.1 n hx g, unit_comp1 hbk h.2.1 n hy g, unit_comp1 hbk h.2.2 n hz g⟩
    · exact ⟨initZero_unit, initZero_unit, initZero_unit⟩
  · obtain ⟨n, hx, hy, hz, hw⟩ := nn_sum4 h
    unfold Vec4.normalize
    split_ifs with g
    · rw [length4_eq hn] at g
      exact ⟨unit_comp1 hbk h.1 n hx g, unit_comp1 hbk h.2.1 n hy g, unit_comp1 hbk h.2.2.1 n hz g, unit_comp1 hbk h.2.2.2 n hw g⟩
    · exact ⟨initZero_unit, initZero_unit, initZero_unit, initZero_unit⟩


/-- C137, the limits of the guarantee: the length of `(2^-75, 0, 0)` is zero and that of `(2^64, 0, 0)` is infinite, because the
squares underflow and overflow. -/
theorem C137_range (bk : Backend) (hbk : bk ≠ .neon) :
    Vec3.length bk (Vec3.init (Fp.lit 1 (2 ^ 75)) (Fp.lit 0 1) (Fp.lit 0 1)) = (Fp.zero false : F32) ∧
    Vec3.length bk (Vec3.init (Fp.lit (2 ^ 64) 1) (Fp.lit 0 1) (Fp.lit 0 1)) = (Fp.inf false : F32) := by
  rw [length3_eq hbk, length3_eq hbk]
  constructor
  · refine sum3_cases bk _ (fun d => Fp.sqrt d = Fp.zero false) ?_ ?_ ?_ <;> kdecide
  · refine sum3_cases bk _ (fun d => Fp.sqrt d = Fp.inf false) ?_ ?_ ?_ <;> kdecide

example : OnlyAt [(Vec2.init (Fp.lit (-5) 2) (Fp.lit 0 1) : Vec2 F32).getX,
    (Vec2.init (Fp.lit (-5) 2) (Fp.lit 0 1) : Vec2 F32).getY] 0 (Fp.lit (-5) 2) := by
  have h := lit_dyadic (-5) 1 (by decide) (by decide)
  have h' : (Fp.lit (-5) 2 : F32).isFin = true ∧ (Fp.lit (-5) 2 : F32).val = -5 / 2 := by
    refine ⟨h.1, (h.2).trans (by norm_num)⟩
  have z := lit_int 0 (by decide)
  have e : [(Vec2.init (Fp.lit (-5) 2) (Fp.lit 0 1) : Vec2 F32).getX,
    (Vec2.init (Fp.lit (-5) 2) (Fp.lit 0 1) : Vec2 F32).getY] = [Fp.lit (-5) 2, Fp.lit 0 1] := rfl
  rw [e]
  refine ⟨?_, rfl, ?_, ?_, ?_⟩
  · simpa using ⟨h'.1, z.1⟩
  · intro j x hj hne
    rcases j with _ | _ | j
    · exact absurd rfl hne
    · obtain rfl : Fp.lit 0 1 = x := by simpa using hj
      simpa using z.2
    · simp at hj
  · rw [h'.2]; norm_num [abs_of_neg]
  · rw [h'.2]; norm_num [abs_of_neg]

example : Grid 0 (2 ^ 11) (Fp.lit 3 1) ∧ Grid 0 (2 ^ 11) (Fp.lit 4 1) ∧
    (Fp.lit 5 1 : F32).val ^ 2 = (Fp.lit 3 1 : F32).val ^ 2 + (Fp.lit 4 1 : F32).val ^ 2 := by
  have h3 := lit_int 3 (by decide)
  have h4 := lit_int 4 (by decide)
  have h5 := lit_int 5 (by decide)
  refine ⟨⟨h3.1, 3, by norm_num, by rw [h3.2]; norm_num⟩, ⟨h4.1, 4, by norm_num, by rw [h4.2]; norm_num⟩, ?_⟩
  rw [h3.2, h4.2, h5.2]; norm_num

example : ExactRoot .gcc ∧ ExactRoot (.scalar true) ∧
    Fin3 (Vec3.init (Fp.lit (2 ^ 100) 1) (Fp.lit 1 3) (Fp.lit (-7) (2 ^ 80)) : Vec3 F32) := by
  refine ⟨trivial, trivial, ?_⟩
  unfold Fin3
  kdecide

end Graphene

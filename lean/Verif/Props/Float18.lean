/-
  C107: quaternions in floating point (IEEE binary32).
-/
import Verif.Props.Quats1
import Verif.Props.Float1
import Verif.Props.Float12
import Verif.Props.Float13
import Verif.Props.Float14
import Mathlib.Analysis.Quaternion
import Mathlib.Analysis.SpecialFunctions.Exp
import Verif.Proofs.KDecide

set_option exponentiation.threshold 3000

namespace Graphene
open Fp Spec

/-- the quaternion stored: the four components as real numbers -/
noncomputable def Spec.exactQ (q : Quat F32) : Quat ℝ := ⟨q.x.val, q.y.val, q.z.val, q.w.val⟩
/-- the same in Mathlib's algebra of quaternions -/
noncomputable def Spec.ham (q : Quat F32) : Quaternion ℝ := quat (exactQ q)
/-- no component is infinite or NaN -/
def Spec.FiniteQ (q : Quat F32) : Prop :=
  q.x.isFin = true ∧ q.y.isFin = true ∧ q.z.isFin = true ∧ q.w.isFin = true

theorem ham_norm_sq (q : Quat F32) :
    ‖ham q‖ ^ 2 = q.x.val ^ 2 + q.y.val ^ 2 + q.z.val ^ 2 + q.w.val ^ 2 := by
  rw [pow_two, ← Quaternion.normSq_eq_norm_mul_self, Quaternion.normSq_def']
  simp only [ham, quat, exactQ]; ring

theorem norm_le_of_comp {p : Quaternion ℝ} {e : ℝ} (h0 : |p.re| ≤ e) (h1 : |p.imI| ≤ e) (h2 : |p.imJ| ≤ e)
    (h3 : |p.imK| ≤ e) : ‖p‖ ≤ 2 * e := by
  have he : 0 ≤ e := (abs_nonneg _).trans h0
  have q : ∀ {x : ℝ}, |x| ≤ e → x ^ 2 ≤ e ^ 2 := fun h => sq_le_sq' (_root_.abs_le.1 h).1 (_root_.abs_le.1 h).2
  have h : ‖p‖ ^ 2 ≤ (2 * e) ^ 2 := by
    rw [pow_two ‖p‖, ← Quaternion.normSq_eq_norm_mul_self, Quaternion.normSq_def']
    nlinarith [q h0, q h1, q h2, q h3]
  exact (sq_le_sq₀ (norm_nonneg _) (by linarith)).1 h

/-- Cauchy-Schwarz for the four products that make up a component -/
theorem abs4_le (a b c d e f g h : ℝ) {A B : ℝ} (hA : 0 ≤ A) (hB : 0 ≤ B)
    (h1 : A ^ 2 = a ^ 2 + b ^ 2 + c ^ 2 + d ^ 2) (h2 : B ^ 2 = e ^ 2 + f ^ 2 + g ^ 2 + h ^ 2) :
    |a * e| + |b * f| + |c * g| + |d * h| ≤ A * B := by
  have k : (|a * e| + |b * f| + |c * g| + |d * h|) ^ 2 ≤ (A * B) ^ 2 := by
    simp only [_root_.abs_mul, mul_pow, h1, h2]
    have s : ∀ x : ℝ, x ^ 2 = |x| ^ 2 := fun x => (sq_abs x).symm
    rw [s a, s b, s c, s d, s e, s f, s g, s h]
    nlinarith [sq_nonneg (|a| * |f| - |b| * |e|), sq_nonneg (|a| * |g| - |c| * |e|), sq_nonneg (|a| * |h| - |d| * |e|),
      sq_nonneg (|b| * |g| - |c| * |f|), sq_nonneg (|b| * |h| - |d| * |f|), sq_nonneg (|c| * |h| - |d| * |g|)]
  exact (sq_le_sq₀ (by positivity) (by positivity)).1 k

variable [Libm binary32]

theorem sub2_approx {p q : F32} {x y A B E F : ℝ} (hp : Approx p x A E) (hq : Approx q y B F)
    (h : E + F ≤ 2 ^ 127) :
    Approx (Fp.sub p q) (x - y) (A + B) ((1 + 1 / 16777216) * (E + F)) := by
  have := Approx.sub hp32 hp hq (h.trans le_max32)
  rwa [u32] at this

/-- three additions or subtractions of four products, one after the other -/
theorem seq4 {a b c d e f g h : F32} (ha : a.isFin = true) (hb : b.isFin = true) (hc : c.isFin = true)
    (hd : d.isFin = true) (he : e.isFin = true) (hf : f.isFin = true) (hg : g.isFin = true) (hh : h.isFin = true)
    {S : ℝ} (hS : |a.val * e.val| + |b.val * f.val| + |c.val * g.val| + |d.val * h.val| ≤ S) (hb' : S ≤ 2 ^ 125) :
    let r := Fp.sub (Fp.add (Fp.add (Fp.mul a e) (Fp.mul b f)) (Fp.mul c g)) (Fp.mul d h)
    let t := Fp.sub (Fp.sub (Fp.sub (Fp.mul a e) (Fp.mul b f)) (Fp.mul c g)) (Fp.mul d h)
    (r.isFin = true ∧ |r.val - (a.val * e.val + b.val * f.val + c.val * g.val - d.val * h.val)| ≤ S / 2 ^ 21 + 1 / 2 ^ 146) ∧
    (t.isFin = true ∧ |t.val - (a.val * e.val - b.val * f.val - c.val * g.val - d.val * h.val)| ≤ S / 2 ^ 21 + 1 / 2 ^ 146) := by
  have n1 := abs_nonneg (a.val * e.val)
  have n2 := abs_nonneg (b.val * f.val)
  have n3 := abs_nonneg (c.val * g.val)
  have n4 := abs_nonneg (d.val * h.val)
  have big : (2 : ℝ) ^ 125 ≤ 2 ^ 126 := by norm_num
  have p1 := prod_approx ha he (by linarith)
  have p2 := prod_approx hb hf (by linarith)
  have p3 := prod_approx hc hg (by linarith)
  have p4 := prod_approx hd hh (by linarith)
  intro r t
  generalize |a.val * e.val| = A at *
  generalize |b.val * f.val| = B at *
  generalize |c.val * g.val| = C at *
  generalize |d.val * h.val| = D at *
  constructor
  · have q1 := sum2_approx p1 p2 (by norm_num at hb' ⊢; linarith)
    have q2 := sum2_approx q1 p3 (by norm_num at hb' ⊢; linarith)
    have q := sub2_approx q2 p4 (by norm_num at hb' ⊢; linarith)
    exact ⟨q.fin, q.err.trans (by norm_num at hb' ⊢; linarith)⟩
  · have q1 := sub2_approx p1 p2 (by norm_num at hb' ⊢; linarith)
    have q2 := sub2_approx q1 p3 (by norm_num at hb' ⊢; linarith)
    have q := sub2_approx q2 p4 (by norm_num at hb' ⊢; linarith)
    exact ⟨q.fin, q.err.trans (by norm_num at hb' ⊢; linarith)⟩

/-- C107: the product of two finite quaternions whose lengths multiply to at most `2^120` is finite, and every component
is within `‖a‖‖b‖ / 2^21 + 2^-146` of Hamilton's product of the stored values. -/
theorem C107_multiply (a b : Quat F32) (ha : FiniteQ a) (hb : FiniteQ b) (h : ‖ham a‖ * ‖ham b‖ ≤ 2 ^ 120) :
    let r := Quat.multiply a b
    let e := ‖ham a‖ * ‖ham b‖ / 2 ^ 21 + 1 / 2 ^ 146
    FiniteQ r ∧ |r.w.val - (ham a * ham b).re| ≤ e ∧ |r.x.val - (ham a * ham b).imI| ≤ e ∧
      |r.y.val - (ham a * ham b).imJ| ≤ e ∧ |r.z.val - (ham a * ham b).imK| ≤ e := by
  obtain ⟨a1, a2, a3, a4⟩ := ha
  obtain ⟨b1, b2, b3, b4⟩ := hb
  have hA := ham_norm_sq a
  have hB := ham_norm_sq b
  have nA := norm_nonneg (ham a)
  have nB := norm_nonneg (ham b)
  have big : ‖ham a‖ * ‖ham b‖ ≤ 2 ^ 125 := h.trans (by norm_num)
  have kx := (seq4 a1 a4 a2 a3 b4 b1 b3 b2 (S := ‖ham a‖ * ‖ham b‖)
    (abs4_le _ _ _ _ _ _ _ _ nA nB (by linarith) (by linarith)) big).1
  have ky := (seq4 a2 a4 a3 a1 b4 b2 b1 b3 (S := ‖ham a‖ * ‖ham b‖)
    (abs4_le _ _ _ _ _ _ _ _ nA nB (by linarith) (by linarith)) big).1
  have kz := (seq4 a3 a4 a1 a2 b4 b3 b2 b1 (S := ‖ham a‖ * ‖ham b‖)
    (abs4_le _ _ _ _ _ _ _ _ nA nB (by linarith) (by linarith)) big).1
  have kw := (seq4 a4 a1 a2 a3 b4 b1 b2 b3 (S := ‖ham a‖ * ‖ham b‖)
    (abs4_le _ _ _ _ _ _ _ _ nA nB (by linarith) (by linarith)) big).2
  intro r e
  refine ⟨⟨kx.1, ky.1, kz.1, kw.1⟩, ?_, ?_, ?_, ?_⟩
  · rw [show (ham a * ham b).re = a.w.val * b.w.val - a.x.val * b.x.val - a.y.val * b.y.val - a.z.val * b.z.val by
      simp only [ham, Quaternion.re_mul, quat_re, quat_i, quat_j, quat_k, exactQ]]
    exact kw.2
  · rw [show (ham a * ham b).imI = a.x.val * b.w.val + a.w.val * b.x.val + a.y.val * b.z.val - a.z.val * b.y.val by
      simp only [ham, Quaternion.imI_mul, quat_re, quat_i, quat_j, quat_k, exactQ]; ring]
    exact kx.2
  · rw [show (ham a * ham b).imJ = a.y.val * b.w.val + a.w.val * b.y.val + a.z.val * b.x.val - a.x.val * b.z.val by
      simp only [ham, Quaternion.imJ_mul, quat_re, quat_i, quat_j, quat_k, exactQ]; ring]
    exact ky.2
  · rw [show (ham a * ham b).imK = a.z.val * b.w.val + a.w.val * b.z.val + a.x.val * b.y.val - a.y.val * b.x.val by
      simp only [ham, Quaternion.imK_mul, quat_re, quat_i, quat_j, quat_k, exactQ]; ring]
    exact kz.2

/-- C107: as a distance: the computed product is within `‖a‖‖b‖ / 2^20 + 2^-145` of the true one. -/
theorem C107_multiply_norm (a b : Quat F32) (ha : FiniteQ a) (hb : FiniteQ b) (h : ‖ham a‖ * ‖ham b‖ ≤ 2 ^ 120) :
    FiniteQ (Quat.multiply a b) ∧
      ‖ham (Quat.multiply a b) - ham a * ham b‖ ≤ ‖ham a‖ * ‖ham b‖ / 2 ^ 20 + 1 / 2 ^ 145 := by
  obtain ⟨f, h0, h1, h2, h3⟩ := C107_multiply a b ha hb h
  refine ⟨f, (norm_le_of_comp (e := ‖ham a‖ * ‖ham b‖ / 2 ^ 21 + 1 / 2 ^ 146) ?_ ?_ ?_ ?_).trans (by
    norm_num; linarith)⟩
  · rw [Quaternion.re_sub]; exact h0
  · rw [Quaternion.imI_sub]; exact h1
  · rw [Quaternion.imJ_sub]; exact h2
  · rw [Quaternion.imK_sub]; exact h3

/-- the running product of a list of quaternions, as a program accumulates rotations -/
def Spec.accumulate (l : List (Quat F32)) : Quat F32 := l.foldl Quat.multiply Quat.identity
/-- the true product -/
noncomputable def Spec.trueProduct (l : List (Quat F32)) : Quaternion ℝ := (l.map ham).prod

theorem ham_identity : ham Quat.identity = 1 ∧ FiniteQ (Quat.identity : Quat F32) := by
  have z : (f0 : F32).val = 0 := by rw [f0_eq]; exact Is.zero_is.val
  have o : (f1 : F32).val = 1 := is_f1.val
  have f : (f0 : F32).isFin = true := by rw [f0_eq]; rfl
  refine ⟨?_, f, f, f, is_f1.fin⟩
  simp only [ham, exactQ, Quat.identity, z, o, quat]; rfl

/-- C107: accumulating any number of factors.  As long as the true length of every partial product stays between `2^-100`
and `2^120 / (1 + 2^-19)^n`, everything stays finite and the result is off by at most the factor `(1 + 2^-19)^n - 1`. -/
theorem C107_chain (l : List (Quat F32)) (hl : ∀ q ∈ l, FiniteQ q)
    (lo : ∀ k ≤ l.length, 1 / 2 ^ 100 ≤ ‖trueProduct (l.take k)‖)
    (hi : ∀ k ≤ l.length, (1 + 1 / 2 ^ 19) ^ k * ‖trueProduct (l.take k)‖ ≤ 2 ^ 120) :
    FiniteQ (accumulate l) ∧
      ‖ham (accumulate l) - trueProduct l‖ ≤ ((1 + 1 / 2 ^ 19) ^ l.length - 1) * ‖trueProduct l‖ := by
  induction l using List.reverseRecOn with
  | nil =>
    refine ⟨ham_identity.2, ?_⟩
    simp [accumulate, trueProduct, ham_identity.1]
  | append_singleton l q ih =>
    have tk : ∀ k ≤ l.length, (l ++ [q]).take k = l.take k := fun k hk => List.take_append_of_le_length hk
    have len : (l ++ [q]).length = l.length + 1 := by simp
    obtain ⟨f, e⟩ := ih (fun p hp => hl p (by simp [hp]))
      (fun k hk => by have := lo k (by rw [len]; omega); rwa [tk k hk] at this)
      (fun k hk => by have := hi k (by rw [len]; omega); rwa [tk k hk] at this)
    have hq : FiniteQ q := hl q (by simp)
    have last : (l ++ [q]).take (l.length + 1) = l ++ [q] := by rw [← len, List.take_length]
    have lo' := lo (l.length + 1) (by rw [len])
    have hi' := hi (l.length + 1) (by rw [len])
    rw [last] at lo' hi'
    have tp : trueProduct (l ++ [q]) = trueProduct l * ham q := by simp [trueProduct]
    have ac : accumulate (l ++ [q]) = Quat.multiply (accumulate l) q := by simp [accumulate]
    rw [tp, norm_mul] at lo' hi'
    rw [ac, tp, len]
    set c : ℝ := 1 + 1 / 2 ^ 19 with hc
    set p := ham (accumulate l)
    set P := trueProduct l
    set N := ‖P‖
    set Q := ‖ham q‖ with hQ
    have hN : 0 ≤ N := norm_nonneg _
    have hQ0 : 0 ≤ Q := norm_nonneg _
    have c1 : (1 : ℝ) ≤ c := by rw [hc]; norm_num
    have cn : (1 : ℝ) ≤ c ^ l.length := one_le_pow₀ c1
    have pn : ‖p‖ ≤ c ^ l.length * N := by
      have := norm_add_le (p - P) P
      rw [sub_add_cancel] at this
      change ‖p‖ ≤ ‖p - P‖ + N at this
      nlinarith
    have pq : ‖p‖ * Q ≤ c ^ l.length * (N * Q) := by
      have := mul_le_mul_of_nonneg_right pn hQ0
      linarith
    have up : c ^ l.length * (N * Q) ≤ c ^ (l.length + 1) * (N * Q) :=
      mul_le_mul_of_nonneg_right (pow_le_pow_right₀ c1 (by omega)) (by positivity)
    obtain ⟨f', e'⟩ := C107_multiply_norm (accumulate l) q f hq (by linarith)
    refine ⟨f', ?_⟩
    have t := norm_add_le (ham (Quat.multiply (accumulate l) q) - p * ham q) ((p - P) * ham q)
    have et : ham (Quat.multiply (accumulate l) q) - p * ham q + (p - P) * ham q =
        ham (Quat.multiply (accumulate l) q) - P * ham q := by rw [sub_mul]; abel
    rw [et, norm_mul (p - P)] at t
    have e2 : ‖p - P‖ * Q ≤ (c ^ l.length - 1) * N * Q := mul_le_mul_of_nonneg_right e hQ0
    have e3 : ‖ham (Quat.multiply (accumulate l) q) - p * ham q‖ ≤ c ^ l.length * (N * Q) / 2 ^ 20 + 1 / 2 ^ 145 :=
      e'.trans (by gcongr)
    have e4 : (1 : ℝ) / 2 ^ 145 ≤ c ^ l.length * (N * Q) / 2 ^ 20 := by
      have : (1 : ℝ) / 2 ^ 100 ≤ c ^ l.length * (N * Q) := lo'.trans (le_mul_of_one_le_left (by positivity) cn)
      calc (1 : ℝ) / 2 ^ 145 ≤ 1 / 2 ^ 100 / 2 ^ 20 := by norm_num
        _ ≤ _ := by gcongr
    have e5 : (c ^ (l.length + 1) - 1) * (N * Q) =
        (c ^ l.length - 1) * N * Q + c ^ l.length * (N * Q) / 2 ^ 20 + c ^ l.length * (N * Q) / 2 ^ 20 := by
      rw [pow_succ, hc]; ring
    have e6 : ‖P * ham q‖ = N * Q := norm_mul _ _
    rw [e6, e5]
    change _ ≤ _ + ‖p - P‖ * Q at t
    refine t.trans ((add_le_add e3 e2).trans ?_)
    generalize c ^ l.length * (N * Q) / 2 ^ 20 = X at *
    generalize (c ^ l.length - 1) * N * Q = Y at *
    linarith

/-- C107: accumulated rotations.  Multiplying any `n ≤ 2^14` finite quaternions, each of length within `2^-17` of 1 (what
`normalize` gives, `C107_normalized`), keeps everything finite, drifts from length 1 by at most `n / 2^16` and from the true product by
at most `n / 2^18`. -/
theorem C107_unit_chain (l : List (Quat F32)) (hl : ∀ q ∈ l, FiniteQ q) (hu : ∀ q ∈ l, |‖ham q‖ - 1| ≤ 1 / 2 ^ 17)
    (hn : l.length ≤ 2 ^ 14) :
    FiniteQ (accumulate l) ∧ ‖ham (accumulate l) - trueProduct l‖ ≤ l.length / 2 ^ 18 ∧
      |‖ham (accumulate l)‖ - 1| ≤ l.length / 2 ^ 16 ∧ |‖trueProduct l‖ - 1| ≤ 9 * l.length / 2 ^ 20 := by
  have key : ∀ m : List (Quat F32), (∀ q ∈ m, |‖ham q‖ - 1| ≤ 1 / 2 ^ 17) →
      (1 - 1 / 2 ^ 17 : ℝ) ^ m.length ≤ ‖trueProduct m‖ ∧ ‖trueProduct m‖ ≤ (1 + 1 / 2 ^ 17) ^ m.length := by
    intro m hm
    induction m with
    | nil => simp [trueProduct]
    | cons q m ih =>
      obtain ⟨i1, i2⟩ := ih (fun p hp => hm p (by simp [hp]))
      have hq := _root_.abs_le.1 (hm q (by simp))
      have e : ‖trueProduct (q :: m)‖ = ‖trueProduct m‖ * ‖ham q‖ := by
        simp [trueProduct, _root_.mul_comm]
      rw [e, List.length_cons, pow_succ, pow_succ]
      have p0 : (0 : ℝ) ≤ 1 - 1 / 2 ^ 17 := by norm_num
      exact ⟨mul_le_mul i1 (by linarith [hq.1]) p0 (norm_nonneg _),
        mul_le_mul i2 (by linarith [hq.2]) (norm_nonneg _) (pow_nonneg (by norm_num) _)⟩
  have ex : ∀ {c : ℝ} {d : ℕ} (n : ℕ), n ≤ 2 ^ 14 → c = 1 + d / 2 ^ 20 → d ≤ 8 →
      (c : ℝ) ^ n ≤ 1 + n * d / 2 ^ 20 * (9 / 8) := by
    intro c d n hn hc hd
    have hd' : (d : ℝ) ≤ 8 := by exact_mod_cast hd
    have hn' : (n : ℝ) ≤ 2 ^ 14 := by exact_mod_cast hn
    have d0 : (0 : ℝ) ≤ d / 2 ^ 20 := div_nonneg (Nat.cast_nonneg d) (by norm_num)
    have c0 : 0 ≤ c := by linarith
    have h1 : c ≤ Real.exp (d / 2 ^ 20) := by rw [hc, _root_.add_comm]; exact Real.add_one_le_exp _
    have h2 : c ^ n ≤ Real.exp (n * (d / 2 ^ 20)) := by
      rw [Real.exp_nat_mul]
      exact pow_le_pow_left₀ c0 h1 n
    have hx : (n : ℝ) * (d / 2 ^ 20) ≤ 1 / 8 := by
      have : (n : ℝ) * d ≤ 2 ^ 14 * 8 := mul_le_mul hn' hd' (by positivity) (by positivity)
      rw [← mul_div_assoc, div_le_iff₀ (by positivity)]; linarith
    have hx0 : 0 ≤ (n : ℝ) * (d / 2 ^ 20) := by positivity
    have h3 := Real.abs_exp_sub_one_sub_id_le (x := (n : ℝ) * (d / 2 ^ 20)) (by rw [abs_of_nonneg hx0]; linarith)
    have h4 := (_root_.abs_le.1 h3).2
    rw [mul_div_assoc]
    nlinarith
  have tl : ∀ k ≤ l.length, (l.take k).length = k := fun k hk => by simp [hk]
  have bn : ∀ n : ℕ, n ≤ 2 ^ 14 → (1 - n / 2 ^ 17 : ℝ) ≤ (1 - 1 / 2 ^ 17) ^ n := by
    intro n _
    have := one_add_mul_le_pow (a := (-(1 / 2 ^ 17) : ℝ)) (by norm_num) n
    rw [← sub_eq_add_neg] at this
    linarith
  have K := fun k (hk : k ≤ l.length) => key (l.take k) (fun q hq => hu q (List.mem_of_mem_take hq))
  obtain ⟨f, e⟩ := C107_chain l hl
    (fun k hk => by
      have h := (K k hk).1
      rw [tl k hk] at h
      have h' := bn k (hk.trans hn)
      have hk' : (k : ℝ) ≤ 2 ^ 14 := by exact_mod_cast hk.trans hn
      linarith)
    (fun k hk => by
      have h := (K k hk).2
      rw [tl k hk] at h
      have h1 := ex (c := 1 + 1 / 2 ^ 17) (d := 8) k (hk.trans hn) (by norm_num) (by norm_num)
      have h2 := ex (c := 1 + 1 / 2 ^ 19) (d := 2) k (hk.trans hn) (by norm_num) (by norm_num)
      have hk' : (k : ℝ) ≤ 2 ^ 14 := by exact_mod_cast hk.trans hn
      calc _ ≤ (2 : ℝ) * 2 := mul_le_mul (by linarith) (by linarith) (norm_nonneg _) (by norm_num)
        _ ≤ _ := by norm_num)
  obtain ⟨n1, n2⟩ := key l hu
  have b := bn _ hn
  have x1 := ex (c := 1 + 1 / 2 ^ 17) (d := 8) l.length hn (by norm_num) (by norm_num)
  have x2 := ex (c := 1 + 1 / 2 ^ 19) (d := 2) l.length hn (by norm_num) (by norm_num)
  have hn' : (l.length : ℝ) ≤ 2 ^ 14 := by exact_mod_cast hn
  have d : ‖ham (accumulate l) - trueProduct l‖ ≤ 18 / 7 * (l.length / 2 ^ 20) := by
    refine e.trans ?_
    have hN : ‖trueProduct l‖ ≤ 8 / 7 := by linarith
    have hc : (1 + 1 / 2 ^ 19 : ℝ) ^ l.length - 1 ≤ 9 / 4 * (l.length / 2 ^ 20) := by
      linarith
    have l0 : (0 : ℝ) ≤ l.length / 2 ^ 20 := by positivity
    calc _ ≤ 9 / 4 * (l.length / 2 ^ 20 : ℝ) * (8 / 7) := mul_le_mul hc hN (norm_nonneg _) (by linarith)
      _ ≤ _ := by linarith
  have l0 : (0 : ℝ) ≤ l.length := by positivity
  refine ⟨f, d.trans (by norm_num; linarith), ?_, by rw [_root_.abs_le]; constructor <;> linarith⟩
  have t := abs_norm_sub_norm_le (ham (accumulate l)) (trueProduct l)
  have t' := _root_.abs_le.1 (t.trans d)
  rw [_root_.abs_le]
  constructor <;> linarith [t'.1, t'.2]

/-- C107: `normalize` gives such a quaternion (C99). -/
theorem C107_normalized (bk : Backend) (he : Spec.EstAccurate bk) (q : Quat F32) (h : FiniteQ q)
    (hn : Spec.NormLen bk ‖ham q‖) :
    FiniteQ (Quat.normalize bk q) ∧ |‖ham (Quat.normalize bk q)‖ - 1| ≤ 1 / 2 ^ 17 := by
  have e : ‖ham q‖ = √(q.x.val ^ 2 + q.y.val ^ 2 + q.z.val ^ 2 + q.w.val ^ 2) := by
    rw [← ham_norm_sq, Real.sqrt_sq (norm_nonneg _)]
  obtain ⟨h1, h2, h3, h4⟩ := C99_quaternion bk he q h rfl (e ▸ hn)
  have u := C99_unit_quaternion bk he q h (e ▸ hn)
  rw [← ham_norm_sq] at u
  refine ⟨⟨h1.1, h2.1, h3.1, h4.1⟩, ?_⟩
  have n0 := norm_nonneg (ham (Quat.normalize bk q))
  generalize ‖ham (Quat.normalize bk q)‖ = t at *
  have e2 : t ^ 2 - 1 = (t - 1) * (t + 1) := by ring
  rw [e2, _root_.abs_mul] at u
  have : (1 : ℝ) ≤ |t + 1| := by rw [abs_of_nonneg (by linarith)]; linarith
  exact (le_mul_of_one_le_right (abs_nonneg _) this).trans u

/-! ## identity and inverse -/

/-- C107: multiplying by the identity, on either side, changes no value. -/
theorem C107_identity (q : Quat F32) (h : FiniteQ q) :
    FiniteQ (Quat.multiply Quat.identity q) ∧ exactQ (Quat.multiply Quat.identity q) = exactQ q ∧
    FiniteQ (Quat.multiply q Quat.identity) ∧ exactQ (Quat.multiply q Quat.identity) = exactQ q := by
  obtain ⟨h1, h2, h3, h4⟩ := h
  have z := is_f0
  have o := is_f1
  have x := Is.self h1
  have y := Is.self h2
  have zz := Is.self h3
  have w := Is.self h4
  have l1 := (((z.zero_mul w).zero_add (o.one_mul x)).add_zero (z.zero_mul zz)).sub_zero (z.zero_mul y)
  have l2 := (((z.zero_mul w).zero_add (o.one_mul y)).add_zero (z.zero_mul x)).sub_zero (z.zero_mul zz)
  have l3 := (((z.zero_mul w).zero_add (o.one_mul zz)).add_zero (z.zero_mul y)).sub_zero (z.zero_mul x)
  have l4 := (((o.one_mul w).sub_zero (z.zero_mul x)).sub_zero (z.zero_mul y)).sub_zero (z.zero_mul zz)
  have r1 := (((x.mul_one o).add_zero (w.mul_zero z)).add_zero (y.mul_zero z)).sub_zero (zz.mul_zero z)
  have r2 := (((y.mul_one o).add_zero (w.mul_zero z)).add_zero (zz.mul_zero z)).sub_zero (x.mul_zero z)
  have r3 := (((zz.mul_one o).add_zero (w.mul_zero z)).add_zero (x.mul_zero z)).sub_zero (y.mul_zero z)
  have r4 := (((w.mul_one o).sub_zero (x.mul_zero z)).sub_zero (y.mul_zero z)).sub_zero (zz.mul_zero z)
  exact ⟨⟨l1.fin, l2.fin, l3.fin, l4.fin⟩, Quat.ext l1.val l2.val l3.val l4.val,
    ⟨r1.fin, r2.fin, r3.fin, r4.fin⟩, Quat.ext r1.val r2.val r3.val r4.val⟩

theorem cancel4 {a b c d : F32} (ha : a.isFin = true) (hb : b.isFin = true) (hc : c.isFin = true) (hd : d.isFin = true)
    (h1 : |a.val * b.val| ≤ 2 ^ 120) (h2 : |c.val * d.val| ≤ 2 ^ 120) :
    (Fp.sub (Fp.add (Fp.add (Fp.mul a b) (Fp.mul b (Fp.neg a))) (Fp.mul c (Fp.neg d))) (Fp.mul d (Fp.neg c))).val = 0 := by
  have big : (2 : ℝ) ^ 120 ≤ 2 ^ 126 := by norm_num
  have p := (prod_approx ha hb (h1.trans big)).fin
  have q := (prod_approx hc hd (h2.trans big)).fin
  rw [mul_neg_right, mul_neg_right, mul_neg_right, fmul_comm b a, fmul_comm d c]
  have P := Is.self p
  have Q := Is.self q
  have e1 : Is (Fp.add (Fp.mul a b) (Fp.neg (Fp.mul a b))) 0 :=
    (P.add_of P.neg (c := f0) (is_f0.congr (by ring))).congr (by ring)
  have e2 := e1.zero_add Q.neg
  exact ((e2.sub_of Q.neg (c := f0) (is_f0.congr (by ring))).congr (by ring)).val

/-- C107: a quaternion times its `invert` (the conjugate) has a vector part of exactly zero, whatever the rounding, and a
scalar part within `‖q‖² / 2^21 + 2^-146` of `‖q‖²`. -/
theorem C107_inverse (q : Quat F32) (h : FiniteQ q) (hb : ‖ham q‖ ^ 2 ≤ 2 ^ 120) :
    let r := Quat.multiply q (Quat.invert q)
    FiniteQ r ∧ r.x.val = 0 ∧ r.y.val = 0 ∧ r.z.val = 0 ∧
      |r.w.val - ‖ham q‖ ^ 2| ≤ ‖ham q‖ ^ 2 / 2 ^ 21 + 1 / 2 ^ 146 := by
  have hi : FiniteQ (Quat.invert q) :=
    ⟨by simpa [Quat.invert] using h.1, by simpa [Quat.invert] using h.2.1, by simpa [Quat.invert] using h.2.2.1, h.2.2.2⟩
  have es : ham (Quat.invert q) = star (ham q) := by
    apply Quaternion.ext <;> simp [ham, exactQ, quat_re, quat_i, quat_j, quat_k, Quat.invert]
  have en : ‖ham (Quat.invert q)‖ = ‖ham q‖ := by rw [es, norm_star]
  obtain ⟨f, hw, -⟩ := C107_multiply q (Quat.invert q) h hi (by rw [en, ← pow_two]; exact hb)
  obtain ⟨h1, h2, h3, h4⟩ := h
  have hn := ham_norm_sq q
  have ab : ∀ x y : ℝ, x ^ 2 + y ^ 2 ≤ ‖ham q‖ ^ 2 → |x * y| ≤ 2 ^ 120 := by
    intro x y hxy
    rw [_root_.abs_mul]
    nlinarith [sq_nonneg (|x| - |y|), sq_abs x, sq_abs y, sq_nonneg x, sq_nonneg y]
  intro r
  refine ⟨f, ?_, ?_, ?_, ?_⟩
  · exact cancel4 (a := q.x) (b := q.w) (c := q.y) (d := q.z) h1 h4 h2 h3 (ab _ _ (by nlinarith)) (ab _ _ (by nlinarith))
  · exact cancel4 (a := q.y) (b := q.w) (c := q.z) (d := q.x) h2 h4 h3 h1 (ab _ _ (by nlinarith)) (ab _ _ (by nlinarith))
  · exact cancel4 (a := q.z) (b := q.w) (c := q.x) (d := q.y) h3 h4 h1 h2 (ab _ _ (by nlinarith)) (ab _ _ (by nlinarith))
  · rw [en, es, Quaternion.self_mul_star, ← pow_two, Quaternion.normSq_eq_norm_mul_self, ← pow_two] at hw
    exact hw

/-! ## the matrix -/

theorem two_is : Is (f2 : F32) 2 := by
  have := lit_int 2 (by norm_num)
  exact ⟨this.1, this.2.trans (by norm_num)⟩

theorem entries {a b c d : F32} (ha : a.isFin = true) (hb : b.isFin = true) (hc : c.isFin = true) (hd : d.isFin = true)
    (h : |a.val * b.val| + |c.val * d.val| ≤ 8 / 5) :
    (let r := Fp.mul f2 (Fp.add (Fp.mul a b) (Fp.mul c d))
     r.isFin = true ∧ |r.val - 2 * (a.val * b.val + c.val * d.val)| ≤ 1 / 2 ^ 20) ∧
    (let r := Fp.mul f2 (Fp.sub (Fp.mul a b) (Fp.mul c d))
     r.isFin = true ∧ |r.val - 2 * (a.val * b.val - c.val * d.val)| ≤ 1 / 2 ^ 20) ∧
    (let r := Fp.sub f1 (Fp.mul f2 (Fp.add (Fp.mul a b) (Fp.mul c d)))
     r.isFin = true ∧ |r.val - (1 - 2 * (a.val * b.val + c.val * d.val))| ≤ 1 / 2 ^ 20) := by
  have n1 := abs_nonneg (a.val * b.val)
  have n2 := abs_nonneg (c.val * d.val)
  have big : (8 / 5 : ℝ) ≤ 2 ^ 126 := by norm_num
  have p1 := prod_approx ha hb (by linarith)
  have p2 := prod_approx hc hd (by linarith)
  have t := Approx.of_eq two_is.fin two_is.val
  have o := Approx.of_eq is_f1.fin is_f1.val
  rw [abs_of_nonneg (by norm_num)] at t o
  generalize |a.val * b.val| = A at *
  generalize |c.val * d.val| = B at *
  have s := sum2_approx p1 p2 (by norm_num; linarith)
  have m := sub2_approx p1 p2 (by norm_num; linarith)
  have k := le_max32
  norm_num at k
  have s' := Approx.mul hp32 t s (by norm_num; linarith)
  have m' := Approx.mul hp32 t m (by norm_num; linarith)
  rw [u32, eta32] at s' m'
  have d' := sub2_approx o s' (by norm_num; linarith)
  refine ⟨⟨s'.fin, s'.err.trans ?_⟩, ⟨m'.fin, m'.err.trans ?_⟩, ⟨d'.fin, d'.err.trans ?_⟩⟩ <;> norm_num <;> linarith

/-- C107: the matrix of a finite quaternion of squared length at most 1.6 has finite entries, each within `2^-20` of
the entry of the matrix of the stored quaternion (C71: a rotation when the length is 1); its last row and column are
exactly those of the identity. -/
theorem C107_to_matrix (q : Quat F32) (h : FiniteQ q) (hb : ‖ham q‖ ^ 2 ≤ 8 / 5) :
    (∀ i j, (mat q.toMatrix i j).isFin = true ∧
      |(mat q.toMatrix i j).val - mat (exactQ q).toMatrix i j| ≤ 1 / 2 ^ 20) ∧
    (∀ i, (mat q.toMatrix 3 i).val = (1 : Matrix (Fin 4) (Fin 4) ℝ) 3 i ∧
      (mat q.toMatrix i 3).val = (1 : Matrix (Fin 4) (Fin 4) ℝ) i 3) := by
  obtain ⟨h1, h2, h3, h4⟩ := h
  rw [ham_norm_sq] at hb
  set x := q.x
  set y := q.y
  set z := q.z
  set w := q.w
  have ab : ∀ a b c d : ℝ, a ^ 2 + b ^ 2 + c ^ 2 + d ^ 2 ≤ 2 * (8 / 5) → |a * b| + |c * d| ≤ 8 / 5 := by
    intro a b c d hh
    rw [_root_.abs_mul, _root_.abs_mul]
    nlinarith [sq_nonneg (|a| - |b|), sq_nonneg (|c| - |d|), sq_abs a, sq_abs b, sq_abs c, sq_abs d]
  have sx := sq_nonneg x.val
  have sy := sq_nonneg y.val
  have sz := sq_nonneg z.val
  have sw := sq_nonneg w.val
  have k00 := (entries h2 h2 h3 h3 (ab _ _ _ _ (by linarith))).2.2
  have k11 := (entries h1 h1 h3 h3 (ab _ _ _ _ (by linarith))).2.2
  have k22 := (entries h1 h1 h2 h2 (ab _ _ _ _ (by linarith))).2.2
  have kxy := entries h1 h2 h4 h3 (ab _ _ _ _ (by linarith))
  have kxz := entries h1 h3 h4 h2 (ab _ _ _ _ (by linarith))
  have kyz := entries h2 h3 h4 h1 (ab _ _ _ _ (by linarith))
  have z0 := is_f0
  have o1 := is_f1
  constructor
  · intro i j
    rw [toMatrix_real]
    have e0 : (f0 : F32).isFin = true ∧ |(f0 : F32).val - 0| ≤ 1 / 2 ^ 20 := ⟨z0.fin, by rw [z0.val]; norm_num⟩
    have e1 : (f1 : F32).isFin = true ∧ |(f1 : F32).val - 1| ≤ 1 / 2 ^ 20 := ⟨o1.fin, by rw [o1.val]; norm_num⟩
    fin_cases i <;> fin_cases j
    · exact k00
    · exact kxy.1
    · exact kxz.2.1
    · exact e0
    · exact kxy.2.1
    · exact k11
    · exact kyz.1
    · exact e0
    · exact kxz.1
    · exact kyz.2.1
    · exact k22
    · exact e0
    · exact e0
    · exact e0
    · exact e0
    · exact e1
  · intro i
    fin_cases i <;> constructor <;> first | exact z0.val | exact o1.val

/-- the unit quaternion in the direction of a non-zero one -/
noncomputable def Spec.direction (P : Quaternion ℝ) : Quat ℝ := ⟨P.imI / ‖P‖, P.imJ / ‖P‖, P.imK / ‖P‖, P.re / ‖P‖⟩
/-- the matrix of the rotation `v ↦ P v P⁻¹` of a non-zero quaternion (`C107_rotation`) -/
noncomputable def Spec.rotation (P : Quaternion ℝ) : M4 ℝ := (direction P).toMatrix

omit [Libm binary32] in
theorem direction_eq (P : Quaternion ℝ) : quat (direction P) = ‖P‖⁻¹ • P := by
  apply Quaternion.ext <;> simp [direction, quat_re, quat_i, quat_j, quat_k, div_eq_inv_mul]

omit [Libm binary32] in
theorem direction_unit {P : Quaternion ℝ} (h : P ≠ 0) : UnitQuat (direction P) := by
  have hn : ‖P‖ ≠ 0 := norm_ne_zero_iff.2 h
  rw [unitQuat_iff, direction_eq, Quaternion.normSq_eq_norm_mul_self, norm_smul, norm_inv, norm_norm,
    inv_mul_cancel₀ hn, one_mul]

omit [Libm binary32] in
/-- C107: what `rotation` means: points move by `v ↦ P v P⁻¹`, and the rotation of a product of quaternions is the
product of the matrices (in the library's row-vector order). -/
theorem C107_rotation (P Q : Quaternion ℝ) (hP : P ≠ 0) (hQ : Q ≠ 0) (p : Point3D ℝ) :
    (let r := GMatrix.transformPoint3D (rotation P) p
     quat ⟨r.x, r.y, r.z, 0⟩ = P * quat ⟨p.x, p.y, p.z, 0⟩ * P⁻¹) ∧
    mat (rotation (P * Q)) = mat (rotation Q) * mat (rotation P) := by
  have nP : ‖P‖ ≠ 0 := norm_ne_zero_iff.2 hP
  have nQ : ‖Q‖ ≠ 0 := norm_ne_zero_iff.2 hQ
  constructor
  · have h := C71_conjugation (direction P) (direction_unit hP) p
    intro r
    refine h.trans ?_
    rw [(C70_algebra (direction P) (direction P) 0 Vec4.zero).2.1, direction_eq, Quaternion.instInv]
    simp only [Quaternion.star_smul, smul_mul_assoc, mul_smul_comm, smul_smul]
    rw [Quaternion.normSq_eq_norm_mul_self, mul_inv]
  · have e : direction (P * Q) = Quat.multiply (direction P) (direction Q) := by
      apply quat_injective
      rw [(C70_algebra (direction P) (direction Q) 0 Vec4.zero).1, direction_eq, direction_eq, direction_eq, norm_mul,
        smul_mul_smul_comm, mul_inv]
    rw [rotation, e, (C71_product (direction P) (direction Q) (direction_unit hP) (direction_unit hQ)
      (direction P).toMatrix).1, GMatrix.multiply, matrixMul_real]
    rfl

omit [Libm binary32] in
theorem cs2 {a b c d A D : ℝ} (hA : 0 ≤ A) (hD : 0 ≤ D) (h1 : a ^ 2 + c ^ 2 ≤ A ^ 2) (h2 : b ^ 2 + d ^ 2 ≤ D ^ 2) :
    |a * b| + |c * d| ≤ A * D := by
  have k : (|a * b| + |c * d|) ^ 2 ≤ (A * D) ^ 2 := by
    have s : ∀ x : ℝ, x ^ 2 = |x| ^ 2 := fun x => (sq_abs x).symm
    rw [s a, s c] at h1
    rw [s b, s d] at h2
    rw [_root_.abs_mul, _root_.abs_mul, mul_pow]
    refine le_trans ?_ (mul_le_mul h1 h2 (by positivity) (by positivity))
    nlinarith [sq_nonneg (|a| * |d| - |c| * |b|)]
  exact (sq_le_sq₀ (by positivity) (by positivity)).1 k

omit [Libm binary32] in
theorem lip2 {a b c d a' b' c' d' A B D : ℝ} (hA : 0 ≤ A) (hB : 0 ≤ B) (hD : 0 ≤ D) (h1 : a ^ 2 + c ^ 2 ≤ A ^ 2)
    (h2 : b' ^ 2 + d' ^ 2 ≤ B ^ 2) (h3 : (b - b') ^ 2 + (d - d') ^ 2 ≤ D ^ 2) (h4 : (a - a') ^ 2 + (c - c') ^ 2 ≤ D ^ 2) :
    |2 * (a * b + c * d) - 2 * (a' * b' + c' * d')| ≤ 2 * ((A + B) * D) ∧
    |2 * (a * b - c * d) - 2 * (a' * b' - c' * d')| ≤ 2 * ((A + B) * D) ∧
    |(1 - 2 * (a * b + c * d)) - (1 - 2 * (a' * b' + c' * d'))| ≤ 2 * ((A + B) * D) := by
  have i := cs2 hA hD h1 h3
  have j := cs2 hB hD h2 h4
  have i1 := _root_.abs_le.1 (le_refl |a * (b - b')|)
  have i2 := _root_.abs_le.1 (le_refl |c * (d - d')|)
  have j1 := _root_.abs_le.1 (le_refl |b' * (a - a')|)
  have j2 := _root_.abs_le.1 (le_refl |d' * (c - c')|)
  generalize |a * (b - b')| = I at *
  generalize |c * (d - d')| = I' at *
  generalize |b' * (a - a')| = J at *
  generalize |d' * (c - c')| = J' at *
  refine ⟨?_, ?_, ?_⟩ <;> rw [_root_.abs_le] <;> constructor <;> nlinarith [i1.1, i1.2, i2.1, i2.2, j1.1, j1.2, j2.1, j2.2]

omit [Libm binary32] in
theorem quat_norm_sq (u : Quat ℝ) : ‖quat u‖ ^ 2 = u.x ^ 2 + u.y ^ 2 + u.z ^ 2 + u.w ^ 2 := by
  rw [pow_two, ← Quaternion.normSq_eq_norm_mul_self, Quaternion.normSq_def']
  simp only [quat]; ring

omit [Libm binary32] in
/-- nearby quaternions have nearby matrices -/
theorem matrix_lip (u v : Quat ℝ) (i j : Fin 4) :
    |mat u.toMatrix i j - mat v.toMatrix i j| ≤ 2 * ((‖quat u‖ + ‖quat v‖) * ‖quat u - quat v‖) := by
  have hu := quat_norm_sq u
  have hv := quat_norm_sq v
  have hd : ‖quat u - quat v‖ ^ 2 = (u.x - v.x) ^ 2 + (u.y - v.y) ^ 2 + (u.z - v.z) ^ 2 + (u.w - v.w) ^ 2 := by
    rw [pow_two, ← Quaternion.normSq_eq_norm_mul_self, Quaternion.normSq_def']
    simp only [Quaternion.re_sub, Quaternion.imI_sub, Quaternion.imJ_sub, Quaternion.imK_sub, quat_re, quat_i, quat_j, quat_k]
    ring
  have nu := norm_nonneg (quat u)
  have nv := norm_nonneg (quat v)
  have nd := norm_nonneg (quat u - quat v)
  have s : ∀ t : ℝ, 0 ≤ t ^ 2 := sq_nonneg
  have z : |(0 : ℝ) - 0| ≤ 2 * ((‖quat u‖ + ‖quat v‖) * ‖quat u - quat v‖) := by rw [sub_zero, abs_zero]; positivity
  have o : |(1 : ℝ) - 1| ≤ 2 * ((‖quat u‖ + ‖quat v‖) * ‖quat u - quat v‖) := by rw [sub_self, abs_zero]; positivity
  have su := s u.x; have su' := s u.y; have su2 := s u.z; have su3 := s u.w
  have sv := s v.x; have sv' := s v.y; have sv2 := s v.z; have sv3 := s v.w
  have sd := s (u.x - v.x); have sd' := s (u.y - v.y); have sd2 := s (u.z - v.z); have sd3 := s (u.w - v.w)
  have L : ∀ {a b c d a' b' c' d' : ℝ}, a ^ 2 + c ^ 2 ≤ ‖quat u‖ ^ 2 → b' ^ 2 + d' ^ 2 ≤ ‖quat v‖ ^ 2 →
      (b - b') ^ 2 + (d - d') ^ 2 ≤ ‖quat u - quat v‖ ^ 2 → (a - a') ^ 2 + (c - c') ^ 2 ≤ ‖quat u - quat v‖ ^ 2 → _ :=
    fun {a b c d a' b' c' d'} h1 h2 h3 h4 => lip2 (a := a) (b := b) (c := c) (d := d) (a' := a') (b' := b') (c' := c')
      (d' := d') nu nv nd h1 h2 h3 h4
  rw [hu, hv, hd] at L
  have k00 := (L (a := u.y) (b := u.y) (c := u.z) (d := u.z) (a' := v.y) (b' := v.y) (c' := v.z) (d' := v.z)
    (by linarith) (by linarith) (by linarith) (by linarith)).2.2
  have k11 := (L (a := u.x) (b := u.x) (c := u.z) (d := u.z) (a' := v.x) (b' := v.x) (c' := v.z) (d' := v.z)
    (by linarith) (by linarith) (by linarith) (by linarith)).2.2
  have k22 := (L (a := u.x) (b := u.x) (c := u.y) (d := u.y) (a' := v.x) (b' := v.x) (c' := v.y) (d' := v.y)
    (by linarith) (by linarith) (by linarith) (by linarith)).2.2
  have kxy := L (a := u.x) (b := u.y) (c := u.w) (d := u.z) (a' := v.x) (b' := v.y) (c' := v.w) (d' := v.z)
    (by linarith) (by linarith) (by linarith) (by linarith)
  have kxz := L (a := u.x) (b := u.z) (c := u.w) (d := u.y) (a' := v.x) (b' := v.z) (c' := v.w) (d' := v.y)
    (by linarith) (by linarith) (by linarith) (by linarith)
  have kyz := L (a := u.y) (b := u.z) (c := u.w) (d := u.x) (a' := v.y) (b' := v.z) (c' := v.w) (d' := v.x)
    (by linarith) (by linarith) (by linarith) (by linarith)
  rw [toMatrix_real, toMatrix_real]
  fin_cases i <;> fin_cases j
  · exact k00
  · exact kxy.1
  · exact kxz.2.1
  · exact z
  · exact kxy.2.1
  · exact k11
  · exact kyz.1
  · exact z
  · exact kxz.1
  · exact kyz.2.1
  · exact k22
  · exact z
  · exact z
  · exact z
  · exact z
  · exact o

/-- C107: composing rotations.  Multiply any `n ≤ 2^14` finite quaternions of length within `2^-17` of 1 and convert the
result to a matrix: every entry is within `n / 2^14 + 2^-20` of the matrix of the exact composed rotation. -/
theorem C107_composed (l : List (Quat F32)) (hl : ∀ q ∈ l, FiniteQ q) (hu : ∀ q ∈ l, |‖ham q‖ - 1| ≤ 1 / 2 ^ 17)
    (hn : l.length ≤ 2 ^ 14) (i j : Fin 4) :
    (mat (accumulate l).toMatrix i j).isFin = true ∧
      |(mat (accumulate l).toMatrix i j).val - mat (rotation (trueProduct l)) i j| ≤ l.length / 2 ^ 14 + 1 / 2 ^ 20 := by
  obtain ⟨f, e, g, t⟩ := C107_unit_chain l hl hu hn
  have hn' : (l.length : ℝ) ≤ 2 ^ 14 := by exact_mod_cast hn
  have l0 : (0 : ℝ) ≤ l.length := Nat.cast_nonneg _
  have g' := _root_.abs_le.1 g
  have t' := _root_.abs_le.1 t
  have pn : ‖ham (accumulate l)‖ ≤ 5 / 4 := by linarith [g'.2]
  have Pn : 0 < ‖trueProduct l‖ := by linarith [t'.1]
  have hP : trueProduct l ≠ 0 := norm_pos_iff.1 Pn
  obtain ⟨m1, m2⟩ := (C107_to_matrix (accumulate l) f (by nlinarith [norm_nonneg (ham (accumulate l))])).1 i j
  refine ⟨m1, ?_⟩
  have lp := matrix_lip (exactQ (accumulate l)) (direction (trueProduct l)) i j
  have un : ‖quat (direction (trueProduct l))‖ = 1 := by
    rw [direction_eq, norm_smul, norm_inv, norm_norm, inv_mul_cancel₀ Pn.ne']
  have dd : ‖trueProduct l - quat (direction (trueProduct l))‖ = |‖trueProduct l‖ - 1| := by
    rw [direction_eq]
    have : trueProduct l - ‖trueProduct l‖⁻¹ • trueProduct l = (1 - ‖trueProduct l‖⁻¹) • trueProduct l := by
      rw [sub_smul, one_smul]
    rw [this, norm_smul, Real.norm_eq_abs]
    have e2 : 1 - ‖trueProduct l‖⁻¹ = (‖trueProduct l‖ - 1) * ‖trueProduct l‖⁻¹ := by field_simp
    rw [e2, _root_.abs_mul, abs_of_pos (inv_pos.2 Pn), _root_.mul_assoc, inv_mul_cancel₀ Pn.ne', _root_.mul_one]
  have tri := norm_add_le (ham (accumulate l) - trueProduct l) (trueProduct l - quat (direction (trueProduct l)))
  rw [sub_add_sub_cancel, dd] at tri
  rw [un] at lp
  change _ ≤ 2 * ((‖ham (accumulate l)‖ + 1) * ‖ham (accumulate l) - quat (direction (trueProduct l))‖) at lp
  have D : ‖ham (accumulate l) - quat (direction (trueProduct l))‖ ≤ 13 * (l.length / 2 ^ 20) := by
    linarith
  have M : (‖ham (accumulate l)‖ + 1) * ‖ham (accumulate l) - quat (direction (trueProduct l))‖ ≤
      (5 / 4 + 1) * (13 * (l.length / 2 ^ 20)) := mul_le_mul (by linarith) D (norm_nonneg _) (by norm_num)
  have fin := abs_add_le ((mat (accumulate l).toMatrix i j).val - mat (exactQ (accumulate l)).toMatrix i j)
    (mat (exactQ (accumulate l)).toMatrix i j - mat (direction (trueProduct l)).toMatrix i j)
  rw [sub_add_sub_cancel] at fin
  refine fin.trans ?_
  have := lp.trans (mul_le_mul_of_nonneg_left M (by norm_num : (0 : ℝ) ≤ 2))
  linarith

/-- non-vacuity: a thousand times the turn about z built from literals `(0, 0, 3/5, 4/5)` rounded to single
precision; and 2i + 3j - k + 5 -/
example : (let q : Quat F32 := ⟨lit 0 1, lit 0 1, lit 3 5, lit 4 5⟩
      FiniteQ q ∧ |‖ham q‖ - 1| ≤ 1 / 2 ^ 17 ∧ (List.replicate 1000 q).length ≤ 2 ^ 14) ∧
    (let a : Quat F32 := ⟨lit 2 1, lit 3 1, lit (-1) 1, lit 5 1⟩
     FiniteQ a ∧ ‖ham a‖ * ‖ham a‖ ≤ 2 ^ 120) := by
  have v0 : (lit 0 1 : F32).val = 0 := by have := (lit_int 0 (by norm_num)).2; simpa using this
  constructor
  · intro q
    refine ⟨⟨by kdecide, by kdecide, by kdecide, by kdecide⟩, ?_, by rw [List.length_replicate]; norm_num⟩
    have e3 : (lit 3 5 : F32).val = 10066330 / 2 ^ 24 := by
      have : (lit 3 5 : F32) = lit 10066330 (2 ^ 24) := by kdecide
      rw [this, (lit_dyadic 10066330 24 (by norm_num) (by norm_num)).2]; norm_num
    have e4 : (lit 4 5 : F32).val = 13421773 / 2 ^ 24 := by
      have : (lit 4 5 : F32) = lit 13421773 (2 ^ 24) := by kdecide
      rw [this, (lit_dyadic 13421773 24 (by norm_num) (by norm_num)).2]; norm_num
    have h := ham_norm_sq q
    change ‖ham q‖ ^ 2 = (lit 0 1 : F32).val ^ 2 + (lit 0 1 : F32).val ^ 2 + (lit 3 5 : F32).val ^ 2 + (lit 4 5 : F32).val ^ 2 at h
    rw [v0, e3, e4] at h
    have n := norm_nonneg (ham q)
    rw [_root_.abs_le]
    constructor <;> norm_num at h ⊢ <;> nlinarith
  · intro a
    refine ⟨⟨by kdecide, by kdecide, by kdecide, by kdecide⟩, ?_⟩
    have h := ham_norm_sq a
    change ‖ham a‖ ^ 2 = (lit 2 1 : F32).val ^ 2 + (lit 3 1 : F32).val ^ 2 + (lit (-1) 1 : F32).val ^ 2 + (lit 5 1 : F32).val ^ 2 at h
    rw [(lit_int 2 (by norm_num)).2, (lit_int 3 (by norm_num)).2, (lit_int (-1) (by norm_num)).2,
      (lit_int 5 (by norm_num)).2] at h
    rw [← pow_two, h]; norm_num

end Graphene

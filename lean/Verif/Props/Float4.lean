/-
  C89: what `equal` means in floating point, for every type built from vectors.
-/
import Verif.Props.Float2
import Verif.Props.Equality
import Verif.Proofs.KDecide

set_option exponentiation.threshold 3000

namespace Graphene
open Fp

/-! ### Sums of squares are monotone in floating point -/

/-- not a NaN and not negative -/
def NN (x : F32) : Prop := x.isNaN = false ∧ 0 ≤ x.val

theorem inf_val_neg : (Fp.inf true : F32).val < 0 := by
  have h : (Fp.inf true : F32).lt (zero false) = true := by decide +kernel
  rw [lt_iff_val rfl rfl] at h
  simpa using h

theorem le_inf {x : F32} (h : x.isNaN = false) : x.le (Fp.inf false) = true := by
  rw [le_iff]; refine ⟨h, rfl, ?_⟩
  have h2 : (0:Int) < 2 ^ binary32.top := by positivity
  cases x with
  | nan => simp at h
  | inf s => cases s <;> simp [Fp.key, Fp.sgn]; 
  | fin s m hm =>
    have h0 : (0 : Int) ≤ m := Int.natCast_nonneg m
    cases s
    · exact Int.ofNat_le.2 (_root_.le_of_lt hm.1)
    · exact _root_.le_trans (neg_nonpos.2 h0) (Int.natCast_nonneg _)

theorem NN.add {x y : F32} (hx : NN x) (hy : NN y) :
    NN (Fp.add x y) ∧ x.le (Fp.add x y) = true ∧ y.le (Fp.add x y) = true := by
  have key : Fp.add x y = Fp.inf false ∨ (x.isFin = true ∧ y.isFin = true) := by
    cases x with
    | nan => exact absurd hx.1 (by simp [Fp.isNaN])
    | inf s =>
      cases s with
      | true => exact absurd hx.2 (not_le.2 inf_val_neg)
      | false =>
        cases y with
        | nan => exact absurd hy.1 (by simp [Fp.isNaN])
        | inf t =>
          cases t with
          | true => exact absurd hy.2 (not_le.2 inf_val_neg)
          | false => left; rfl
        | fin => left; rfl
    | fin =>
      cases y with
      | nan => exact absurd hy.1 (by simp [Fp.isNaN])
      | inf t =>
        cases t with
        | true => exact absurd hy.2 (not_le.2 inf_val_neg)
        | false => left; rfl
      | fin => right; exact ⟨rfl, rfl⟩
  rcases key with h | ⟨fx, fy⟩
  · have h1 := le_inf hx.1
    have h2 := le_inf hy.1
    rw [h]
    refine ⟨⟨rfl, ?_⟩, h1, h2⟩
    rw [le_iff_val hx.1 rfl] at h1
    exact _root_.le_trans hx.2 h1
  · have r := rnd_add fx fy
    have h1 := r.ge_of fx (by linarith [hy.2])
    have h2 := r.ge_of fy (by linarith [hx.2])
    refine ⟨⟨r.not_nan, ?_⟩, h1, h2⟩
    rw [le_iff_val hx.1 r.not_nan] at h1
    exact _root_.le_trans hx.2 h1

variable [Libm binary32]

theorem nn_zero : NN (f0 : F32) := by rw [f0_eq]; exact ⟨rfl, by simp⟩

/-- the squared difference of two finite floats -/
theorem nn_sq {a b : F32} (ha : a.isFin = true) (hb : b.isFin = true) :
    NN (Fp.mul (Fp.sub a b) (Fp.sub a b)) := by
  have hn := (rnd_sub ha hb).not_nan
  cases h : Fp.sub a b with
  | nan => rw [h] at hn; simp [Fp.isNaN] at hn
  | inf s =>
    have : Fp.mul (Fp.inf s : F32) (Fp.inf s) = Fp.inf false := by cases s <;> rfl
    rw [this]
    refine ⟨rfl, ?_⟩
    have := le_inf (x := zero false) rfl
    rw [le_iff_val rfl rfl] at this; simpa using this
  | fin s m hm =>
    have r := rnd_mul (a := (Fp.fin s m hm : F32)) (b := .fin s m hm) rfl rfl
    exact ⟨r.not_nan, nonneg_of_rnd r (mul_self_nonneg _)⟩

/-- `FLT_EPSILON * FLT_EPSILON` is exact -/
theorem eps_sq : Fp.mul (lit 1 8388608) (lit 1 8388608) = (lit 1 (2 ^ 46) : F32) := by decide +kernel

theorem dy (n : Int) (k : Nat) (hn : n.natAbs ≤ 2 ^ 24 := by decide) (hk : k ≤ 149 := by decide) :
    (lit n (2 ^ k) : F32).isFin = true ∧ (lit n (2 ^ k) : F32).val = (n : ℝ) / 2 ^ k := lit_dyadic n k hn hk

theorem sq_big {a b : F32} (ha : a.isFin = true) (hb : b.isFin = true)
    (h : 1 / 2 ^ 23 ≤ |a.val - b.val|) :
    (lit 1 (2 ^ 46) : F32).le (Fp.mul (Fp.sub a b) (Fp.sub a b)) = true := by
  have r := rnd_sub ha hb
  have hn := r.not_nan
  have e := dy 1 23
  have e2 := dy 1 46
  have hd : 1 / 2 ^ 23 ≤ |(Fp.sub a b).val| := by
    rcases le_abs'.1 h with g | g
    · have := r.le_of (a := neg (lit 1 (2 ^ 23))) (by simpa using e.1)
        (by rw [val_neg, e.2]; push_cast; linarith)
      rw [le_iff_val hn (by simpa using isNaN_of_isFin e.1), val_neg, e.2] at this
      push_cast at this
      exact le_abs'.2 (.inl (by linarith))
    · have := r.ge_of e.1 (by rw [e.2]; push_cast; linarith)
      rw [le_iff_val (isNaN_of_isFin e.1) hn, e.2] at this
      push_cast at this
      exact le_abs'.2 (.inr (by linarith))
  cases hf : (Fp.sub a b).isFin
  · cases hs : Fp.sub a b with
    | nan => rw [hs] at hn; simp [Fp.isNaN] at hn
    | inf s =>
      have : Fp.mul (Fp.inf s : F32) (Fp.inf s) = Fp.inf false := by cases s <;> rfl
      rw [this]
      exact le_inf (isNaN_of_isFin e2.1)
    | fin s m hm => rw [hs] at hf; simp [Fp.isFin] at hf
  · have r2 := rnd_mul hf hf
    refine r2.ge_of e2.1 ?_
    rw [e2.2, ← abs_mul_abs_self]
    have := mul_le_mul hd hd (by positivity) (abs_nonneg _)
    refine _root_.le_trans ?_ this
    norm_num

/-- a small nonnegative float -/
def Sm (k : Nat) (x : F32) : Prop := x.isFin = true ∧ 0 ≤ x.val ∧ x.val ≤ k / 2 ^ 50

theorem Sm.add {k l n : Nat} {x y : F32} (hx : Sm k x) (hy : Sm l y) (e : n = k + l) (hn : n ≤ 2 ^ 24) :
    Sm n (Fp.add x y) := by
  have r := rnd_add hx.1 hy.1
  have d := lit_dyadic n 50 (by simpa using hn) (by decide)
  have z : (zero false : F32).isFin = true := rfl
  have h1 := r.le_of d.1 (by rw [d.2, e]; push_cast; have := hx.2.2; have := hy.2.2; rw [add_div]; linarith)
  have h2 := r.ge_of z (by simpa using add_nonneg hx.2.1 hy.2.1)
  have hf := isFin_of_between z d.1 h2 h1
  rw [le_iff_val r.not_nan (isNaN_of_isFin d.1), d.2] at h1
  rw [le_iff_val rfl r.not_nan] at h2
  exact ⟨hf, by simpa using h2, by simpa using h1⟩

theorem Sm.mono {k l : Nat} {x : F32} (hx : Sm k x) (h : k ≤ l) : Sm l x :=
  ⟨hx.1, hx.2.1, hx.2.2.trans (by gcongr)⟩

theorem sm_zero : Sm 0 (f0 : F32) := by rw [f0_eq]; exact ⟨rfl, by simp, by simp⟩

theorem sq_small {a b : F32} (ha : a.isFin = true) (hb : b.isFin = true)
    (h : |a.val - b.val| ≤ 1 / 2 ^ 25) : Sm 1 (Fp.mul (Fp.sub a b) (Fp.sub a b)) := by
  have e := dy 1 25
  have d := dy 1 50
  have hle := abs_sub_le_of ha hb e.1 (by rw [e.2]; push_cast; exact h)
  have r := rnd_sub ha hb
  have hf : (Fp.sub a b).isFin = true := by
    refine r.isFin hp32 ?_
    refine _root_.le_trans (_root_.le_trans h ?_) le_max32
    norm_num
  rw [le_iff_val (by simpa using r.not_nan) (isNaN_of_isFin e.1), val_abs, e.2] at hle
  have r2 := rnd_mul hf hf
  have hsq : (Fp.sub a b).val * (Fp.sub a b).val ≤ 1 / 2 ^ 50 := by
    rw [← abs_mul_abs_self]
    push_cast at hle
    have := mul_le_mul hle hle (abs_nonneg _) (by positivity)
    refine this.trans ?_; norm_num
  have h1 := r2.le_of d.1 (by rw [d.2]; push_cast; exact hsq)
  have h2 := r2.ge_of (a := zero false) rfl (by simpa using mul_self_nonneg _)
  have hf2 := isFin_of_between (a := zero false) rfl d.1 h2 h1
  rw [le_iff_val r2.not_nan (isNaN_of_isFin d.1), d.2] at h1
  rw [le_iff_val rfl r2.not_nan] at h2
  exact ⟨hf2, by simpa using h2, by push_cast at h1 ⊢; exact h1⟩

theorem sm_lt {k : Nat} {x : F32} (h : Sm k x) (hk : k < 16) : x.lt (lit 1 (2 ^ 46)) = true := by
  have e := dy 1 46
  rw [lt_iff_val (isNaN_of_isFin h.1) (isNaN_of_isFin e.1), e.2]
  refine _root_.lt_of_le_of_lt h.2.2 ?_
  have : (k : ℝ) < 16 := by exact_mod_cast hk
  rw [div_lt_iff₀ (by positivity)]
  norm_num; linarith


/-! ### What equality means -/

/-- `e` is the answer of an equality test for two objects with corresponding components `l`
(finite numbers): if the answer is yes every component differs by less than `FLT_EPSILON`, and
if every component differs by at most a quarter of it the answer is yes. -/
def Spec.EqualMeans (e : Bool) (l : List (F32 × F32)) : Prop :=
  (∀ p ∈ l, p.1.isFin = true ∧ p.2.isFin = true) →
    (e = true → ∀ p ∈ l, |p.1.val - p.2.val| < 1 / 2 ^ 23) ∧
    ((∀ p ∈ l, |p.1.val - p.2.val| ≤ 1 / 2 ^ 25) → e = true)

open Spec

omit [Libm binary32] in
theorem Spec.EqualMeans.and {e f : Bool} {l k : List (F32 × F32)} (h : EqualMeans e l) (g : EqualMeans f k) :
    EqualMeans (e && f) (l ++ k) := by
  intro hf
  obtain ⟨h1, h2⟩ := h fun p hp => hf p (List.mem_append_left _ hp)
  obtain ⟨g1, g2⟩ := g fun p hp => hf p (List.mem_append_right _ hp)
  constructor
  · intro he p hp
    rw [Bool.and_eq_true] at he
    rcases List.mem_append.1 hp with hp | hp
    · exact h1 he.1 p hp
    · exact g1 he.2 p hp
  · intro hc
    rw [Bool.and_eq_true]
    exact ⟨h2 fun p hp => hc p (List.mem_append_left _ hp), g2 fun p hp => hc p (List.mem_append_right _ hp)⟩

/-- equality through pointers: identical addresses are equal, others are compared -/
theorem Spec.EqualMeans.ptr {T : Type} {m : Mem T} {func : T → T → Bool} {p q : Nat}
    {l : T → T → List (F32 × F32)} (hl : ∀ a, ∀ c ∈ l a a, c.1 = c.2)
    (h : EqualMeans (func (m p) (m q)) (l (m p) (m q))) :
    EqualMeans (pointerEqual m (some p) (some q) func) (l (m p) (m q)) := by
  by_cases e : p = q
  · subst e
    intro _
    refine ⟨fun _ c hc => ?_, fun _ => by simp [pointerEqual]⟩
    rw [hl _ c hc]; simp
  · simpa [pointerEqual, e] using h

theorem approxVal_means (a b : F32) : EqualMeans (approxVal a b) [(a, b)] := by
  intro hf
  obtain ⟨ha, hb⟩ := hf (a, b) (by simp)
  simp only [List.mem_singleton, forall_eq] at *
  have e := dy 1 23
  have q := dy 1 25
  have h23 : (fltEps : F32) = lit 1 (2 ^ 23) := rfl
  simp only [approxVal, fuzzyEquals, h23, sc_lt, sc_sub] at *
  by_cases hab : b.lt a = true
  · have hv := (lt_iff_val (isNaN_of_isFin hb) (isNaN_of_isFin ha)).1 hab
    have r := rnd_sub ha hb
    simp only [hab, if_true]
    rw [_root_.abs_of_pos (by linarith)]
    constructor
    · intro h
      by_contra hc
      have := r.ge_of e.1 (by rw [e.2]; push_cast; linarith)
      rw [lt_iff_val r.not_nan (isNaN_of_isFin e.1)] at h
      rw [le_iff_val (isNaN_of_isFin e.1) r.not_nan] at this
      linarith
    · intro h
      have := r.le_of q.1 (by rw [q.2]; push_cast; linarith)
      rw [lt_iff_val r.not_nan (isNaN_of_isFin e.1), e.2]
      rw [le_iff_val r.not_nan (isNaN_of_isFin q.1), q.2] at this
      refine _root_.lt_of_le_of_lt this ?_
      norm_num
  · have hv : a.val ≤ b.val := by
      by_contra hc
      exact hab ((lt_iff_val (isNaN_of_isFin hb) (isNaN_of_isFin ha)).2 (not_le.1 hc))
    have r := rnd_sub hb ha
    simp only [hab, Bool.false_eq_true, if_false]
    rw [_root_.abs_of_nonpos (by linarith)]
    constructor
    · intro h
      by_contra hc
      have := r.ge_of e.1 (by rw [e.2]; push_cast; linarith)
      rw [lt_iff_val r.not_nan (isNaN_of_isFin e.1)] at h
      rw [le_iff_val (isNaN_of_isFin e.1) r.not_nan] at this
      linarith
    · intro h
      have := r.le_of q.1 (by rw [q.2]; push_cast; linarith)
      rw [lt_iff_val r.not_nan (isNaN_of_isFin e.1), e.2]
      rw [le_iff_val r.not_nan (isNaN_of_isFin q.1), q.2] at this
      refine _root_.lt_of_le_of_lt this ?_
      norm_num

/-- the components of two vectors -/
def Spec.pairs2 (a b : Vec2 F32) : List (F32 × F32) := [(a.getX, b.getX), (a.getY, b.getY)]
def Spec.pairs3 (a b : Vec3 F32) : List (F32 × F32) := [(a.getX, b.getX), (a.getY, b.getY), (a.getZ, b.getZ)]
def Spec.pairs4 (a b : Vec4 F32) : List (F32 × F32) :=
  [(a.getX, b.getX), (a.getY, b.getY), (a.getZ, b.getZ), (a.getW, b.getW)]

omit [Libm binary32] in
theorem not_both {e x : F32} (h : e.le x = true) (g : x.lt e = true) : False := by
  rw [le_iff] at h; rw [lt_iff] at g; omega

theorem near3_means (bk : Backend) (a b : Vec3 F32) :
    EqualMeans (Vec3.near bk a b fltEps) (pairs3 a b) := by
  intro hf
  simp only [pairs3, List.mem_cons, List.not_mem_nil, or_false, forall_eq_or_imp, forall_eq] at *
  obtain ⟨⟨ax, bx⟩, ⟨ay, b_y⟩, ⟨az, bz⟩⟩ := hf
  have nx := nn_sq ax bx
  have ny := nn_sq ay b_y
  have nz := nn_sq az bz
  have n0 := nn_zero
  have key : ∀ e : F32, (e.le (Fp.mul (Fp.sub a.getX b.getX) (Fp.sub a.getX b.getX)) = true ∨
        e.le (Fp.mul (Fp.sub a.getY b.getY) (Fp.sub a.getY b.getY)) = true ∨
        e.le (Fp.mul (Fp.sub a.getZ b.getZ) (Fp.sub a.getZ b.getZ)) = true) →
      e.le (Simd4f.dot3Scalar bk (Simd4f.sub a.value b.value) (Simd4f.sub a.value b.value)) = true := by
    intro e he
    rcases bk with ⟨_ | _, _⟩ | _ | _ | _
    · rcases he with he | he | he
      · exact Fp.le_trans he (Fp.le_trans (nx.add nz).2.1 ((nx.add nz).1.add (ny.add n0).1).2.1)
      · exact Fp.le_trans he (Fp.le_trans (ny.add n0).2.1 ((nx.add nz).1.add (ny.add n0).1).2.2)
      · exact Fp.le_trans he (Fp.le_trans (nx.add nz).2.2 ((nx.add nz).1.add (ny.add n0).1).2.1)
    · rcases he with he | he | he
      · exact Fp.le_trans he (Fp.le_trans (nx.add ny).2.1 ((nx.add ny).1.add (nz.add n0).1).2.1)
      · exact Fp.le_trans he (Fp.le_trans (nx.add ny).2.2 ((nx.add ny).1.add (nz.add n0).1).2.1)
      · exact Fp.le_trans he (Fp.le_trans (nz.add n0).2.1 ((nx.add ny).1.add (nz.add n0).1).2.2)
    all_goals
      rcases he with he | he | he
      · exact Fp.le_trans he (Fp.le_trans (nx.add ny).2.1 ((nx.add ny).1.add nz).2.1)
      · exact Fp.le_trans he (Fp.le_trans (nx.add ny).2.2 ((nx.add ny).1.add nz).2.1)
      · exact Fp.le_trans he ((nx.add ny).1.add nz).2.2
  constructor
  · intro h
    have h : (Simd4f.dot3Scalar bk (Simd4f.sub a.value b.value) (Simd4f.sub a.value b.value)).lt
      (Fp.mul (lit 1 8388608) (lit 1 8388608)) = true := h
    rw [eps_sq] at h
    refine ⟨?_, ?_, ?_⟩ <;> by_contra hc
    · exact not_both (key _ (.inl (sq_big ax bx (not_lt.1 hc)))) h
    · exact not_both (key _ (.inr (.inl (sq_big ay b_y (not_lt.1 hc))))) h
    · exact not_both (key _ (.inr (.inr (sq_big az bz (not_lt.1 hc))))) h
  · rintro ⟨hx, hy, hz⟩
    have sx := sq_small ax bx hx
    have sy := sq_small ay b_y hy
    have sz := sq_small az bz hz
    have s0 := sm_zero
    have : Sm 3 (Simd4f.dot3Scalar bk (Simd4f.sub a.value b.value) (Simd4f.sub a.value b.value)) := by
      rcases bk with ⟨_ | _, _⟩ | _ | _ | _
      · exact (sx.add sz (n := 2) rfl (by decide)).add (sy.add s0 (n := 1) rfl (by decide)) rfl (by decide)
      · exact (sx.add sy (n := 2) rfl (by decide)).add (sz.add s0 (n := 1) rfl (by decide)) rfl (by decide)
      all_goals exact (sx.add sy (n := 2) rfl (by decide)).add sz rfl (by decide)
    have h := sm_lt this (by decide)
    rw [← eps_sq] at h
    exact h

theorem near2_means (a b : Vec2 F32) : EqualMeans (Vec2.near a b fltEps) (pairs2 a b) := by
  intro hf
  simp only [pairs2, List.mem_cons, List.not_mem_nil, or_false, forall_eq_or_imp, forall_eq] at *
  obtain ⟨⟨ax, bx⟩, ⟨ay, b_y⟩⟩ := hf
  have nx := nn_sq ax bx
  have ny := nn_sq ay b_y
  constructor
  · intro h
    have h : (Fp.add (Fp.mul (Fp.sub a.getX b.getX) (Fp.sub a.getX b.getX))
      (Fp.mul (Fp.sub a.getY b.getY) (Fp.sub a.getY b.getY))).lt
      (Fp.mul (lit 1 8388608) (lit 1 8388608)) = true := h
    rw [eps_sq] at h
    refine ⟨?_, ?_⟩ <;> by_contra hc
    · exact not_both (Fp.le_trans (sq_big ax bx (not_lt.1 hc)) (nx.add ny).2.1) h
    · exact not_both (Fp.le_trans (sq_big ay b_y (not_lt.1 hc)) (nx.add ny).2.2) h
  · rintro ⟨hx, hy⟩
    have sx := sq_small ax bx hx
    have sy := sq_small ay b_y hy
    have h := sm_lt (sx.add sy (n := 2) rfl (by decide)) (by decide)
    rw [← eps_sq] at h
    exact h

theorem near4_means (a b : Vec4 F32) : EqualMeans (Vec4.near a b fltEps) (pairs4 a b) := by
  intro hf
  simp only [pairs4, List.mem_cons, List.not_mem_nil, or_false, forall_eq_or_imp, forall_eq] at *
  obtain ⟨⟨ax, bx⟩, ⟨ay, b_y⟩, ⟨az, bz⟩, ⟨aw, bw⟩⟩ := hf
  have nx := nn_sq ax bx
  have ny := nn_sq ay b_y
  have nz := nn_sq az bz
  have nw := nn_sq aw bw
  have u := (nx.add ny)
  have v := (nz.add nw)
  have t := u.1.add v.1
  constructor
  · intro h
    have h : (Fp.add (Fp.add (Fp.mul (Fp.sub a.getX b.getX) (Fp.sub a.getX b.getX))
      (Fp.mul (Fp.sub a.getY b.getY) (Fp.sub a.getY b.getY)))
      (Fp.add (Fp.mul (Fp.sub a.getZ b.getZ) (Fp.sub a.getZ b.getZ))
      (Fp.mul (Fp.sub a.getW b.getW) (Fp.sub a.getW b.getW)))).lt
      (Fp.mul (lit 1 8388608) (lit 1 8388608)) = true := h
    rw [eps_sq] at h
    refine ⟨?_, ?_, ?_, ?_⟩ <;> by_contra hc
    · exact not_both (Fp.le_trans (sq_big ax bx (not_lt.1 hc)) (Fp.le_trans u.2.1 t.2.1)) h
    · exact not_both (Fp.le_trans (sq_big ay b_y (not_lt.1 hc)) (Fp.le_trans u.2.2 t.2.1)) h
    · exact not_both (Fp.le_trans (sq_big az bz (not_lt.1 hc)) (Fp.le_trans v.2.1 t.2.2)) h
    · exact not_both (Fp.le_trans (sq_big aw bw (not_lt.1 hc)) (Fp.le_trans v.2.2 t.2.2)) h
  · rintro ⟨hx, hy, hz, hw⟩
    have sx := sq_small ax bx hx
    have sy := sq_small ay b_y hy
    have sz := sq_small az bz hz
    have sw := sq_small aw bw hw
    have h := sm_lt ((sx.add sy (n := 2) rfl (by decide)).add (sz.add sw (n := 2) rfl (by decide)) (n := 4) rfl (by decide)) (by decide)
    rw [← eps_sq] at h
    exact h


/-- backends whose vector comparison is C's `==` (all but the plain C one, see C06) -/
def Spec.Vectorised (bk : Backend) : Prop := ∀ d, bk ≠ .scalar d

theorem eq1_val {bk : Backend} (hb : Vectorised bk) {a b : F32} (h : Simd4f.eq1 bk a b = true) :
    |a.val - b.val| < 1 / 2 ^ 23 := by
  have h : Fp.feq a b = true := by
    rcases bk with _ | _ | _ | d
    · exact h
    · exact h
    · exact h
    · exact absurd rfl (hb d)
  obtain ⟨h1, h2, h3⟩ := feq_iff.1 h
  rw [(feq_iff_val h1 h2).1 h]; simp

theorem vec2_means {bk : Backend} (hb : Vectorised bk) (a b : Vec2 F32) :
    EqualMeans (Vec2.equalV bk a b) (pairs2 a b) := by
  intro hf
  obtain ⟨n1, n2⟩ := near2_means a b hf
  unfold Vec2.equalV
  by_cases hc : Simd4f.cmpEq bk a.value b.value = true
  · rw [if_pos hc]
    refine ⟨fun _ => ?_, fun _ => rfl⟩
    simp only [Simd4f.cmpEq, Bool.and_eq_true] at hc
    simp only [pairs2, List.mem_cons, List.not_mem_nil, or_false, forall_eq_or_imp, forall_eq]
    exact ⟨eq1_val hb hc.1.1.1, eq1_val hb hc.1.1.2⟩
  · rw [if_neg hc]; exact ⟨n1, n2⟩
theorem vec3_means {bk : Backend} (hb : Vectorised bk) (a b : Vec3 F32) :
    EqualMeans (Vec3.equalV bk a b) (pairs3 a b) := by
  intro hf
  obtain ⟨n1, n2⟩ := near3_means bk a b hf
  unfold Vec3.equalV
  by_cases hc : Simd4f.cmpEq bk a.value b.value = true
  · rw [if_pos hc]
    refine ⟨fun _ => ?_, fun _ => rfl⟩
    simp only [Simd4f.cmpEq, Bool.and_eq_true] at hc
    simp only [pairs3, List.mem_cons, List.not_mem_nil, or_false, forall_eq_or_imp, forall_eq]
    exact ⟨eq1_val hb hc.1.1.1, eq1_val hb hc.1.1.2, eq1_val hb hc.1.2⟩
  · rw [if_neg hc]; exact ⟨n1, n2⟩
theorem vec4_means {bk : Backend} (hb : Vectorised bk) (a b : Vec4 F32) :
    EqualMeans (Vec4.equalV bk a b) (pairs4 a b) := by
  intro hf
  obtain ⟨n1, n2⟩ := near4_means a b hf
  unfold Vec4.equalV
  by_cases hc : Simd4f.cmpEq bk a.value b.value = true
  · rw [if_pos hc]
    refine ⟨fun _ => ?_, fun _ => rfl⟩
    simp only [Simd4f.cmpEq, Bool.and_eq_true] at hc
    simp only [pairs4, List.mem_cons, List.not_mem_nil, or_false, forall_eq_or_imp, forall_eq]
    exact ⟨eq1_val hb hc.1.1.1, eq1_val hb hc.1.1.2, eq1_val hb hc.1.2, eq1_val hb hc.2⟩
  · rw [if_neg hc]; exact ⟨n1, n2⟩

/-- C89: vectors. -/
theorem C89_vectors (bk : Backend) (hb : Vectorised bk) (m2 : Mem (Vec2 F32)) (m3 : Mem (Vec3 F32))
    (m4 : Mem (Vec4 F32)) (p q : Nat) :
    EqualMeans (Vec2.equal bk m2 (some p) (some q)) (pairs2 (m2 p) (m2 q)) ∧
    EqualMeans (Vec3.equal bk m3 (some p) (some q)) (pairs3 (m3 p) (m3 q)) ∧
    EqualMeans (Vec4.equal bk m4 (some p) (some q)) (pairs4 (m4 p) (m4 q)) := by
  refine ⟨(vec2_means hb _ _).ptr (l := pairs2) ?_, (vec3_means hb _ _).ptr (l := pairs3) ?_,
    (vec4_means hb _ _).ptr (l := pairs4) ?_⟩ <;> intro a c hc <;>
    simp only [pairs2, pairs3, pairs4, List.mem_cons, List.not_mem_nil, or_false] at hc
  · rcases hc with rfl | rfl <;> rfl
  · rcases hc with rfl | rfl | rfl <;> rfl
  · rcases hc with rfl | rfl | rfl | rfl <;> rfl

theorem pairs3_self (a : Vec3 F32) : ∀ c ∈ pairs3 a a, c.1 = c.2 := by
  intro c hc
  simp only [pairs3, List.mem_cons, List.not_mem_nil, or_false] at hc
  rcases hc with rfl | rfl | rfl <;> rfl

/-- the components of spheres, planes, rays, triangles -/
def Spec.pairsSphere (a b : Sphere F32) : List (F32 × F32) := pairs3 a.center b.center ++ [(a.radius, b.radius)]
def Spec.pairsPlane (a b : Plane F32) : List (F32 × F32) := pairs3 a.normal b.normal ++ [(a.constant, b.constant)]
def Spec.pairsRay (a b : Ray F32) : List (F32 × F32) := pairs3 a.origin b.origin ++ pairs3 a.direction b.direction
def Spec.pairsTriangle (a b : Triangle F32) : List (F32 × F32) :=
  pairs3 a.a b.a ++ pairs3 a.b b.b ++ pairs3 a.c b.c
def Spec.pairsFrustum (a b : Frustum F32) : List (F32 × F32) :=
  pairsPlane a.p0 b.p0 ++ pairsPlane a.p1 b.p1 ++ pairsPlane a.p2 b.p2 ++
  pairsPlane a.p3 b.p3 ++ pairsPlane a.p4 b.p4 ++ pairsPlane a.p5 b.p5

omit [Libm binary32] in
theorem self_append {l k : List (F32 × F32)} (h : ∀ c ∈ l, c.1 = c.2) (g : ∀ c ∈ k, c.1 = c.2) :
    ∀ c ∈ l ++ k, c.1 = c.2 := by
  intro c hc
  rcases List.mem_append.1 hc with hc | hc
  · exact h c hc
  · exact g c hc
omit [Libm binary32] in
theorem self_single (a : F32) : ∀ c ∈ [(a, a)], c.1 = c.2 := by
  intro c hc; rw [List.mem_singleton.1 hc]

theorem plane_means {bk : Backend} (hb : Vectorised bk) (a b : Plane F32) :
    EqualMeans (Plane.equalV bk a b) (pairsPlane a b) :=
  (vec3_means hb _ _).and (approxVal_means _ _)
theorem pairsPlane_self (a : Plane F32) : ∀ c ∈ pairsPlane a a, c.1 = c.2 :=
  self_append (pairs3_self _) (self_single _)

/-- C89: spheres, planes, rays, triangles, frustums: every component takes part in the comparison. -/
theorem C89_solids (bk : Backend) (hb : Vectorised bk) (ms : Mem (Sphere F32)) (mp : Mem (Plane F32))
    (mr : Mem (Ray F32)) (mt : Mem (Triangle F32)) (mf : Mem (Frustum F32)) (p q : Nat) :
    EqualMeans (Sphere.equal bk ms (some p) (some q)) (pairsSphere (ms p) (ms q)) ∧
    EqualMeans (Plane.equal bk mp (some p) (some q)) (pairsPlane (mp p) (mp q)) ∧
    EqualMeans (Ray.equal bk mr (some p) (some q)) (pairsRay (mr p) (mr q)) ∧
    EqualMeans (Triangle.equal bk mt (some p) (some q)) (pairsTriangle (mt p) (mt q)) ∧
    EqualMeans (Frustum.equal bk mf (some p) (some q)) (pairsFrustum (mf p) (mf q)) := by
  refine ⟨Spec.EqualMeans.ptr (l := pairsSphere) ?_ ?_, Spec.EqualMeans.ptr (l := pairsPlane) ?_ ?_,
    Spec.EqualMeans.ptr (l := pairsRay) ?_ ?_, Spec.EqualMeans.ptr (l := pairsTriangle) ?_ ?_,
    Spec.EqualMeans.ptr (l := pairsFrustum) ?_ ?_⟩
  · exact fun a => self_append (pairs3_self _) (self_single _)
  · exact (vec3_means hb _ _).and (approxVal_means _ _)
  · exact fun a => pairsPlane_self a
  · exact plane_means hb _ _
  · exact fun a => self_append (pairs3_self _) (pairs3_self _)
  · exact (vec3_means hb _ _).and (vec3_means hb _ _)
  · exact fun a => self_append (self_append (pairs3_self _) (pairs3_self _)) (pairs3_self _)
  · exact ((vec3_means hb _ _).and (vec3_means hb _ _)).and (vec3_means hb _ _)
  · exact fun a => self_append (self_append (self_append (self_append (self_append (pairsPlane_self _)
      (pairsPlane_self _)) (pairsPlane_self _)) (pairsPlane_self _)) (pairsPlane_self _)) (pairsPlane_self _)
  · exact (((((plane_means hb _ _).and (plane_means hb _ _)).and (plane_means hb _ _)).and
      (plane_means hb _ _)).and (plane_means hb _ _)).and (plane_means hb _ _)

/-- C89: Euler angles: the angles as above, and the orders must be the same. -/
theorem C89_euler (bk : Backend) (hb : Vectorised bk) (m : Mem (Euler F32)) (p q : Nat) :
    ((m p).order ≠ (m q).order → Euler.equal bk m (some p) (some q) = false) ∧
    ((m p).order = (m q).order →
      EqualMeans (Euler.equal bk m (some p) (some q)) (pairs3 (m p).angles (m q).angles)) := by
  constructor
  · intro h
    have e : p ≠ q := fun e => h (by rw [e])
    simp [Euler.equal, pointerEqual, e, Euler.equalV, h]
  · intro h
    refine Spec.EqualMeans.ptr (l := fun (a b : Euler F32) => pairs3 a.angles b.angles) (fun a => pairs3_self _) ?_
    simpa [Euler.equalV, h] using vec3_means hb (m p).angles (m q).angles

/-- the components of points, sizes, matrices -/
def Spec.pairsPoint (a b : Point F32) : List (F32 × F32) := [(a.x, b.x), (a.y, b.y)]
def Spec.pairsPoint3D (a b : Point3D F32) : List (F32 × F32) := [(a.x, b.x), (a.y, b.y), (a.z, b.z)]
def Spec.pairsSize (a b : Size F32) : List (F32 × F32) := [(a.width, b.width), (a.height, b.height)]
def Spec.pairsMatrix (a b : M4 F32) : List (F32 × F32) :=
  pairs4 ⟨a.x⟩ ⟨b.x⟩ ++ pairs4 ⟨a.y⟩ ⟨b.y⟩ ++ pairs4 ⟨a.z⟩ ⟨b.z⟩ ++ pairs4 ⟨a.w⟩ ⟨b.w⟩

theorem point_means (a b : Point F32) : EqualMeans (Point.equalV a b) (pairsPoint a b) := by
  intro hf
  simp only [pairsPoint, List.mem_cons, List.not_mem_nil, or_false, forall_eq_or_imp, forall_eq] at *
  obtain ⟨⟨ax, bx⟩, ⟨ay, b_y⟩⟩ := hf
  have e := dy 1 23
  have q := dy 1 25
  obtain ⟨h1, h2⟩ := C86_near a b (lit 1 (2 ^ 23)) ⟨ax, ay⟩ ⟨bx, b_y⟩ e.1
  have ev : (lit 1 (2 ^ 23) : F32).val = 1 / 2 ^ 23 := by rw [e.2]; push_cast; rfl
  rw [ev] at h1 h2
  refine ⟨h1, fun h => h2 (lit 1 (2 ^ 25)) q.1 ?_ ?_ ?_⟩
  · rw [q.2]; norm_num
  · rw [q.2]; push_cast; exact h.1
  · rw [q.2]; push_cast; exact h.2
theorem point3d_means (a b : Point3D F32) : EqualMeans (Point3D.equalV a b) (pairsPoint3D a b) := by
  intro hf
  simp only [pairsPoint3D, List.mem_cons, List.not_mem_nil, or_false, forall_eq_or_imp, forall_eq] at *
  obtain ⟨⟨ax, bx⟩, ⟨ay, b_y⟩, ⟨az, bz⟩⟩ := hf
  have e := dy 1 23
  have q := dy 1 25
  obtain ⟨h1, h2⟩ := C86_near3d a b (lit 1 (2 ^ 23)) ⟨ax, ay, az⟩ ⟨bx, b_y, bz⟩ e.1
  have ev : (lit 1 (2 ^ 23) : F32).val = 1 / 2 ^ 23 := by rw [e.2]; push_cast; rfl
  rw [ev] at h1 h2
  refine ⟨h1, fun h => h2 (lit 1 (2 ^ 25)) q.1 ?_ ?_ ?_ ?_⟩
  · rw [q.2]; norm_num
  · rw [q.2]; push_cast; exact h.1
  · rw [q.2]; push_cast; exact h.2.1
  · rw [q.2]; push_cast; exact h.2.2
theorem size_means (a b : Size F32) : EqualMeans (Size.equalV a b) (pairsSize a b) :=
  (approxVal_means _ _).and (approxVal_means _ _)

theorem pairs4_self (a : Vec4 F32) : ∀ c ∈ pairs4 a a, c.1 = c.2 := by
  intro c hc
  simp only [pairs4, List.mem_cons, List.not_mem_nil, or_false] at hc
  rcases hc with rfl | rfl | rfl | rfl <;> rfl

/-- C89: points, sizes and matrices (every backend). -/
theorem C89_points (mp : Mem (Point F32)) (m3 : Mem (Point3D F32)) (ms : Mem (Size F32)) (mm : Mem (M4 F32))
    (p q : Nat) :
    EqualMeans (Point.equal mp (some p) (some q)) (pairsPoint (mp p) (mp q)) ∧
    EqualMeans (Point3D.equal m3 (some p) (some q)) (pairsPoint3D (m3 p) (m3 q)) ∧
    EqualMeans (Size.equal ms (some p) (some q)) (pairsSize (ms p) (ms q)) ∧
    EqualMeans (GMatrix.equal mm (some p) (some q)) (pairsMatrix (mm p) (mm q)) := by
  refine ⟨Spec.EqualMeans.ptr (l := pairsPoint) ?_ (point_means _ _),
    Spec.EqualMeans.ptr (l := pairsPoint3D) ?_ (point3d_means _ _),
    Spec.EqualMeans.ptr (l := pairsSize) ?_ (size_means _ _), ?_⟩
  · intro a; exact self_append (l := [(a.x, a.x)]) (self_single _) (self_single _)
  · intro a; exact self_append (l := [(a.x, a.x)]) (self_single _)
      (self_append (l := [(a.y, a.y)]) (self_single _) (self_single _))
  · intro a; exact self_append (l := [(a.width, a.width)]) (self_single _) (self_single _)
  · have hs : ∀ a : M4 F32, ∀ c ∈ pairsMatrix a a, c.1 = c.2 := fun a =>
      self_append (self_append (self_append (pairs4_self _) (pairs4_self _)) (pairs4_self _)) (pairs4_self _)
    by_cases e : p = q
    · subst e
      intro _
      refine ⟨fun _ c hc => ?_, fun _ => by simp [GMatrix.equal, GMatrix.near]⟩
      rw [hs _ c hc]; simp
    · have := (((near4_means ⟨(mm p).x⟩ ⟨(mm q).x⟩).and (near4_means ⟨(mm p).y⟩ ⟨(mm q).y⟩)).and
        (near4_means ⟨(mm p).z⟩ ⟨(mm q).z⟩)).and (near4_means ⟨(mm p).w⟩ ⟨(mm q).w⟩)
      have h2 : GMatrix.equal mm (some p) (some q) = GMatrix.nearV (mm p) (mm q) fltEps := by
        simp [GMatrix.equal, GMatrix.near, e]
      rw [h2]; exact this


/-! ### Boxes -/

def Spec.pairsBox (a b : Box F32) : List (F32 × F32) := pairs3 a.min b.min ++ pairs3 a.max b.max
def Spec.pairsBox2d (a b : Box2d F32) : List (F32 × F32) := pairs4 ⟨a.minmax⟩ ⟨b.minmax⟩

theorem isPosInf_iff (v : F32) : Box2d.isPosInf v = true ↔ v = .inf false := by
  cases v with
  | nan => simp [Box2d.isPosInf, Scalar.isInf, Fp.isInf]
  | inf s => cases s <;> simp [Box2d.isPosInf, Scalar.isInf, Fp.isInf, Scalar.signbit, Fp.signbit]
  | fin s m h => simp [Box2d.isPosInf, Scalar.isInf, Fp.isInf]
theorem isNegInf_iff (v : F32) : Box2d.isNegInf v = true ↔ v = .inf true := by
  cases v with
  | nan => simp [Box2d.isNegInf, Scalar.isInf, Fp.isInf]
  | inf s => cases s <;> simp [Box2d.isNegInf, Scalar.isInf, Fp.isInf, Scalar.signbit, Fp.signbit]
  | fin s m h => simp [Box2d.isNegInf, Scalar.isInf, Fp.isInf]

/-- every coordinate of the minimum is `-∞` and every one of the maximum `+∞` -/
def Spec.InfiniteBox (b : Box F32) : Prop :=
  b.min.getX = .inf true ∧ b.min.getY = .inf true ∧ b.min.getZ = .inf true ∧
  b.max.getX = .inf false ∧ b.max.getY = .inf false ∧ b.max.getZ = .inf false
/-- the other way round -/
def Spec.EmptyBox (b : Box F32) : Prop :=
  b.min.getX = .inf false ∧ b.min.getY = .inf false ∧ b.min.getZ = .inf false ∧
  b.max.getX = .inf true ∧ b.max.getY = .inf true ∧ b.max.getZ = .inf true
def Spec.InfiniteBox2d (b : Box2d F32) : Prop :=
  b.minmax = ⟨.inf true, .inf true, .inf false, .inf false⟩
def Spec.EmptyBox2d (b : Box2d F32) : Prop :=
  b.minmax = ⟨.inf false, .inf false, .inf true, .inf true⟩

theorem isEmpty_iff_eps (b : Box F32) : b.isEmpty = true ↔ EmptyBox b := by
  simp only [Box.isEmpty, Bool.and_eq_true, isPosInf_iff, isNegInf_iff, EmptyBox, and_assoc]; rfl
theorem isInfinity_iff_eps (b : Box F32) : b.isInfinity = true ↔ InfiniteBox b := by
  simp only [Box.isInfinity, Bool.and_eq_true, isPosInf_iff, isNegInf_iff, InfiniteBox, and_assoc]; rfl
theorem isEmpty2d_iff (b : Box2d F32) : b.isEmpty = true ↔ EmptyBox2d b := by
  obtain ⟨⟨x, y, z, w⟩⟩ := b
  simp only [Box2d.isEmpty, Bool.and_eq_true, isPosInf_iff, isNegInf_iff, EmptyBox2d, and_assoc, V4.mk.injEq]; rfl
theorem isInfinity2d_iff (b : Box2d F32) : b.isInfinity = true ↔ InfiniteBox2d b := by
  obtain ⟨⟨x, y, z, w⟩⟩ := b
  simp only [Box2d.isInfinity, Bool.and_eq_true, isPosInf_iff, isNegInf_iff, InfiniteBox2d, and_assoc, V4.mk.injEq]; rfl

/-- C89: boxes with finite corners are compared corner by corner; an infinite (empty) box equals
exactly the infinite (empty) ones. -/
theorem C89_box (bk : Backend) (hb : Vectorised bk) (m : Mem (Box F32)) (p q : Nat) :
    EqualMeans (Box.equal bk m (some p) (some q)) (pairsBox (m p) (m q)) ∧
    (InfiniteBox (m p) → (Box.equal bk m (some p) (some q) = true ↔ InfiniteBox (m q))) ∧
    (EmptyBox (m p) → (Box.equal bk m (some p) (some q) = true ↔ EmptyBox (m q))) := by
  refine ⟨?_, ?_, ?_⟩
  · refine Spec.EqualMeans.ptr (l := pairsBox) (fun a => self_append (pairs3_self _) (pairs3_self _)) ?_
    intro hf
    have ep : ¬ EmptyBox (m p) := fun h => by
      have := (hf ((m p).min.getX, (m q).min.getX) (by simp [pairsBox, pairs3])).1
      rw [h.1] at this; simp [Fp.isFin] at this
    have eq : ¬ EmptyBox (m q) := fun h => by
      have := (hf ((m p).min.getX, (m q).min.getX) (by simp [pairsBox, pairs3])).2
      rw [h.1] at this; simp [Fp.isFin] at this
    have ip : ¬ InfiniteBox (m p) := fun h => by
      have := (hf ((m p).min.getX, (m q).min.getX) (by simp [pairsBox, pairs3])).1
      rw [h.1] at this; simp [Fp.isFin] at this
    have iq : ¬ InfiniteBox (m q) := fun h => by
      have := (hf ((m p).min.getX, (m q).min.getX) (by simp [pairsBox, pairs3])).2
      rw [h.1] at this; simp [Fp.isFin] at this
    rw [← isEmpty_iff_eps, Bool.not_eq_true] at ep eq
    rw [← isInfinity_iff_eps, Bool.not_eq_true] at ip iq
    have := ((vec3_means hb (m p).min (m q).min).and (vec3_means hb (m p).max (m q).max)) hf
    simpa [Box.equalV, ep, eq, ip, iq, pairsBox] using this
  · intro h
    have hne : ¬ EmptyBox (m p) := fun g => by have := h.1.symm.trans g.1; simp at this
    rw [← isInfinity_iff_eps] at *
    rw [← isEmpty_iff_eps, Bool.not_eq_true] at hne
    by_cases e : p = q
    · subst e; simp [Box.equal, pointerEqual, h]
    · have hq : (m q).isInfinity = true → (m q).isEmpty = false := fun i => by
        rw [isInfinity_iff_eps] at i
        rw [← Bool.not_eq_true, isEmpty_iff_eps]
        exact fun g => by have := i.1.symm.trans g.1; simp at this
      cases hi : (m q).isInfinity <;> cases he : (m q).isEmpty <;>
        simp [Box.equal, pointerEqual, e, Box.equalV, h, hne, hi, he] <;> simp_all
  · intro h
    rw [← isEmpty_iff_eps] at *
    by_cases e : p = q
    · subst e; simp [Box.equal, pointerEqual, h]
    · cases he : (m q).isEmpty <;> simp [Box.equal, pointerEqual, e, Box.equalV, h, he]

/-- C89: the same for two-dimensional boxes. -/
theorem C89_box2d (bk : Backend) (hb : Vectorised bk) (m : Mem (Box2d F32)) (p q : Nat) :
    EqualMeans (Box2d.equal bk m (some p) (some q)) (pairsBox2d (m p) (m q)) ∧
    (InfiniteBox2d (m p) → (Box2d.equal bk m (some p) (some q) = true ↔ InfiniteBox2d (m q))) ∧
    (EmptyBox2d (m p) → (Box2d.equal bk m (some p) (some q) = true ↔ EmptyBox2d (m q))) := by
  refine ⟨?_, ?_, ?_⟩
  · refine Spec.EqualMeans.ptr (l := pairsBox2d) (fun a => pairs4_self _) ?_
    intro hf
    have h0 := hf ((m p).minmax.x, (m q).minmax.x) (List.mem_cons_self ..)
    have ep : ¬ EmptyBox2d (m p) := fun h => by rw [h] at h0; simp [Fp.isFin] at h0
    have eq : ¬ EmptyBox2d (m q) := fun h => by rw [h] at h0; simp [Fp.isFin] at h0
    have ip : ¬ InfiniteBox2d (m p) := fun h => by rw [h] at h0; simp [Fp.isFin] at h0
    have iq : ¬ InfiniteBox2d (m q) := fun h => by rw [h] at h0; simp [Fp.isFin] at h0
    rw [← isEmpty2d_iff, Bool.not_eq_true] at ep eq
    rw [← isInfinity2d_iff, Bool.not_eq_true] at ip iq
    have := (vec4_means hb ⟨(m p).minmax⟩ ⟨(m q).minmax⟩) hf
    simpa [Box2d.equalV, ep, eq, ip, iq, pairsBox2d] using this
  · intro h
    have hne : ¬ EmptyBox2d (m p) := fun g => by have := h.symm.trans g; simp at this
    rw [← isInfinity2d_iff] at *
    rw [← isEmpty2d_iff, Bool.not_eq_true] at hne
    by_cases e : p = q
    · subst e; simp [Box2d.equal, pointerEqual, h]
    · have hq : (m q).isInfinity = true → (m q).isEmpty = false := fun i => by
        rw [isInfinity2d_iff] at i
        rw [← Bool.not_eq_true, isEmpty2d_iff]
        exact fun g => by have := i.symm.trans g; simp at this
      cases hi : (m q).isInfinity <;> cases he : (m q).isEmpty <;>
        simp [Box2d.equal, pointerEqual, e, Box2d.equalV, h, hne, hi, he] <;> simp_all
  · intro h
    rw [← isEmpty2d_iff] at *
    by_cases e : p = q
    · subst e; simp [Box2d.equal, pointerEqual, h]
    · cases he : (m q).isEmpty <;> simp [Box2d.equal, pointerEqual, e, Box2d.equalV, h, he]

/-- The hypotheses hold for concrete data: a sphere of radius 3 and one of radius 3 + 1/4 are both
finite (and hence, by `C89_solids`, not equal). -/
example : let s : Sphere F32 := ⟨Vec3.init (lit 1 1) (lit 2 1) (lit 5 1), lit 3 1⟩
    let t : Sphere F32 := ⟨Vec3.init (lit 1 1) (lit 2 1) (lit 5 1), lit 13 4⟩
    (∀ p ∈ pairsSphere s t, p.1.isFin = true ∧ p.2.isFin = true) ∧ Vectorised .gcc ∧
    InfiniteBox (Box.infinite : Box F32) ∧ EmptyBox2d (Box2d.empty : Box2d F32) := by
  refine ⟨?_, fun d => by simp, ?_, ?_⟩
  · intro p hp
    simp only [pairsSphere, pairs3, List.mem_append, List.mem_cons, List.not_mem_nil, or_false] at hp
    rcases hp with (rfl | rfl | rfl) | rfl <;> exact ⟨by kdecide, by kdecide⟩
  · exact ⟨rfl, rfl, rfl, rfl, rfl, rfl⟩
  · rfl

end Graphene

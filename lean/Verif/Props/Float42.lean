/-
  C135: what `near` means in floating point (IEEE binary32), for an arbitrary tolerance.
-/
import Verif.Props.Float4

set_option exponentiation.threshold 3000

namespace Graphene
open Fp Spec
variable [Libm binary32]

/-- the exact Euclidean distance of two tuples of floats, given as the list of the corresponding components -/
noncomputable def Spec.spread (l : List (F32 × F32)) : ℝ := √((l.map fun c => (c.1.val - c.2.val) ^ 2).sum)

/-- every component is finite -/
def Spec.AllFin (l : List (F32 × F32)) : Prop := ∀ c ∈ l, c.1.isFin = true ∧ c.2.isFin = true

/-- `near` is the answer of a Euclidean comparison with tolerance `ε`: a yes is never given when a single component is
off by the tolerance or more, a yes means a distance of at most `ε`, a no a distance of at least `ε`, each up to a
relative error of `2^-20`. -/
def Spec.NearMeans (near : Bool) (l : List (F32 × F32)) (ε : ℝ) : Prop :=
  (near = true → ∀ c ∈ l, |c.1.val - c.2.val| < ε) ∧
  (1 / 2 ^ 60 ≤ ε → ε ≤ 2 ^ 60 →
    (near = true → spread l ≤ ε * (1 + 1 / 2 ^ 20)) ∧ (spread l ≤ ε * (1 - 1 / 2 ^ 20) → near = true))

/-- the squared difference rounds monotonically -/
theorem sq_ge {a b e : F32} (ha : a.isFin = true) (hb : b.isFin = true) (he : e.isFin = true) (h0 : 0 ≤ e.val)
    (h : e.val ≤ |a.val - b.val|) : (Fp.mul e e).le (Fp.mul (Fp.sub a b) (Fp.sub a b)) = true := by
  have r := rnd_sub ha hb
  have hn := r.not_nan
  have re := rnd_mul he he
  have hd : e.val ≤ |(Fp.sub a b).val| := by
    rcases le_abs'.1 h with g | g
    · have := r.le_of (a := neg e) (by simpa using he) (by rw [val_neg]; linarith)
      rw [le_iff_val hn (by simpa using isNaN_of_isFin he), val_neg] at this
      exact le_abs'.2 (.inl (by linarith))
    · have := r.ge_of he g
      rw [le_iff_val (isNaN_of_isFin he) hn] at this
      exact le_abs'.2 (.inr this)
  cases hf : (Fp.sub a b).isFin
  · cases hs : Fp.sub a b with
    | nan => rw [hs] at hn; simp [Fp.isNaN] at hn
    | inf s =>
      have : Fp.mul (Fp.inf s : F32) (Fp.inf s) = Fp.inf false := by cases s <;> rfl
      rw [this]
      exact le_inf re.not_nan
    | fin s m hm => rw [hs] at hf; simp [Fp.isFin] at hf
  · refine re.mono (rnd_mul hf hf) ?_
    rw [← abs_mul_abs_self (Fp.sub a b).val]
    exact mul_le_mul hd hd h0 (abs_nonneg _)

omit [Libm binary32] in
/-- comparing an accurate sum of squares with the rounded square of the tolerance -/
theorem near_core {D e : F32} {S : ℝ} (he : e.isFin = true) (hS : 0 ≤ S) (h1 : 1 / 2 ^ 60 ≤ e.val) (h2 : e.val ≤ 2 ^ 60)
    (hD : S ≤ 2 ^ 126 → D.isFin = true ∧ |D.val - S| ≤ S / 2 ^ 21 + 1 / 2 ^ 147)
    (hb : D.lt (Fp.mul e e) = true → S ≤ 4 * e.val ^ 2) :
    (D.lt (Fp.mul e e) = true → √S ≤ e.val * (1 + 1 / 2 ^ 20)) ∧
    (√S ≤ e.val * (1 - 1 / 2 ^ 20) → D.lt (Fp.mul e e) = true) := by
  have h0 : 0 < e.val := lt_of_lt_of_le (by positivity) h1
  have hsq1 : 1 / 2 ^ 120 ≤ e.val ^ 2 := by
    have := pow_le_pow_left₀ (by positivity) h1 2
    refine _root_.le_trans (le_of_eq ?_) this; norm_num
  have hsq2 : e.val ^ 2 ≤ 2 ^ 120 := by
    have := pow_le_pow_left₀ h0.le h2 2
    refine this.trans (le_of_eq ?_); norm_num
  have re := rnd_mul he he
  have ab : |e.val * e.val| = e.val ^ 2 := by rw [abs_mul_self, sq]
  have fe : (Fp.mul e e).isFin = true := re.isFin hp32 (by
    rw [ab]; exact hsq2.trans (_root_.le_trans (by norm_num) le_max32))
  have ee := re.err_add fe
  rw [ab, u32, eta32, show e.val * e.val = e.val ^ 2 by ring] at ee
  obtain ⟨e1, e2⟩ := _root_.abs_le.1 ee
  constructor
  · intro h
    have hS4 := hb h
    obtain ⟨fD, dD⟩ := hD (by norm_num at hsq2 ⊢; linarith)
    obtain ⟨d1, d2⟩ := _root_.abs_le.1 dD
    rw [lt_iff_val (isNaN_of_isFin fD) (isNaN_of_isFin fe)] at h
    rw [Real.sqrt_le_left (by positivity), mul_pow]
    norm_num at *
    linarith
  · intro h
    rw [Real.sqrt_le_left (by norm_num; positivity), mul_pow] at h
    obtain ⟨fD, dD⟩ := hD (by norm_num at hsq2 h ⊢; linarith)
    obtain ⟨d1, d2⟩ := _root_.abs_le.1 dD
    rw [lt_iff_val (isNaN_of_isFin fD) (isNaN_of_isFin fe)]
    norm_num at *
    linarith

omit [Libm binary32] in
theorem sq_lt_of_abs {x e : ℝ} (h : |x| < e) : x ^ 2 ≤ e ^ 2 := by
  rw [← sq_abs]; exact pow_le_pow_left₀ (abs_nonneg _) h.le 2

theorem vec2_near_means (a b : Vec2 F32) (e : F32) (hf : AllFin (pairs2 a b)) (he : e.isFin = true) (h0 : 0 ≤ e.val) :
    NearMeans (Vec2.near a b e) (pairs2 a b) e.val := by
  have hc : ∀ P : F32 × F32 → Prop, (∀ c ∈ pairs2 a b, P c) ↔ P (a.getX, b.getX) ∧ P (a.getY, b.getY) := by
    intro P; simp [pairs2]
  obtain ⟨⟨ax, bx⟩, ⟨ay, b_y⟩⟩ := (hc _).1 hf
  have nx := nn_sq ax bx
  have ny := nn_sq ay b_y
  have comp : Vec2.near a b e = true → ∀ c ∈ pairs2 a b, |c.1.val - c.2.val| < e.val := by
    intro h
    have h : (Fp.add (Fp.mul (Fp.sub a.getX b.getX) (Fp.sub a.getX b.getX))
      (Fp.mul (Fp.sub a.getY b.getY) (Fp.sub a.getY b.getY))).lt (Fp.mul e e) = true := h
    rw [hc]
    refine ⟨?_, ?_⟩ <;> by_contra hk
    · exact not_both (Fp.le_trans (sq_ge ax bx he h0 (not_lt.1 hk)) (nx.add ny).2.1) h
    · exact not_both (Fp.le_trans (sq_ge ay b_y he h0 (not_lt.1 hk)) (nx.add ny).2.2) h
  refine ⟨comp, fun h1 h2 => ?_⟩
  have hs : spread (pairs2 a b) = √((a.getX.val - b.getX.val) ^ 2 + (a.getY.val - b.getY.val) ^ 2) := by
    simp [spread, pairs2]
  rw [hs]
  have s1 := sq_nonneg (a.getX.val - b.getX.val)
  have s2 := sq_nonneg (a.getY.val - b.getY.val)
  refine near_core (D := Fp.add (Fp.mul (Fp.sub a.getX b.getX) (Fp.sub a.getX b.getX))
      (Fp.mul (Fp.sub a.getY b.getY) (Fp.sub a.getY b.getY))) he (by positivity) h1 h2 ?_ ?_
  · intro hbig
    obtain ⟨p1, f1⟩ := sqdiff_approx ax bx (by linarith)
    obtain ⟨p2, f2⟩ := sqdiff_approx ay b_y (by linarith)
    have q := sum2_approx p1 p2 (by norm_num at hbig ⊢; linarith)
    exact ⟨q.fin, q.err.trans (by norm_num at hbig ⊢; linarith)⟩
  · intro h
    obtain ⟨c1, c2⟩ := (hc _).1 (comp h)
    have := sq_lt_of_abs c1
    have := sq_lt_of_abs c2
    have := sq_nonneg e.val
    linarith

theorem sqdot3_near (bk : Backend) {a b : Vec3 F32} (hf : AllFin (pairs3 a b))
    (hbig : (a.getX.val - b.getX.val) ^ 2 + (a.getY.val - b.getY.val) ^ 2 + (a.getZ.val - b.getZ.val) ^ 2 ≤ 2 ^ 126) :
    (Simd4f.dot3Scalar bk (Simd4f.sub a.value b.value) (Simd4f.sub a.value b.value)).isFin = true ∧
    |(Simd4f.dot3Scalar bk (Simd4f.sub a.value b.value) (Simd4f.sub a.value b.value)).val -
      ((a.getX.val - b.getX.val) ^ 2 + (a.getY.val - b.getY.val) ^ 2 + (a.getZ.val - b.getZ.val) ^ 2)| ≤
      ((a.getX.val - b.getX.val) ^ 2 + (a.getY.val - b.getY.val) ^ 2 + (a.getZ.val - b.getZ.val) ^ 2) / 2 ^ 21 + 1 / 2 ^ 147 := by
  simp only [AllFin, pairs3, List.mem_cons, List.not_mem_nil, or_false, forall_eq_or_imp, forall_eq] at hf
  obtain ⟨⟨ax, bx⟩, ⟨ay, b_y⟩, ⟨az, bz⟩⟩ := hf
  have s1 := sq_nonneg (a.getX.val - b.getX.val)
  have s2 := sq_nonneg (a.getY.val - b.getY.val)
  have s3 := sq_nonneg (a.getZ.val - b.getZ.val)
  obtain ⟨p1, f1⟩ := sqdiff_approx ax bx (by linarith)
  obtain ⟨p2, f2⟩ := sqdiff_approx ay b_y (by linarith)
  obtain ⟨p3, f3⟩ := sqdiff_approx az bz (by linarith)
  rcases bk with ⟨_ | _, _⟩ | _ | _ | _
  · have q1 := sum2_approx p1 p3 (by norm_num at hbig ⊢; linarith)
    have q2 := sum2_approx p2 zero_approx (by norm_num at hbig ⊢; linarith)
    have q := sum2_approx q1 q2 (by norm_num at hbig ⊢; linarith)
    have q' := q.congr (x' := (a.getX.val - b.getX.val) ^ 2 + (a.getY.val - b.getY.val) ^ 2 + (a.getZ.val - b.getZ.val) ^ 2)
      (by ring) rfl
    exact ⟨q.fin, q'.err.trans (by norm_num at hbig ⊢; linarith)⟩
  · have q1 := sum2_approx p1 p2 (by norm_num at hbig ⊢; linarith)
    have q2 := sum2_approx p3 zero_approx (by norm_num at hbig ⊢; linarith)
    have q := sum2_approx q1 q2 (by norm_num at hbig ⊢; linarith)
    have q' := q.congr (x' := (a.getX.val - b.getX.val) ^ 2 + (a.getY.val - b.getY.val) ^ 2 + (a.getZ.val - b.getZ.val) ^ 2)
      (by ring) rfl
    exact ⟨q.fin, q'.err.trans (by norm_num at hbig ⊢; linarith)⟩
  all_goals
    have q1 := sum2_approx p1 p2 (by norm_num at hbig ⊢; linarith)
    have q := sum2_approx q1 p3 (by norm_num at hbig ⊢; linarith)
    exact ⟨q.fin, q.err.trans (by norm_num at hbig ⊢; linarith)⟩

theorem sqdot3_ge (bk : Backend) {a b : Vec3 F32} (hf : AllFin (pairs3 a b)) (e : F32)
    (he : ∃ c ∈ pairs3 a b, e.le (Fp.mul (Fp.sub c.1 c.2) (Fp.sub c.1 c.2)) = true) :
    e.le (Simd4f.dot3Scalar bk (Simd4f.sub a.value b.value) (Simd4f.sub a.value b.value)) = true := by
  simp only [AllFin, pairs3, List.mem_cons, List.not_mem_nil, or_false, forall_eq_or_imp, forall_eq, exists_eq_or_imp,
    exists_eq_left] at hf he
  obtain ⟨⟨ax, bx⟩, ⟨ay, b_y⟩, ⟨az, bz⟩⟩ := hf
  have nx := nn_sq ax bx
  have ny := nn_sq ay b_y
  have nz := nn_sq az bz
  have n0 := nn_zero
  rcases bk with ⟨_ | _, _⟩ | _ | _ | _
  · rcases he with he | he | he
    · exact Fp.le_trans he (Fp.le_trans (nx.add nz).2.1 ((nx.add nz).1.add (ny.add n0).1).2.1)
    · exact Fp.le_trans he (Fp.le_trans (ny.add n0).2.1 ((nx.add nz).1.add (ny.add n0).1).2.2)
    · exact Fp.le_trans he (Fp.le_trans (nx.add nz).2.2 ((nx.add nz).1.add (ny.add n0).1).2.1)
  · rcases he with he | he | he
    · exact Fp.le_trans he (Fp.le_trans (nx.add ny).2.1 ((nx.add ny).1.add (nz.add n0).1).2.1)
    · exact Fp.le_trans he (Fp.le_trans (nx.add ny).2.2 ((nx.add ny).1.add (nz.add n0).1).2.1)
    · exact Fp.le_trans he (Fp.le_trans (nz.add n0).2.1 ((nx.add ny).1.add (nz.add n0).1).2.2)
  all_goals
    rcases he with he | he | he
    · exact Fp.le_trans he (Fp.le_trans (nx.add ny).2.1 ((nx.add ny).1.add nz).2.1)
    · exact Fp.le_trans he (Fp.le_trans (nx.add ny).2.2 ((nx.add ny).1.add nz).2.1)
    · exact Fp.le_trans he ((nx.add ny).1.add nz).2.2

theorem vec3_near_means (bk : Backend) (a b : Vec3 F32) (e : F32) (hf : AllFin (pairs3 a b)) (he : e.isFin = true)
    (h0 : 0 ≤ e.val) : NearMeans (Vec3.near bk a b e) (pairs3 a b) e.val := by
  have comp : Vec3.near bk a b e = true → ∀ c ∈ pairs3 a b, |c.1.val - c.2.val| < e.val := by
    intro h c hc
    have h : (Simd4f.dot3Scalar bk (Simd4f.sub a.value b.value) (Simd4f.sub a.value b.value)).lt (Fp.mul e e) = true := h
    by_contra hk
    exact not_both (sqdot3_ge bk hf _ ⟨c, hc, sq_ge (hf c hc).1 (hf c hc).2 he h0 (not_lt.1 hk)⟩) h
  refine ⟨comp, fun h1 h2 => ?_⟩
  have hs : spread (pairs3 a b) =
      √((a.getX.val - b.getX.val) ^ 2 + (a.getY.val - b.getY.val) ^ 2 + (a.getZ.val - b.getZ.val) ^ 2) := by
    simp [spread, pairs3, add_assoc]
  rw [hs]
  refine near_core (D := Simd4f.dot3Scalar bk (Simd4f.sub a.value b.value) (Simd4f.sub a.value b.value)) he
    (by positivity) h1 h2 (sqdot3_near bk hf) ?_
  intro h
  have hc := comp h
  simp only [pairs3, List.mem_cons, List.not_mem_nil, or_false, forall_eq_or_imp, forall_eq] at hc
  have := sq_lt_of_abs hc.1
  have := sq_lt_of_abs hc.2.1
  have := sq_lt_of_abs hc.2.2
  have := sq_nonneg e.val
  linarith

theorem vec4_near_means (a b : Vec4 F32) (e : F32) (hf : AllFin (pairs4 a b)) (he : e.isFin = true)
    (h0 : 0 ≤ e.val) : NearMeans (Vec4.near a b e) (pairs4 a b) e.val := by
  have hc : ∀ P : F32 × F32 → Prop, (∀ c ∈ pairs4 a b, P c) ↔
      P (a.getX, b.getX) ∧ P (a.getY, b.getY) ∧ P (a.getZ, b.getZ) ∧ P (a.getW, b.getW) := by
    intro P; simp [pairs4]
  obtain ⟨⟨ax, bx⟩, ⟨ay, b_y⟩, ⟨az, bz⟩, ⟨aw, bw⟩⟩ := (hc _).1 hf
  have nx := nn_sq ax bx
  have ny := nn_sq ay b_y
  have nz := nn_sq az bz
  have nw := nn_sq aw bw
  have u := nx.add ny
  have v := nz.add nw
  have t := u.1.add v.1
  have comp : Vec4.near a b e = true → ∀ c ∈ pairs4 a b, |c.1.val - c.2.val| < e.val := by
    intro h
    have h : (Fp.add (Fp.add (Fp.mul (Fp.sub a.getX b.getX) (Fp.sub a.getX b.getX))
      (Fp.mul (Fp.sub a.getY b.getY) (Fp.sub a.getY b.getY)))
      (Fp.add (Fp.mul (Fp.sub a.getZ b.getZ) (Fp.sub a.getZ b.getZ))
      (Fp.mul (Fp.sub a.getW b.getW) (Fp.sub a.getW b.getW)))).lt (Fp.mul e e) = true := h
    rw [hc]
    refine ⟨?_, ?_, ?_, ?_⟩ <;> by_contra hk
    · exact not_both (Fp.le_trans (sq_ge ax bx he h0 (not_lt.1 hk)) (Fp.le_trans u.2.1 t.2.1)) h
    · exact not_both (Fp.le_trans (sq_ge ay b_y he h0 (not_lt.1 hk)) (Fp.le_trans u.2.2 t.2.1)) h
    · exact not_both (Fp.le_trans (sq_ge az bz he h0 (not_lt.1 hk)) (Fp.le_trans v.2.1 t.2.2)) h
    · exact not_both (Fp.le_trans (sq_ge aw bw he h0 (not_lt.1 hk)) (Fp.le_trans v.2.2 t.2.2)) h
  refine ⟨comp, fun h1 h2 => ?_⟩
  have hs : spread (pairs4 a b) = √((a.getX.val - b.getX.val) ^ 2 + (a.getY.val - b.getY.val) ^ 2 +
      ((a.getZ.val - b.getZ.val) ^ 2 + (a.getW.val - b.getW.val) ^ 2)) := by
    simp [spread, pairs4, add_assoc]
  rw [hs]
  have s1 := sq_nonneg (a.getX.val - b.getX.val)
  have s2 := sq_nonneg (a.getY.val - b.getY.val)
  have s3 := sq_nonneg (a.getZ.val - b.getZ.val)
  have s4 := sq_nonneg (a.getW.val - b.getW.val)
  refine near_core (D := Fp.add (Fp.add (Fp.mul (Fp.sub a.getX b.getX) (Fp.sub a.getX b.getX))
      (Fp.mul (Fp.sub a.getY b.getY) (Fp.sub a.getY b.getY)))
      (Fp.add (Fp.mul (Fp.sub a.getZ b.getZ) (Fp.sub a.getZ b.getZ))
      (Fp.mul (Fp.sub a.getW b.getW) (Fp.sub a.getW b.getW)))) he (by positivity) h1 h2 ?_ ?_
  · intro hbig
    obtain ⟨p1, f1⟩ := sqdiff_approx ax bx (by linarith)
    obtain ⟨p2, f2⟩ := sqdiff_approx ay b_y (by linarith)
    obtain ⟨p3, f3⟩ := sqdiff_approx az bz (by linarith)
    obtain ⟨p4, f4⟩ := sqdiff_approx aw bw (by linarith)
    have q1 := sum2_approx p1 p2 (by norm_num at hbig ⊢; linarith)
    have q2 := sum2_approx p3 p4 (by norm_num at hbig ⊢; linarith)
    have q := sum2_approx q1 q2 (by norm_num at hbig ⊢; linarith)
    exact ⟨q.fin, q.err.trans (by norm_num at hbig ⊢; linarith)⟩
  · intro h
    obtain ⟨c1, c2, c3, c4⟩ := (hc _).1 (comp h)
    have := sq_lt_of_abs c1
    have := sq_lt_of_abs c2
    have := sq_lt_of_abs c3
    have := sq_lt_of_abs c4
    linarith

/-- `graphene_vec2_near`, `graphene_vec3_near`, `graphene_vec4_near` compare the Euclidean distance with the tolerance,
on every backend. -/
theorem C135_vectors (bk : Backend) (a b : Vec2 F32) (c d : Vec3 F32) (v w : Vec4 F32) (ε : F32) (hε : ε.isFin = true)
    (h0 : 0 ≤ ε.val) :
    (AllFin (pairs2 a b) → NearMeans (Vec2.near a b ε) (pairs2 a b) ε.val) ∧
    (AllFin (pairs3 c d) → NearMeans (Vec3.near bk c d ε) (pairs3 c d) ε.val) ∧
    (AllFin (pairs4 v w) → NearMeans (Vec4.near v w ε) (pairs4 v w) ε.val) :=
  ⟨fun h => vec2_near_means a b ε h hε h0, fun h => vec3_near_means bk c d ε h hε h0,
    fun h => vec4_near_means v w ε h hε h0⟩

/-- corresponding entries of the rows of two matrices -/
def Spec.pairsRow (a b : M4 F32) (i : Fin 4) : List (F32 × F32) := pairs4 (GMatrix.getRow a i) (GMatrix.getRow b i)

/-- `graphene_matrix_near` compares the matrices row by row. -/
theorem C135_matrix (m : Mem (M4 F32)) (p q : Nat) (ε : F32) (hf : ∀ i, AllFin (pairsRow (m p) (m q) i))
    (hε : ε.isFin = true) (h0 : 0 < ε.val) :
    (GMatrix.near m (some p) (some q) ε = true → ∀ i, ∀ c ∈ pairsRow (m p) (m q) i, |c.1.val - c.2.val| < ε.val) ∧
    (1 / 2 ^ 60 ≤ ε.val → ε.val ≤ 2 ^ 60 →
      (GMatrix.near m (some p) (some q) ε = true → ∀ i, spread (pairsRow (m p) (m q) i) ≤ ε.val * (1 + 1 / 2 ^ 20)) ∧
      ((∀ i, spread (pairsRow (m p) (m q) i) ≤ ε.val * (1 - 1 / 2 ^ 20)) → GMatrix.near m (some p) (some q) ε = true)) := by
  by_cases e : p = q
  · subst e
    have hs : ∀ i, ∀ c ∈ pairsRow (m p) (m p) i, c.1.val - c.2.val = 0 := by
      intro i c hc
      rw [pairs4_self _ c hc, sub_self]
    have hz : ∀ i, spread (pairsRow (m p) (m p) i) = 0 := by
      intro i; simp [spread, pairsRow, pairs4]
    refine ⟨fun _ i c hc => by rw [hs i c hc]; simpa using h0, fun _ _ => ⟨fun _ i => ?_, fun _ => by simp [GMatrix.near]⟩⟩
    rw [hz]; positivity
  · have key : GMatrix.near m (some p) (some q) ε = true ↔
        ∀ i : Fin 4, Vec4.near (GMatrix.getRow (m p) i) (GMatrix.getRow (m q) i) ε = true := by
      simp [GMatrix.near, e, GMatrix.nearV, Fin.forall_fin_succ, and_assoc]
    have rows := fun i : Fin 4 => vec4_near_means _ _ ε (hf i) hε h0.le
    rw [key]
    refine ⟨fun h i c hc => (rows i).1 (h i) c hc, fun h1 h2 => ⟨fun h i => ((rows i).2 h1 h2).1 (h i),
      fun h i => ((rows i).2 h1 h2).2 (h i)⟩⟩

/-- one coordinate of the comparison of points -/
theorem coord_near {a b e : F32} (ha : a.isFin = true) (hb : b.isFin = true) (he : e.isFin = true) :
    ((Fp.abs (Fp.sub a b)).lt e = true → |a.val - b.val| < e.val) ∧
    (|a.val - b.val| * (1 + 1 / 2 ^ 24) < e.val → (Fp.abs (Fp.sub a b)).lt e = true) := by
  have r := rnd_sub ha hb
  have hn := r.not_nan
  have he' := isNaN_of_isFin he
  constructor
  · intro h
    rw [lt_iff_val (by simpa using hn) he', val_abs] at h
    by_contra hk
    refine absurd h (not_lt.2 ?_)
    rcases le_abs'.1 (not_lt.1 hk) with g | g
    · have := r.le_of (a := neg e) (by simpa using he) (by rw [val_neg]; linarith)
      rw [le_iff_val hn (by simpa using he'), val_neg] at this
      exact le_abs'.2 (.inl (by linarith))
    · have := r.ge_of he g
      rw [le_iff_val he' hn] at this
      exact le_abs'.2 (.inr this)
  · intro h
    have hx := abs_nonneg (a.val - b.val)
    have hm := _root_.abs_le.1 (show |a.val - b.val| ≤ e.val by norm_num at h; linarith)
    have fs := isFin_of_between (a := neg e) (by simpa using he) he
      (r.ge_of (by simpa using he) (by rw [val_neg]; exact hm.1)) (r.le_of he hm.2)
    have s := sub_err ha hb fs
    rw [u32] at s
    rw [lt_iff_val (by simpa using hn) he', val_abs]
    have := abs_sub_abs_le_abs_sub (Fp.sub a b).val (a.val - b.val)
    norm_num at h s ⊢
    linarith

/-- `graphene_point_near` and `graphene_point3d_near` compare coordinate by coordinate: a yes is exact, a no means that
some coordinate is off by the tolerance, up to one rounding. -/
theorem C135_points (mp : Mem (Point F32)) (m3 : Mem (Point3D F32)) (p q : Nat) (ε : F32) (hε : ε.isFin = true)
    (h0 : 0 < ε.val) :
    (AllFin (pairsPoint (mp p) (mp q)) →
      (Point.nearP mp p q ε = true → ∀ c ∈ pairsPoint (mp p) (mp q), |c.1.val - c.2.val| < ε.val) ∧
      ((∀ c ∈ pairsPoint (mp p) (mp q), |c.1.val - c.2.val| * (1 + 1 / 2 ^ 24) < ε.val) → Point.nearP mp p q ε = true)) ∧
    (AllFin (pairsPoint3D (m3 p) (m3 q)) →
      (Point3D.nearP m3 p q ε = true → ∀ c ∈ pairsPoint3D (m3 p) (m3 q), |c.1.val - c.2.val| < ε.val) ∧
      ((∀ c ∈ pairsPoint3D (m3 p) (m3 q), |c.1.val - c.2.val| * (1 + 1 / 2 ^ 24) < ε.val) →
        Point3D.nearP m3 p q ε = true)) := by
  by_cases e : p = q
  · subst e
    refine ⟨fun _ => ⟨fun _ c hc => ?_, fun _ => by simp [Point.nearP]⟩,
      fun _ => ⟨fun _ c hc => ?_, fun _ => by simp [Point3D.nearP]⟩⟩
    · simp only [pairsPoint, List.mem_cons, List.not_mem_nil, or_false] at hc
      rcases hc with rfl | rfl <;> simpa using h0
    · simp only [pairsPoint3D, List.mem_cons, List.not_mem_nil, or_false] at hc
      rcases hc with rfl | rfl | rfl <;> simpa using h0
  · constructor
    · intro hf
      simp only [AllFin, pairsPoint, List.mem_cons, List.not_mem_nil, or_false, forall_eq_or_imp, forall_eq] at hf ⊢
      have hx := coord_near hf.1.1 hf.1.2 hε
      have hy := coord_near hf.2.1 hf.2.2 hε
      have key : Point.nearP mp p q ε = ((Fp.abs (Fp.sub (mp p).x (mp q).x)).lt ε && (Fp.abs (Fp.sub (mp p).y (mp q).y)).lt ε) := by
        simp only [Point.nearP, e, if_false]; rfl
      rw [key, Bool.and_eq_true]
      exact ⟨fun h => ⟨hx.1 h.1, hy.1 h.2⟩, fun h => ⟨hx.2 h.1, hy.2 h.2⟩⟩
    · intro hf
      simp only [AllFin, pairsPoint3D, List.mem_cons, List.not_mem_nil, or_false, forall_eq_or_imp, forall_eq] at hf ⊢
      have hx := coord_near hf.1.1 hf.1.2 hε
      have hy := coord_near hf.2.1.1 hf.2.1.2 hε
      have hz := coord_near hf.2.2.1 hf.2.2.2 hε
      have key : Point3D.nearP m3 p q ε = ((Fp.abs (Fp.sub (m3 p).x (m3 q).x)).lt ε &&
          (Fp.abs (Fp.sub (m3 p).y (m3 q).y)).lt ε && (Fp.abs (Fp.sub (m3 p).z (m3 q).z)).lt ε) := by
        simp only [Point3D.nearP, e, if_false]; rfl
      rw [key, Bool.and_eq_true, Bool.and_eq_true]
      exact ⟨fun h => ⟨hx.1 h.1.1, hy.1 h.1.2, hz.1 h.2⟩, fun h => ⟨⟨hx.2 h.1, hy.2 h.2.1⟩, hz.2 h.2.2⟩⟩

/-- The range of tolerances is needed: with a tolerance below `2^-75` its square underflows to zero and a vector is not
even near its own copy; with one of `2^65` the square overflows and vectors at distance `2^64` are not near. -/
theorem C135_range (bk : Backend) :
    (∃ ε : F32, ε.isFin = true ∧ ε.val = 1 / 2 ^ 76 ∧ ∀ v : Vec3 F32, AllFin (pairs3 v v) → Vec3.near bk v v ε = false) ∧
    (∃ ε : F32, ∃ v w : Vec2 F32, ε.isFin = true ∧ ε.val = 2 ^ 65 ∧ AllFin (pairs2 v w) ∧ spread (pairs2 v w) = 2 ^ 64 ∧
      Vec2.near v w ε = false) := by
  constructor
  · have d := lit_dyadic 1 76 (by decide) (by decide)
    refine ⟨Fp.lit 1 (2 ^ 76), d.1, by rw [d.2]; norm_num, ?_⟩
    intro v hv
    have e : Fp.mul (Fp.lit 1 (2 ^ 76) : F32) (Fp.lit 1 (2 ^ 76)) = zero false := by decide +kernel
    have hz : (zero false : F32).le (Simd4f.dot3Scalar bk (Simd4f.sub v.value v.value) (Simd4f.sub v.value v.value)) = true := by
      refine sqdot3_ge bk hv _ ⟨(v.getX, v.getX), by simp [pairs3], ?_⟩
      have := nn_sq (hv (v.getX, v.getX) (by simp [pairs3])).1 (hv (v.getX, v.getX) (by simp [pairs3])).2
      rw [le_iff_val rfl this.1]; simpa using this.2
    cases h : Vec3.near bk v v (Fp.lit 1 (2 ^ 76))
    · rfl
    · have h : (Simd4f.dot3Scalar bk (Simd4f.sub v.value v.value) (Simd4f.sub v.value v.value)).lt
        (Fp.mul (Fp.lit 1 (2 ^ 76)) (Fp.lit 1 (2 ^ 76))) = true := h
      rw [e] at h
      exact (not_both hz h).elim
  · have r64 : binary32.Rep (2 ^ 213) := by decide +kernel
    have r65 : binary32.Rep (2 ^ 214) := by decide +kernel
    have v64 : (Fp.fin false (2 ^ 213) r64 : F32).val = 2 ^ 64 := by
      rw [val_fin, sgn_real]; norm_num
    have v65 : (Fp.fin false (2 ^ 214) r65 : F32).val = 2 ^ 65 := by
      rw [val_fin, sgn_real]; norm_num
    refine ⟨Fp.fin false (2 ^ 214) r65, Vec2.init (Fp.fin false (2 ^ 213) r64) (zero false),
      Vec2.init (zero false) (zero false), rfl, v65, ?_, ?_, ?_⟩
    · simp only [AllFin, pairs2, List.mem_cons, List.not_mem_nil, or_false, forall_eq_or_imp, forall_eq]
      exact ⟨⟨rfl, rfl⟩, rfl, rfl⟩
    · have e : spread (pairs2 (Vec2.init (Fp.fin false (2 ^ 213) r64) (zero false)) (Vec2.init (zero false) (zero false))) =
          √(((Fp.fin false (2 ^ 213) r64 : F32).val - (zero false : F32).val) ^ 2 +
            ((zero false : F32).val - (zero false : F32).val) ^ 2) := by
        simp only [spread, pairs2, List.map_cons, List.map_nil, List.sum_cons, List.sum_nil, add_zero]; rfl
      rw [e, v64, val_zero]; simp
    · kdecide

/-- the hypotheses are met, with both answers: (1,2,3) and (1,2,3.0009765625) with the tolerances 1/512 and 1/2048 -/
example (bk : Backend) :
    AllFin (pairs3 (Vec3.init (Fp.lit 1 1) (Fp.lit 2 1) (Fp.lit 3 1)) (Vec3.init (Fp.lit 1 1) (Fp.lit 2 1) (Fp.lit 3073 1024))) ∧
    (Fp.lit 1 512 : F32).isFin = true ∧ 0 ≤ (Fp.lit 1 512 : F32).val ∧ 1 / 2 ^ 60 ≤ (Fp.lit 1 512 : F32).val ∧
    (Fp.lit 1 512 : F32).val ≤ 2 ^ 60 ∧
    Vec3.near bk (Vec3.init (Fp.lit 1 1) (Fp.lit 2 1) (Fp.lit 3 1)) (Vec3.init (Fp.lit 1 1) (Fp.lit 2 1) (Fp.lit 3073 1024) : Vec3 F32)
      (Fp.lit 1 512) = true ∧
    Vec3.near bk (Vec3.init (Fp.lit 1 1) (Fp.lit 2 1) (Fp.lit 3 1)) (Vec3.init (Fp.lit 1 1) (Fp.lit 2 1) (Fp.lit 3073 1024) : Vec3 F32)
      (Fp.lit 1 2048) = false := by
  have d := lit_dyadic 1 9 (by decide) (by decide)
  norm_num at d
  refine ⟨?_, d.1, ?_, ?_, ?_, ?_, ?_⟩
  · simp only [AllFin, pairs3, List.mem_cons, List.not_mem_nil, or_false, forall_eq_or_imp, forall_eq]
    refine ⟨⟨?_, ?_⟩, ⟨?_, ?_⟩, ?_, ?_⟩ <;> kdecide
  · rw [d.2]; norm_num
  · rw [d.2]; norm_num
  · rw [d.2]; norm_num
  · rcases bk with ⟨_ | _, _⟩ | _ | _ | _ <;> kdecide
  · rcases bk with ⟨_ | _, _⟩ | _ | _ | _ <;> kdecide

/-- a yes that holds exactly: every coordinate of a near point is closer than the tolerance -/
example (m : Mem (Point F32)) (h : m 0 = ⟨Fp.lit 1 1, Fp.lit 2 1⟩) (g : m 1 = ⟨Fp.lit 1 1, Fp.lit 2049 1024⟩) :
    Point.nearP m 0 1 (Fp.lit 1 512) = true := by
  simp only [Point.nearP, h, g]; kdecide
end Graphene

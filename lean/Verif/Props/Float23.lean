/-
  C114: drift of accumulated transformations in floating point (IEEE binary32).
-/
import Verif.Props.Float19

set_option exponentiation.threshold 3000

namespace Graphene
open Fp Spec

/-- Euclidean length of a vector of four real numbers -/
noncomputable def Spec.len (v : Fin 4 → ℝ) : ℝ := √(∑ i, v i ^ 2)

/-- the matrix stretches no (row) vector by more than the factor `ν` -/
def Spec.Stretch (A : Matrix (Fin 4) (Fin 4) ℝ) (ν : ℝ) : Prop := ∀ v, len (Matrix.vecMul v A) ≤ ν * len v

theorem len_eq (v : Fin 4 → ℝ) : len v = ‖(WithLp.toLp 2 v : EuclideanSpace ℝ (Fin 4))‖ := by
  rw [EuclideanSpace.norm_eq]; simp [len]

theorem len_nonneg (v : Fin 4 → ℝ) : 0 ≤ len v := Real.sqrt_nonneg _

theorem len_sq (v : Fin 4 → ℝ) : len v ^ 2 = ∑ i, v i ^ 2 := Real.sq_sqrt (Finset.sum_nonneg fun _ _ => sq_nonneg _)

theorem len_add (v w : Fin 4 → ℝ) : len (v + w) ≤ len v + len w := by
  simp only [len_eq]
  exact norm_add_le (WithLp.toLp 2 v : EuclideanSpace ℝ (Fin 4)) (WithLp.toLp 2 w)

theorem coord_le_len (v : Fin 4 → ℝ) (i : Fin 4) : |v i| ≤ len v := by
  apply Real.abs_le_sqrt
  exact Finset.single_le_sum (f := fun i => v i ^ 2) (fun _ _ => sq_nonneg _) (Finset.mem_univ i)

/-- Cauchy–Schwarz -/
theorem cs_abs (v w : Fin 4 → ℝ) : ∑ i, |v i * w i| ≤ len v * len w := by
  have h := Finset.sum_mul_sq_le_sq_mul_sq Finset.univ (fun i => |v i|) (fun i => |w i|)
  simp only [sq_abs] at h
  rw [← len_sq, ← len_sq, ← _root_.mul_pow] at h
  have h2 := abs_le_of_sq_le_sq h (mul_nonneg (len_nonneg v) (len_nonneg w))
  simp only [_root_.abs_mul]
  exact (le_abs_self _).trans h2

/-- a vector with components bounded by `c` -/
theorem len_le_of {v : Fin 4 → ℝ} {c : ℝ} (hc : 0 ≤ c) (h : ∀ i, |v i| ≤ c) : len v ≤ 2 * c := by
  apply Real.sqrt_le_iff.2
  refine ⟨by positivity, ?_⟩
  have := fun i => sq_le_sq' (_root_.abs_le.1 (h i)).1 (_root_.abs_le.1 (h i)).2
  rw [Fin.sum_univ_four]
  nlinarith [this 0, this 1, this 2, this 3]

/-- a column of a matrix that stretches by at most `ν` is no longer than `ν` -/
theorem col_le {A : Matrix (Fin 4) (Fin 4) ℝ} {ν : ℝ} (hν : 0 ≤ ν) (h : Stretch A ν) (j : Fin 4) : len (fun i => A i j) ≤ ν := by
  set c : Fin 4 → ℝ := fun i => A i j
  have e : Matrix.vecMul c A j = len c ^ 2 := by
    rw [len_sq]; simp [Matrix.vecMul, dotProduct, c, sq]
  have k := (coord_le_len (Matrix.vecMul c A) j).trans (h c)
  rw [e, abs_of_nonneg (sq_nonneg _)] at k
  rcases (len_nonneg c).eq_or_lt with z | p
  · rw [← z]; exact hν
  · nlinarith

theorem sum_abs_mul_le {v : Fin 4 → ℝ} {w : Fin 4 → ℝ} {c : ℝ} (h : len w ≤ c) : ∑ i, |v i * w i| ≤ len v * c :=
  (cs_abs v w).trans (mul_le_mul_of_nonneg_left h (len_nonneg v))

variable [Libm binary32]

/-- one step -/
theorem drift_step {ν δ L : ℝ} (hν : 1 ≤ ν) (hδ : 0 ≤ δ) {m : M4 F32} {A : Matrix (Fin 4) (Fin 4) ℝ} (hm : FinMat m)
    (hA : ∀ i j, |rmat m i j - A i j| ≤ δ) (hs : Stretch A ν) {v : Vec4 F32} (hv : FinVec v.value)
    (hL : len (rvec v.value) ≤ L) (lo : 1 / 2 ^ 100 ≤ L) (hi : L * (ν + 4 * δ) ≤ 2 ^ 120) :
    FinVec (GMatrix.transformVec4 m v).value ∧
      len (rvec (GMatrix.transformVec4 m v).value - Matrix.vecMul (rvec v.value) A)
        ≤ ((ν + 4 * δ) * (1 + 1 / 2 ^ 20) - ν) * L := by
  have L0 : 0 < L := lt_of_lt_of_le (by positivity) lo
  set g := ν + 4 * δ with hg
  have g0 : 1 ≤ g := by linarith
  -- columns of the computed matrix
  have dc : ∀ j, len (fun i => rmat m i j - A i j) ≤ 2 * δ := fun j => len_le_of hδ (fun i => hA i j)
  have col : ∀ j, len (fun i => rmat m i j) ≤ g := by
    intro j
    have e : (fun i => rmat m i j) = (fun i => A i j) + (fun i => rmat m i j - A i j) := by funext i; simp
    rw [e]
    refine (len_add _ _).trans ((add_le_add (col_le (by linarith) hs j) (dc j)).trans ?_)
    linarith
  have S : ∀ j, ∑ i, |rvec v.value i * rmat m i j| ≤ L * g := fun j =>
    (sum_abs_mul_le (col j)).trans (mul_le_mul_of_nonneg_right hL (by linarith))
  have big : ∀ j, ∑ i, |rvec v.value i * rmat m i j| ≤ 2 ^ 126 := fun j => (S j).trans (hi.trans (by norm_num))
  have T := fun j => C87_transform_vec4 m v hm hv j (big j)
  refine ⟨fun j => (T j).1, ?_⟩
  set r := rvec (GMatrix.transformVec4 m v).value
  have e : r - Matrix.vecMul (rvec v.value) A
      = (fun j => r j - ∑ i, rvec v.value i * rmat m i j) + (fun j => ∑ i, rvec v.value i * (rmat m i j - A i j)) := by
    funext j
    simp only [Pi.sub_apply, Pi.add_apply, Matrix.vecMul, dotProduct, mul_sub, Finset.sum_sub_distrib]
    ring
  rw [e]
  have r1 : len (fun j => r j - ∑ i, rvec v.value i * rmat m i j) ≤ 2 * dotErr (L * g) := by
    refine len_le_of (by unfold dotErr; positivity) (fun j => (T j).2.trans ?_)
    have := S j
    unfold dotErr
    gcongr
  have r2 : len (fun j => ∑ i, rvec v.value i * (rmat m i j - A i j)) ≤ 2 * (L * (2 * δ)) := by
    refine len_le_of (by positivity) (fun j => (Finset.abs_sum_le_sum_abs _ _).trans ?_)
    exact (sum_abs_mul_le (dc j)).trans (mul_le_mul_of_nonneg_right hL (by linarith))
  refine (len_add _ _).trans ((add_le_add r1 r2).trans ?_)
  have k : 2 * dotErr (L * g) ≤ L * g / 2 ^ 20 := by
    unfold dotErr
    have : L ≤ L * g := by nlinarith
    norm_num at lo ⊢
    linarith
  have : (g * (1 + 1 / 2 ^ 20) - ν) * L = 4 * δ * L + L * g / 2 ^ 20 := by rw [hg]; ring
  rw [this]; linarith

/-- transforming by the matrices of the list, one after the other -/
def Spec.chain (v : Vec4 F32) (l : List (M4 F32)) : Vec4 F32 := l.foldl (fun v m => GMatrix.transformVec4 m v) v
/-- the exact image under the matrices of the list, one after the other -/
noncomputable def Spec.exactChain (v : Fin 4 → ℝ) (l : List (Matrix (Fin 4) (Fin 4) ℝ)) : Fin 4 → ℝ :=
  l.foldl (fun v A => Matrix.vecMul v A) v

/-- C114: a chain of `graphene_matrix_transform_vec4`.  The `k`-th matrix is within `δ` of a matrix `A_k` that stretches by at
most `ν`.  The final vector is finite and off the exact image under the `A_k` by at most `(g^n - ν^n) L`, where
`g = (ν + 4 δ) (1 + 2^-20)` and `L` bounds the length of the start. -/
theorem C114_chain {ν δ L : ℝ} (hν : 1 ≤ ν) (hδ : 0 ≤ δ) (l : List (M4 F32 × Matrix (Fin 4) (Fin 4) ℝ))
    (hl : ∀ p ∈ l, FinMat p.1 ∧ (∀ i j, |rmat p.1 i j - p.2 i j| ≤ δ) ∧ Stretch p.2 ν)
    (v : Vec4 F32) (hv : FinVec v.value) (hL : len (rvec v.value) ≤ L) (lo : 1 / 2 ^ 100 ≤ L)
    (hi : ((ν + 4 * δ) * (1 + 1 / 2 ^ 20)) ^ l.length * L ≤ 2 ^ 120) :
    FinVec (chain v (l.map Prod.fst)).value ∧
      len (rvec (chain v (l.map Prod.fst)).value - exactChain (rvec v.value) (l.map Prod.snd))
        ≤ (((ν + 4 * δ) * (1 + 1 / 2 ^ 20)) ^ l.length - ν ^ l.length) * L ∧
      len (exactChain (rvec v.value) (l.map Prod.snd)) ≤ ν ^ l.length * L := by
  have L0 : 0 < L := lt_of_lt_of_le (by positivity) lo
  set g := (ν + 4 * δ) * (1 + 1 / 2 ^ 20) with hg
  have gν : ν + 4 * δ ≤ g := by rw [hg]; nlinarith
  have g1 : 1 ≤ g := by linarith
  induction l using List.reverseRecOn with
  | nil =>
    refine ⟨hv, ?_, ?_⟩
    · simp [chain, exactChain, len]
    · simpa [exactChain] using hL
  | append_singleton l p ih =>
    have len1 : (l ++ [p]).length = l.length + 1 := by simp
    rw [len1] at hi ⊢
    have hi' : g ^ l.length * L ≤ 2 ^ 120 := by
      refine _root_.le_trans ?_ hi
      rw [pow_succ]
      have : 0 ≤ g ^ l.length := by positivity
      nlinarith [mul_nonneg this L0.le]
    obtain ⟨f, e, b⟩ := ih (fun q hq => hl q (by simp [hq])) hi'
    obtain ⟨pf, pd, ps⟩ := hl p (by simp)
    set w := chain v (l.map Prod.fst) with hw
    set x := exactChain (rvec v.value) (l.map Prod.snd) with hx
    have c1 : chain v ((l ++ [p]).map Prod.fst) = GMatrix.transformVec4 p.1 w := by simp [chain, hw]
    have c2 : exactChain (rvec v.value) ((l ++ [p]).map Prod.snd) = Matrix.vecMul x p.2 := by simp [exactChain, hx]
    rw [c1, c2]
    have wl : len (rvec w.value) ≤ g ^ l.length * L := by
      have := len_add (rvec w.value - x) x
      rw [sub_add_cancel] at this
      refine this.trans ((add_le_add e b).trans (by linarith))
    have G1 : 1 ≤ g ^ l.length := one_le_pow₀ g1
    obtain ⟨sf, se⟩ := drift_step hν hδ pf pd ps f wl (by nlinarith) (by
      refine _root_.le_trans ?_ hi
      rw [pow_succ]
      have : 0 ≤ g ^ l.length * L := by positivity
      nlinarith)
    refine ⟨sf, ?_, ?_⟩
    · have t := len_add (rvec (GMatrix.transformVec4 p.1 w).value - Matrix.vecMul (rvec w.value) p.2)
        (Matrix.vecMul (rvec w.value - x) p.2)
      have eq : (rvec (GMatrix.transformVec4 p.1 w).value - Matrix.vecMul (rvec w.value) p.2)
        + Matrix.vecMul (rvec w.value - x) p.2 = rvec (GMatrix.transformVec4 p.1 w).value - Matrix.vecMul x p.2 := by
        rw [Matrix.sub_vecMul]; abel
      rw [eq] at t
      refine t.trans ((add_le_add se ((ps _).trans (mul_le_mul_of_nonneg_left e (by linarith)))).trans ?_)
      rw [← hg, pow_succ, pow_succ]
      apply le_of_eq; ring
    · refine (ps _).trans ((mul_le_mul_of_nonneg_left b (by linarith)).trans ?_)
      rw [pow_succ]; apply le_of_eq; ring

/-- multiplying by the matrices of the list, one after the other -/
def Spec.product (a : M4 F32) (l : List (M4 F32)) : M4 F32 := l.foldl GMatrix.multiply a

omit [Libm binary32] in
theorem exactChain_vecMul (v : Fin 4 → ℝ) (A : Matrix (Fin 4) (Fin 4) ℝ) (l : List (Matrix (Fin 4) (Fin 4) ℝ)) :
    exactChain (Matrix.vecMul v A) l = Matrix.vecMul v (l.foldl (· * ·) A) := by
  induction l generalizing A with
  | nil => rfl
  | cons B l ih =>
    change exactChain (Matrix.vecMul (Matrix.vecMul v A) B) l = _
    rw [Matrix.vecMul_vecMul, ih]; rfl

omit [Libm binary32] in
theorem exactChain_row (A : Matrix (Fin 4) (Fin 4) ℝ) (l : List (Matrix (Fin 4) (Fin 4) ℝ)) (i : Fin 4) :
    exactChain (A i) l = (l.foldl (· * ·) A) i := by
  have h := exactChain_vecMul (Pi.single i 1) A l
  rwa [Matrix.single_one_vecMul, Matrix.single_one_vecMul] at h

/-- the `i`-th row of a matrix of floats -/
def rowOf (m : M4 F32) (i : Fin 4) : V4 F32 := ![m.x, m.y, m.z, m.w] i

theorem rowOf_multiply (a b : M4 F32) (i : Fin 4) : rowOf (GMatrix.multiply a b) i = (GMatrix.transformVec4 b ⟨rowOf a i⟩).value := by
  fin_cases i <;> rfl

theorem rowOf_product (a : M4 F32) (l : List (M4 F32)) (i : Fin 4) : rowOf (product a l) i = (chain ⟨rowOf a i⟩ l).value := by
  induction l generalizing a with
  | nil => rfl
  | cons m l ih =>
    change rowOf (product (GMatrix.multiply a m) l) i = (chain (GMatrix.transformVec4 m ⟨rowOf a i⟩) l).value
    rw [ih, rowOf_multiply]

omit [Libm binary32] in
theorem vec_rowOf (m : M4 F32) (i j : Fin 4) : vec (rowOf m i) j = mat m i j := by
  fin_cases i <;> fin_cases j <;> rfl

/-- C114: accumulating with `graphene_matrix_multiply`.  The same bound for every row of the accumulated matrix; `L` bounds the
length of the rows of the matrix one starts from (1 for the identity). -/
theorem C114_product {ν δ L : ℝ} (hν : 1 ≤ ν) (hδ : 0 ≤ δ) (l : List (M4 F32 × Matrix (Fin 4) (Fin 4) ℝ))
    (hl : ∀ p ∈ l, FinMat p.1 ∧ (∀ i j, |rmat p.1 i j - p.2 i j| ≤ δ) ∧ Stretch p.2 ν)
    (a : M4 F32) (ha : FinMat a) (hL : ∀ i, len (rmat a i) ≤ L) (lo : 1 / 2 ^ 100 ≤ L)
    (hi : ((ν + 4 * δ) * (1 + 1 / 2 ^ 20)) ^ l.length * L ≤ 2 ^ 120) :
    FinMat (product a (l.map Prod.fst)) ∧
      ∀ i, len (rmat (product a (l.map Prod.fst)) i - ((l.map Prod.snd).foldl (· * ·) (rmat a)) i)
        ≤ (((ν + 4 * δ) * (1 + 1 / 2 ^ 20)) ^ l.length - ν ^ l.length) * L := by
  have e : ∀ (m : M4 F32) i, rvec (rowOf m i) = rmat m i := fun m i => by
    funext j; simp [rvec, vec_rowOf, rmat]
  have key := fun i => C114_chain hν hδ l hl ⟨rowOf a i⟩ (fun j => by rw [vec_rowOf]; exact ha i j)
    (by rw [e]; exact hL i) lo hi
  refine ⟨fun i j => ?_, fun i => ?_⟩
  · have := (key i).1 j
    rwa [← rowOf_product, vec_rowOf] at this
  · have := (key i).2.1
    rw [← rowOf_product, e] at this
    change len (_ - exactChain (rvec (rowOf a i)) _) ≤ _ at this
    rwa [e, exactChain_row] at this

/-! ### rotations -/

omit [Libm binary32] in
/-- an exact rotation changes no length -/
theorem rodMat_len {u : Point3D ℝ} (hu : u.x ^ 2 + u.y ^ 2 + u.z ^ 2 = 1) (θ : ℝ) (v : Fin 4 → ℝ) :
    len (Matrix.vecMul v (rodMat u θ)) = len v := by
  have hs := Real.sin_sq_add_cos_sq θ
  unfold len
  congr 1
  simp only [Matrix.vecMul, dotProduct, Fin.sum_univ_four, rodMat, rodrigues, Matrix.of_apply, Matrix.cons_val]
  set s := Real.sin θ
  set c := Real.cos θ
  generalize v 0 = x, v 1 = y, v 2 = z, v 3 = w
  obtain ⟨a, b, d⟩ := u
  simp only at *
  linear_combination ((x ^ 2 + y ^ 2 + z ^ 2) - (a * x + b * y + d * z) ^ 2) * hs
    + (s ^ 2 * (x ^ 2 + y ^ 2 + z ^ 2) + (1 - c) ^ 2 * (a * x + b * y + d * z) ^ 2) * hu

theorem pow_one_add_le {x : ℝ} (hx : 0 ≤ x) (n : ℕ) (h : n * x < 1) : (1 + x) ^ n ≤ 1 / (1 - n * x) := by
  rw [le_div_iff₀ (by linarith)]
  rcases n.eq_zero_or_pos with rfl | hn
  · simp
  have x1 : x < 1 := by
    have : (1 : ℝ) ≤ n := by exact_mod_cast hn
    nlinarith
  have b := one_add_mul_le_pow (a := -x) (by linarith) n
  have p0 : 0 ≤ (1 + x) ^ n := by positivity
  calc (1 + x) ^ n * (1 - n * x) ≤ (1 + x) ^ n * (1 + -x) ^ n := by
        apply mul_le_mul_of_nonneg_left _ p0; linarith
    _ = (1 - x ^ 2) ^ n := by rw [← _root_.mul_pow]; ring_nf
    _ ≤ 1 := pow_le_one₀ (by nlinarith) (by nlinarith)

theorem drift_bound {n : ℕ} (hn : n ≤ 2 ^ 11) :
    ((1 + 4 * (1 / 2 ^ 15) : ℝ) * (1 + 1 / 2 ^ 20)) ^ n - 1 ≤ n / 2 ^ 12 := by
  have n' : (n : ℝ) ≤ 2048 := by exact_mod_cast hn
  have n0 : (0 : ℝ) ≤ n := Nat.cast_nonneg n
  obtain ⟨x, hx⟩ : ∃ x : ℝ, x = 65 / 524288 := ⟨_, rfl⟩
  have q : (1 + 4 * (1 / 2 ^ 15) : ℝ) * (1 + 1 / 2 ^ 20) ≤ 1 + x := by rw [hx]; norm_num
  have p : ((1 + 4 * (1 / 2 ^ 15) : ℝ) * (1 + 1 / 2 ^ 20)) ^ n ≤ (1 + x) ^ n := pow_le_pow_left₀ (by norm_num) q n
  have t : (n : ℝ) * x ≤ 13 / 50 := by rw [hx]; linarith
  have b := pow_one_add_le (x := x) (by rw [hx]; norm_num) n (by linarith)
  have : 1 / (1 - n * x) ≤ 1 + n / 4096 := by
    rw [div_le_iff₀ (by linarith)]
    have h : (n : ℝ) * (n * x) ≤ n * (13 / 50) := mul_le_mul_of_nonneg_left t n0
    have e : (1 + (n : ℝ) / 4096) * (1 - n * x) = 1 + n / 4096 - n * x - n * (n * x) / 4096 := by ring
    rw [e]
    have f : (n : ℝ) * x = n * (65 / 524288) := by rw [hx]
    linarith
  have z : (n : ℝ) / 2 ^ 12 = n / 4096 := by norm_num
  rw [z]; linarith

theorem drift_two {n : ℕ} (hn : n ≤ 2 ^ 11) : ((1 + 4 * (1 / 2 ^ 15) : ℝ) * (1 + 1 / 2 ^ 20)) ^ n ≤ 2 := by
  have n' : (n : ℝ) ≤ 2 ^ 11 := by exact_mod_cast hn
  have h := drift_bound hn
  have : (n : ℝ) / 2 ^ 12 ≤ 1 := by rw [div_le_one (by positivity)]; exact n'.trans (by norm_num)
  linarith

/-- the matrices and the exact rotations of a list of angles (in degrees) and axes -/
noncomputable def rotPairs (bk : Backend) (l : List (F32 × Vec3 F32)) : List (M4 F32 × Matrix (Fin 4) (Fin 4) ℝ) :=
  l.map fun p => (GMatrix.initRotate bk p.1 p.2, rodMat (unitOf (exactV p.2)) (p.1.val * (Real.pi / 180)))

/-- the exact product of the rotations of the list -/
noncomputable def Spec.exactRotation (l : List (F32 × Vec3 F32)) : Matrix (Fin 4) (Fin 4) ℝ :=
  (l.map fun p => rodMat (unitOf (exactV p.2)) (p.1.val * (Real.pi / 180))).foldl (· * ·) 1

theorem exactRotation_len (bk : Backend) (l : List (F32 × Vec3 F32)) (hl : ∀ p ∈ l, GoodAxis bk p.2) (v : Fin 4 → ℝ) :
    len (Matrix.vecMul v (exactRotation l)) = len v := by
  induction l using List.reverseRecOn with
  | nil => simp [exactRotation]
  | append_singleton l p ih =>
    have e : exactRotation (l ++ [p]) = exactRotation l * rodMat (unitOf (exactV p.2)) (p.1.val * (Real.pi / 180)) := by
      simp [exactRotation]
    rw [e, ← Matrix.vecMul_vecMul, rodMat_len (exactV_unit (hl p (by simp)))]
    exact ih (fun q hq => hl q (by simp [hq]))

theorem rotPairs_ok (bk : Backend) (he : EstAccurate bk) (ht : TrigAccurate) (l : List (F32 × Vec3 F32))
    (hl : ∀ p ∈ l, p.1.isFin = true ∧ |p.1.val| ≤ 2 ^ 12 ∧ GoodAxis bk p.2) :
    ∀ p ∈ rotPairs bk l, FinMat p.1 ∧ (∀ i j, |rmat p.1 i j - p.2 i j| ≤ 1 / 2 ^ 15) ∧ Stretch p.2 1 := by
  intro p hp
  obtain ⟨q, hq, rfl⟩ := List.mem_map.1 hp
  obtain ⟨h1, h2, h3⟩ := hl q hq
  have k := C108_init_rotate bk he ht q.1 q.2 h1 (h2.trans (by norm_num)) h3
  refine ⟨fun i j => (k i j).1, fun i j => (k i j).2.trans ?_, fun v => ?_⟩
  · norm_num at h2 ⊢; linarith
  · rw [rodMat_len (exactV_unit h3), one_mul]

/-- C114: `n` successive calls of `graphene_matrix_rotate`, starting from the identity (`n ≤ 2^11`, angles up to 4096 degrees in
absolute value, about any axes, on every back end): every entry stays finite, every row is within `n / 2^12` of the exact product
of the rotations, so its length is within `n / 2^12` of 1. -/
theorem C114_rotations (bk : Backend) (he : EstAccurate bk) (ht : TrigAccurate) (l : List (F32 × Vec3 F32))
    (hl : ∀ p ∈ l, p.1.isFin = true ∧ |p.1.val| ≤ 2 ^ 12 ∧ GoodAxis bk p.2) (hn : l.length ≤ 2 ^ 11) :
    let m := l.foldl (fun m p => GMatrix.rotate bk m p.1 p.2) (GMatrix.initIdentity : M4 F32)
    FinMat m ∧ (∀ i, len (rmat m i - exactRotation l i) ≤ l.length / 2 ^ 12) ∧
      (∀ i, |len (rmat m i) - 1| ≤ l.length / 2 ^ 12) := by
  intro m
  have em : m = product GMatrix.initIdentity ((rotPairs bk l).map Prod.fst) := by
    simp only [m, product, rotPairs, List.map_map, List.foldl_map]; rfl
  have id1 : FinMat (GMatrix.initIdentity : M4 F32) ∧ rmat (GMatrix.initIdentity : M4 F32) = 1 := by
    have z := is_f0
    have o := is_f1
    refine ⟨fun i j => ?_, ?_⟩
    · fin_cases i <;> fin_cases j <;> first | exact z.1 | exact o.1
    · ext i j
      fin_cases i <;> fin_cases j <;> first | exact z.2 | exact o.2
  have row1 : ∀ i : Fin 4, len ((1 : Matrix (Fin 4) (Fin 4) ℝ) i) = 1 := by
    intro i
    fin_cases i <;> simp [len, Matrix.one_apply]
  have nl : (rotPairs bk l).length = l.length := by simp [rotPairs]
  have db := drift_bound hn
  obtain ⟨f, e⟩ := C114_product (le_refl (1 : ℝ)) (δ := 1 / 2 ^ 15) (L := 1) (by norm_num) (rotPairs bk l)
    (rotPairs_ok bk he ht l hl) GMatrix.initIdentity id1.1 (fun i => by rw [id1.2, row1]) (by norm_num) (by
      rw [nl, mul_one]; exact (drift_two hn).trans (by norm_num))
  have ex : ((rotPairs bk l).map Prod.snd).foldl (· * ·) (rmat (GMatrix.initIdentity : M4 F32)) = exactRotation l := by
    rw [id1.2]; simp [rotPairs, exactRotation, List.foldl_map]
  rw [← em] at f
  simp only [← em, ex, nl, one_pow, mul_one] at e
  have E : ∀ i, len (rmat m i - exactRotation l i) ≤ l.length / 2 ^ 12 := fun i => (e i).trans db
  refine ⟨f, E, fun i => ?_⟩
  have r : len (exactRotation l i) = 1 := by
    have h := exactRotation_len bk l (fun p hp => (hl p hp).2.2) (Pi.single i 1)
    rw [Matrix.single_one_vecMul] at h
    refine Eq.trans h ?_
    fin_cases i <;> simp [len, Pi.single_apply]
  have t1 := len_add (rmat m i - exactRotation l i) (exactRotation l i)
  have t2 := len_add (exactRotation l i - rmat m i) (rmat m i)
  rw [sub_add_cancel] at t1 t2
  have sym : len (exactRotation l i - rmat m i) = len (rmat m i - exactRotation l i) := by
    unfold len; congr 1; apply Finset.sum_congr rfl; intro j _; simp only [Pi.sub_apply]; ring
  rw [_root_.abs_le]
  have := E i
  constructor <;> linarith

/-- C114: rotating a vector again and again: `n` successive transformations by `init_rotate` matrices leave a finite vector within
`n / 2^12` times its length of the exactly rotated one, however large or small (between `2^-100` and `2^118`) the vector. -/
theorem C114_spin (bk : Backend) (he : EstAccurate bk) (ht : TrigAccurate) (l : List (F32 × Vec3 F32))
    (hl : ∀ p ∈ l, p.1.isFin = true ∧ |p.1.val| ≤ 2 ^ 12 ∧ GoodAxis bk p.2) (hn : l.length ≤ 2 ^ 11)
    (v : Vec4 F32) (hv : FinVec v.value) (lo : 1 / 2 ^ 100 ≤ len (rvec v.value)) (hi : len (rvec v.value) ≤ 2 ^ 118) :
    let w := l.foldl (fun v p => GMatrix.transformVec4 (GMatrix.initRotate bk p.1 p.2) v) v
    FinVec w.value ∧
      len (rvec w.value - Matrix.vecMul (rvec v.value) (exactRotation l)) ≤ l.length / 2 ^ 12 * len (rvec v.value) := by
  intro w
  have ew : w = chain v ((rotPairs bk l).map Prod.fst) := by
    simp only [w, chain, rotPairs, List.map_map, List.foldl_map]; rfl
  have nl : (rotPairs bk l).length = l.length := by simp [rotPairs]
  have db := drift_bound hn
  have L0 := len_nonneg (rvec v.value)
  obtain ⟨f, e, -⟩ := C114_chain (le_refl (1 : ℝ)) (δ := 1 / 2 ^ 15) (by norm_num) (rotPairs bk l)
    (rotPairs_ok bk he ht l hl) v hv le_rfl lo (by
      rw [nl]
      have := drift_two hn
      calc _ ≤ (2 : ℝ) * 2 ^ 118 := mul_le_mul this hi L0 (by norm_num)
        _ ≤ _ := by norm_num)
  have ex : exactChain (rvec v.value) ((rotPairs bk l).map Prod.snd) = Matrix.vecMul (rvec v.value) (exactRotation l) := by
    have h := exactChain_vecMul (rvec v.value) 1 ((rotPairs bk l).map Prod.snd)
    rw [Matrix.vecMul_one] at h
    rw [h]; simp [rotPairs, exactRotation, List.foldl_map]
  rw [← ew] at f
  rw [← ew, ex, nl, one_pow] at e
  exact ⟨f, e.trans (mul_le_mul_of_nonneg_right db L0)⟩

/-- 360 rotations by one degree about (3, 4, 12), on every back end: the accumulated matrix is within `360 / 4096` of the identity
the exact product is — row by row — and its rows still have length 1 to that precision. -/
example (bk : Backend) (he : EstAccurate bk) (ht : TrigAccurate) :
    let l := List.replicate 360 ((lit 1 1 : F32), (Vec3.init (lit 3 1) (lit 4 1) (lit 12 1) : Vec3 F32))
    let m := l.foldl (fun m p => GMatrix.rotate bk m p.1 p.2) (GMatrix.initIdentity : M4 F32)
    FinMat m ∧ (∀ i, len (rmat m i - exactRotation l i) ≤ 360 / 2 ^ 12) ∧ (∀ i, |len (rmat m i) - 1| ≤ 360 / 2 ^ 12) := by
  have e := lit_int 1 (by decide)
  have h := C114_rotations bk he ht (List.replicate 360 ((lit 1 1 : F32), (Vec3.init (lit 3 1) (lit 4 1) (lit 12 1) : Vec3 F32)))
    (fun p hp => by
      rw [List.eq_of_mem_replicate hp]
      exact ⟨e.1, by rw [e.2]; norm_num, axis_345 bk⟩) (by rw [List.length_replicate]; norm_num)
  simpa only [List.length_replicate, Nat.cast_ofNat] using h

/-- a scaling by 2 stretches by 2 -/
example : Stretch (Matrix.diagonal ![2, 2, 2, 1]) 2 := by
  intro v
  refine Real.sqrt_le_iff.2 ⟨by have := len_nonneg v; positivity, ?_⟩
  rw [_root_.mul_pow, len_sq]
  simp only [Matrix.vecMul_diagonal, Fin.sum_univ_four, Matrix.cons_val]
  nlinarith [sq_nonneg (v 3)]

end Graphene

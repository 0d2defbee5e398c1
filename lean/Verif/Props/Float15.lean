/-
  C103: determinant and inverse of matrices on a grid, in floating point (IEEE binary32).
-/
import Verif.Props.Float14
import Verif.Proofs.Newton

set_option exponentiation.threshold 3000

namespace Graphene
open Fp Spec

/-- the entry in row `r`, column `c` of the matrix is a multiple of `2^-k` of magnitude at most `W r c · 2^-k` -/
def Spec.GridEntries (k : Nat) (W : M4 Nat) (m : M4 F32) : Prop := ∀ r c, Grid k (mat W r c) (mat m r c)
/-- the 2×2 determinant of two rows and two columns with all signs positive -/
def Spec.abs2 (u v : V4 Nat) (c d : Fin 4) : Nat := vec u c * vec v d + vec u d * vec v c
/-- the 3×3 determinant of three rows and three columns with all signs positive -/
def Spec.abs3 (u v w : V4 Nat) (c d e : Fin 4) : Nat :=
  vec u c * abs2 v w d e + vec u d * abs2 v w c e + vec u e * abs2 v w c d
/-- the determinant with all signs positive -/
def Spec.abs4 (W : M4 Nat) : Nat :=
  W.x.x * abs3 W.y W.z W.w 1 2 3 + W.x.y * abs3 W.y W.z W.w 0 2 3 +
  W.x.z * abs3 W.y W.z W.w 0 1 3 + W.x.w * abs3 W.y W.z W.w 0 1 2
/-- the minors of a matrix with these bounds fit in 24 bits: those of the first two and last two rows, the
3×3 ones and the determinant -/
def Spec.SmallMinors (W : M4 Nat) : Prop :=
  (∀ c d, c ≠ d → abs2 W.x W.y c d ≤ 2 ^ 24 ∧ abs2 W.z W.w c d ≤ 2 ^ 24) ∧
  (∀ c d e, c ≠ d → c ≠ e → d ≠ e →
    abs3 W.z W.x W.y c d e ≤ 2 ^ 24 ∧ abs3 W.w W.x W.y c d e ≤ 2 ^ 24 ∧
    abs3 W.x W.z W.w c d e ≤ 2 ^ 24 ∧ abs3 W.y W.z W.w c d e ≤ 2 ^ 24) ∧
  abs4 W ≤ 2 ^ 24

/-- one lane of `madd` -/
def maddL {α : Type} [Scalar α] (bk : Backend) (a b c : α) : α :=
  match bk with
  | .sse _ true => Scalar.fma a b c
  | _ => (a *. b) +. c
theorem madd_lanes {α : Type} [Scalar α] (bk : Backend) (a b c : V4 α) :
    Simd4f.madd bk a b c = ⟨maddL bk a.x b.x c.x, maddL bk a.y b.y c.y, maddL bk a.z b.z c.z, maddL bk a.w b.w c.w⟩ := by
  rcases bk with ⟨_, _ | _⟩ | _ | _ | _ <;> rfl

variable [Libm binary32] {k : Nat} {A B C D E : Nat}

theorem OnGrid.fma {j : Nat} (hk : k + j ≤ 149) {x y z : F32} {u v w : ℝ} (hx : OnGrid k A x u) (hy : OnGrid j B y v)
    (hz : OnGrid (k + j) C z w) (hD : A * B + C ≤ D) (h24 : D ≤ 2 ^ 24) :
    OnGrid (k + j) D (Fp.fma x y z) (u * v + w) := by
  obtain ⟨n, hn, hu⟩ := hx.grid
  obtain ⟨p, hp, hv⟩ := hy.grid
  obtain ⟨q, hq, hw⟩ := hz.grid
  have r := rnd_fma hx.is.fin hy.is.fin hz.is.fin
  rw [hx.is.val, hy.is.val, hz.is.val] at r
  refine OnGrid.of_is hk r h24 (n := n * p + q) ?_ (by rw [hu, hv, hw]; push_cast; rw [pow_add]; field_simp)
  have e := Nat.mul_le_mul hn hp
  rw [← Int.natAbs_mul] at e
  omega

theorem OnGrid.maddL (bk : Backend) {j : Nat} (hk : k + j ≤ 149) {x y z : F32} {u v w : ℝ} (hx : OnGrid k A x u)
    (hy : OnGrid j B y v) (hz : OnGrid (k + j) C z w) (hD : A * B + C ≤ D) (h24 : D ≤ 2 ^ 24) :
    OnGrid (k + j) D (Graphene.maddL bk x y z) (Graphene.maddL bk u v w) := by
  have h1 := OnGrid.fma hk hx hy hz hD h24
  have h2 := (hx.mul hk hy (D := A * B) le_rfl (by omega)).add hk hz hD h24
  rcases bk with ⟨_, _ | _⟩ | _ | _ | _
  · exact h2
  · exact h1
  · exact h2
  · exact h2
  · exact h2

theorem minor_lane (hk : k + k ≤ 149) {a b c d : F32} {a' b' c' d' : ℝ} (ha : OnGrid k A a a') (hb : OnGrid k B b b')
    (hc : OnGrid k C c c') (hd : OnGrid k D d d') (hE : A * B + C * D ≤ E) (h24 : E ≤ 2 ^ 24) :
    OnGrid (k + k) E (a *. b -. c *. d) (a' *. b' -. c' *. d') :=
  (ha.mul hk hb (D := A * B) le_rfl (by omega)).sub hk (hc.mul hk hd (D := C * D) le_rfl (by omega)) hE h24

theorem row_lane (bk : Backend) (hk : k + (k + k) ≤ 149) {a b c p q r : F32} {a' b' c' p' q' r' : ℝ} {P Q R : Nat}
    (ha : OnGrid k A a a') (hb : OnGrid k B b b') (hc : OnGrid k C c c') (hp : OnGrid (k + k) P p p')
    (hq : OnGrid (k + k) Q q q') (hr : OnGrid (k + k) R r r') (hE : A * P + B * Q + C * R ≤ E) (h24 : E ≤ 2 ^ 24) :
    OnGrid (k + (k + k)) E (maddL bk a p (maddL bk b q (c *. r))) (maddL bk a' p' (maddL bk b' q' (c' *. r'))) :=
  OnGrid.maddL bk hk ha hp (OnGrid.maddL bk hk hb hq (hc.mul hk hr (D := C * R) le_rfl (by omega))
    (D := B * Q + C * R) le_rfl (by omega)) (by omega) h24

/-- the lanes of a vector are on a grid -/
structure OnV (k : Nat) (B : V4 Nat) (a : V4 F32) (v : V4 ℝ) : Prop where
  x : OnGrid k B.x a.x v.x
  y : OnGrid k B.y a.y v.y
  z : OnGrid k B.z a.z v.z
  w : OnGrid k B.w a.w v.w

/-- all 2×2 minors of two rows -/
def Small2 (u v : V4 Nat) : Prop := ∀ c d, c ≠ d → abs2 u v c d ≤ 2 ^ 24
/-- all 3×3 minors of three rows -/
def Small3 (u v w : V4 Nat) : Prop := ∀ c d e, c ≠ d → c ≠ e → d ≠ e → abs3 u v w c d e ≤ 2 ^ 24

theorem minors_grid (hk : k + k ≤ 149) {U V : V4 Nat} {a b : V4 F32} {a' b' : V4 ℝ} (ha : OnV k U a a') (hb : OnV k V b b')
    (h : Small2 U V) :
    OnV (k + k) ⟨abs2 U V 1 2, abs2 U V 2 3, abs2 U V 0 3, abs2 U V 0 1⟩ (Simd4x4f.minor1 a b) (Simd4x4f.minor1 a' b') ∧
    OnV (k + k) ⟨abs2 U V 1 3, abs2 U V 0 2, abs2 U V 1 3, abs2 U V 0 2⟩ (Simd4x4f.minor2 a b) (Simd4x4f.minor2 a' b') ∧
    OnV (k + k) ⟨abs2 U V 2 3, abs2 U V 0 3, abs2 U V 0 1, abs2 U V 1 2⟩ (Simd4x4f.minor3 a b) (Simd4x4f.minor3 a' b') := by
  have e : ∀ c d, vec U d * vec V c + vec U c * vec V d ≤ abs2 U V c d := fun c d => by rw [abs2, Nat.add_comm]
  have f : ∀ c d, vec U c * vec V d + vec U d * vec V c ≤ abs2 U V c d := fun c d => le_rfl
  refine ⟨⟨?_, ?_, ?_, ?_⟩, ⟨?_, ?_, ?_, ?_⟩, ⟨?_, ?_, ?_, ?_⟩⟩
  · exact minor_lane hk ha.z hb.y ha.y hb.z (e 1 2) (h _ _ (by decide))
  · exact minor_lane hk ha.w hb.z ha.z hb.w (e 2 3) (h _ _ (by decide))
  · exact minor_lane hk ha.x hb.w ha.w hb.x (f 0 3) (h _ _ (by decide))
  · exact minor_lane hk ha.y hb.x ha.x hb.y (e 0 1) (h _ _ (by decide))
  · exact minor_lane hk ha.y hb.w ha.w hb.y (f 1 3) (h _ _ (by decide))
  · exact minor_lane hk ha.z hb.x ha.x hb.z (e 0 2) (h _ _ (by decide))
  · exact minor_lane hk ha.w hb.y ha.y hb.w (e 1 3) (h _ _ (by decide))
  · exact minor_lane hk ha.x hb.z ha.z hb.x (f 0 2) (h _ _ (by decide))
  · exact minor_lane hk ha.w hb.z ha.z hb.w (e 2 3) (h _ _ (by decide))
  · exact minor_lane hk ha.x hb.w ha.w hb.x (f 0 3) (h _ _ (by decide))
  · exact minor_lane hk ha.y hb.x ha.x hb.y (e 0 1) (h _ _ (by decide))
  · exact minor_lane hk ha.z hb.y ha.y hb.z (e 1 2) (h _ _ (by decide))

/-- the bounds of the 3×3 minors with one column left out -/
def abs3v (u v w : V4 Nat) : V4 Nat := ⟨abs3 u v w 1 2 3, abs3 u v w 0 2 3, abs3 u v w 0 1 3, abs3 u v w 0 1 2⟩

theorem rows_grid (bk : Backend) (hk : k + (k + k) ≤ 149) {R U V : V4 Nat} {r a b : V4 F32} {r' a' b' : V4 ℝ}
    (hr : OnV k R r r') (ha : OnV k U a a') (hb : OnV k V b b') (h2 : Small2 U V) (h3 : Small3 R U V) :
    OnV (k + (k + k)) (abs3v R U V) (Simd4x4f.rowSum bk r a b) (Simd4x4f.rowSum bk r' a' b') ∧
    ∀ x z w x' z' w', z = a → w = b → z' = a' → w' = b' →
      OnV (k + (k + k)) (abs3v R U V) (Simd4x4f.r1Sum bk ⟨x, r, z, w⟩) (Simd4x4f.r1Sum bk ⟨x', r', z', w'⟩) := by
  obtain ⟨m1, m2, m3⟩ := minors_grid (by omega) ha hb h2
  have s : ∀ c d e, c ≠ d → c ≠ e → d ≠ e → abs3 R U V c d e ≤ 2 ^ 24 := h3
  have p : ∀ c d e, vec R c * abs2 U V d e + vec R d * abs2 U V c e + vec R e * abs2 U V c d ≤ abs3 R U V c d e :=
    fun _ _ _ => le_rfl
  have p2 : ∀ c d e, vec R d * abs2 U V c e + vec R e * abs2 U V c d + vec R c * abs2 U V d e ≤ abs3 R U V c d e :=
    fun c d e => by have := p c d e; omega
  have p3 : ∀ c d e, vec R e * abs2 U V c d + vec R c * abs2 U V d e + vec R d * abs2 U V c e ≤ abs3 R U V c d e :=
    fun c d e => by have := p c d e; omega
  have p4 : ∀ c d e, vec R e * abs2 U V c d + vec R d * abs2 U V c e + vec R c * abs2 U V d e ≤ abs3 R U V c d e :=
    fun c d e => by have := p c d e; omega
  have p5 : ∀ c d e, vec R c * abs2 U V d e + vec R e * abs2 U V c d + vec R d * abs2 U V c e ≤ abs3 R U V c d e :=
    fun c d e => by have := p c d e; omega
  have p6 : ∀ c d e, vec R d * abs2 U V c e + vec R c * abs2 U V d e + vec R e * abs2 U V c d ≤ abs3 R U V c d e :=
    fun c d e => by have := p c d e; omega
  constructor
  · simp only [Simd4x4f.rowSum, madd_lanes]
    refine ⟨?_, ?_, ?_, ?_⟩
    · exact row_lane bk hk hr.y hr.z hr.w m3.x m2.x m1.x (p 1 2 3) (s _ _ _ (by decide) (by decide) (by decide))
    · exact row_lane bk hk hr.z hr.w hr.x m3.y m2.y m1.y (p2 0 2 3) (s _ _ _ (by decide) (by decide) (by decide))
    · exact row_lane bk hk hr.w hr.x hr.y m3.z m2.z m1.z (p3 0 1 3) (s _ _ _ (by decide) (by decide) (by decide))
    · exact row_lane bk hk hr.x hr.y hr.z m3.w m2.w m1.w (p 0 1 2) (s _ _ _ (by decide) (by decide) (by decide))
  · rintro x z w x' z' w' rfl rfl rfl rfl
    simp only [Simd4x4f.r1Sum, madd_lanes]
    refine ⟨?_, ?_, ?_, ?_⟩
    · exact row_lane bk hk hr.w hr.z hr.y m1.x m2.x m3.x (p4 1 2 3) (s _ _ _ (by decide) (by decide) (by decide))
    · exact row_lane bk hk hr.x hr.w hr.z m1.y m2.y m3.y (p5 0 2 3) (s _ _ _ (by decide) (by decide) (by decide))
    · exact row_lane bk hk hr.y hr.x hr.w m1.z m2.z m3.z (p6 0 1 3) (s _ _ _ (by decide) (by decide) (by decide))
    · exact row_lane bk hk hr.z hr.y hr.x m1.w m2.w m3.w (p4 0 1 2) (s _ _ _ (by decide) (by decide) (by decide))

theorem rmat_exactMat (m : M4 F32) : mat (exactMat m) = rmat m := by
  ext i j; fin_cases i <;> fin_cases j <;> rfl

variable {W : M4 Nat} {m : M4 F32}

theorem entries_onV (h : GridEntries k W m) :
    OnV k W.x m.x (exactMat m).x ∧ OnV k W.y m.y (exactMat m).y ∧ OnV k W.z m.z (exactMat m).z ∧
    OnV k W.w m.w (exactMat m).w :=
  ⟨⟨(h 0 0).on, (h 0 1).on, (h 0 2).on, (h 0 3).on⟩, ⟨(h 1 0).on, (h 1 1).on, (h 1 2).on, (h 1 3).on⟩,
   ⟨(h 2 0).on, (h 2 1).on, (h 2 2).on, (h 2 3).on⟩, ⟨(h 3 0).on, (h 3 1).on, (h 3 2).on, (h 3 3).on⟩⟩

theorem det_grid (bk : Backend) (hk : 4 * k ≤ 149) (h : GridEntries k W m) (hs : SmallMinors W) :
    OnGrid (4 * k) (2 ^ 24) (Simd4x4f.detVec bk m).x (-(rmat m).det) := by
  obtain ⟨hx, hy, hz, hw⟩ := entries_onV h
  obtain ⟨s2, s3, s4⟩ := hs
  have r := (rows_grid bk (by omega) hy hz hw (fun c d e => (s2 c d e).2)
    (fun c d e a b f => (s3 c d e a b f).2.2.2)).2 m.x m.z m.w (exactMat m).x (exactMat m).z (exactMat m).w rfl rfl rfl rfl
  have e : 4 * k = k + (k + k) + k := by ring
  have hk' : k + (k + k) + k ≤ 149 := by omega
  rw [← rmat_exactMat, ← detVec_real bk, e]
  simp only [abs4] at s4
  have b0 := r.x.mul hk' hx.x (D := W.x.x * abs3 W.y W.z W.w 1 2 3) (Nat.mul_comm _ _).le (by omega)
  have b1 := r.y.mul hk' hx.y (D := W.x.y * abs3 W.y W.z W.w 0 2 3) (Nat.mul_comm _ _).le (by omega)
  have b2 := r.z.mul hk' hx.z (D := W.x.z * abs3 W.y W.z W.w 0 1 3) (Nat.mul_comm _ _).le (by omega)
  have b3 := r.w.mul hk' hx.w (D := W.x.w * abs3 W.y W.z W.w 0 1 2) (Nat.mul_comm _ _).le (by omega)
  exact (b0.add hk' b2 le_rfl (by omega)).sub hk' (b1.add hk' b3 le_rfl (by omega)) (by omega) le_rfl

/-- C103: the determinant of a matrix on a grid is computed without rounding error (`graphene_matrix_determinant`
returns it negated, see C53), and `is_singular` compares the true determinant with `FLT_EPSILON = 2^-23`. -/
theorem C103_determinant (bk : Backend) (hk : 4 * k ≤ 149) (m : M4 F32) (h : GridEntries k W m) (hs : SmallMinors W) :
    (GMatrix.determinant bk m).isFin = true ∧ (GMatrix.determinant bk m).val = -(rmat m).det ∧
    (GMatrix.isSingular bk m = true ↔ |(rmat m).det| ≤ 1 / 2 ^ 23) := by
  have g := det_grid bk hk h hs
  refine ⟨g.is.fin, g.is.val, ?_⟩
  have e := g.abs.is.le_eq GR.eps_is
  rw [_root_.abs_neg] at e
  have : GMatrix.isSingular bk m = (|(rmat m).det| <=. (fltEps : ℝ)) := e
  rw [this, RealScalar.le_eq, fltEps_real]
  norm_num [eps]

/-- the cofactors as computed by `graphene_simd4x4f_inverse` (up to the common sign) -/
def cofs {α : Type} [Scalar α] (bk : Backend) (m : M4 α) : M4 α :=
  ⟨Simd4f.flipSign0101 (Simd4x4f.r1Sum bk m), Simd4f.flipSign1010 (Simd4x4f.rowSum bk m.x m.z m.w),
   Simd4f.flipSign0101 (Simd4x4f.rowSum bk m.w m.x m.y), Simd4f.flipSign1010 (Simd4x4f.rowSum bk m.z m.x m.y)⟩

theorem inverse_eq {α : Type} [Scalar α] (bk : Backend) (m : M4 α)
    (h : (Scalar.abs (Simd4x4f.detVec bk m).x >=. fltEps) = true) :
    ∃ r, GMatrix.inverse bk m = some r ∧
      ∀ i j, mat r i j = (mat (cofs bk m) j i) *. Simd4f.div1 bk f1 (Simd4x4f.detVec bk m).x := by
  refine ⟨_, by rw [GMatrix.inverse, Simd4x4f.inverse]; exact if_pos h, ?_⟩
  intro i j
  fin_cases i <;> fin_cases j <;> rfl

theorem cofs_grid (bk : Backend) (hk : 3 * k ≤ 149) (h : GridEntries k W m) (hs : SmallMinors W) (i j : Fin 4) :
    OnGrid (3 * k) (2 ^ 24) (mat (cofs bk m) i j) (mat (cofs bk (exactMat m)) i j) := by
  obtain ⟨hx, hy, hz, hw⟩ := entries_onV h
  obtain ⟨s2, s3, -⟩ := hs
  have e : 3 * k = k + (k + k) := by ring
  rw [e]
  have r1 := (rows_grid bk (by omega) hy hz hw (fun c d e => (s2 c d e).2)
    (fun c d e a b f => (s3 c d e a b f).2.2.2)).2 m.x m.z m.w (exactMat m).x (exactMat m).z (exactMat m).w rfl rfl rfl rfl
  have r2 := (rows_grid bk (by omega) hx hz hw (fun c d e => (s2 c d e).2)
    (fun c d e a b f => (s3 c d e a b f).2.2.1)).1
  have r3 := (rows_grid bk (by omega) hw hx hy (fun c d e => (s2 c d e).1)
    (fun c d e a b f => (s3 c d e a b f).2.1)).1
  have r4 := (rows_grid bk (by omega) hz hx hy (fun c d e => (s2 c d e).1)
    (fun c d e a b f => (s3 c d e a b f).1)).1
  have b : ∀ u v w : V4 Nat, Small3 u v w → ∀ i, vec (abs3v u v w) i ≤ 2 ^ 24 := by
    intro u v w hs i
    fin_cases i
    · exact hs _ _ _ (by decide) (by decide) (by decide)
    · exact hs _ _ _ (by decide) (by decide) (by decide)
    · exact hs _ _ _ (by decide) (by decide) (by decide)
    · exact hs _ _ _ (by decide) (by decide) (by decide)
  have b1 := b W.y W.z W.w (fun c d e a b f => (s3 c d e a b f).2.2.2)
  have b2 := b W.x W.z W.w (fun c d e a b f => (s3 c d e a b f).2.2.1)
  have b3 := b W.w W.x W.y (fun c d e a b f => (s3 c d e a b f).2.1)
  have b4 := b W.z W.x W.y (fun c d e a b f => (s3 c d e a b f).1)
  fin_cases i <;> fin_cases j
  · exact r1.x.mono (b1 0)
  · exact (r1.y.mono (b1 1)).neg
  · exact r1.z.mono (b1 2)
  · exact (r1.w.mono (b1 3)).neg
  · exact (r2.x.mono (b2 0)).neg
  · exact r2.y.mono (b2 1)
  · exact (r2.z.mono (b2 2)).neg
  · exact r2.w.mono (b2 3)
  · exact r3.x.mono (b3 0)
  · exact (r3.y.mono (b3 1)).neg
  · exact r3.z.mono (b3 2)
  · exact (r3.w.mono (b3 3)).neg
  · exact (r4.x.mono (b4 0)).neg
  · exact r4.y.mono (b4 1)
  · exact (r4.z.mono (b4 2)).neg
  · exact r4.w.mono (b4 3)

theorem inv_cofs (bk : Backend) (hd : 1 / 2 ^ 23 < |(rmat m).det|) (i j : Fin 4) :
    (rmat m)⁻¹ i j = mat (cofs bk (exactMat m)) j i * (1 / -(rmat m).det) := by
  have e : (eps : ℝ) < |(mat (exactMat m)).det| := by rw [rmat_exactMat]; unfold eps; norm_num at hd ⊢; exact hd
  obtain ⟨r, hr, h1⟩ := inverse_real bk (exactMat m) e.le (fun h => absurd h (ne_of_gt e))
  have c : (Scalar.abs (Simd4x4f.detVec bk (exactMat m)).x >=. fltEps) = true := by
    rw [detVec_real]; simp only [RealScalar.le_eq, RealScalar.abs_eq, fltEps_real, _root_.abs_neg]; exact e.le
  obtain ⟨r', hr', g⟩ := inverse_eq bk (exactMat m) c
  have : r' = r := Option.some.inj (hr'.symm.trans hr)
  subst this
  rw [← rmat_exactMat, Matrix.inv_eq_right_inv h1, g, detVec_real]
  rw [div1_eq (by rw [_root_.abs_neg]; exact e.le) (by rw [_root_.abs_neg]; exact fun h => absurd h (ne_of_gt e))]
  simp only [RealScalar.mul_eq, RealScalar.f1_eq]

theorem entry_near (hk : k ≤ 32) {c g : F32} {C G δ : ℝ} (hc : OnGrid (3 * k) (2 ^ 24) c C) (hg : g.isFin = true)
    (hG : 1 / 2 ^ 24 ≤ |G|) (hG' : |G| ≤ 2 ^ 23) (he : |g.val - G| ≤ δ * |G|) (hδ : δ ≤ 1 / 2 ^ 20) :
    (Fp.mul c g).isFin = true ∧ |(Fp.mul c g).val - C * G| ≤ (δ + 1 / 2 ^ 23) * |C * G| := by
  have r := rnd_mul hc.is.fin hg
  rw [hc.is.val] at r
  obtain ⟨n, hn, hC⟩ := hc.grid
  have gl : |G| / 2 ≤ |g.val| := by
    have := abs_sub_abs_le_abs_sub G g.val
    rw [_root_.abs_sub_comm] at this
    nlinarith [abs_nonneg G]
  have gu : |g.val| ≤ (1 + δ) * |G| := by
    have := abs_sub_abs_le_abs_sub g.val G
    linarith
  by_cases h0 : n = 0
  · have C0 : C = 0 := by rw [hC, h0]; simp
    rw [C0, zero_mul] at r
    have i := r.is Is.zero_is
    refine ⟨i.fin, ?_⟩
    rw [i.val, C0]; simp
  · have nb : (1 : ℝ) ≤ |(n : ℝ)| := by
      rw [← Int.cast_abs]; exact_mod_cast Int.one_le_abs h0
    have nb' : |(n : ℝ)| ≤ 2 ^ 24 := by
      rw [← Int.cast_abs, Int.abs_eq_natAbs]; exact_mod_cast hn
    have ca : |C| = |(n : ℝ)| / 2 ^ (3 * k) := by rw [hC, abs_div, abs_of_pos (by positivity : (0 : ℝ) < 2 ^ (3 * k))]
    have kp : (2 : ℝ) ^ (3 * k) ≤ 2 ^ 96 := pow_le_pow_right₀ (by norm_num) (by omega)
    have k1 : (1 : ℝ) ≤ 2 ^ (3 * k) := one_le_pow₀ (by norm_num)
    have c1 : 1 / 2 ^ 96 ≤ |C| := by
      rw [ca, div_le_div_iff₀ (by positivity) (by positivity)]
      calc (1 : ℝ) * 2 ^ (3 * k) ≤ 1 * 2 ^ 96 := by linarith
        _ ≤ _ := mul_le_mul_of_nonneg_right nb (by positivity)
    have c2 : |C| ≤ 2 ^ 24 := by
      rw [ca, div_le_iff₀ (by positivity)]
      calc |(n : ℝ)| ≤ 2 ^ 24 * 1 := by linarith
        _ ≤ _ := mul_le_mul_of_nonneg_left k1 (by positivity)
    have d0 : 0 ≤ δ := by
      have h1 : 0 < |G| := lt_of_lt_of_le (by positivity) hG
      have := (abs_nonneg _).trans he
      exact nonneg_of_mul_nonneg_left this h1
    have lo : 1 / 2 ^ 121 ≤ |C * g.val| := by
      rw [abs_mul]
      calc (1 : ℝ) / 2 ^ 121 = 1 / 2 ^ 96 * (1 / 2 ^ 24 / 2) := by norm_num
        _ ≤ |C| * |g.val| := mul_le_mul c1 (by linarith) (by positivity) (abs_nonneg _)
    have hi : |C * g.val| ≤ 2 ^ 48 := by
      rw [abs_mul]
      calc |C| * |g.val| ≤ 2 ^ 24 * 2 ^ 24 := mul_le_mul c2 (by nlinarith) (abs_nonneg _) (by positivity)
        _ = 2 ^ 48 := by norm_num
    obtain ⟨pf, pe⟩ := Newton.rel r (lo.trans' (by norm_num)) (hi.trans (by norm_num))
    refine ⟨pf, ?_⟩
    have t : |C * g.val - C * G| ≤ δ * |C * G| := by
      rw [← mul_sub, abs_mul, abs_mul]; nlinarith [abs_nonneg C]
    have a : |C * g.val| ≤ (1 + δ) * |C * G| := by
      rw [abs_mul, abs_mul]; nlinarith [abs_nonneg C]
    have tri := abs_add_le ((Fp.mul c g).val - C * g.val) (C * g.val - C * G)
    rw [sub_add_sub_cancel] at tri
    have := abs_nonneg (C * G)
    norm_num at *
    nlinarith

theorem div_det_near (bk : Backend) (hb : bk ≠ .neon) {d : F32} (hd : d.isFin = true) (h1 : 1 / 2 ^ 23 < |d.val|)
    (h2 : |d.val| ≤ 2 ^ 100) :
    Rnd (1 / d.val) (Simd4f.div1 bk f1 d) ∧ (Simd4f.div1 bk f1 d).isFin = true ∧
    |(Simd4f.div1 bk f1 d).val - 1 / d.val| ≤ 1 / 2 ^ 24 * |1 / d.val| := by
  have v0 : 0 < |d.val| := lt_trans (by positivity) h1
  have o : (f1 : F32).isFin = true ∧ (f1 : F32).val = 1 := by
    have := lit_int 1 (by decide)
    exact ⟨this.1, by rw [show (f1 : F32) = Fp.lit 1 1 from rfl, this.2]; norm_num⟩
  have r := rnd_div o.1 hd (abs_pos.1 v0)
  rw [o.2] at r
  have e : Simd4f.div1 bk f1 d = Fp.div f1 d := by
    rcases bk with _ | _ | _ | _
    · rfl
    · rfl
    · exact absurd rfl hb
    · have c : (Scalar.abs d >. (fltEps : F32)) = true := by
        have := GR.eps_is.lt_eq (Is.mk (by simpa using hd) (val_abs d) : Is (Fp.abs d) |d.val|)
        have g : (fltEps : ℝ) < |d.val| := by rw [fltEps_real]; unfold eps; norm_num at h1 ⊢; exact h1
        exact this.trans (by rw [RealScalar.lt_eq]; exact g)
      exact if_pos c
  rw [e]
  have a1 : |1 / d.val| = 1 / |d.val| := by rw [abs_div, abs_one]
  have k1 : 1 / (2 ^ 100) ≤ 1 / |d.val| := one_div_le_one_div_of_le v0 h2
  have k2 : 1 / |d.val| ≤ 1 / (1 / 2 ^ 23) := one_div_le_one_div_of_le (by positivity) h1.le
  exact ⟨r, Newton.rel r (by rw [a1]; norm_num at k1 ⊢; linarith) (by rw [a1]; norm_num at k2 ⊢; linarith)⟩

theorem det_range (bk : Backend) (hk : k ≤ 32) (h : GridEntries k W m) (hs : SmallMinors W) :
    |(rmat m).det| ≤ 2 ^ 24 := by
  have := (det_grid bk (by omega) h hs).abs_val_le
  rw [_root_.abs_neg] at this
  refine this.trans ((div_le_self (by positivity) (one_le_pow₀ (by norm_num))).trans (by norm_num))

theorem guard_det (bk : Backend) (hk : k ≤ 32) (h : GridEntries k W m) (hs : SmallMinors W) :
    (Scalar.abs (Simd4x4f.detVec bk m).x >=. (fltEps : F32)) = true ↔ 1 / 2 ^ 23 ≤ |(rmat m).det| := by
  have g := (det_grid bk (by omega) h hs).abs.is
  have e := GR.eps_is.le_eq g
  rw [_root_.abs_neg] at e
  have : (Scalar.abs (Simd4x4f.detVec bk m).x >=. (fltEps : F32)) = ((fltEps : ℝ) <=. |(rmat m).det|) := e
  rw [this, RealScalar.le_eq, fltEps_real]
  norm_num [eps]

theorem inverse_core (bk : Backend) (hk : k ≤ 32) (h : GridEntries k W m) (hs : SmallMinors W)
    (hd : 1 / 2 ^ 23 < |(rmat m).det|) {δ : ℝ} (hδ : δ ≤ 1 / 2 ^ 20)
    (hg : (Simd4f.div1 bk f1 (Simd4x4f.detVec bk m).x).isFin = true)
    (he : |(Simd4f.div1 bk f1 (Simd4x4f.detVec bk m).x).val - 1 / -(rmat m).det| ≤ δ * |1 / -(rmat m).det|) :
    ∃ r, GMatrix.inverse bk m = some r ∧ FinMat r ∧
      ∀ i j, |rmat r i j - (rmat m)⁻¹ i j| ≤ (δ + 1 / 2 ^ 23) * |(rmat m)⁻¹ i j| := by
  obtain ⟨r, hr, e⟩ := inverse_eq bk m ((guard_det bk hk h hs).2 hd.le)
  have v0 : 0 < |(rmat m).det| := lt_trans (by positivity) hd
  have a1 : |1 / -(rmat m).det| = 1 / |(rmat m).det| := by rw [abs_div, abs_one, _root_.abs_neg]
  have k1 : 1 / (2 ^ 24) ≤ 1 / |(rmat m).det| := one_div_le_one_div_of_le v0 (det_range bk hk h hs)
  have k2 : 1 / |(rmat m).det| ≤ 1 / (1 / 2 ^ 23) := one_div_le_one_div_of_le (by positivity) hd.le
  have key : ∀ i j, (mat r i j).isFin = true ∧ |(mat r i j).val - (rmat m)⁻¹ i j| ≤ (δ + 1 / 2 ^ 23) * |(rmat m)⁻¹ i j| := by
    intro i j
    rw [e, inv_cofs bk hd]
    exact entry_near hk (cofs_grid bk (by omega) h hs j i) hg (by rw [a1]; exact k1) (by rw [a1]; norm_num at k2 ⊢; linarith) he hδ
  exact ⟨r, hr, fun i j => (key i j).1, fun i j => (key i j).2⟩

/-- C103: the inverse of a matrix on a grid is computed to within two units in the last place (relative
error 2^-22) in every entry — in particular zero entries are exactly zero — whenever `|det| > FLT_EPSILON`; below
`FLT_EPSILON` no inverse is reported. -/
theorem C103_inverse (bk : Backend) (hb : bk ≠ .neon) (hk : k ≤ 32) (m : M4 F32) (h : GridEntries k W m)
    (hs : SmallMinors W) :
    (1 / 2 ^ 23 < |(rmat m).det| → ∃ r, GMatrix.inverse bk m = some r ∧ FinMat r ∧
      ∀ i j, |rmat r i j - (rmat m)⁻¹ i j| ≤ 1 / 2 ^ 22 * |(rmat m)⁻¹ i j|) ∧
    (|(rmat m).det| < 1 / 2 ^ 23 → GMatrix.inverse bk m = none) := by
  have g := (det_grid bk (by omega) h hs).is
  constructor
  · intro hd
    obtain ⟨-, f, e⟩ := div_det_near bk hb g.fin (by rw [g.val, _root_.abs_neg]; exact hd)
      (by rw [g.val, _root_.abs_neg]; exact (det_range bk hk h hs).trans (by norm_num))
    rw [g.val] at e
    obtain ⟨r, hr, hf, ha⟩ := inverse_core bk hk h hs hd (by norm_num) f e
    refine ⟨r, hr, hf, fun i j => (ha i j).trans ?_⟩
    exact mul_le_mul_of_nonneg_right (by norm_num) (abs_nonneg _)
  · intro hd
    rw [GMatrix.inverse, Simd4x4f.inverse]
    exact if_neg (fun c => absurd ((guard_det bk hk h hs).1 c) (not_le.2 hd))

/-- C103 on NEON, whose division is a refined reciprocal estimate: relative error 2^-19. -/
theorem C103_inverse_neon (he : Spec.EstAccurate .neon) (hk : k ≤ 32) (m : M4 F32) (h : GridEntries k W m)
    (hs : SmallMinors W) :
    (1 / 2 ^ 23 < |(rmat m).det| → ∃ r, GMatrix.inverse .neon m = some r ∧ FinMat r ∧
      ∀ i j, |rmat r i j - (rmat m)⁻¹ i j| ≤ 1 / 2 ^ 19 * |(rmat m)⁻¹ i j|) ∧
    (|(rmat m).det| < 1 / 2 ^ 23 → GMatrix.inverse .neon m = none) := by
  have g := (det_grid .neon (by omega) h hs).is
  constructor
  · intro hd
    have v0 : 0 < |(rmat m).det| := lt_trans (by positivity) hd
    have dr := det_range .neon hk h hs
    obtain ⟨f, e⟩ := Newton.recip1_near .neon he g.fin
      (by rw [g.val, _root_.abs_neg]; exact le_trans (by norm_num) hd.le)
      (by rw [g.val, _root_.abs_neg]; exact dr.trans (by norm_num)) (by simp)
    have d : Simd4f.div1 .neon f1 (Simd4x4f.detVec .neon m).x = Simd4f.recip1 .neon (Simd4x4f.detVec .neon m).x :=
      one_mul32 _
    rw [g.val] at e
    have n0 : -(rmat m).det ≠ 0 := neg_ne_zero.2 (abs_pos.1 v0)
    obtain ⟨r, hr, hf, ha⟩ := inverse_core .neon hk h hs hd (δ := 1 / 2 ^ 20) le_rfl (by rw [d]; exact f) (by
      rw [d]
      generalize (Simd4f.recip1 Backend.neon (Simd4x4f.detVec Backend.neon m).x).val = R at *
      have : R - 1 / -(rmat m).det = (R * -(rmat m).det - 1) * (1 / -(rmat m).det) := by
        rw [sub_mul, mul_assoc, mul_one_div_cancel n0, mul_one, _root_.one_mul]
      rw [this, abs_mul]
      exact mul_le_mul_of_nonneg_right e (abs_nonneg _))
    refine ⟨r, hr, hf, fun i j => (ha i j).trans ?_⟩
    exact mul_le_mul_of_nonneg_right (by norm_num) (abs_nonneg _)
  · intro hd
    rw [GMatrix.inverse, Simd4x4f.inverse]
    exact if_neg (fun c => absurd ((guard_det .neon hk h hs).1 c) (not_le.2 hd))

/-- a product with a power of two is representable -/
theorem dyadic_is (n : ℤ) (t : ℕ) (hn : n.natAbs ≤ 2 ^ 24) (ht : t ≤ 100) : ∃ y : F32, Is y (n * 2 ^ t) := by
  have hrep : binary32.Rep (n.natAbs * 2 ^ (149 + t)) := by
    constructor
    · refine Nat.lt_of_le_of_lt (Nat.mul_le_mul hn (Nat.pow_le_pow_right (j := 249) (by decide) (by omega))) ?_
      decide +kernel
    · exact binary32.grid_pow_mul hn
  refine ⟨.fin (decide (n < 0)) _ hrep, rfl, ?_⟩
  rw [val_fin, sgn_real]
  show _ / (2 : ℝ) ^ 149 = _
  have hz : (if decide (n < 0) = true then (-1 : ℝ) else 1) * (n.natAbs : ℝ) = n := by
    have : (n.natAbs : ℝ) = |(n : ℝ)| := by rw [← Int.cast_abs, Int.abs_eq_natAbs]; simp
    rw [this]
    by_cases h : n < 0
    · have : (n : ℝ) < 0 := by exact_mod_cast h
      simp [h, abs_of_neg this]
    · have : (0 : ℝ) ≤ n := by exact_mod_cast _root_.not_lt.1 h
      simp [h, abs_of_nonneg this]
  push_cast
  rw [← mul_assoc, hz, pow_add]; field_simp

theorem dyadic_is' (n : ℤ) (K : ℕ) (t : ℤ) (hn : n.natAbs ≤ 2 ^ 24) (hK : K ≤ 120) (h1 : -24 ≤ t) (h2 : t ≤ 24) :
    ∃ y : F32, Is y ((n : ℝ) / 2 ^ K * 2 ^ t) := by
  rcases le_or_gt (K : ℤ) t with h | h
  · obtain ⟨y, hy⟩ := dyadic_is n (t - K).toNat hn (by omega)
    refine ⟨y, ?_⟩
    have e : (2 : ℝ) ^ t = 2 ^ (t - K).toNat * 2 ^ K := by
      rw [← zpow_natCast, ← zpow_natCast, ← zpow_add₀ (by norm_num)]; congr 1; omega
    rw [e, ← mul_assoc, mul_right_comm, div_mul_cancel₀ _ (by positivity)]; exact hy
  · obtain ⟨a, b⟩ := lit_dyadic n (K - t).toNat hn (by omega)
    refine ⟨_, a, b.trans ?_⟩
    have e : (2 : ℝ) ^ K = 2 ^ (K - t).toNat * 2 ^ t := by
      rw [← zpow_natCast, ← zpow_natCast, ← zpow_add₀ (by norm_num)]; congr 1; omega
    rw [e, ← div_div, div_mul_cancel₀ _ (by positivity)]

/-- C103: when the determinant is a power of two (rotations by quarter turns, mirrorings, translations, shears and
scalings by powers of two, and their products) the inverse is computed without any rounding error. -/
theorem C103_inverse_exact (bk : Backend) (hb : bk ≠ .neon) (hk : k ≤ 32) (m : M4 F32) (h : GridEntries k W m)
    (hs : SmallMinors W) (e : ℤ) (hd : |(rmat m).det| = 2 ^ e) (he : -23 < e) :
    ∃ r, GMatrix.inverse bk m = some r ∧ FinMat r ∧ rmat r = (rmat m)⁻¹ := by
  have dl : (1 : ℝ) / 2 ^ 23 < |(rmat m).det| := by
    rw [hd, show (1 : ℝ) / 2 ^ 23 = 2 ^ (-23 : ℤ) by norm_num]
    exact (zpow_lt_zpow_iff_right₀ (by norm_num)).2 he
  have du := det_range bk hk h hs
  have e24 : e ≤ 24 := by
    rw [hd, show (2 : ℝ) ^ 24 = 2 ^ (24 : ℤ) by norm_num] at du
    exact (zpow_le_zpow_iff_right₀ (by norm_num)).1 du
  have g := (det_grid bk (by omega) h hs).is
  obtain ⟨r, hr, en⟩ := inverse_eq bk m ((guard_det bk hk h hs).2 dl.le)
  obtain ⟨rd, -, -⟩ := div_det_near bk hb g.fin (by rw [g.val, _root_.abs_neg]; exact dl)
    (by rw [g.val, _root_.abs_neg]; exact du.trans (by norm_num))
  rw [g.val] at rd
  obtain ⟨s, hs1, hG⟩ : ∃ s : ℤ, s.natAbs = 1 ∧ 1 / -(rmat m).det = s * (2 : ℝ) ^ (-e) := by
    rw [zpow_neg, ← hd]
    rcases abs_cases (rmat m).det with ⟨a, -⟩ | ⟨a, -⟩
    · exact ⟨-1, rfl, by rw [a, one_div, inv_neg]; push_cast; ring⟩
    · exact ⟨1, rfl, by rw [a, one_div]; push_cast; ring⟩
  have gi : Is (Simd4f.div1 bk f1 (Simd4x4f.detVec bk m).x) (1 / -(rmat m).det) := by
    obtain ⟨y, hy⟩ := dyadic_is' s 0 (-e) (by omega) (by omega) (by omega) (by omega)
    refine rd.is (c := y) ?_
    rw [hG]; simpa using hy
  have key : ∀ i j, Is (mat r i j) ((rmat m)⁻¹ i j) := by
    intro i j
    rw [en, inv_cofs bk dl]
    have c := cofs_grid bk (by omega) h hs j i
    obtain ⟨n, hn, hC⟩ := c.grid
    have r := rnd_mul c.is.fin gi.fin
    rw [c.is.val, gi.val] at r
    obtain ⟨y, hy⟩ := dyadic_is' (n * s) (3 * k) (-e) (by rw [Int.natAbs_mul, hs1]; omega) (by omega) (by omega) (by omega)
    refine r.is (c := y) ?_
    rw [hC, hG]
    have : (n : ℝ) / 2 ^ (3 * k) * (s * 2 ^ (-e)) = ((n * s : ℤ) : ℝ) / 2 ^ (3 * k) * 2 ^ (-e) := by push_cast; ring
    rw [this]; exact hy
  exact ⟨r, hr, fun i j => (key i j).fin, by ext i j; exact (key i j).val⟩

/-- C103: for integer matrices `is_singular` and `inverse` decide invertibility exactly. -/
theorem C103_integer (bk : Backend) (m : M4 F32) (h : GridEntries 0 W m) (hs : SmallMinors W) :
    (GMatrix.isSingular bk m = true ↔ (rmat m).det = 0) ∧
    ((GMatrix.inverse bk m).isSome = true ↔ IsUnit (rmat m)) := by
  obtain ⟨n, -, hn⟩ := (det_grid bk (by omega) h hs).grid
  have hn : (rmat m).det = -(n : ℝ) := by rw [mul_zero, pow_zero, div_one] at hn; linarith
  have z : ∀ c : ℝ, c < 1 → (|(rmat m).det| ≤ c → (rmat m).det = 0) := by
    intro c hc h
    rw [hn, _root_.abs_neg, ← Int.cast_abs] at h
    have : |n| < 1 := by exact_mod_cast h.trans_lt hc
    rw [hn, Int.abs_lt_one_iff.1 this]; simp
  constructor
  · rw [(C103_determinant bk (by omega) m h hs).2.2]
    exact ⟨z _ (by norm_num), fun e => by rw [e, abs_zero]; positivity⟩
  · have e : (GMatrix.inverse bk m).isSome = (Scalar.abs (Simd4x4f.detVec bk m).x >=. (fltEps : F32)) := by
      rw [GMatrix.inverse, Simd4x4f.inverse]
      cases (Scalar.abs (Simd4x4f.detVec bk m).x >=. (fltEps : F32)) <;> rfl
    rw [e, guard_det bk (by omega) h hs, Matrix.isUnit_iff_isUnit_det, isUnit_iff_ne_zero]
    constructor
    · intro h h0
      rw [h0, abs_zero] at h; norm_num at h
    · intro h
      by_contra c
      exact h (z _ (by norm_num : (1 : ℝ) / 2 ^ 23 < 1) (not_le.1 c).le)

/-- the bounds are met by the matrices of quarter turns, mirrorings and shears by 1/2 in the plane with a
translation of up to 32768 pixels in steps of half a pixel ... -/
def halfPixel : M4 Nat := ⟨⟨2, 2, 0, 0⟩, ⟨2, 2, 0, 0⟩, ⟨0, 0, 2, 0⟩, ⟨65536, 65536, 65536, 2⟩⟩
example : SmallMinors halfPixel := by
  refine ⟨?_, ?_, ?_⟩ <;> decide +kernel
/-- ... and by all matrices with integer entries up to 28 ... -/
example : SmallMinors ⟨⟨28, 28, 28, 28⟩, ⟨28, 28, 28, 28⟩, ⟨28, 28, 28, 28⟩, ⟨28, 28, 28, 28⟩⟩ := by
  refine ⟨?_, ?_, ?_⟩ <;> decide +kernel
/-- ... and a quarter turn followed by a translation by `(1000.5, -3, 0)` is on the grid, with determinant 1. -/
example : ∃ m : M4 F32, GridEntries 1 halfPixel m ∧ |(rmat m).det| = 2 ^ (0 : ℤ) ∧ rmat m 3 0 = 2001 / 2 := by
  have key : ∀ e : ℤ → F32, (∀ (n : ℤ) (N : Nat), n.natAbs ≤ N → N ≤ 65536 → Grid 1 N (e n)) → GridEntries 1 halfPixel
      ⟨⟨e 0, e 2, e 0, e 0⟩, ⟨e (-2), e 0, e 0, e 0⟩, ⟨e 0, e 0, e 2, e 0⟩, ⟨e 2001, e (-6), e 0, e 2⟩⟩ := by
    intro e h r c
    fin_cases r <;> fin_cases c
    · exact h 0 2 (by decide) (by decide)
    · exact h 2 2 (by decide) (by decide)
    · exact h 0 0 (by decide) (by decide)
    · exact h 0 0 (by decide) (by decide)
    · exact h (-2) 2 (by decide) (by decide)
    · exact h 0 2 (by decide) (by decide)
    · exact h 0 0 (by decide) (by decide)
    · exact h 0 0 (by decide) (by decide)
    · exact h 0 0 (by decide) (by decide)
    · exact h 0 0 (by decide) (by decide)
    · exact h 2 2 (by decide) (by decide)
    · exact h 0 0 (by decide) (by decide)
    · exact h 2001 65536 (by decide) (by decide)
    · exact h (-6) 65536 (by decide) (by decide)
    · exact h 0 65536 (by decide) (by decide)
    · exact h 2 2 (by decide) (by decide)
  refine ⟨_, key (fun n => lit n (2 ^ 1)) (fun n N hn hN => grid_lit (by decide) (by omega) n hn), ?_, ?_⟩
  · have v : ∀ n : ℤ, n.natAbs ≤ 2 ^ 24 → (lit n 2 : F32).val = (n : ℝ) / 2 :=
      fun n hn => by simpa using (lit_dyadic n 1 hn (by decide)).2
    rw [Matrix.det_succ_row_zero]
    simp [Fin.sum_univ_succ, Matrix.det_fin_three, Matrix.submatrix, rmat, mat, vec, Fin.succAbove,
      v 0 (by decide), v 2 (by decide), v (-2) (by decide), v 2001 (by decide), v (-6) (by decide), pow_one]
  · show (lit 2001 (2 ^ 1) : F32).val = _
    rw [(lit_dyadic 2001 1 (by decide) (by decide)).2]; norm_num

end Graphene

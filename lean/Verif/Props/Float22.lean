/-
  C113: zero tests, zero constants, copies and the identity of the SIMD layer.
-/
import Verif.Props.Float20
import Verif.Props.Float7
import Verif.Props.Matrix1

namespace Graphene
open Fp Spec Simd4f

variable [Libm binary32]

/-- `|a| <= FLT_EPSILON` in single precision -/
theorem le_eps (a : F32) : (Scalar.abs a <=. (fltEps : F32)) = true ↔ a.isFin = true ∧ |a.val| ≤ 1 / 2 ^ 23 := by
  change (Fp.abs a).le (fltEps : F32) = true ↔ _
  cases a with
  | nan => simp [Fp.abs, Fp.le, isFin]
  | inf s =>
    have : (Fp.le (Fp.inf false : F32) (fltEps : F32)) = false := by kdecide
    simp [Fp.abs, this, isFin]
  | fin s m h =>
    rw [le_iff_val (isNaN_of_isFin (by simp)) (isNaN_of_isFin eps_is.fin), val_abs, eps_is.val]
    simp

/-- equality with zero on the SIMD backends -/
theorem feq_zero (a : F32) : Scalar.feq a (f0 : F32) = true ↔ a.isFin = true ∧ a.val = 0 := by
  change a.feq (f0 : F32) = true ↔ _
  cases a with
  | nan => simp [Fp.feq, isFin]
  | inf s =>
    have : ∀ s, (Fp.feq (Fp.inf s : F32) (f0 : F32)) = false := by intro s; cases s <;> kdecide
    simp [this, isFin]
  | fin s m h =>
    rw [feq_iff_val (isNaN_of_isFin (by simp)) (isNaN_of_isFin is_f0.fin), is_f0.val]
    simp

/-- equality with zero on the scalar backend -/
theorem approxEqual_zero (a : F32) : approxEqual a (f0 : F32) fltEps = true ↔ a.isFin = true → |a.val| ≤ 1 / 2 ^ 23 := by
  cases ha : a.isFin with
  | false =>
    simp only [Bool.false_eq_true, false_imp_iff, iff_true]
    cases a with
    | nan => kdecide
    | inf s => cases s <;> kdecide
    | fin s m h => simp at ha
  | true =>
    simp only [true_imp_iff]
    have h0 := is_f0
    have hs : Is (Fp.sub a (f0 : F32)) a.val := by
      have hr := rnd_sub ha h0.fin
      rw [h0.val, sub_zero] at hr
      exact hr.is ⟨ha, rfl⟩
    have hab : Is (Fp.abs (Fp.sub a (f0 : F32))) |a.val| := ⟨by simpa using hs.fin, by rw [val_abs, hs.val]⟩
    have haa : Is (Fp.abs a) |a.val| := ⟨by simpa using ha, val_abs a⟩
    have hlt := abs_val_le_max ha
    have hni : Fp.isInf a = false := by cases a <;> simp [isFin, Fp.isInf] at ha ⊢
    have hle : (Fp.abs (Fp.sub a (f0 : F32))).le (fltEps : F32) = true ↔ |a.val| ≤ 1 / 2 ^ 23 := by
      rw [le_iff_val (isNaN_of_isFin hab.fin) (isNaN_of_isFin eps_is.fin), hab.val, eps_is.val]
    have hgt : (Fp.abs a).lt (Fp.abs (f0 : F32)) = false := by
      rw [← Bool.not_eq_true, lt_iff_val (isNaN_of_isFin haa.fin) (isNaN_of_isFin (by simpa using h0.fin)), haa.val, val_abs, h0.val, abs_zero]
      exact not_lt.mpr (_root_.abs_nonneg _)
    have hmul := rnd_mul haa.fin (eps_is.fin)
    rw [haa.val, eps_is.val] at hmul
    have hx : |(|a.val| * (1 / 2 ^ 23) : ℝ)| = |a.val| * (1 / 2 ^ 23) := abs_of_nonneg (by positivity)
    have hfin := hmul.isFin hp32 (by rw [hx]; refine _root_.le_trans ?_ le_max32; norm_num at *; linarith)
    have herr := hmul.err hfin
    rw [hx, u32, eta32] at herr
    have hle2 : (Fp.abs (Fp.sub a (f0 : F32))).le (Fp.mul (Fp.abs a) (fltEps : F32)) = true → |a.val| ≤ 1 / 2 ^ 23 := by
      rw [le_iff_val (isNaN_of_isFin hab.fin) (isNaN_of_isFin hfin), hab.val]
      intro hle
      have h2 := _root_.abs_nonneg a.val
      rcases herr with herr | herr
      · have := (_root_.abs_le.mp herr).2
        generalize |a.val| = q at *
        norm_num at hle this ⊢; linarith
      · have := (_root_.abs_le.mp herr).2
        generalize |a.val| = q at *
        norm_num at hle this ⊢; linarith
    change (if Fp.isInf a && Fp.isInf (f0 : F32) then true else
      if Fp.isNaN (Fp.abs (Fp.sub a (f0 : F32))) then true else if (Fp.abs (Fp.sub a (f0 : F32))).le fltEps then true else
        (Fp.abs (Fp.sub a (f0 : F32))).le (Fp.mul (if (Fp.abs a).lt (Fp.abs (f0 : F32)) then Fp.abs (f0 : F32) else Fp.abs a) fltEps)) = true ↔ _
    rw [hni, isNaN_of_isFin hab.fin, hgt]
    simp only [Bool.false_and, Bool.false_eq_true, if_false]
    split
    · rename_i h; simpa using hle.mp h
    · rename_i h; exact ⟨hle2, fun h' => absurd (hle.mpr h') h⟩

/-! ## C113 -/

/-- C113: `is_zero2` and `is_zero3` look at the first two and three lanes only, and accept exactly the finite values up to
`FLT_EPSILON` in magnitude.  In particular they reject infinities and NaN. -/
theorem C113_is_zero23 (v : V4 F32) :
    (Simd4f.isZero2 v = true ↔ ∀ i : Fin 4, i < 2 → (vec v i).isFin = true ∧ |(vec v i).val| ≤ 1 / 2 ^ 23) ∧
    (Simd4f.isZero3 v = true ↔ ∀ i : Fin 4, i < 3 → (vec v i).isFin = true ∧ |(vec v i).val| ≤ 1 / 2 ^ 23) := by
  simp only [Simd4f.isZero2, Simd4f.isZero3, Bool.and_eq_true, le_eps, Fin.forall_fin_succ, vec]
  constructor
  · constructor
    · rintro ⟨h1, h2⟩
      exact ⟨fun _ => h1, fun _ => h2, fun h => absurd h (by decide), fun h => absurd h (by decide), fun i => i.elim0⟩
    · rintro ⟨h1, h2, -⟩
      exact ⟨h1 (by decide), h2 (by decide)⟩
  · constructor
    · rintro ⟨⟨h1, h2⟩, h3⟩
      exact ⟨fun _ => h1, fun _ => h2, fun _ => h3, fun h => absurd h (by decide), fun i => i.elim0⟩
    · rintro ⟨h1, h2, h3, -⟩
      exact ⟨⟨h1 (by decide), h2 (by decide)⟩, h3 (by decide)⟩

/-- C113: on the SIMD backends `is_zero4` accepts exactly the vectors of four (positive or negative) zeros; on the scalar
backend, every vector without a finite lane above `FLT_EPSILON` in magnitude, so also infinities and NaN. -/
theorem C113_is_zero4 (bk : Backend) (v : V4 F32) :
    ((∀ d, bk ≠ .scalar d) → (Simd4f.isZero4 bk v = true ↔ ∀ i, (vec v i).isFin = true ∧ (vec v i).val = 0)) ∧
    (∀ d, bk = .scalar d → (Simd4f.isZero4 bk v = true ↔ ∀ i, (vec v i).isFin = true → |(vec v i).val| ≤ 1 / 2 ^ 23)) := by
  constructor
  · intro hb
    have h : ∀ x y : F32, Simd4f.eq1 bk x y = Scalar.feq x y := by
      intro x y; cases bk <;> first | rfl | exact absurd rfl (hb _)
    simp only [Simd4f.isZero4, Simd4f.cmpEq, Simd4f.initZero, h, feq_zero, Bool.and_eq_true, Fin.forall_fin_succ, vec]
    simp [and_assoc]
  · rintro d rfl
    simp only [Simd4f.isZero4, Simd4f.cmpEq, Simd4f.initZero, Simd4f.eq1, approxEqual_zero, Bool.and_eq_true, Fin.forall_fin_succ, vec]
    simp [and_assoc]

/-- C113: the zero constants have zeros everywhere, copies are exact (NaN payloads aside, which the model does not have), and the SIMD identity
matrix is that of the matrix type: ones on the diagonal and zeros elsewhere. -/
theorem C113_constants (p : Point F32) (q : Point3D F32) (s : Size F32) :
    (Point.zero : Point F32) = ⟨f0, f0⟩ ∧ (Point3D.zero : Point3D F32) = ⟨f0, f0, f0⟩ ∧ (Size.zero : Size F32) = ⟨f0, f0⟩ ∧
    (Rect.zero : Rect F32) = ⟨⟨f0, f0⟩, ⟨f0, f0⟩⟩ ∧
    Point.initFromPoint p = p ∧ Point3D.initFromPoint q = q ∧ Size.initFromSize s = s ∧
    (∀ i j, mat (Simd4x4f.identity : M4 F32) i j = if i = j then f1 else f0) ∧
    (Simd4x4f.identity : M4 F32) = GMatrix.initIdentity := by
  refine ⟨rfl, rfl, rfl, rfl, rfl, rfl, rfl, ?_, rfl⟩
  intro i j
  fin_cases i <;> fin_cases j <;> rfl

/-- a vector accepted by `is_zero2` and `is_zero3` and not by `is_zero4`, and one accepted by `is_zero2` only -/
example : let v : V4 F32 := ⟨f0, Scalar.lit (-1) (2 ^ 30), f0, f1⟩
    Simd4f.isZero2 v = true ∧ Simd4f.isZero3 v = true ∧ Simd4f.isZero3 (⟨f0, f0, Scalar.lit (-1) 1, f0⟩ : V4 F32) = false ∧
    Simd4f.isZero4 .gcc v = false ∧ Simd4f.isZero4 (.scalar false) (⟨f0, .inf true, .nan, f0⟩ : V4 F32) = true := by
  refine ⟨?_, ?_, ?_, ?_, ?_⟩ <;> kdecide

end Graphene

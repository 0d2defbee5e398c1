/-
  C61, C67: 2D matrices as six numbers; comparisons of matrices.
-/
import Verif.Props.Matrix5
import Verif.Props.Vectors4
import Verif.Proofs.FpLemmas
import Verif.Proofs.KDecide

namespace Graphene
open Spec Simd4f

/-! ## C61 -/

section
variable [Libm binary32]

/-- C61: in IEEE arithmetic, for any six `double`s (NaN and infinities included), `to_2d` of
`init_from_2d` succeeds and returns the six numbers rounded to `float`. -/
theorem C61_roundtrip (xx yx xy yy x0 y0 : F64) :
    GMatrix.to2d (GMatrix.initFrom2d xx yx xy yy x0 y0 : M4 F32) =
      some (FloatConv.widen (FloatConv.narrow xx : F32), FloatConv.widen (FloatConv.narrow yx : F32),
        FloatConv.widen (FloatConv.narrow xy : F32), FloatConv.widen (FloatConv.narrow yy : F32),
        FloatConv.widen (FloatConv.narrow x0 : F32), FloatConv.widen (FloatConv.narrow y0 : F32)) ∧
    GMatrix.is2d (GMatrix.initFrom2d xx yx xy yy x0 y0 : M4 F32) = true := by
  have h : Simd4x4f.is2d (GMatrix.initFrom2d xx yx xy yy x0 y0 : M4 F32) = true := by kdecide
  refine ⟨?_, h⟩
  simp only [GMatrix.to2d, h]
  rfl

/-- C61: hence numbers that are `float` values survive the round trip, and the other way round the matrix
is recovered from its six numbers. -/
theorem C61_exact (xx yx xy yy x0 y0 : F32) :
    GMatrix.to2d (GMatrix.initFrom2d (FloatConv.widen xx : F64) (FloatConv.widen yx) (FloatConv.widen xy)
      (FloatConv.widen yy) (FloatConv.widen x0) (FloatConv.widen y0) : M4 F32) =
      some (FloatConv.widen xx, FloatConv.widen yx, FloatConv.widen xy, FloatConv.widen yy, FloatConv.widen x0,
        FloatConv.widen y0) ∧
    GMatrix.initFrom2d (FloatConv.widen xx : F64) (FloatConv.widen yx) (FloatConv.widen xy)
      (FloatConv.widen yy) (FloatConv.widen x0) (FloatConv.widen y0) =
      (⟨⟨xx, yx, f0, f0⟩, ⟨xy, yy, f0, f0⟩, ⟨f0, f0, f1, f0⟩, ⟨x0, y0, f0, f1⟩⟩ : M4 F32) := by
  have h : ∀ a : F32, (FloatConv.narrow (FloatConv.widen a : F64) : F32) = a := Fp.narrow_widen
  refine ⟨?_, ?_⟩
  · rw [(C61_roundtrip _ _ _ _ _ _).1]
    simp only [h]
  · simp only [GMatrix.initFrom2d, h, Simd4x4f.init, Simd4f.init]

/-- C61 is false: `is_2d` and `to_2d` also accept matrices that scale or flip `z` or `w`, e.g. the
matrix scaling `z` by 5 and the one with `w` row `(0, 0, 0, -7)`. -/
theorem C61_scale_false :
    GMatrix.is2d (GMatrix.initScale f1 f1 (Scalar.lit 5 1) : M4 F32) = true ∧
    (GMatrix.to2d (⟨⟨f1, f0, f0, f0⟩, ⟨f0, f1, f0, f0⟩, ⟨f0, f0, Scalar.lit (-3) 1, f0⟩,
      ⟨f0, f0, f0, Scalar.lit (-7) 1⟩⟩ : M4 F32)).isSome = true := by
  constructor <;> kdecide
end

/-- C61, proved part: `is_2d` (and success of `to_2d`) means that the eight entries that vanish in a 2D
transformation are below `FLT_EPSILON` in magnitude and the last two diagonal entries are of magnitude
more than `1 - FLT_EPSILON`.  Missing: upper bounds and signs of those two entries. -/
theorem C61_is2d_partial (m : M4 ℝ) :
    (GMatrix.is2d m = true ↔
      (∀ v ∈ [m.x.z, m.x.w, m.y.z, m.y.w, m.z.x, m.z.y, m.z.w, m.w.z], |v| < eps) ∧
      1 - eps < |m.z.z| ∧ 1 - eps < |m.w.w|) ∧
    ((GMatrix.to2d m).isSome ↔ GMatrix.is2d m = true) ∧
    (TwoD m → GMatrix.is2d m = true ∧
      GMatrix.to2d m = some (m.x.x, m.x.y, m.y.x, m.y.y, m.w.x, m.w.y) ∧
      GMatrix.initFrom2d m.x.x m.x.y m.y.x m.y.y m.w.x m.w.y = m) := by
  refine ⟨?_, ?_, ?_⟩
  · have h : GMatrix.is2d m = ((Scalar.abs m.x.z <. fltEps && Scalar.abs m.x.w <. fltEps) &&
        (Scalar.abs m.y.z <. fltEps && Scalar.abs m.y.w <. fltEps) &&
        (Scalar.abs m.z.x <. fltEps && Scalar.abs m.z.y <. fltEps && (f1 -. Scalar.abs m.z.z) <. fltEps &&
          Scalar.abs m.z.w <. fltEps) &&
        (Scalar.abs m.w.z <. fltEps && (f1 -. Scalar.abs m.w.w) <. fltEps)) := by
      have hb : ∀ a b c d : Bool, (if !a then false else if !b then false else if !c then false else if !d then false
          else true) = (a && b && c && d) := by decide
      exact hb _ _ _ _
    rw [h]
    simp only [Bool.and_eq_true, RealScalar.lt_eq, RealScalar.abs_eq, RealScalar.sub_eq, fltEps_real,
      RealScalar.f1_eq, List.forall_mem_cons, List.not_mem_nil, false_imp_iff, implies_true, and_true,
      sub_lt_comm (a := (1 : ℝ))]
    tauto
  · simp only [GMatrix.to2d, GMatrix.is2d]
    cases Simd4x4f.is2d m <;> simp
  · intro h
    have h2 := h.is2d
    obtain ⟨e1, e2, e3, e4, e5, e6, e7⟩ := h
    refine ⟨h2, ?_, ?_⟩
    · simp only [GMatrix.is2d] at h2
      simp [GMatrix.to2d, h2]
    · obtain ⟨⟨a, b, az, aw⟩, ⟨c, d, cz, cw⟩, mz, ⟨e, f, wz, ww⟩⟩ := m
      dsimp only at e1 e2 e3 e4 e5 e6 e7
      subst e1 e2 e3 e4 e5 e6 e7
      simp [GMatrix.initFrom2d, greal]

/-! ## C67 -/

/-- C67: `matrix_near` compares the four rows by Euclidean distance; `equal` uses `FLT_EPSILON`; identical
pointers are near, `NULL` is near nothing else. -/
theorem C67_near (mem : Mem (M4 ℝ)) (a b : Nat) (ε : ℝ) (hε : 0 < ε) :
    (GMatrix.near mem (some a) (some b) ε = true ↔
      ∀ i : Fin 4, dist4 (GMatrix.getRow (mem a) i) (GMatrix.getRow (mem b) i) < ε) ∧
    (GMatrix.equal mem (some a) (some b) = true ↔
      ∀ i : Fin 4, dist4 (GMatrix.getRow (mem a) i) (GMatrix.getRow (mem b) i) < eps) ∧
    GMatrix.near mem none none ε = true ∧ GMatrix.near mem (some a) none ε = false ∧
    GMatrix.near mem none (some b) ε = false := by
  have key : ∀ ε : ℝ, 0 < ε → (GMatrix.near mem (some a) (some b) ε = true ↔
      ∀ i : Fin 4, dist4 (GMatrix.getRow (mem a) i) (GMatrix.getRow (mem b) i) < ε) := by
    intro ε hε
    have hn := fun (e f : Vec4 ℝ) => (C06_near .gcc ⟨⟨0, 0, 0, 0⟩⟩ ⟨⟨0, 0, 0, 0⟩⟩ ⟨⟨0, 0, 0, 0⟩⟩ ⟨⟨0, 0, 0, 0⟩⟩ e f ε
      hε.le).2.2
    by_cases h : a = b
    · subst h
      simp only [GMatrix.near, if_true, true_iff]
      intro i; simpa [dist4] using hε
    · simp only [GMatrix.near, Option.some.injEq, h, if_false, GMatrix.nearV, Bool.and_eq_true, hn,
        Fin.forall_fin_succ, and_assoc]
      simp
  refine ⟨key ε hε, ?_, rfl, rfl, rfl⟩
  have := key eps eps_pos
  rw [← this, GMatrix.equal, fltEps_real]

/-- C67: `is_identity` recognises exactly the identity matrix (SSE, GCC and NEON). -/
theorem C67_identity (bk : Backend) (hb : ∀ d, bk ≠ .scalar d) (m : M4 ℝ) :
    GMatrix.isIdentity bk m = true ↔ mat m = 1 := by
  rw [← initIdentity_real, mat_injective.eq_iff, M4.ext_iff]
  simp only [GMatrix.isIdentity, Simd4x4f.isIdentity, Bool.and_eq_true, cmpEq_real hb, GMatrix.initIdentity,
    Simd4f.init]
  tauto

/-- C67: in IEEE arithmetic `is_identity` accepts only the identity, up to the signs of zeros, and
`equal_fast` only bit-identical matrices (up to NaN payloads). -/
theorem C67_identity_ieee [Libm binary32] (bk : Backend) (hb : ∀ d, bk ≠ .scalar d) (m : M4 F32) :
    GMatrix.isIdentity bk m = true ↔ ∀ i j : Fin 4, (mat m i j).feq (if i = j then f1 else f0) = true := by
  have h : ∀ x y : F32, eq1 bk x y = x.feq y := by
    intro x y; cases bk <;> first | rfl | exact absurd rfl (hb _)
  simp only [GMatrix.isIdentity, Simd4x4f.isIdentity, cmpEq, h, Bool.and_eq_true, Fin.forall_fin_succ, mat, vec,
    Simd4f.init]
  simp [and_assoc]

theorem C67_equal_fast [Libm binary32] (a b : M4 F32) : GMatrix.equalFast a b = true ↔ a = b := by
  simp [GMatrix.equalFast]

/-- C67 is false on the scalar backend: `is_identity` uses a relative tolerance, and accepts a matrix that
is not the identity. -/
theorem C67_scalar_false (d : Bool) : ∃ m : M4 ℝ, GMatrix.isIdentity (.scalar d) m = true ∧ mat m ≠ 1 := by
  have h0 : ∀ a : ℝ, approxEqual a a eps = true := by
    intro a
    simp only [approxEqual, greal]
    simp [eps_pos]
  have h1 : approxEqual (1 + eps / 2) (1 : ℝ) eps = true := by
    simp only [approxEqual, greal]; unfold eps; norm_num
  refine ⟨⟨⟨1 + eps / 2, 0, 0, 0⟩, ⟨0, 1, 0, 0⟩, ⟨0, 0, 1, 0⟩, ⟨0, 0, 0, 1⟩⟩, ?_, ?_⟩
  · simp [GMatrix.isIdentity, Simd4x4f.isIdentity, cmpEq, eq1, Simd4f.init, h0, h1]
  · intro h
    have := congrFun (congrFun h 0) 0
    simp [mat, vec, eps_pos.ne'] at this

/-- non-vacuity -/
example (bk : Backend) (hb : ∀ d, bk ≠ .scalar d) : GMatrix.isIdentity bk (GMatrix.initIdentity : M4 ℝ) = true ∧
    GMatrix.isIdentity bk (GMatrix.initScale (2 : ℝ) 1 1) = false := by
  refine ⟨(C67_identity bk hb _).2 initIdentity_real, ?_⟩
  rw [← Bool.not_eq_true, C67_identity bk hb]
  intro h
  have := congrFun (congrFun h 0) 0
  simp [mat, vec, GMatrix.initScale, greal] at this

end Graphene

/-
  C85: floating-point accuracy of dot products and lengths (IEEE binary32).
-/
import Verif.Model.Vec
import Verif.Proofs.Approx
import Verif.Proofs.KDecide

set_option exponentiation.threshold 3000

namespace Graphene
open Fp
variable [Libm binary32]

/-- |computed - exact| for a sum of `n ≤ 4` products whose absolute values add up to `S`. -/
noncomputable def Spec.dotErr (S : ℝ) : ℝ := S / 2 ^ 22 + 1 / 2 ^ 147
/-- |computed - exact| for the length of a vector whose true length is `L`. -/
noncomputable def Spec.lengthErr (L : ℝ) : ℝ := L / 2 ^ 21 + 1 / 2 ^ 72

theorem prod_approx {a b : F32} (ha : a.isFin = true) (hb : b.isFin = true)
    (h : |a.val * b.val| ≤ 2 ^ 126) :
    Approx (Fp.mul a b) (a.val * b.val) |a.val * b.val| ((1 + 1 / 16777216) * |a.val * b.val| + 1 / 2 ^ 150) := by
  have := Approx.mul hp32 (Approx.exact ha) (Approx.exact hb)
    (by rw [← abs_mul]; exact h.trans (le_trans (by norm_num) le_max32))
  rwa [u32, eta32, ← abs_mul] at this

theorem sum2_approx {p q : F32} {x y A B E F : ℝ} (hp : Approx p x A E) (hq : Approx q y B F)
    (h : E + F ≤ 2 ^ 127) :
    Approx (Fp.add p q) (x + y) (A + B) ((1 + 1 / 16777216) * (E + F)) := by
  have := Approx.add hp32 hp hq (h.trans le_max32)
  rwa [u32] at this

theorem zero_approx : Approx (f0 : F32) 0 0 0 :=
  ⟨by rw [f0_eq]; rfl, by simp, by rw [f0_eq]; simp⟩

/-- The dot product of two `graphene_vec2_t`. -/
theorem C85_dot2 (a b : Vec2 F32)
    (hfin : a.getX.isFin = true ∧ a.getY.isFin = true ∧ b.getX.isFin = true ∧ b.getY.isFin = true)
    (hbig : |a.getX.val * b.getX.val| + |a.getY.val * b.getY.val| ≤ 2 ^ 126) :
    (Vec2.dot a b).isFin = true ∧
    |(Vec2.dot a b).val - (a.getX.val * b.getX.val + a.getY.val * b.getY.val)| ≤
      Spec.dotErr (|a.getX.val * b.getX.val| + |a.getY.val * b.getY.val|) := by
  obtain ⟨h1, h2, h3, h4⟩ := hfin
  have n1 := abs_nonneg (a.getX.val * b.getX.val)
  have n2 := abs_nonneg (a.getY.val * b.getY.val)
  have p1 := prod_approx h1 h3 (by linarith)
  have p2 := prod_approx h2 h4 (by linarith)
  have s := sum2_approx p1 p2 (by norm_num [-abs_mul] at hbig ⊢; linarith)
  refine ⟨s.fin, s.err.trans ?_⟩
  unfold Spec.dotErr; norm_num [-abs_mul] at hbig ⊢; linarith

/-- The dot product of two `graphene_vec3_t`, every backend. -/
theorem C85_dot3 (bk : Backend) (a b : Vec3 F32)
    (hfin : a.getX.isFin = true ∧ a.getY.isFin = true ∧ a.getZ.isFin = true ∧
            b.getX.isFin = true ∧ b.getY.isFin = true ∧ b.getZ.isFin = true)
    (hbig : |a.getX.val * b.getX.val| + |a.getY.val * b.getY.val| + |a.getZ.val * b.getZ.val| ≤ 2 ^ 126) :
    (Vec3.dot bk a b).isFin = true ∧
    |(Vec3.dot bk a b).val -
        (a.getX.val * b.getX.val + a.getY.val * b.getY.val + a.getZ.val * b.getZ.val)| ≤
      Spec.dotErr (|a.getX.val * b.getX.val| + |a.getY.val * b.getY.val| + |a.getZ.val * b.getZ.val|) := by
  obtain ⟨h1, h2, h3, h4, h5, h6⟩ := hfin
  have n1 := abs_nonneg (a.getX.val * b.getX.val)
  have n2 := abs_nonneg (a.getY.val * b.getY.val)
  have n3 := abs_nonneg (a.getZ.val * b.getZ.val)
  have p1 := prod_approx h1 h4 (by linarith)
  have p2 := prod_approx h2 h5 (by linarith)
  have p3 := prod_approx h3 h6 (by linarith)
  have e1 : (a.getX.val * b.getX.val + a.getZ.val * b.getZ.val) + (a.getY.val * b.getY.val + 0)
      = a.getX.val * b.getX.val + a.getY.val * b.getY.val + a.getZ.val * b.getZ.val := by ring
  have e2 : (a.getX.val * b.getX.val + a.getY.val * b.getY.val) + (a.getZ.val * b.getZ.val + 0)
      = a.getX.val * b.getX.val + a.getY.val * b.getY.val + a.getZ.val * b.getZ.val := by ring
  have s : ∃ E : ℝ, Approx (Vec3.dot bk a b)
      (a.getX.val * b.getX.val + a.getY.val * b.getY.val + a.getZ.val * b.getZ.val)
      (|a.getX.val * b.getX.val| + |a.getY.val * b.getY.val| + |a.getZ.val * b.getZ.val|) E ∧
      E ≤ (|a.getX.val * b.getX.val| + |a.getY.val * b.getY.val| + |a.getZ.val * b.getZ.val|) +
       Spec.dotErr (|a.getX.val * b.getX.val| + |a.getY.val * b.getY.val| + |a.getZ.val * b.getZ.val|) := by
    unfold Spec.dotErr
    rcases bk with ⟨_ | _, _⟩ | _ | _ | _
    · have q1 := sum2_approx p1 p3 (by norm_num [-abs_mul] at hbig ⊢; linarith)
      have q2 := sum2_approx p2 zero_approx (by norm_num [-abs_mul] at hbig ⊢; linarith)
      have q := sum2_approx q1 q2 (by norm_num [-abs_mul] at hbig ⊢; linarith)
      exact ⟨_, q.congr e1 (by ring), by norm_num [-abs_mul] at hbig ⊢; linarith⟩
    · have q1 := sum2_approx p1 p2 (by norm_num [-abs_mul] at hbig ⊢; linarith)
      have q2 := sum2_approx p3 zero_approx (by norm_num [-abs_mul] at hbig ⊢; linarith)
      have q := sum2_approx q1 q2 (by norm_num [-abs_mul] at hbig ⊢; linarith)
      exact ⟨_, q.congr e2 (by ring), by norm_num [-abs_mul] at hbig ⊢; linarith⟩
    all_goals
      have q1 := sum2_approx p1 p2 (by norm_num [-abs_mul] at hbig ⊢; linarith)
      have q := sum2_approx q1 p3 (by norm_num [-abs_mul] at hbig ⊢; linarith)
      exact ⟨_, q, by norm_num [-abs_mul] at hbig ⊢; linarith⟩
  obtain ⟨E, s, hE⟩ := s
  exact ⟨s.fin, s.err.trans (by linarith)⟩

/-- The dot product of two `graphene_vec4_t`. -/
theorem C85_dot4 (a b : Vec4 F32)
    (hfin : a.getX.isFin = true ∧ a.getY.isFin = true ∧ a.getZ.isFin = true ∧ a.getW.isFin = true ∧
            b.getX.isFin = true ∧ b.getY.isFin = true ∧ b.getZ.isFin = true ∧ b.getW.isFin = true)
    (hbig : |a.getX.val * b.getX.val| + |a.getY.val * b.getY.val| + |a.getZ.val * b.getZ.val|
      + |a.getW.val * b.getW.val| ≤ 2 ^ 126) :
    (Vec4.dot a b).isFin = true ∧
    |(Vec4.dot a b).val - (a.getX.val * b.getX.val + a.getY.val * b.getY.val + a.getZ.val * b.getZ.val
        + a.getW.val * b.getW.val)| ≤
      Spec.dotErr (|a.getX.val * b.getX.val| + |a.getY.val * b.getY.val| + |a.getZ.val * b.getZ.val|
        + |a.getW.val * b.getW.val|) := by
  obtain ⟨h1, h2, h3, h4, h5, h6, h7, h8⟩ := hfin
  have n1 := abs_nonneg (a.getX.val * b.getX.val)
  have n2 := abs_nonneg (a.getY.val * b.getY.val)
  have n3 := abs_nonneg (a.getZ.val * b.getZ.val)
  have n4 := abs_nonneg (a.getW.val * b.getW.val)
  have p1 := prod_approx h1 h5 (by linarith)
  have p2 := prod_approx h2 h6 (by linarith)
  have p3 := prod_approx h3 h7 (by linarith)
  have p4 := prod_approx h4 h8 (by linarith)
  have q1 := sum2_approx p1 p2 (by norm_num [-abs_mul] at hbig ⊢; linarith)
  have q2 := sum2_approx p3 p4 (by norm_num [-abs_mul] at hbig ⊢; linarith)
  have q := sum2_approx q1 q2 (by norm_num [-abs_mul] at hbig ⊢; linarith)
  have e : a.getX.val * b.getX.val + a.getY.val * b.getY.val + (a.getZ.val * b.getZ.val
        + a.getW.val * b.getW.val) = a.getX.val * b.getX.val + a.getY.val * b.getY.val + a.getZ.val * b.getZ.val
        + a.getW.val * b.getW.val := by ring
  rw [e] at q
  refine ⟨q.fin, q.err.trans ?_⟩
  unfold Spec.dotErr; norm_num [-abs_mul] at hbig ⊢; linarith

/-! ### Length -/

theorem nonneg_of_rnd {x : ℝ} {r : F32} (h : Rnd x r) (hx : 0 ≤ x) : 0 ≤ r.val := by
  have := h.ge_of (a := zero false) rfl (by simpa using hx)
  rw [le_iff_val rfl h.not_nan] at this
  simpa using this

theorem mul_self_nonneg_val {a : F32} (ha : a.isFin = true) : 0 ≤ (Fp.mul a a).val :=
  nonneg_of_rnd (rnd_mul ha ha) (mul_self_nonneg _)
theorem add_nonneg_val {a b : F32} (ha : a.isFin = true) (hb : b.isFin = true) (h : 0 ≤ a.val) (g : 0 ≤ b.val) :
    0 ≤ (Fp.add a b).val := nonneg_of_rnd (rnd_add ha hb) (add_nonneg h g)

theorem length_approx {d : F32} {S : ℝ} (hd : d.isFin = true) (h0 : 0 ≤ d.val) (hS : 0 ≤ S)
    (h : |d.val - S| ≤ Spec.dotErr S) :
    (Fp.sqrt d).isFin = true ∧ |(Fp.sqrt d).val - √S| ≤ Spec.lengthErr √S := by
  have := Approx.sqrt (f := binary32) (x := S) (e := 1 / 2 ^ 22) (t := 1 / 2 ^ 147) (s := 3 / 2 ^ 74)
    hs32 ht32 hd h0 hS (by norm_num) (by norm_num) (by norm_num) (by norm_num)
    (by unfold Spec.dotErr at h; linarith)
  refine ⟨this.1, this.2.trans ?_⟩
  have := Real.sqrt_nonneg S
  rw [u32]; unfold Spec.lengthErr
  norm_num; linarith

theorem sqrt1_ne_neon {bk : Backend} (h : bk ≠ .neon) (d : F32) : Simd4f.sqrt1 bk d = Fp.sqrt d := by
  rcases bk with _ | _ | _ | _ <;> first | rfl | exact absurd rfl h

/-- The length of a `graphene_vec2_t` (backends with an exact square root). -/
theorem C85_length2 (bk : Backend) (hbk : bk ≠ .neon) (v : Vec2 F32)
    (hfin : v.getX.isFin = true ∧ v.getY.isFin = true)
    (hbig : v.getX.val ^ 2 + v.getY.val ^ 2 ≤ 2 ^ 126) :
    (Vec2.length bk v).isFin = true ∧
    |(Vec2.length bk v).val - √(v.getX.val ^ 2 + v.getY.val ^ 2)| ≤
      Spec.lengthErr √(v.getX.val ^ 2 + v.getY.val ^ 2) := by
  have hab : ∀ t : ℝ, |t * t| = t ^ 2 := fun t => by rw [abs_mul_self, sq]
  have hd := C85_dot2 v v ⟨hfin.1, hfin.2, hfin.1, hfin.2⟩ (by simpa only [hab] using hbig)
  rw [hab, hab, ← sq, ← sq] at hd
  have hn : 0 ≤ (Vec2.dot v v).val := by
    have p1 := prod_approx hfin.1 hfin.1 (by rw [hab]; nlinarith [sq_nonneg v.getY.val])
    have p2 := prod_approx hfin.2 hfin.2 (by rw [hab]; nlinarith [sq_nonneg v.getX.val])
    exact add_nonneg_val p1.fin p2.fin (mul_self_nonneg_val hfin.1) (mul_self_nonneg_val hfin.2)
  have := length_approx hd.1 hn (by positivity) hd.2
  rwa [← sqrt1_ne_neon hbk] at this

/-- The length of a `graphene_vec3_t`. -/
theorem C85_length3 (bk : Backend) (hbk : bk ≠ .neon) (v : Vec3 F32)
    (hfin : v.getX.isFin = true ∧ v.getY.isFin = true ∧ v.getZ.isFin = true)
    (hbig : v.getX.val ^ 2 + v.getY.val ^ 2 + v.getZ.val ^ 2 ≤ 2 ^ 126) :
    (Vec3.length bk v).isFin = true ∧
    |(Vec3.length bk v).val - √(v.getX.val ^ 2 + v.getY.val ^ 2 + v.getZ.val ^ 2)| ≤
      Spec.lengthErr √(v.getX.val ^ 2 + v.getY.val ^ 2 + v.getZ.val ^ 2) := by
  obtain ⟨h1, h2, h3⟩ := hfin
  have hab : ∀ t : ℝ, |t * t| = t ^ 2 := fun t => by rw [abs_mul_self, sq]
  have hd := C85_dot3 bk v v ⟨h1, h2, h3, h1, h2, h3⟩ (by simpa only [hab] using hbig)
  rw [hab, hab, hab, ← sq, ← sq, ← sq] at hd
  have s1 := sq_nonneg v.getX.val
  have s2 := sq_nonneg v.getY.val
  have s3 := sq_nonneg v.getZ.val
  have hn : 0 ≤ (Vec3.dot bk v v).val := by
    have p1 := prod_approx h1 h1 (by rw [hab]; linarith)
    have p2 := prod_approx h2 h2 (by rw [hab]; linarith)
    have p3 := prod_approx h3 h3 (by rw [hab]; linarith)
    rw [hab] at p1 p2 p3
    have m1 := mul_self_nonneg_val h1
    have m2 := mul_self_nonneg_val h2
    have m3 := mul_self_nonneg_val h3
    have z : (0 : ℝ) ≤ (f0 : F32).val := by rw [f0_eq]; simp
    rcases bk with ⟨_ | _, _⟩ | _ | _ | _
    · have q1 := sum2_approx p1 p3 (by norm_num [-abs_mul] at hbig ⊢; linarith)
      have q2 := sum2_approx p2 zero_approx (by norm_num [-abs_mul] at hbig ⊢; linarith)
      exact add_nonneg_val q1.fin q2.fin (add_nonneg_val p1.fin p3.fin m1 m3)
        (add_nonneg_val p2.fin zero_approx.fin m2 z)
    · have q1 := sum2_approx p1 p2 (by norm_num [-abs_mul] at hbig ⊢; linarith)
      have q2 := sum2_approx p3 zero_approx (by norm_num [-abs_mul] at hbig ⊢; linarith)
      exact add_nonneg_val q1.fin q2.fin (add_nonneg_val p1.fin p2.fin m1 m2)
        (add_nonneg_val p3.fin zero_approx.fin m3 z)
    all_goals
      have q1 := sum2_approx p1 p2 (by norm_num [-abs_mul] at hbig ⊢; linarith)
      exact add_nonneg_val q1.fin p3.fin (add_nonneg_val p1.fin p2.fin m1 m2) m3
  have := length_approx hd.1 hn (by positivity) hd.2
  rwa [← sqrt1_ne_neon hbk] at this

/-- The length of a `graphene_vec4_t`. -/
theorem C85_length4 (bk : Backend) (hbk : bk ≠ .neon) (v : Vec4 F32)
    (hfin : v.getX.isFin = true ∧ v.getY.isFin = true ∧ v.getZ.isFin = true ∧ v.getW.isFin = true)
    (hbig : v.getX.val ^ 2 + v.getY.val ^ 2 + v.getZ.val ^ 2 + v.getW.val ^ 2 ≤ 2 ^ 126) :
    (Vec4.length bk v).isFin = true ∧
    |(Vec4.length bk v).val - √(v.getX.val ^ 2 + v.getY.val ^ 2 + v.getZ.val ^ 2 + v.getW.val ^ 2)| ≤
      Spec.lengthErr √(v.getX.val ^ 2 + v.getY.val ^ 2 + v.getZ.val ^ 2 + v.getW.val ^ 2) := by
  obtain ⟨h1, h2, h3, h4⟩ := hfin
  have hab : ∀ t : ℝ, |t * t| = t ^ 2 := fun t => by rw [abs_mul_self, sq]
  have hd := C85_dot4 v v ⟨h1, h2, h3, h4, h1, h2, h3, h4⟩ (by simpa only [hab] using hbig)
  rw [hab, hab, hab, hab, ← sq, ← sq, ← sq, ← sq] at hd
  have s1 := sq_nonneg v.getX.val
  have s2 := sq_nonneg v.getY.val
  have s3 := sq_nonneg v.getZ.val
  have s4 := sq_nonneg v.getW.val
  have hn : 0 ≤ (Vec4.dot v v).val := by
    have p1 := prod_approx h1 h1 (by rw [hab]; linarith)
    have p2 := prod_approx h2 h2 (by rw [hab]; linarith)
    have p3 := prod_approx h3 h3 (by rw [hab]; linarith)
    have p4 := prod_approx h4 h4 (by rw [hab]; linarith)
    rw [hab] at p1 p2 p3 p4
    have q1 := sum2_approx p1 p2 (by norm_num [-abs_mul] at hbig ⊢; linarith)
    have q2 := sum2_approx p3 p4 (by norm_num [-abs_mul] at hbig ⊢; linarith)
    exact add_nonneg_val q1.fin q2.fin
      (add_nonneg_val p1.fin p2.fin (mul_self_nonneg_val h1) (mul_self_nonneg_val h2))
      (add_nonneg_val p3.fin p4.fin (mul_self_nonneg_val h3) (mul_self_nonneg_val h4))
  have := length_approx hd.1 hn (by positivity) hd.2
  rwa [← sqrt1_ne_neon hbk] at this

/-- a concrete vector within the hypotheses -/
example : ∃ v : Vec3 F32, (v.getX.isFin = true ∧ v.getY.isFin = true ∧ v.getZ.isFin = true) ∧
    v.getX.val ^ 2 + v.getY.val ^ 2 + v.getZ.val ^ 2 ≤ 2 ^ 126 ∧
    |(Vec3.length .gcc v).val - 13| ≤ 13 / 2 ^ 21 + 1 / 2 ^ 72 := by
  have e3 := lit_int 3 (by decide)
  have e4 := lit_int 4 (by decide)
  have e5 := lit_int 12 (by decide)
  let v : Vec3 F32 := Vec3.init (lit 3 1) (lit 4 1) (lit 12 1)
  have x : v.getX = lit 3 1 := rfl
  have y : v.getY = lit 4 1 := rfl
  have z : v.getZ = lit 12 1 := rfl
  have h1 : v.getX.isFin = true ∧ v.getY.isFin = true ∧ v.getZ.isFin = true := by
    rw [x, y, z]; exact ⟨e3.1, e4.1, e5.1⟩
  have h2 : v.getX.val ^ 2 + v.getY.val ^ 2 + v.getZ.val ^ 2 = 13 ^ 2 := by
    rw [x, y, z, e3.2, e4.2, e5.2]; norm_num
  have := C85_length3 .gcc (by decide) v h1 (by rw [h2]; norm_num)
  rw [h2, Real.sqrt_sq (by norm_num)] at this
  exact ⟨v, h1, by rw [h2]; norm_num, this.2⟩

/-- The accuracy claim is about bounded operands: the length of (2^64, 0, 0) overflows. -/
example : (Vec3.length .gcc (Vec3.init (Scalar.lit (2 ^ 64) 1) f0 f0 : Vec3 F32)) = .inf false := by
  kdecide

end Graphene

/-
  C87: accuracy of matrix products and transformations in floating point.
  C88: identity, translation and scaling matrices act exactly in floating point.
-/
import Verif.Spec.Mat
import Verif.Props.Float1
import Verif.Proofs.KDecide
import Mathlib.Algebra.BigOperators.Fin

set_option exponentiation.threshold 3000

namespace Graphene
open Fp Spec

/-- the real matrix / vector a matrix / vector of floats stands for -/
noncomputable def Spec.rmat (m : M4 F32) : Matrix (Fin 4) (Fin 4) ℝ := (mat m).map Fp.val
noncomputable def Spec.rvec (v : V4 F32) : Fin 4 → ℝ := fun i => (vec v i).val
/-- every entry is finite -/
def Spec.FinMat (m : M4 F32) : Prop := ∀ i j, (mat m i j).isFin = true
def Spec.FinVec (v : V4 F32) : Prop := ∀ i, (vec v i).isFin = true

variable [Libm binary32]

theorem prodsum4 {a b c d p q r s : F32} (ha : a.isFin = true) (hb : b.isFin = true)
    (hc : c.isFin = true) (hd : d.isFin = true) (hp : p.isFin = true) (hq : q.isFin = true)
    (hr : r.isFin = true) (hs : s.isFin = true)
    (h : |p.val * a.val| + |q.val * b.val| + |r.val * c.val| + |s.val * d.val| ≤ 2 ^ 126) :
    (Fp.add (Fp.add (Fp.mul a p) (Fp.mul b q)) (Fp.add (Fp.mul c r) (Fp.mul d s))).isFin = true ∧
    |(Fp.add (Fp.add (Fp.mul a p) (Fp.mul b q)) (Fp.add (Fp.mul c r) (Fp.mul d s))).val -
      (p.val * a.val + q.val * b.val + r.val * c.val + s.val * d.val)| ≤
     dotErr (|p.val * a.val| + |q.val * b.val| + |r.val * c.val| + |s.val * d.val|) := by
  rw [mul_comm p.val, mul_comm q.val, mul_comm r.val, mul_comm s.val] at *
  have n1 := abs_nonneg (a.val * p.val)
  have n2 := abs_nonneg (b.val * q.val)
  have n3 := abs_nonneg (c.val * r.val)
  have n4 := abs_nonneg (d.val * s.val)
  have p1 := prod_approx ha hp (by linarith)
  have p2 := prod_approx hb hq (by linarith)
  have p3 := prod_approx hc hr (by linarith)
  have p4 := prod_approx hd hs (by linarith)
  have q1 := sum2_approx p1 p2 (by norm_num [-abs_mul] at h ⊢; linarith)
  have q2 := sum2_approx p3 p4 (by norm_num [-abs_mul] at h ⊢; linarith)
  have q := sum2_approx q1 q2 (by norm_num [-abs_mul] at h ⊢; linarith)
  refine ⟨q.fin, ?_⟩
  have := q.err
  rw [← add_assoc] at this
  refine this.trans ?_
  unfold dotErr; norm_num [-abs_mul] at h ⊢; linarith

/-- C87: `graphene_matrix_transform_vec4`: each component is the exact row-vector product up to
a few units in the last place of the sum of absolute values. -/
theorem C87_transform_vec4 (m : M4 F32) (v : Vec4 F32) (hm : FinMat m) (hv : FinVec v.value) (j : Fin 4)
    (hbig : ∑ i, |rvec v.value i * rmat m i j| ≤ 2 ^ 126) :
    (vec (GMatrix.transformVec4 m v).value j).isFin = true ∧
    |rvec (GMatrix.transformVec4 m v).value j - ∑ i, rvec v.value i * rmat m i j| ≤
      dotErr (∑ i, |rvec v.value i * rmat m i j|) := by
  simp only [Fin.sum_univ_four] at *
  fin_cases j
  · exact prodsum4 (hm 0 0) (hm 1 0) (hm 2 0) (hm 3 0) (hv 0) (hv 1) (hv 2) (hv 3) hbig
  · exact prodsum4 (hm 0 1) (hm 1 1) (hm 2 1) (hm 3 1) (hv 0) (hv 1) (hv 2) (hv 3) hbig
  · exact prodsum4 (hm 0 2) (hm 1 2) (hm 2 2) (hm 3 2) (hv 0) (hv 1) (hv 2) (hv 3) hbig
  · exact prodsum4 (hm 0 3) (hm 1 3) (hm 2 3) (hm 3 3) (hv 0) (hv 1) (hv 2) (hv 3) hbig

/-- C87: `graphene_matrix_multiply`: each entry of the computed product is the entry of the exact
product up to a few units in the last place of the sum of absolute values. -/
theorem C87_multiply (a b : M4 F32) (ha : FinMat a) (hb : FinMat b) (i j : Fin 4)
    (hbig : ∑ k, |rmat a i k * rmat b k j| ≤ 2 ^ 126) :
    (mat (GMatrix.multiply a b) i j).isFin = true ∧
    |rmat (GMatrix.multiply a b) i j - (rmat a * rmat b) i j| ≤ dotErr (∑ k, |rmat a i k * rmat b k j|) := by
  rw [Matrix.mul_apply]
  fin_cases i
  · exact C87_transform_vec4 b ⟨a.x⟩ hb (ha 0) j hbig
  · exact C87_transform_vec4 b ⟨a.y⟩ hb (ha 1) j hbig
  · exact C87_transform_vec4 b ⟨a.z⟩ hb (ha 2) j hbig
  · exact C87_transform_vec4 b ⟨a.w⟩ hb (ha 3) j hbig

/-- C87: `graphene_matrix_transform_point3d`: rotation/scale part and translation. -/
theorem C87_transform_point3d (m : M4 F32) (p : Point3D F32) (hm : FinMat m)
    (hx : p.x.isFin = true) (hy : p.y.isFin = true) (hz : p.z.isFin = true) (j : Fin 3)
    (hbig : |p.x.val * rmat m 0 j.castSucc| + |p.y.val * rmat m 1 j.castSucc|
      + |p.z.val * rmat m 2 j.castSucc| + |rmat m 3 j.castSucc| ≤ 2 ^ 126) :
    (![(GMatrix.transformPoint3D m p).x, (GMatrix.transformPoint3D m p).y,
        (GMatrix.transformPoint3D m p).z] j).isFin = true ∧
    |(![(GMatrix.transformPoint3D m p).x, (GMatrix.transformPoint3D m p).y,
        (GMatrix.transformPoint3D m p).z] j).val -
      (p.x.val * rmat m 0 j.castSucc + p.y.val * rmat m 1 j.castSucc
        + p.z.val * rmat m 2 j.castSucc + rmat m 3 j.castSucc)| ≤
      dotErr (|p.x.val * rmat m 0 j.castSucc| + |p.y.val * rmat m 1 j.castSucc|
        + |p.z.val * rmat m 2 j.castSucc| + |rmat m 3 j.castSucc|) := by
  have key : ∀ a b c d : F32, a.isFin = true → b.isFin = true → c.isFin = true → d.isFin = true →
      |p.x.val * a.val| + |p.y.val * b.val| + |p.z.val * c.val| + |d.val| ≤ 2 ^ 126 →
      (Fp.add (Fp.add (Fp.mul a p.x) (Fp.mul b p.y)) (Fp.add (Fp.mul c p.z) d)).isFin = true ∧
      |(Fp.add (Fp.add (Fp.mul a p.x) (Fp.mul b p.y)) (Fp.add (Fp.mul c p.z) d)).val -
        (p.x.val * a.val + p.y.val * b.val + p.z.val * c.val + d.val)| ≤
      dotErr (|p.x.val * a.val| + |p.y.val * b.val| + |p.z.val * c.val| + |d.val|) := by
    intro a b c d ha hb hc hd h
    rw [mul_comm p.x.val, mul_comm p.y.val, mul_comm p.z.val] at *
    have n1 := abs_nonneg (a.val * p.x.val)
    have n2 := abs_nonneg (b.val * p.y.val)
    have n3 := abs_nonneg (c.val * p.z.val)
    have n4 := abs_nonneg d.val
    have p1 := prod_approx ha hx (by linarith)
    have p2 := prod_approx hb hy (by linarith)
    have p3 := prod_approx hc hz (by linarith)
    have q1 := sum2_approx p1 p2 (by norm_num [-abs_mul] at h ⊢; linarith)
    have q2 := sum2_approx p3 (Approx.exact hd) (by norm_num [-abs_mul] at h ⊢; linarith)
    have q := sum2_approx q1 q2 (by norm_num [-abs_mul] at h ⊢; linarith)
    refine ⟨q.fin, ?_⟩
    have := q.err
    rw [← add_assoc] at this
    refine this.trans ?_
    unfold dotErr; norm_num [-abs_mul] at h ⊢; linarith
  fin_cases j
  · exact key _ _ _ _ (hm 0 0) (hm 1 0) (hm 2 0) (hm 3 0) hbig
  · exact key _ _ _ _ (hm 0 1) (hm 1 1) (hm 2 1) (hm 3 1) hbig
  · exact key _ _ _ _ (hm 0 2) (hm 1 2) (hm 2 2) (hm 3 2) hbig

/-- C87: `graphene_matrix_transform_vec3`: the rotation/scale part only. -/
theorem C87_transform_vec3 (m : M4 F32) (v : Vec3 F32) (hm : FinMat m)
    (hx : v.getX.isFin = true) (hy : v.getY.isFin = true) (hz : v.getZ.isFin = true) (j : Fin 3)
    (hbig : |v.getX.val * rmat m 0 j.castSucc| + |v.getY.val * rmat m 1 j.castSucc|
      + |v.getZ.val * rmat m 2 j.castSucc| ≤ 2 ^ 126) :
    (![(GMatrix.transformVec3 m v).getX, (GMatrix.transformVec3 m v).getY,
        (GMatrix.transformVec3 m v).getZ] j).isFin = true ∧
    |(![(GMatrix.transformVec3 m v).getX, (GMatrix.transformVec3 m v).getY,
        (GMatrix.transformVec3 m v).getZ] j).val -
      (v.getX.val * rmat m 0 j.castSucc + v.getY.val * rmat m 1 j.castSucc
        + v.getZ.val * rmat m 2 j.castSucc)| ≤
      dotErr (|v.getX.val * rmat m 0 j.castSucc| + |v.getY.val * rmat m 1 j.castSucc|
        + |v.getZ.val * rmat m 2 j.castSucc|) := by
  have key : ∀ a b c : F32, a.isFin = true → b.isFin = true → c.isFin = true →
      |v.getX.val * a.val| + |v.getY.val * b.val| + |v.getZ.val * c.val| ≤ 2 ^ 126 →
      (Fp.add (Fp.add (Fp.mul a v.getX) (Fp.mul b v.getY)) (Fp.mul c v.getZ)).isFin = true ∧
      |(Fp.add (Fp.add (Fp.mul a v.getX) (Fp.mul b v.getY)) (Fp.mul c v.getZ)).val -
        (v.getX.val * a.val + v.getY.val * b.val + v.getZ.val * c.val)| ≤
      dotErr (|v.getX.val * a.val| + |v.getY.val * b.val| + |v.getZ.val * c.val|) := by
    intro a b c ha hb hc h
    rw [mul_comm v.getX.val, mul_comm v.getY.val, mul_comm v.getZ.val] at *
    have n1 := abs_nonneg (a.val * v.getX.val)
    have n2 := abs_nonneg (b.val * v.getY.val)
    have n3 := abs_nonneg (c.val * v.getZ.val)
    have p1 := prod_approx ha hx (by linarith)
    have p2 := prod_approx hb hy (by linarith)
    have p3 := prod_approx hc hz (by linarith)
    have q1 := sum2_approx p1 p2 (by norm_num [-abs_mul] at h ⊢; linarith)
    have q := sum2_approx q1 p3 (by norm_num [-abs_mul] at h ⊢; linarith)
    refine ⟨q.fin, q.err.trans ?_⟩
    unfold dotErr; norm_num [-abs_mul] at h ⊢; linarith
  fin_cases j
  · exact key _ _ _ (hm 0 0) (hm 1 0) (hm 2 0) hbig
  · exact key _ _ _ (hm 0 1) (hm 1 1) (hm 2 1) hbig
  · exact key _ _ _ (hm 0 2) (hm 1 2) (hm 2 2) hbig

/-! ### C88: exact transformations -/

theorem is_f0 : Is (f0 : F32) 0 := by rw [f0_eq]; exact Is.zero_is
theorem is_f1 : Is (f1 : F32) 1 := by
  have := lit_int 1 (by decide); exact ⟨this.1, this.2.trans (by norm_num)⟩

theorem is_lane {a b c d p q r s : F32} {w x y z : ℝ}
    (h1 : Is (Fp.mul a p) w) (h2 : Is (Fp.mul b q) x) (h3 : Is (Fp.mul c r) y) (h4 : Is (Fp.mul d s) z)
    {o : ℝ} (h : (o = w ∧ x = 0 ∧ y = 0 ∧ z = 0) ∨ (w = 0 ∧ o = x ∧ y = 0 ∧ z = 0) ∨
      (w = 0 ∧ x = 0 ∧ o = y ∧ z = 0) ∨ (w = 0 ∧ x = 0 ∧ y = 0 ∧ o = z)) :
    Is (Fp.add (Fp.add (Fp.mul a p) (Fp.mul b q)) (Fp.add (Fp.mul c r) (Fp.mul d s))) o := by
  rcases h with ⟨rfl, rfl, rfl, rfl⟩ | ⟨rfl, rfl, rfl, rfl⟩ | ⟨rfl, rfl, rfl, rfl⟩ | ⟨rfl, rfl, rfl, rfl⟩
  · exact (h1.add_zero h2).add_zero (h3.add_zero h4)
  · exact (h1.zero_add h2).add_zero (h3.add_zero h4)
  · exact (h1.add_zero h2).zero_add (h3.add_zero h4)
  · exact (h1.add_zero h2).zero_add (h3.zero_add h4)


/-- C88: transforming a 4-vector by the identity changes no component. -/
theorem C88_identity_vec4 (v : Vec4 F32) (hv : FinVec v.value) (j : Fin 4) :
    Is (vec (GMatrix.transformVec4 GMatrix.initIdentity v).value j) (rvec v.value j) := by
  have s : ∀ j, Is (vec v.value j) (rvec v.value j) := fun j => Is.self (hv j)
  have z := is_f0
  have o := is_f1
  fin_cases j
  · exact is_lane (o.one_mul (s 0)) (z.zero_mul (s 1)) (z.zero_mul (s 2)) (z.zero_mul (s 3)) (.inl ⟨rfl, rfl, rfl, rfl⟩)
  · exact is_lane (z.zero_mul (s 0)) (o.one_mul (s 1)) (z.zero_mul (s 2)) (z.zero_mul (s 3)) (.inr (.inl ⟨rfl, rfl, rfl, rfl⟩))
  · exact is_lane (z.zero_mul (s 0)) (z.zero_mul (s 1)) (o.one_mul (s 2)) (z.zero_mul (s 3)) (.inr (.inr (.inl ⟨rfl, rfl, rfl, rfl⟩)))
  · exact is_lane (z.zero_mul (s 0)) (z.zero_mul (s 1)) (z.zero_mul (s 2)) (o.one_mul (s 3)) (.inr (.inr (.inr ⟨rfl, rfl, rfl, rfl⟩)))

/-- C88: multiplying by the identity on the right changes no entry (finite entries; a zero may
change its sign). -/
theorem C88_identity_right (m : M4 F32) (hm : FinMat m) (i j : Fin 4) :
    Is (mat (GMatrix.multiply m GMatrix.initIdentity) i j) (rmat m i j) := by
  fin_cases i
  · exact C88_identity_vec4 ⟨m.x⟩ (hm 0) j
  · exact C88_identity_vec4 ⟨m.y⟩ (hm 1) j
  · exact C88_identity_vec4 ⟨m.z⟩ (hm 2) j
  · exact C88_identity_vec4 ⟨m.w⟩ (hm 3) j

/-- C88: multiplying by the identity on the left changes no entry. -/
theorem C88_identity_left (m : M4 F32) (hm : FinMat m) (i j : Fin 4) :
    Is (mat (GMatrix.multiply GMatrix.initIdentity m) i j) (rmat m i j) := by
  have z := is_f0
  have o := is_f1
  have s : ∀ i j, Is (mat m i j) (rmat m i j) := fun i j => Is.self (hm i j)
  have r0 : ∀ {a b c d : F32} {w x y t : ℝ}, Is a w → Is b x → Is c y → Is d t →
      Is (Fp.add (Fp.add (Fp.mul a f1) (Fp.mul b f0)) (Fp.add (Fp.mul c f0) (Fp.mul d f0))) w :=
    fun ha hb hc hd => is_lane (ha.mul_one o) (hb.mul_zero z) (hc.mul_zero z) (hd.mul_zero z) (.inl ⟨rfl, rfl, rfl, rfl⟩)
  have r1 : ∀ {a b c d : F32} {w x y t : ℝ}, Is a w → Is b x → Is c y → Is d t →
      Is (Fp.add (Fp.add (Fp.mul a f0) (Fp.mul b f1)) (Fp.add (Fp.mul c f0) (Fp.mul d f0))) x :=
    fun ha hb hc hd => is_lane (ha.mul_zero z) (hb.mul_one o) (hc.mul_zero z) (hd.mul_zero z) (.inr (.inl ⟨rfl, rfl, rfl, rfl⟩))
  have r2 : ∀ {a b c d : F32} {w x y t : ℝ}, Is a w → Is b x → Is c y → Is d t →
      Is (Fp.add (Fp.add (Fp.mul a f0) (Fp.mul b f0)) (Fp.add (Fp.mul c f1) (Fp.mul d f0))) y :=
    fun ha hb hc hd => is_lane (ha.mul_zero z) (hb.mul_zero z) (hc.mul_one o) (hd.mul_zero z) (.inr (.inr (.inl ⟨rfl, rfl, rfl, rfl⟩)))
  have r3 : ∀ {a b c d : F32} {w x y t : ℝ}, Is a w → Is b x → Is c y → Is d t →
      Is (Fp.add (Fp.add (Fp.mul a f0) (Fp.mul b f0)) (Fp.add (Fp.mul c f0) (Fp.mul d f1))) t :=
    fun ha hb hc hd => is_lane (ha.mul_zero z) (hb.mul_zero z) (hc.mul_zero z) (hd.mul_one o) (.inr (.inr (.inr ⟨rfl, rfl, rfl, rfl⟩)))
  fin_cases i <;> fin_cases j
  · exact r0 (s 0 0) (s 1 0) (s 2 0) (s 3 0)
  · exact r0 (s 0 1) (s 1 1) (s 2 1) (s 3 1)
  · exact r0 (s 0 2) (s 1 2) (s 2 2) (s 3 2)
  · exact r0 (s 0 3) (s 1 3) (s 2 3) (s 3 3)
  · exact r1 (s 0 0) (s 1 0) (s 2 0) (s 3 0)
  · exact r1 (s 0 1) (s 1 1) (s 2 1) (s 3 1)
  · exact r1 (s 0 2) (s 1 2) (s 2 2) (s 3 2)
  · exact r1 (s 0 3) (s 1 3) (s 2 3) (s 3 3)
  · exact r2 (s 0 0) (s 1 0) (s 2 0) (s 3 0)
  · exact r2 (s 0 1) (s 1 1) (s 2 1) (s 3 1)
  · exact r2 (s 0 2) (s 1 2) (s 2 2) (s 3 2)
  · exact r2 (s 0 3) (s 1 3) (s 2 3) (s 3 3)
  · exact r3 (s 0 0) (s 1 0) (s 2 0) (s 3 0)
  · exact r3 (s 0 1) (s 1 1) (s 2 1) (s 3 1)
  · exact r3 (s 0 2) (s 1 2) (s 2 2) (s 3 2)
  · exact r3 (s 0 3) (s 1 3) (s 2 3) (s 3 3)

omit [Libm binary32] in
theorem feq_trans {a b c : F32} (h : Fp.feq a b = true) (k : Fp.feq b c = true) : Fp.feq a c = true := by
  rw [feq_iff] at *; exact ⟨h.1, k.2.1, h.2.2.trans k.2.2⟩
omit [Libm binary32] in
/-- adding a zero to anything that is not a NaN changes nothing -/
theorem add_zero_feq {a b : F32} (ha : a.isNaN = false) (hb : Is b 0) : Fp.feq (Fp.add a b) a = true := by
  cases hf : a.isFin
  · have hb' := hb.fin
    cases a <;> cases b <;> simp_all [Fp.isFin, Fp.isNaN, Fp.add, Fp.feq]
  · exact ((Is.self hf).add_zero hb).feq (Is.self hf)
omit [Libm binary32] in
theorem zero_add_feq {a b : F32} (ha : a.isNaN = false) (hb : Is b 0) : Fp.feq (Fp.add b a) a = true := by
  cases hf : a.isFin
  · have hb' := hb.fin
    cases a <;> cases b <;> simp_all [Fp.isFin, Fp.isNaN, Fp.add, Fp.feq]
  · exact (hb.zero_add (Is.self hf)).feq (Is.self hf)

/-- C88: a translation matrix moves a point by the translation: each coordinate is the correctly
rounded sum and nothing else. -/
theorem C88_translate_point3d (t p : Point3D F32) (htx : t.x.isFin = true) (hty : t.y.isFin = true)
    (htz : t.z.isFin = true) (hx : p.x.isFin = true) (hy : p.y.isFin = true) (hz : p.z.isFin = true) :
    Fp.feq (GMatrix.transformPoint3D (GMatrix.initTranslate t) p).x (Fp.add p.x t.x) = true ∧
    Fp.feq (GMatrix.transformPoint3D (GMatrix.initTranslate t) p).y (Fp.add p.y t.y) = true ∧
    Fp.feq (GMatrix.transformPoint3D (GMatrix.initTranslate t) p).z (Fp.add p.z t.z) = true := by
  have z := is_f0
  have o := is_f1
  refine ⟨?_, ?_, ?_⟩
  · have e1 := (o.one_mul (Is.self hx)).add_zero (z.zero_mul (Is.self hy))
    have e2 := (z.zero_mul (Is.self hz)).zero_add (Is.self htx)
    exact add_val_congr e1.fin e2.fin hx htx e1.val e2.val
  · have e1 := (z.zero_mul (Is.self hx)).zero_add (o.one_mul (Is.self hy))
    have e2 := (z.zero_mul (Is.self hz)).zero_add (Is.self hty)
    exact add_val_congr e1.fin e2.fin hy hty e1.val e2.val
  · have e1 := (z.zero_mul (Is.self hx)).zero_add (z.zero_mul (Is.self hy))
    have e := o.one_mul (Is.self hz)
    exact feq_trans (zero_add_feq (rnd_add e.fin htz).not_nan e1)
      (add_val_congr e.fin htz hz htz e.val rfl)

/-- C88: the same for 2D points; the z translation has no influence. -/
theorem C88_translate_point (t : Point3D F32) (p : Point F32) (htx : t.x.isFin = true) (hty : t.y.isFin = true)
    (hx : p.x.isFin = true) (hy : p.y.isFin = true) :
    Fp.feq (GMatrix.transformPoint (GMatrix.initTranslate t) p).x (Fp.add p.x t.x) = true ∧
    Fp.feq (GMatrix.transformPoint (GMatrix.initTranslate t) p).y (Fp.add p.y t.y) = true := by
  have z := is_f0
  have o := is_f1
  refine ⟨?_, ?_⟩
  · have e1 := (o.one_mul (Is.self hx)).add_zero (z.zero_mul (Is.self hy))
    have e2 := (z.zero_mul z).zero_add (Is.self htx)
    exact add_val_congr e1.fin e2.fin hx htx e1.val e2.val
  · have e1 := (z.zero_mul (Is.self hx)).zero_add (o.one_mul (Is.self hy))
    have e2 := (z.zero_mul z).zero_add (Is.self hty)
    exact add_val_congr e1.fin e2.fin hy hty e1.val e2.val

omit [Libm binary32] in
theorem mul_comm_feq {a b : F32} (ha : a.isFin = true) (hb : b.isFin = true) :
    Fp.feq (Fp.mul a b) (Fp.mul b a) = true := by
  have r := rnd_mul ha hb
  rw [_root_.mul_comm] at r
  exact r.feq (rnd_mul hb ha)

/-- C88: a scaling matrix scales a point: each coordinate is the correctly rounded product. -/
theorem C88_scale_point3d (sx sy sz : F32) (p : Point3D F32) (hsx : sx.isFin = true) (hsy : sy.isFin = true)
    (hsz : sz.isFin = true) (hx : p.x.isFin = true) (hy : p.y.isFin = true) (hz : p.z.isFin = true) :
    Fp.feq (GMatrix.transformPoint3D (GMatrix.initScale sx sy sz) p).x (Fp.mul p.x sx) = true ∧
    Fp.feq (GMatrix.transformPoint3D (GMatrix.initScale sx sy sz) p).y (Fp.mul p.y sy) = true ∧
    Fp.feq (GMatrix.transformPoint3D (GMatrix.initScale sx sy sz) p).z (Fp.mul p.z sz) = true := by
  have z := is_f0
  refine ⟨?_, ?_, ?_⟩
  · have n := (rnd_mul hsx hx).not_nan
    have e1 := add_zero_feq n (z.zero_mul (Is.self hy))
    have e2 := (z.zero_mul (Is.self hz)).zero_add z
    exact feq_trans (add_zero_feq (feq_iff.1 e1).1 e2) (feq_trans e1 (mul_comm_feq hsx hx))
  · have n := (rnd_mul hsy hy).not_nan
    have e1 := zero_add_feq n (z.zero_mul (Is.self hx))
    have e2 := (z.zero_mul (Is.self hz)).zero_add z
    exact feq_trans (add_zero_feq (feq_iff.1 e1).1 e2) (feq_trans e1 (mul_comm_feq hsy hy))
  · have n := (rnd_mul hsz hz).not_nan
    have e1 := add_zero_feq n z
    have e2 := (z.zero_mul (Is.self hx)).zero_add (z.zero_mul (Is.self hy))
    exact feq_trans (zero_add_feq (feq_iff.1 e1).1 e2) (feq_trans e1 (mul_comm_feq hsz hz))

/-- C88: a translation does not change a direction (a row whose last component is zero) -/
theorem C88_translate_dir (t : Point3D F32) (htx : t.x.isFin = true) (hty : t.y.isFin = true)
    (htz : t.z.isFin = true) (v : Vec4 F32) (hv : FinVec v.value) (hw : Is v.value.w 0) (j : Fin 4) :
    Is (vec (GMatrix.transformVec4 (GMatrix.initTranslate t) v).value j) (rvec v.value j) := by
  have z := is_f0
  have o := is_f1
  have s : ∀ j, Is (vec v.value j) (rvec v.value j) := fun j => Is.self (hv j)
  fin_cases j
  · exact is_lane (o.one_mul (s 0)) (z.zero_mul (s 1)) (z.zero_mul (s 2)) ((Is.self htx).mul_zero hw) (.inl ⟨rfl, rfl, rfl, rfl⟩)
  · exact is_lane (z.zero_mul (s 0)) (o.one_mul (s 1)) (z.zero_mul (s 2)) ((Is.self hty).mul_zero hw) (.inr (.inl ⟨rfl, rfl, rfl, rfl⟩))
  · exact is_lane (z.zero_mul (s 0)) (z.zero_mul (s 1)) (o.one_mul (s 2)) ((Is.self htz).mul_zero hw) (.inr (.inr (.inl ⟨rfl, rfl, rfl, rfl⟩)))
  · exact is_lane (z.zero_mul (s 0)) (z.zero_mul (s 1)) (z.zero_mul (s 2)) (o.one_mul (s 3)) (.inr (.inr (.inr ⟨rfl, rfl, rfl, rfl⟩)))

/-- C88: a translation moves a homogeneous point `(x, y, z, 1)` by the correctly rounded sum. -/
theorem C88_translate_vec4 (t : Point3D F32) (htx : t.x.isFin = true) (hty : t.y.isFin = true)
    (htz : t.z.isFin = true) (v : Vec4 F32) (hv : FinVec v.value) (hw : Is v.value.w 1) :
    Fp.feq (GMatrix.transformVec4 (GMatrix.initTranslate t) v).value.x (Fp.add v.value.x t.x) = true ∧
    Fp.feq (GMatrix.transformVec4 (GMatrix.initTranslate t) v).value.y (Fp.add v.value.y t.y) = true ∧
    Fp.feq (GMatrix.transformVec4 (GMatrix.initTranslate t) v).value.z (Fp.add v.value.z t.z) = true ∧
    Is (GMatrix.transformVec4 (GMatrix.initTranslate t) v).value.w 1 := by
  have z := is_f0
  have o := is_f1
  have hx := hv 0
  have hy := hv 1
  have hz := hv 2
  refine ⟨?_, ?_, ?_, ?_⟩
  · have e1 := (o.one_mul (Is.self hx)).add_zero (z.zero_mul (Is.self hy))
    have e2 := (z.zero_mul (Is.self hz)).zero_add ((Is.self htx).mul_one hw)
    exact add_val_congr e1.fin e2.fin hx htx e1.val e2.val
  · have e1 := (z.zero_mul (Is.self hx)).zero_add (o.one_mul (Is.self hy))
    have e2 := (z.zero_mul (Is.self hz)).zero_add ((Is.self hty).mul_one hw)
    exact add_val_congr e1.fin e2.fin hy hty e1.val e2.val
  · have e1 := (z.zero_mul (Is.self hx)).zero_add (z.zero_mul (Is.self hy))
    have e := o.one_mul (Is.self hz)
    have e2 := (Is.self htz).mul_one hw
    exact feq_trans (zero_add_feq (rnd_add e.fin e2.fin).not_nan e1)
      (add_val_congr e.fin e2.fin hz htz e.val e2.val)
  · exact is_lane (z.zero_mul (Is.self hx)) (z.zero_mul (Is.self hy)) (z.zero_mul (Is.self hz))
      (o.one_mul hw) (.inr (.inr (.inr ⟨rfl, rfl, rfl, rfl⟩)))

/-- C88: the product of two translations is the translation by the (correctly rounded) sum; every
other entry is exactly that of the identity. -/
theorem C88_translate_compose (s t : Point3D F32) (hsx : s.x.isFin = true) (hsy : s.y.isFin = true)
    (hsz : s.z.isFin = true) (htx : t.x.isFin = true) (hty : t.y.isFin = true) (htz : t.z.isFin = true)
    (i j : Fin 4) :
    Fp.feq (mat (GMatrix.multiply (GMatrix.initTranslate s) (GMatrix.initTranslate t)) i j)
      (mat (GMatrix.initTranslate ⟨Fp.add s.x t.x, Fp.add s.y t.y, Fp.add s.z t.z⟩) i j) = true := by
  have z := is_f0
  have o := is_f1
  have h0 : FinVec (GMatrix.initTranslate s).x := by
    intro j; fin_cases j
    · exact o.fin
    all_goals exact z.fin
  have h1 : FinVec (GMatrix.initTranslate s).y := by
    intro j; fin_cases j
    · exact z.fin
    · exact o.fin
    all_goals exact z.fin
  have h2 : FinVec (GMatrix.initTranslate s).z := by
    intro j; fin_cases j
    · exact z.fin
    · exact z.fin
    · exact o.fin
    · exact z.fin
  have h3 : FinVec (GMatrix.initTranslate s).w := by
    intro j; fin_cases j
    · exact hsx
    · exact hsy
    · exact hsz
    · exact o.fin
  have d := C88_translate_dir t htx hty htz
  fin_cases i
  · have e := d ⟨(GMatrix.initTranslate s).x⟩ h0 z j
    fin_cases j
    · exact (e.congr o.val).feq o
    · exact (e.congr z.val).feq z
    · exact (e.congr z.val).feq z
    · exact (e.congr z.val).feq z
  · have e := d ⟨(GMatrix.initTranslate s).y⟩ h1 z j
    fin_cases j
    · exact (e.congr z.val).feq z
    · exact (e.congr o.val).feq o
    · exact (e.congr z.val).feq z
    · exact (e.congr z.val).feq z
  · have e := d ⟨(GMatrix.initTranslate s).z⟩ h2 z j
    fin_cases j
    · exact (e.congr z.val).feq z
    · exact (e.congr z.val).feq z
    · exact (e.congr o.val).feq o
    · exact (e.congr z.val).feq z
  · obtain ⟨e0, e1, e2, e3⟩ := C88_translate_vec4 t htx hty htz ⟨(GMatrix.initTranslate s).w⟩ h3 o
    fin_cases j
    · exact e0
    · exact e1
    · exact e2
    · exact e3.feq o

/-- C88: directions (3-vectors) are not translated: the result is the vector itself, bit for bit up
to the sign of zeros. -/
theorem C88_translate_vec3 (t : Point3D F32) (v : Vec3 F32) (hx : v.getX.isFin = true)
    (hy : v.getY.isFin = true) (hz : v.getZ.isFin = true) :
    Fp.feq (GMatrix.transformVec3 (GMatrix.initTranslate t) v).getX v.getX = true ∧
    Fp.feq (GMatrix.transformVec3 (GMatrix.initTranslate t) v).getY v.getY = true ∧
    Fp.feq (GMatrix.transformVec3 (GMatrix.initTranslate t) v).getZ v.getZ = true := by
  have z := is_f0
  have o := is_f1
  have x := Is.self hx
  have y := Is.self hy
  have w := Is.self hz
  exact ⟨(((o.one_mul x).add_zero (z.zero_mul y)).add_zero (z.zero_mul w)).feq x,
    (((z.zero_mul x).zero_add (o.one_mul y)).add_zero (z.zero_mul w)).feq y,
    (((z.zero_mul x).zero_add (z.zero_mul y)).zero_add (o.one_mul w)).feq w⟩

/-- C88: the product of two scalings is the scaling by the (correctly rounded) products. -/
theorem C88_scale_compose (a b c p q r : F32) (ha : a.isFin = true) (hb : b.isFin = true)
    (hc : c.isFin = true) (hp : p.isFin = true) (hq : q.isFin = true) (hr : r.isFin = true) (i j : Fin 4) :
    Fp.feq (mat (GMatrix.multiply (GMatrix.initScale a b c) (GMatrix.initScale p q r)) i j)
      (mat (GMatrix.initScale (Fp.mul a p) (Fp.mul b q) (Fp.mul c r)) i j) = true := by
  have z := is_f0
  have o := is_f1
  have zz := z.zero_mul z
  have zz2 := zz.add_zero zz
  have key : ∀ {x y : F32}, x.isFin = true → y.isFin = true →
      (Fp.feq (Fp.add (Fp.add (Fp.mul y x) (Fp.mul f0 f0)) (Fp.add (Fp.mul f0 f0) (Fp.mul f0 f0))) (Fp.mul x y) = true ∧
      Fp.feq (Fp.add (Fp.add (Fp.mul f0 f0) (Fp.mul y x)) (Fp.add (Fp.mul f0 f0) (Fp.mul f0 f0))) (Fp.mul x y) = true ∧
      Fp.feq (Fp.add (Fp.add (Fp.mul f0 f0) (Fp.mul f0 f0)) (Fp.add (Fp.mul y x) (Fp.mul f0 f0))) (Fp.mul x y) = true) := by
    intro x y hx hy
    have n := (rnd_mul hy hx).not_nan
    have e1 := add_zero_feq n zz
    have e2 := zero_add_feq n zz
    exact ⟨feq_trans (add_zero_feq (feq_iff.1 e1).1 zz2) (feq_trans e1 (mul_comm_feq hy hx)),
      feq_trans (add_zero_feq (feq_iff.1 e2).1 zz2) (feq_trans e2 (mul_comm_feq hy hx)),
      feq_trans (zero_add_feq (feq_iff.1 e1).1 zz2) (feq_trans e1 (mul_comm_feq hy hx))⟩
  have l0 : ∀ {x y : F32}, x.isFin = true → y.isFin = true →
      (Is (Fp.add (Fp.add (Fp.mul f0 x) (Fp.mul y f0)) (Fp.add (Fp.mul f0 f0) (Fp.mul f0 f0))) 0 ∧
      Is (Fp.add (Fp.add (Fp.mul f0 x) (Fp.mul f0 f0)) (Fp.add (Fp.mul y f0) (Fp.mul f0 f0))) 0 ∧
      Is (Fp.add (Fp.add (Fp.mul y f0) (Fp.mul f0 x)) (Fp.add (Fp.mul f0 f0) (Fp.mul f0 f0))) 0 ∧
      Is (Fp.add (Fp.add (Fp.mul f0 f0) (Fp.mul f0 x)) (Fp.add (Fp.mul y f0) (Fp.mul f0 f0))) 0 ∧
      Is (Fp.add (Fp.add (Fp.mul y f0) (Fp.mul f0 f0)) (Fp.add (Fp.mul f0 x) (Fp.mul f0 f0))) 0 ∧
      Is (Fp.add (Fp.add (Fp.mul f0 f0) (Fp.mul y f0)) (Fp.add (Fp.mul f0 x) (Fp.mul f0 f0))) 0) := by
    intro x y hx hy
    have u := z.zero_mul (Is.self hx)
    have v := (Is.self hy).mul_zero z
    exact ⟨(u.add_zero v).add_zero zz2, (u.add_zero zz).add_zero (v.add_zero zz), (v.add_zero u).add_zero zz2,
      (zz.add_zero u).add_zero (v.add_zero zz), (v.add_zero zz).add_zero (u.add_zero zz),
      (zz.add_zero v).add_zero (u.add_zero zz)⟩
  have oz := o.mul_zero z
  have zo := z.mul_one o
  have pz := (Is.self hp).mul_zero z
  have qz := (Is.self hq).mul_zero z
  have rz := (Is.self hr).mul_zero z
  fin_cases i <;> fin_cases j
  · exact (key ha hp).1
  · exact ((l0 ha hq).1).feq z
  · exact ((l0 ha hr).2.1).feq z
  · exact (((z.zero_mul (Is.self ha)).add_zero zz).add_zero (zz.add_zero oz)).feq z
  · exact ((l0 hb hp).2.2.1).feq z
  · exact (key hb hq).2.1
  · exact ((l0 hb hr).2.2.2.1).feq z
  · exact ((zz.add_zero (z.zero_mul (Is.self hb))).add_zero (zz.add_zero oz)).feq z
  · exact ((l0 hc hp).2.2.2.2.1).feq z
  · exact ((l0 hc hq).2.2.2.2.2).feq z
  · exact (key hc hr).2.2
  · exact ((zz.add_zero zz).add_zero ((z.zero_mul (Is.self hc)).add_zero oz)).feq z
  · exact ((pz.add_zero zz).add_zero (zz.add_zero (z.zero_mul o))).feq z
  · exact ((zz.add_zero qz).add_zero (zz.add_zero (z.zero_mul o))).feq z
  · exact (zz2.add_zero (rz.add_zero (z.zero_mul o))).feq z
  · exact (zz2.zero_add (zz.zero_add (o.mul_one o))).feq o

/-- the hypotheses hold for concrete data: translating `(1/3, 2, 3)` by `(1/10, 0, -3)` rounds. -/
example : let t : Point3D F32 := ⟨Fp.lit 1 10, Fp.lit 0 1, Fp.lit (-3) 1⟩
    let p : Point3D F32 := ⟨Fp.lit 1 3, Fp.lit 2 1, Fp.lit 3 1⟩
    t.x.isFin = true ∧ t.y.isFin = true ∧ t.z.isFin = true ∧ p.x.isFin = true ∧ p.y.isFin = true ∧
      p.z.isFin = true ∧ FinMat (GMatrix.initTranslate t) := by
  refine ⟨by kdecide, by kdecide, by kdecide, by kdecide, by kdecide, by kdecide, ?_⟩
  intro i j
  fin_cases i <;> fin_cases j <;> kdecide

/-- the hypotheses of `C87_multiply` hold for concrete data: a translation times a scaling. -/
example : let a : M4 F32 := GMatrix.initTranslate ⟨Fp.lit 1 1, Fp.lit 2 1, Fp.lit 3 1⟩
    let b : M4 F32 := GMatrix.initScale (Fp.lit 5 1) (Fp.lit 6 1) (Fp.lit 7 1)
    FinMat a ∧ FinMat b ∧ ∑ k, |rmat a 3 k * rmat b k 1| ≤ 2 ^ 126 := by
  refine ⟨?_, ?_, ?_⟩
  · intro i j; fin_cases i <;> fin_cases j <;> kdecide
  · intro i j; fin_cases i <;> fin_cases j <;> kdecide
  · have z := is_f0.val
    have h2 := (lit_int 2 (by decide)).2
    have h6 := (lit_int 6 (by decide)).2
    rw [Fin.sum_univ_four]
    change |(Fp.lit 1 1 : F32).val * Fp.val f0| + |(Fp.lit 2 1 : F32).val * (Fp.lit 6 1 : F32).val|
      + |(Fp.lit 3 1 : F32).val * Fp.val f0| + |Fp.val f1 * Fp.val f0| ≤ 2 ^ 126
    rw [z, h2, h6]; norm_num

end Graphene

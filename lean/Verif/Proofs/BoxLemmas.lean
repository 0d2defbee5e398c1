/- Helper lemmas about boxes over IEEE binary32. -/
import Verif.Spec.Box
import Verif.Props.Simd

namespace Graphene
open Spec Simd4f
variable [Libm binary32]

theorem isPosInf_iff (v : F32) : Box2d.isPosInf v = true ↔ v = .inf false := by
  cases v with
  | nan => simp [Box2d.isPosInf, Fp.isInf]
  | inf s => cases s <;> simp [Box2d.isPosInf, Fp.isInf, Scalar.signbit, Fp.signbit]
  | fin => simp [Box2d.isPosInf, Fp.isInf]
theorem isNegInf_iff (v : F32) : Box2d.isNegInf v = true ↔ v = .inf true := by
  cases v with
  | nan => simp [Box2d.isNegInf, Fp.isInf]
  | inf s => cases s <;> simp [Box2d.isNegInf, Fp.isInf, Scalar.signbit, Fp.signbit]
  | fin => simp [Box2d.isNegInf, Fp.isInf]

theorem isEmpty_iff (b : Box F32) : b.isEmpty = true ↔ IsEmptyBox b := by
  simp only [Box.isEmpty, Bool.and_eq_true, isPosInf_iff, isNegInf_iff, IsEmptyBox]; tauto
theorem isInfinity_iff (b : Box F32) : b.isInfinity = true ↔ IsInfiniteBox b := by
  simp only [Box.isInfinity, Bool.and_eq_true, isPosInf_iff, isNegInf_iff, IsInfiniteBox]; tauto
theorem isEmpty2_iff (b : Box2d F32) : b.isEmpty = true ↔ IsEmptyBox2 b := by
  simp only [Box2d.isEmpty, Bool.and_eq_true, isPosInf_iff, isNegInf_iff, IsEmptyBox2,
    Box2d.minV, Box2d.maxV, mergeLow, mergeHigh]; tauto
theorem isInfinity2_iff (b : Box2d F32) : b.isInfinity = true ↔ IsInfiniteBox2 b := by
  simp only [Box2d.isInfinity, Bool.and_eq_true, isPosInf_iff, isNegInf_iff, IsInfiniteBox2,
    Box2d.minV, Box2d.maxV, mergeLow, mergeHigh]; tauto

omit [Libm binary32] in
theorem not_mem_empty {b : Box F32} (h : IsEmptyBox b) (p : Point3D F32) : p ∉ boxPts b := by
  rintro ⟨⟨h1, h2⟩, -⟩
  rw [h.1] at h1
  rw [h.2.2.2.1] at h2
  have := Fp.le_trans h1 h2
  rw [Fp.le_iff] at this
  have h0 : (0 : Int) < 2 ^ binary32.top := by positivity
  have h3 := this.2.2
  simp only [Fp.key, Fp.sgn, if_true, Bool.false_eq_true, if_false] at h3
  push_cast at h3; omega
omit [Libm binary32] in
theorem not_mem_empty2 {b : Box2d F32} (h : IsEmptyBox2 b) (p : Point F32) : p ∉ box2Pts b := by
  rintro ⟨⟨h1, h2⟩, -⟩
  rw [h.1] at h1
  rw [h.2.2.1] at h2
  have := Fp.le_trans h1 h2
  rw [Fp.le_iff] at this
  have h0 : (0 : Int) < 2 ^ binary32.top := by positivity
  have h3 := this.2.2
  simp only [Fp.key, Fp.sgn, if_true, Bool.false_eq_true, if_false] at h3
  push_cast at h3; omega
omit [Libm binary32] in
theorem mem_infinite {b : Box F32} (h : IsInfiniteBox b) {p : Point3D F32} (hp : NoNaN3 p) :
    p ∈ boxPts b := by
  obtain ⟨h1, h2, h3, h4, h5, h6⟩ := h
  simp only [boxPts, Set.mem_setOf_eq, h1, h2, h3, h4, h5, h6]
  exact ⟨⟨Fp.negInf_le hp.1, Fp.le_posInf hp.1⟩, ⟨Fp.negInf_le hp.2.1, Fp.le_posInf hp.2.1⟩,
    ⟨Fp.negInf_le hp.2.2, Fp.le_posInf hp.2.2⟩⟩
omit [Libm binary32] in
theorem mem_infinite2 {b : Box2d F32} (h : IsInfiniteBox2 b) {p : Point F32} (hp : NoNaN2 p) :
    p ∈ box2Pts b := by
  obtain ⟨h1, h2, h3, h4⟩ := h
  simp only [box2Pts, Set.mem_setOf_eq, h1, h2, h3, h4]
  exact ⟨⟨Fp.negInf_le hp.1, Fp.le_posInf hp.1⟩, ⟨Fp.negInf_le hp.2, Fp.le_posInf hp.2⟩⟩

omit [Libm binary32] in
theorem zero_le_zero : (Fp.zero false : F32).le (Fp.zero false) = true := Fp.le_refl rfl

omit [Libm binary32] in
theorem Spec.Plain.usable {b : Box F32} (h : Plain b) : Usable b := by
  unfold Usable; rw [h.1, h.2]; exact ⟨zero_le_zero, zero_le_zero⟩

/-- membership test = membership in the point set -/
theorem contains_iff {b : Box F32} (hu : Usable b) {p : Point3D F32} (hp : NoNaN3 p) :
    b.containsPoint p = true ↔ p ∈ boxPts b := by
  unfold Box.containsPoint
  by_cases he : b.isEmpty = true
  · simp only [he, if_true, Bool.false_eq_true, false_iff]
    exact not_mem_empty ((isEmpty_iff b).1 he) p
  by_cases hi : b.isInfinity = true
  · simp only [he, hi, if_true, Bool.false_eq_true, if_false, true_iff]
    exact mem_infinite ((isInfinity_iff b).1 hi) hp
  simp only [he, hi, Bool.false_eq_true, if_false, cmpGe, cmpLe, Simd4f.init, Bool.and_eq_true,
    boxPts, Set.mem_setOf_eq, Fp.f0_eq, Fp.sc_le, hu.1, hu.2]
  tauto
theorem contains2_iff (b : Box2d F32) {p : Point F32} (hp : NoNaN2 p) :
    b.containsPoint p = true ↔ p ∈ box2Pts b := by
  unfold Box2d.containsPoint
  by_cases he : b.isEmpty = true
  · simp only [he, if_true, Bool.false_eq_true, false_iff]
    exact not_mem_empty2 ((isEmpty2_iff b).1 he) p
  by_cases hi : b.isInfinity = true
  · simp only [he, hi, if_true, Bool.false_eq_true, if_false, true_iff]
    exact mem_infinite2 ((isInfinity2_iff b).1 hi) hp
  simp only [he, hi, Bool.false_eq_true, if_false, cmpGe, cmpLe, Simd4f.init, Bool.and_eq_true,
    box2Pts, Set.mem_setOf_eq, Fp.f0_eq, Fp.sc_le, Box2d.minV, Box2d.maxV, mergeLow, mergeHigh,
    initZero, splat, zero_le_zero, and_true]
  tauto

/-! ### one lane -/

theorem min1_nn (bk : Backend) {a b : F32} (ha : a.isNaN = false) (hb : b.isNaN = false) :
    (min1 bk a b).isNaN = false := by
  rcases (min1_spec bk ha hb).1 with e | e <;> rw [e] <;> assumption
theorem max1_nn (bk : Backend) {a b : F32} (ha : a.isNaN = false) (hb : b.isNaN = false) :
    (max1 bk a b).isNaN = false := by
  rcases (max1_spec bk ha hb).1 with e | e <;> rw [e] <;> assumption

theorem le_min1 (bk : Backend) {a b c : F32} (ha : a.isNaN = false) (hb : b.isNaN = false) :
    c.le (min1 bk a b) = true ↔ c.le a = true ∧ c.le b = true := by
  obtain ⟨h1, h2, h3⟩ := min1_spec bk ha hb
  constructor
  · intro h; exact ⟨Fp.le_trans h h2, Fp.le_trans h h3⟩
  · rintro ⟨p, q⟩; rcases h1 with e | e <;> rw [e] <;> assumption
theorem max1_le (bk : Backend) {a b c : F32} (ha : a.isNaN = false) (hb : b.isNaN = false) :
    (max1 bk a b).le c = true ↔ a.le c = true ∧ b.le c = true := by
  obtain ⟨h1, h2, h3⟩ := max1_spec bk ha hb
  constructor
  · intro h; exact ⟨Fp.le_trans h2 h, Fp.le_trans h3 h⟩
  · rintro ⟨p, q⟩; rcases h1 with e | e <;> rw [e] <;> assumption

theorem posInf_lt (x : F32) : (Fp.inf false : F32).lt x = false := by
  by_cases h : x.isNaN = true
  · rw [Fp.isNaN_iff] at h; subst h; rfl
  · exact Fp.not_lt_of_le (Fp.le_posInf (by simpa using h))
theorem lt_negInf (x : F32) : x.lt (Fp.inf true : F32) = false := by
  by_cases h : x.isNaN = true
  · rw [Fp.isNaN_iff] at h; subst h; rfl
  · exact Fp.not_lt_of_le (Fp.negInf_le (by simpa using h))

/-- `min (+∞, x)` is `x`, bit for bit -/
theorem min1_posInf (bk : Backend) (x : F32) : min1 bk (.inf false) x = x := by
  have h := posInf_lt x
  cases bk with
  | neon =>
    by_cases hn : x.isNaN = true
    · simp [min1, hn]
    · have e : (Fp.inf false : F32).feq f0 = false := by rw [Fp.f0_eq]; rfl
      simp [min1, hn, cMin, h, e]
  | _ => simp [min1, cMin, h]
theorem max1_negInf (bk : Backend) (x : F32) : max1 bk (.inf true) x = x := by
  have h := lt_negInf x
  cases bk with
  | neon =>
    by_cases hn : x.isNaN = true
    · simp [max1, hn]
    · have e : (Fp.inf true : F32).feq f0 = false := by rw [Fp.f0_eq]; rfl
      simp [max1, hn, cMax, h, e]
  | _ => simp [max1, cMax, h]
theorem min1_posInf_right (bk : Backend) {x : F32} (hx : x.isNaN = false) : min1 bk x (.inf false) = x := by
  rcases (min1_spec bk hx (b := .inf false) rfl).1 with e | e
  · exact e
  · have h := (min1_spec bk hx (b := .inf false) rfl).2.1
    rw [e] at h ⊢
    have h0 : (0 : Int) < 2 ^ binary32.top := by positivity
    apply Fp.eq_of_key rfl hx
    · exact le_antisymm (Fp.le_iff.1 h).2.2 (Fp.le_iff.1 (Fp.le_posInf hx)).2.2
    · simp only [Fp.key, Fp.sgn, Bool.false_eq_true, if_false]; push_cast; omega
theorem max1_negInf_right (bk : Backend) {x : F32} (hx : x.isNaN = false) : max1 bk x (.inf true) = x := by
  rcases (max1_spec bk hx (b := .inf true) rfl).1 with e | e
  · exact e
  · have h := (max1_spec bk hx (b := .inf true) rfl).2.1
    rw [e] at h ⊢
    have h0 : (0 : Int) < 2 ^ binary32.top := by positivity
    apply Fp.eq_of_key rfl hx
    · exact le_antisymm (Fp.le_iff.1 (Fp.negInf_le hx)).2.2 (Fp.le_iff.1 h).2.2
    · simp only [Fp.key, Fp.sgn, if_true]; push_cast; omega
theorem min1_zero (bk : Backend) : min1 bk (Fp.zero false : F32) (Fp.zero false) = Fp.zero false := by
  rcases (min1_spec bk (a := Fp.zero false) (b := Fp.zero false) rfl rfl).1 with e | e <;> exact e
theorem max1_zero (bk : Backend) : max1 bk (Fp.zero false : F32) (Fp.zero false) = Fp.zero false := by
  rcases (max1_spec bk (a := Fp.zero false) (b := Fp.zero false) rfl rfl).1 with e | e <;> exact e

theorem foldl_min1 (bk : Backend) (l : List F32) (a : F32) (ha : a.isNaN = false)
    (hl : ∀ x ∈ l, x.isNaN = false) : IsLeast (l.foldl (min1 bk) a) (a :: l) := by
  induction l generalizing a with
  | nil => exact ⟨by simp, by simpa using Fp.le_refl ha⟩
  | cons b l ih =>
    have hb := hl b (by simp)
    obtain ⟨i1, i2⟩ := ih (min1 bk a b) (min1_nn bk ha hb) (fun x hx => hl x (by simp [hx]))
    obtain ⟨m1, m2, m3⟩ := min1_spec bk ha hb
    have i0 := i2 _ (List.mem_cons_self ..)
    refine ⟨?_, ?_⟩
    · rw [List.foldl_cons]
      rcases List.mem_cons.1 i1 with e | e
      · rw [e]; rcases m1 with e' | e' <;> rw [e'] <;> simp
      · simp [e]
    · intro x hx
      rw [List.foldl_cons]
      simp only [List.mem_cons] at hx
      rcases hx with rfl | rfl | hx
      · exact Fp.le_trans i0 m2
      · exact Fp.le_trans i0 m3
      · exact i2 x (by simp [hx])
theorem foldl_max1 (bk : Backend) (l : List F32) (a : F32) (ha : a.isNaN = false)
    (hl : ∀ x ∈ l, x.isNaN = false) : IsGreatest (l.foldl (max1 bk) a) (a :: l) := by
  induction l generalizing a with
  | nil => exact ⟨by simp, by simpa using Fp.le_refl ha⟩
  | cons b l ih =>
    have hb := hl b (by simp)
    obtain ⟨i1, i2⟩ := ih (max1 bk a b) (max1_nn bk ha hb) (fun x hx => hl x (by simp [hx]))
    obtain ⟨m1, m2, m3⟩ := max1_spec bk ha hb
    have i0 := i2 _ (List.mem_cons_self ..)
    refine ⟨?_, ?_⟩
    · rw [List.foldl_cons]
      rcases List.mem_cons.1 i1 with e | e
      · rw [e]; rcases m1 with e' | e' <;> rw [e'] <;> simp
      · simp [e]
    · intro x hx
      rw [List.foldl_cons]
      simp only [List.mem_cons] at hx
      rcases hx with rfl | rfl | hx
      · exact Fp.le_trans m2 i0
      · exact Fp.le_trans m3 i0
      · exact i2 x (by simp [hx])

theorem foldl_min1_inf (bk : Backend) {l : List F32} (hne : l ≠ [])
    (hl : ∀ x ∈ l, x.isNaN = false) : IsLeast (l.foldl (min1 bk) (.inf false)) l := by
  cases l with
  | nil => exact absurd rfl hne
  | cons a l =>
    rw [List.foldl_cons, min1_posInf]
    exact foldl_min1 bk l a (hl a (by simp)) (fun x hx => hl x (by simp [hx]))
theorem foldl_max1_inf (bk : Backend) {l : List F32} (hne : l ≠ [])
    (hl : ∀ x ∈ l, x.isNaN = false) : IsGreatest (l.foldl (max1 bk) (.inf true)) l := by
  cases l with
  | nil => exact absurd rfl hne
  | cons a l =>
    rw [List.foldl_cons, max1_negInf]
    exact foldl_max1 bk l a (hl a (by simp)) (fun x hx => hl x (by simp [hx]))

/-! ### folds over points, lane by lane -/

theorem fold_vectors_lanes (bk : Backend) (l : List (Vec3 F32)) (b : Box F32) :
    let r := l.foldl (Box.expandVec3 bk) b
    r.min.value.x = (l.map (·.value.x)).foldl (min1 bk) b.min.value.x ∧
    r.min.value.y = (l.map (·.value.y)).foldl (min1 bk) b.min.value.y ∧
    r.min.value.z = (l.map (·.value.z)).foldl (min1 bk) b.min.value.z ∧
    r.min.value.w = (l.map (·.value.w)).foldl (min1 bk) b.min.value.w ∧
    r.max.value.x = (l.map (·.value.x)).foldl (max1 bk) b.max.value.x ∧
    r.max.value.y = (l.map (·.value.y)).foldl (max1 bk) b.max.value.y ∧
    r.max.value.z = (l.map (·.value.z)).foldl (max1 bk) b.max.value.z ∧
    r.max.value.w = (l.map (·.value.w)).foldl (max1 bk) b.max.value.w := by
  induction l generalizing b with
  | nil => simp
  | cons v l ih => exact ih (Box.expandVec3 bk b v)

theorem initFromPoints_eq (bk : Backend) (l : List (Point3D F32)) :
    Box.initFromPoints bk l = Box.initFromVectors bk (l.map Point3D.toVec3) := by
  simp only [Box.initFromPoints, Box.initFromVectors, List.foldl_map]

theorem fold2_lanes (bk : Backend) (l : List (Vec2 F32)) (b : Box2d F32) :
    let r := l.foldl (Box2d.expandVec2 bk) b
    r.minmax.x = (l.map (·.value.x)).foldl (min1 bk) b.minmax.x ∧
    r.minmax.y = (l.map (·.value.y)).foldl (min1 bk) b.minmax.y ∧
    r.minmax.z = (l.map (·.value.x)).foldl (max1 bk) b.minmax.z ∧
    r.minmax.w = (l.map (·.value.y)).foldl (max1 bk) b.minmax.w := by
  induction l generalizing b with
  | nil => simp
  | cons v l ih => exact ih (Box2d.expandVec2 bk b v)

theorem initFromPoints2_eq (bk : Backend) (l : List (Point F32)) :
    Box2d.initFromPoints bk l = Box2d.initFromVectors bk (l.map Point.toVec2) := by
  simp only [Box2d.initFromPoints, Box2d.initFromVectors, List.foldl_map]

end Graphene

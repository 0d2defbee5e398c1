/-
  C138: undoing 2D transformations of rectangles on the pixel grid, in floating point (IEEE binary32).
-/
import Verif.Props.Float14
import Verif.Props.Float16

set_option exponentiation.threshold 3000

namespace Graphene
open Fp Spec
variable [Libm binary32] {A T N : Nat}

/-- a 2D matrix of whole numbers that maps the pixel grid onto itself: the linear part has determinant 1 or -1 -/
def Spec.PixelMap (A T : Nat) (m : M4 F32) (a b c d x y : ℤ) : Prop :=
  FinMat m ∧ rmat m = !![(a : ℝ), b, 0, 0; c, d, 0, 0; 0, 0, 1, 0; x, y, 0, 1] ∧
  (∀ n ∈ [a, b, c, d], n.natAbs ≤ A) ∧ (∀ n ∈ [x, y], n.natAbs ≤ T) ∧ (a * d - b * c = 1 ∨ a * d - b * c = -1)

/-- the bounds of the entries of such a matrix -/
def pixW (A T : Nat) : M4 Nat := ⟨⟨A, A, 0, 0⟩, ⟨A, A, 0, 0⟩, ⟨0, 0, 1, 0⟩, ⟨T, T, 0, 1⟩⟩

omit [Libm binary32] in
theorem pix_minors (hA : 1 ≤ A) (h : 4 * (A * T) + 4 * (A * A) ≤ 2 ^ 24) : SmallMinors (pixW A T) := by
  have h1 : A ≤ A * A := Nat.le_mul_of_pos_left _ hA
  have h2 : T ≤ A * T := Nat.le_mul_of_pos_left _ hA
  have e1 : T * A = A * T := Nat.mul_comm _ _
  refine ⟨?_, ?_, ?_⟩
  · intro c d _
    fin_cases c <;> fin_cases d <;> simp [abs2, pixW, vec, e1] <;> omega
  · intro c d e h1 h2 h3
    fin_cases c <;> fin_cases d <;> fin_cases e <;> simp [abs3, abs2, pixW, vec, e1] at h1 h2 h3 ⊢ <;> first | omega | (ring_nf; ring_nf at h; omega)
  · simp [abs4, abs3, abs2, pixW, vec]; omega

omit [Libm binary32] in
theorem Spec.PixelMap.entries {m : M4 F32} {a b c d x y : ℤ} (h : PixelMap A T m a b c d x y) : GridEntries 0 (pixW A T) m := by
  obtain ⟨hf, hm, hl, ht, -⟩ := h
  simp only [List.mem_cons, List.not_mem_nil, or_false, forall_eq_or_imp, forall_eq] at hl ht
  have g : ∀ i j (n : ℤ), rmat m i j = n → n.natAbs ≤ mat (pixW A T) i j → Grid 0 (mat (pixW A T) i j) (mat m i j) := by
    intro i j n e hn
    exact ⟨hf i j, n, hn, by rw [pow_zero, div_one]; exact e⟩
  intro i j
  fin_cases i <;> fin_cases j
  · exact g 0 0 a (by rw [hm]; rfl) hl.1
  · exact g 0 1 b (by rw [hm]; rfl) hl.2.1
  · exact g 0 2 0 (by rw [hm]; simp) (by simp)
  · exact g 0 3 0 (by rw [hm]; simp) (by simp)
  · exact g 1 0 c (by rw [hm]; rfl) hl.2.2.1
  · exact g 1 1 d (by rw [hm]; rfl) hl.2.2.2
  · exact g 1 2 0 (by rw [hm]; simp) (by simp)
  · exact g 1 3 0 (by rw [hm]; simp) (by simp)
  · exact g 2 0 0 (by rw [hm]; simp) (by simp)
  · exact g 2 1 0 (by rw [hm]; simp) (by simp)
  · exact g 2 2 1 (by rw [hm]; simp) (by simp [pixW, mat, vec])
  · exact g 2 3 0 (by rw [hm]; simp) (by simp)
  · exact g 3 0 x (by rw [hm]; rfl) ht.1
  · exact g 3 1 y (by rw [hm]; rfl) ht.2
  · exact g 3 2 0 (by rw [hm]; simp) (by simp)
  · exact g 3 3 1 (by rw [hm]; simp) (by simp [pixW, mat, vec])

omit [Libm binary32] in
theorem Spec.PixelMap.det {m : M4 F32} {a b c d x y : ℤ} (h : PixelMap A T m a b c d x y) :
    (rmat m).det = ((a * d - b * c : ℤ) : ℝ) := by
  rw [h.2.1]
  simp [Matrix.det_succ_row_zero, Fin.sum_univ_succ, Fin.succAbove, Matrix.submatrix]
  ring

omit [Libm binary32] in
theorem Spec.PixelMap.inv {m : M4 F32} {a b c d x y : ℤ} (h : PixelMap A T m a b c d x y) (s : ℤ) (hs : s = a * d - b * c) :
    (rmat m)⁻¹ = !![((s * d : ℤ) : ℝ), ((-(s * b) : ℤ) : ℝ), 0, 0; ((-(s * c) : ℤ) : ℝ), ((s * a : ℤ) : ℝ), 0, 0; 0, 0, 1, 0;
      ((s * (c * y - d * x) : ℤ) : ℝ), ((s * (b * x - a * y) : ℤ) : ℝ), 0, 1] := by
  have e : ((s : ℝ)) * (a * d - b * c) = 1 := by
    rcases h.2.2.2.2 with g | g
    · have : (a : ℝ) * d - b * c = 1 := by exact_mod_cast g
      rw [this, hs, g]; norm_num
    · have : (a : ℝ) * d - b * c = -1 := by exact_mod_cast g
      rw [this, hs, g]; norm_num
  rw [h.2.1]
  apply Matrix.inv_eq_right_inv
  ext i j
  fin_cases i <;> fin_cases j <;> simp [Matrix.mul_apply, Fin.sum_univ_succ] <;> first | linear_combination e | ring

/-- the inverse of such a matrix is computed exactly, and is such a matrix -/
theorem Spec.PixelMap.inverse (bk : Backend) (hb : bk ≠ .neon) {m : M4 F32} {a b c d x y : ℤ} (h : PixelMap A T m a b c d x y)
    (hA : 1 ≤ A) (h24 : 4 * (A * T) + 4 * (A * A) ≤ 2 ^ 24) :
    ∃ r, GMatrix.inverse bk m = some r ∧ GridAffine 0 0 A (2 * (A * T)) r ∧
      (∀ p q : Point ℝ, moved r q = p ↔ moved m p = q) := by
  have hd := h.det
  have d1 : |(rmat m).det| = 2 ^ (0 : ℤ) := by
    rw [hd, zpow_zero]
    rcases h.2.2.2.2 with g | g <;> rw [g] <;> simp
  obtain ⟨r, hr, fr, er⟩ := C103_inverse_exact bk hb (k := 0) (by omega) m h.entries (pix_minors hA h24) 0 d1 (by norm_num)
  obtain ⟨s, hs⟩ : ∃ s : ℤ, s = a * d - b * c := ⟨_, rfl⟩
  have hi := h.inv s hs
  rw [← er] at hi
  have s1 : s.natAbs = 1 := by rcases h.2.2.2.2 with g | g <;> rw [hs, g] <;> rfl
  obtain ⟨hf, hm, hl, ht, hdet⟩ := h
  simp only [List.mem_cons, List.not_mem_nil, or_false, forall_eq_or_imp, forall_eq] at hl ht
  have g : ∀ i j (n : ℤ) (N : Nat), rmat r i j = n → n.natAbs ≤ N → Grid 0 N (mat r i j) := by
    intro i j n N e hn
    exact ⟨fr i j, n, hn, by rw [pow_zero, div_one]; exact e⟩
  have sb : ∀ n : ℤ, (s * n).natAbs = n.natAbs := fun n => by rw [Int.natAbs_mul, s1, Nat.one_mul]
  have tb : ∀ p q u v : ℤ, p.natAbs ≤ A → q.natAbs ≤ A → u.natAbs ≤ T → v.natAbs ≤ T → (p * u - q * v).natAbs ≤ 2 * (A * T) := by
    intro p q u v hp hq hu hv
    refine (Int.natAbs_sub_le _ _).trans ?_
    rw [Int.natAbs_mul, Int.natAbs_mul, Nat.two_mul]
    exact Nat.add_le_add (Nat.mul_le_mul hp hu) (Nat.mul_le_mul hq hv)
  refine ⟨r, hr, ⟨⟨g 0 0 (s * d) A (by rw [hi]; rfl) (by rw [sb]; exact hl.2.2.2), g 0 1 (-(s * b)) A (by rw [hi]; rfl) (by rw [Int.natAbs_neg, sb]; exact hl.2.1),
    g 1 0 (-(s * c)) A (by rw [hi]; rfl) (by rw [Int.natAbs_neg, sb]; exact hl.2.2.1), g 1 1 (s * a) A (by rw [hi]; rfl) (by rw [sb]; exact hl.1)⟩,
    ⟨g 3 0 (s * (c * y - d * x)) _ (by rw [hi]; rfl) (by rw [sb]; exact tb _ _ _ _ hl.2.2.1 hl.2.2.2 ht.2 ht.1),
     g 3 1 (s * (b * x - a * y)) _ (by rw [hi]; rfl) (by rw [sb]; exact tb _ _ _ _ hl.2.1 hl.1 ht.1 ht.2)⟩, fr 2 0, fr 2 1⟩, ?_⟩
  have e : ((s : ℝ)) * (a * d - b * c) = 1 := by
    rcases hdet with g | g
    · have : (a : ℝ) * d - b * c = 1 := by exact_mod_cast g
      rw [this, hs, g]; norm_num
    · have : (a : ℝ) * d - b * c = -1 := by exact_mod_cast g
      rw [this, hs, g]; norm_num
  have v : ∀ i j, (mat r i j).val = rmat r i j := fun _ _ => rfl
  have w : ∀ i j, (mat m i j).val = rmat m i j := fun _ _ => rfl
  have m1 : ∀ q : Point ℝ, moved r q = ⟨q.x * (s * d) + q.y * (-(s * c)) + s * (c * y - d * x),
      q.x * (-(s * b)) + q.y * (s * a) + s * (b * x - a * y)⟩ := by
    intro q
    have v1 : r.x.x.val = s * d := by rw [show r.x.x.val = rmat r 0 0 from rfl, hi]; push_cast; rfl
    have v2 : r.x.y.val = -(s * b) := by rw [show r.x.y.val = rmat r 0 1 from rfl, hi]; push_cast; rfl
    have v3 : r.y.x.val = -(s * c) := by rw [show r.y.x.val = rmat r 1 0 from rfl, hi]; push_cast; rfl
    have v4 : r.y.y.val = s * a := by rw [show r.y.y.val = rmat r 1 1 from rfl, hi]; push_cast; rfl
    have v5 : r.w.x.val = s * (c * y - d * x) := by rw [show r.w.x.val = rmat r 3 0 from rfl, hi]; push_cast; rfl
    have v6 : r.w.y.val = s * (b * x - a * y) := by rw [show r.w.y.val = rmat r 3 1 from rfl, hi]; push_cast; rfl
    unfold moved; rw [v1, v2, v3, v4, v5, v6]
  have m2 : ∀ p : Point ℝ, moved m p = ⟨p.x * a + p.y * c + x, p.x * b + p.y * d + y⟩ := by
    intro q
    have v1 : m.x.x.val = a := by rw [show m.x.x.val = rmat m 0 0 from rfl, hm]; rfl
    have v2 : m.x.y.val = b := by rw [show m.x.y.val = rmat m 0 1 from rfl, hm]; rfl
    have v3 : m.y.x.val = c := by rw [show m.y.x.val = rmat m 1 0 from rfl, hm]; rfl
    have v4 : m.y.y.val = d := by rw [show m.y.y.val = rmat m 1 1 from rfl, hm]; rfl
    have v5 : m.w.x.val = x := by rw [show m.w.x.val = rmat m 3 0 from rfl, hm]; rfl
    have v6 : m.w.y.val = y := by rw [show m.w.y.val = rmat m 3 1 from rfl, hm]; rfl
    unfold moved; rw [v1, v2, v3, v4, v5, v6]
  intro p q
  rw [m1, m2]
  constructor
  · rintro rfl
    obtain ⟨qx, qy⟩ := q
    simp only [Point.mk.injEq]
    constructor
    · linear_combination (qx - x) * e
    · linear_combination (qy - y) * e
  · rintro rfl
    obtain ⟨px, py⟩ := p
    simp only [Point.mk.injEq]
    constructor
    · linear_combination px * e
    · linear_combination py * e

theorem Spec.PixelMap.is2d {m : M4 F32} {a b c d x y : ℤ} (h : PixelMap A T m a b c d x y) : GMatrix.is2d m = true := by
  obtain ⟨hf, hm, -⟩ := h
  have z : ∀ i j, rmat m i j = 0 → (Scalar.abs (mat m i j) <. (fltEps : F32)) = true := by
    intro i j e
    have g : Is (Fp.abs (mat m i j)) 0 := ⟨by simpa using hf i j, by rw [val_abs, show (mat m i j).val = 0 from e, abs_zero]⟩
    refine (g.lt_eq GR.eps_is).trans ?_
    rw [RealScalar.lt_eq, fltEps_real]; norm_num [eps]
  have o : ∀ i j, rmat m i j = 1 → (((f1 : F32) -. Scalar.abs (mat m i j)) <. (fltEps : F32)) = true := by
    intro i j e
    have g : Is (Fp.abs (mat m i j)) 1 := ⟨by simpa using hf i j, by rw [val_abs, show (mat m i j).val = 1 from e, abs_one]⟩
    have r := rnd_sub (is_f1).fin g.fin
    rw [is_f1.val, g.val, sub_self] at r
    refine ((r.is Is.zero_is).lt_eq GR.eps_is).trans ?_
    rw [RealScalar.lt_eq, fltEps_real]; norm_num [eps]
  have z02 : (Scalar.abs m.x.z <. (fltEps : F32)) = true := z 0 2 (by rw [hm]; simp)
  have z03 : (Scalar.abs m.x.w <. (fltEps : F32)) = true := z 0 3 (by rw [hm]; simp)
  have z12 : (Scalar.abs m.y.z <. (fltEps : F32)) = true := z 1 2 (by rw [hm]; simp)
  have z13 : (Scalar.abs m.y.w <. (fltEps : F32)) = true := z 1 3 (by rw [hm]; simp)
  have z20 : (Scalar.abs m.z.x <. (fltEps : F32)) = true := z 2 0 (by rw [hm]; simp)
  have z21 : (Scalar.abs m.z.y <. (fltEps : F32)) = true := z 2 1 (by rw [hm]; simp)
  have z23 : (Scalar.abs m.z.w <. (fltEps : F32)) = true := z 2 3 (by rw [hm]; simp)
  have z32 : (Scalar.abs m.w.z <. (fltEps : F32)) = true := z 3 2 (by rw [hm]; simp)
  have o22 : (((f1 : F32) -. Scalar.abs m.z.z) <. (fltEps : F32)) = true := o 2 2 (by rw [hm]; simp)
  have o33 : (((f1 : F32) -. Scalar.abs m.w.w) <. (fltEps : F32)) = true := o 3 3 (by rw [hm]; simp)
  simp only [GMatrix.is2d, Simd4x4f.is2d, z02, z03, z12, z13, z20, z21, z23, z32, o22, o33, Bool.and_self, Bool.not_true]
  rfl

/-- C138: undoing a transformation of the pixel grid (translations, flips, quarter turns and shears by whole numbers) gives exactly the
smallest rectangle around the points that the matrix takes to the corners, and it contains every point the matrix takes into `r`. -/
theorem C138_untransform (bk : Backend) (hb : bk ≠ .neon) {m : M4 F32} {a b c d x y : ℤ} (h : PixelMap A T m a b c d x y)
    (hA : 1 ≤ A) (hm : 6 * (A * T) + 4 * (A * A) ≤ 2 ^ 24) (r bounds : Rect F32) (hr : GridRect 0 N r)
    (hN : 24 * (A * N) + 6 * (A * T) ≤ 2 ^ 24) :
    let s := Spec.exact r
    ∃ u, GMatrix.untransformBounds bk m r bounds = some u ∧ FiniteRect u ∧
      (∃ p0 p1 p2 p3, moved m p0 = ⟨left s, top s⟩ ∧ moved m p1 = ⟨right s, top s⟩ ∧ moved m p2 = ⟨right s, bottom s⟩ ∧
        moved m p3 = ⟨left s, bottom s⟩ ∧ SmallestRect (Spec.exact u) [p0, p1, p2, p3]) ∧
      ∀ p, moved m p ∈ area s → p ∈ area (Spec.exact u) := by
  intro s
  obtain ⟨i, hi, gi, mi⟩ := h.inverse bk hb hA (by omega)
  have n4 : 4 * N ≤ 2 ^ 24 := by
    have : N ≤ A * N := Nat.le_mul_of_pos_left _ hA
    omega
  obtain ⟨f, sm, sub⟩ := C102_bounds bk (by omega) i gi r hr (by omega) n4
  refine ⟨GMatrix.transformBounds bk i r, ?_, f, ⟨_, _, _, _, (mi _ _).1 rfl, (mi _ _).1 rfl, (mi _ _).1 rfl, (mi _ _).1 rfl, sm⟩, ?_⟩
  · rw [GMatrix.untransformBounds, if_pos h.is2d, hi]
  · intro p hp
    have := sub _ hp
    rwa [(mi p _).2 rfl] at this

omit [Libm binary32] in
/-- a signed coordinate stays in an interval -/
theorem flip_interval {l r : ℝ} (h : l ≤ r) (s : ℤ) (hs : s = 1 ∨ s = -1) (t : ℝ) :
    ∃ lo hi, lo ≤ hi ∧ ∀ q : ℝ, (lo ≤ q * s + t ∧ q * s + t ≤ hi) ↔ (l ≤ q ∧ q ≤ r) := by
  rcases hs with rfl | rfl
  · refine ⟨l + t, r + t, by linarith, fun q => ?_⟩
    push_cast
    constructor <;> rintro ⟨h1, h2⟩ <;> constructor <;> linarith
  · refine ⟨-r + t, -l + t, by linarith, fun q => ?_⟩
    push_cast
    constructor <;> rintro ⟨h1, h2⟩ <;> constructor <;> linarith

/-- the rectangle with these edges -/
theorem rect_of (lo hi lo' hi' : ℝ) (h : lo ≤ hi) (h' : lo' ≤ hi') :
    ∃ R : Rect ℝ, ∀ p : Point ℝ, p ∈ area R ↔ (lo ≤ p.x ∧ p.x ≤ hi) ∧ (lo' ≤ p.y ∧ p.y ≤ hi') := by
  refine ⟨⟨⟨lo, lo'⟩, ⟨hi - lo, hi' - lo'⟩⟩, fun p => ?_⟩
  obtain ⟨e1, e2, e3, e4⟩ := edges_mk lo lo' (hi - lo) (hi' - lo') (by linarith) (by linarith)
  simp only [area, Set.mem_setOf_eq, e1, e2, e3, e4, add_sub_cancel]
  tauto

omit [Libm binary32] in
theorem edges_order (r : Rect ℝ) : left r ≤ right r ∧ top r ≤ bottom r :=
  ⟨min_le_max, min_le_max⟩

omit [Libm binary32] in
theorem edges_of_area {r s : Rect ℝ} (h : area r = area s) :
    left r = left s ∧ right r = right s ∧ top r = top s ∧ bottom r = bottom s := by
  have o1 := edges_order r
  have o2 := edges_order s
  have a : (⟨left r, top r⟩ : Point ℝ) ∈ area s := h ▸ (show _ ∈ area r from ⟨le_rfl, o1.1, le_rfl, o1.2⟩)
  have b : (⟨right r, bottom r⟩ : Point ℝ) ∈ area s := h ▸ (show _ ∈ area r from ⟨o1.1, le_rfl, o1.2, le_rfl⟩)
  have c : (⟨left s, top s⟩ : Point ℝ) ∈ area r := h ▸ (show _ ∈ area s from ⟨le_rfl, o2.1, le_rfl, o2.2⟩)
  have d : (⟨right s, bottom s⟩ : Point ℝ) ∈ area r := h ▸ (show _ ∈ area s from ⟨o2.1, le_rfl, o2.2, le_rfl⟩)
  exact ⟨le_antisymm c.1 a.1, le_antisymm b.2.1 d.2.1, le_antisymm c.2.2.1 a.2.2.1, le_antisymm b.2.2.2 d.2.2.2⟩


theorem bounds_gr (bk : Backend) {m : M4 F32} (hm : GridAffine 0 0 A T m) {r : Rect F32} (hr : GridRect 0 N r)
    (h24 : 24 * (A * N) + 3 * T ≤ 2 ^ 24) (hN : 4 * N ≤ 2 ^ 24) :
    GridRect 0 (24 * (A * N) + 3 * T) (GMatrix.transformBounds bk m r) := by
  obtain ⟨c1, c2, c3, c4⟩ := corners_grid (k := 0) (by omega) hr hN
  have hD : 2 * (A * (4 * N)) + T ≤ 8 * (A * N) + T := by rw [Nat.mul_left_comm A 4 N]; omega
  have i1 := (corner_grid (j := 0) (k := 0) (by omega) hm c1 hD (by omega)).1
  have i2 := (corner_grid (j := 0) (k := 0) (by omega) hm c2 hD (by omega)).1
  have i3 := (corner_grid (j := 0) (k := 0) (by omega) hm c3 hD (by omega)).1
  have i4 := (corner_grid (j := 0) (k := 0) (by omega) hm c4 hD (by omega)).1
  have g := boundsOf_grid bk (by omega) i1 i2 i3 i4 (by omega)
  have k : ∀ {B : Nat} {x : F32} {v : ℝ}, OnGrid 0 B x v → B ≤ 24 * (A * N) + 3 * T → Grid 0 (24 * (A * N) + 3 * T) x := by
    intro B x v h hB
    obtain ⟨n, hn, e⟩ := h.grid
    exact ⟨h.is.fin, n, hn.trans hB, by rw [h.is.val, e]⟩
  exact ⟨k g.x (by omega), k g.y (by omega), k g.w (by omega), k g.h (by omega)⟩

/-- C138: `untransform_bounds` undoes `transform_bounds`, exactly, for translations by whole pixels combined with flips and quarter
turns: every edge of the rectangle comes back. -/
theorem C138_round_trip (bk : Backend) (hb : bk ≠ .neon) {m : M4 F32} {a b c d x y : ℤ} (h : PixelMap 1 T m a b c d x y)
    (hax : (b = 0 ∧ c = 0) ∨ (a = 0 ∧ d = 0)) (r bounds : Rect F32) (hr : GridRect 0 N r)
    (h24 : 576 * N + 78 * T ≤ 2 ^ 24) :
    ∃ u, GMatrix.untransformBounds bk m (GMatrix.transformBounds bk m r) bounds = some u ∧ FiniteRect u ∧
      left (Spec.exact u) = left (Spec.exact r) ∧ right (Spec.exact u) = right (Spec.exact r) ∧
      top (Spec.exact u) = top (Spec.exact r) ∧ bottom (Spec.exact u) = bottom (Spec.exact r) := by
  have hT : (pixW 1 T).w.x = T := rfl
  have gm : GridAffine 0 0 1 T m := by
    have e := h.entries
    exact ⟨⟨e 0 0, e 0 1, e 1 0, e 1 1⟩, ⟨e 3 0, e 3 1⟩, (e 2 0).1, (e 2 1).1⟩
  obtain ⟨fB, sB, iB⟩ := C102_bounds bk (by omega) m gm r hr (by omega) (by omega)
  have gB := bounds_gr bk gm hr (by omega) (by omega)
  obtain ⟨u, hu, fu, ⟨p0, p1, p2, p3, e0, e1, e2, e3, su⟩, iu⟩ :=
    C138_untransform bk hb h (le_refl 1) (by omega) _ bounds gB (by omega)
  have m2 : ∀ p : Point ℝ, moved m p = ⟨p.x * a + p.y * c + x, p.x * b + p.y * d + y⟩ := by
    intro q
    have hm := h.2.1
    have v1 : m.x.x.val = a := by rw [show m.x.x.val = rmat m 0 0 from rfl, hm]; rfl
    have v2 : m.x.y.val = b := by rw [show m.x.y.val = rmat m 0 1 from rfl, hm]; rfl
    have v3 : m.y.x.val = c := by rw [show m.y.x.val = rmat m 1 0 from rfl, hm]; rfl
    have v4 : m.y.y.val = d := by rw [show m.y.y.val = rmat m 1 1 from rfl, hm]; rfl
    have v5 : m.w.x.val = x := by rw [show m.w.x.val = rmat m 3 0 from rfl, hm]; rfl
    have v6 : m.w.y.val = y := by rw [show m.w.y.val = rmat m 3 1 from rfl, hm]; rfl
    unfold moved; rw [v1, v2, v3, v4, v5, v6]
  have o := edges_order (Spec.exact r)
  -- the image of the rectangle is a rectangle
  obtain ⟨R, hR⟩ : ∃ R : Rect ℝ, ∀ p, moved m p ∈ area R ↔ p ∈ area (Spec.exact r) := by
    have ar : ∀ p : Point ℝ, p ∈ area (Spec.exact r) ↔ (left (Spec.exact r) ≤ p.x ∧ p.x ≤ right (Spec.exact r)) ∧
        (top (Spec.exact r) ≤ p.y ∧ p.y ≤ bottom (Spec.exact r)) := by
      intro p; simp only [area, Set.mem_setOf_eq]; tauto
    rcases hax with ⟨rfl, rfl⟩ | ⟨rfl, rfl⟩
    · have had : a * d = 1 ∨ a * d = -1 := by simpa using h.2.2.2.2
      have ha : a = 1 ∨ a = -1 := Int.isUnit_iff.1 (by
        rcases had with g | g
        · exact IsUnit.of_mul_eq_one d g
        · exact IsUnit.of_mul_eq_one (-d) (by linarith))
      have hd : d = 1 ∨ d = -1 := Int.isUnit_iff.1 (by
        rcases had with g | g
        · exact IsUnit.of_mul_eq_one a (by linarith)
        · exact IsUnit.of_mul_eq_one (-a) (by linarith))
      obtain ⟨lo, hi, hl, k⟩ := flip_interval o.1 a ha x
      obtain ⟨lo', hi', hl', k'⟩ := flip_interval o.2 d hd y
      obtain ⟨R, hR⟩ := rect_of lo hi lo' hi' hl hl'
      refine ⟨R, fun p => ?_⟩
      rw [hR, ar, m2, ← k, ← k']
      simp
    · have had : b * c = 1 ∨ b * c = -1 := by
        rcases h.2.2.2.2 with g | g
        · right; linarith
        · left; linarith
      have hb : b = 1 ∨ b = -1 := Int.isUnit_iff.1 (by
        rcases had with g | g
        · exact IsUnit.of_mul_eq_one c g
        · exact IsUnit.of_mul_eq_one (-c) (by linarith))
      have hc : c = 1 ∨ c = -1 := Int.isUnit_iff.1 (by
        rcases had with g | g
        · exact IsUnit.of_mul_eq_one b (by linarith)
        · exact IsUnit.of_mul_eq_one (-b) (by linarith))
      obtain ⟨lo, hi, hl, k⟩ := flip_interval o.2 c hc x
      obtain ⟨lo', hi', hl', k'⟩ := flip_interval o.1 b hb y
      obtain ⟨R, hR⟩ := rect_of lo hi lo' hi' hl hl'
      refine ⟨R, fun p => ?_⟩
      rw [hR, ar, m2, ← k, ← k']
      simp
      tauto
  have cr : (⟨left (Spec.exact r), top (Spec.exact r)⟩ : Point ℝ) ∈ area (Spec.exact r) ∧
      (⟨right (Spec.exact r), top (Spec.exact r)⟩ : Point ℝ) ∈ area (Spec.exact r) ∧
      (⟨right (Spec.exact r), bottom (Spec.exact r)⟩ : Point ℝ) ∈ area (Spec.exact r) ∧
      (⟨left (Spec.exact r), bottom (Spec.exact r)⟩ : Point ℝ) ∈ area (Spec.exact r) :=
    ⟨⟨le_rfl, o.1, le_rfl, o.2⟩, ⟨o.1, le_rfl, le_rfl, o.2⟩, ⟨o.1, le_rfl, o.2, le_rfl⟩, ⟨le_rfl, o.1, o.2, le_rfl⟩⟩
  have BR : area (Spec.exact (GMatrix.transformBounds bk m r)) ⊆ area R := by
    refine sB.2 R ?_
    simp only [List.mem_cons, List.not_mem_nil, or_false, forall_eq_or_imp, forall_eq]
    exact ⟨(hR _).2 cr.1, (hR _).2 cr.2.1, (hR _).2 cr.2.2.1, (hR _).2 cr.2.2.2⟩
  have oB := edges_order (Spec.exact (GMatrix.transformBounds bk m r))
  have UR : area (Spec.exact u) ⊆ area (Spec.exact r) := by
    refine su.2 _ ?_
    simp only [List.mem_cons, List.not_mem_nil, or_false, forall_eq_or_imp, forall_eq]
    refine ⟨(hR _).1 (BR ?_), (hR _).1 (BR ?_), (hR _).1 (BR ?_), (hR _).1 (BR ?_)⟩
    · rw [e0]; exact ⟨le_rfl, oB.1, le_rfl, oB.2⟩
    · rw [e1]; exact ⟨oB.1, le_rfl, le_rfl, oB.2⟩
    · rw [e2]; exact ⟨oB.1, le_rfl, oB.2, le_rfl⟩
    · rw [e3]; exact ⟨le_rfl, oB.1, oB.2, le_rfl⟩
  refine ⟨u, hu, fu, edges_of_area (Set.Subset.antisymm UR ?_)⟩
  intro p hp
  exact iu p (iB p hp)


/-- `matrix_init_translate` by whole pixels is such a matrix -/
theorem translate_pixel {t : Point3D F32} {x y : ℤ} (hx : t.x.isFin = true) (hy : t.y.isFin = true) (hz : t.z.isFin = true)
    (ex : t.x.val = x) (ey : t.y.val = y) (ez : t.z.val = 0) (bx : x.natAbs ≤ T) (by' : y.natAbs ≤ T) :
    PixelMap 1 T (GMatrix.initTranslate t) 1 0 0 1 x y := by
  refine ⟨(translate_st t hx hy hz).1, ?_, by simp, by simpa using ⟨bx, by'⟩, by simp⟩
  rw [rmat_translate, ex, ey, ez]
  simp

/-- C138: so a scrolled rectangle comes back. -/
theorem C138_scroll (bk : Backend) (hb : bk ≠ .neon) {t : Point3D F32} {x y : ℤ} (hx : t.x.isFin = true) (hy : t.y.isFin = true)
    (hz : t.z.isFin = true) (ex : t.x.val = x) (ey : t.y.val = y) (ez : t.z.val = 0) (bx : x.natAbs ≤ T) (by' : y.natAbs ≤ T)
    (r bounds : Rect F32) (hr : GridRect 0 N r) (h24 : 576 * N + 78 * T ≤ 2 ^ 24) :
    ∃ u, GMatrix.untransformBounds bk (GMatrix.initTranslate t) (GMatrix.transformBounds bk (GMatrix.initTranslate t) r) bounds = some u ∧
      left (Spec.exact u) = left (Spec.exact r) ∧ right (Spec.exact u) = right (Spec.exact r) ∧
      top (Spec.exact u) = top (Spec.exact r) ∧ bottom (Spec.exact u) = bottom (Spec.exact r) := by
  obtain ⟨u, h1, -, h2⟩ := C138_round_trip bk hb (translate_pixel hx hy hz ex ey ez bx by') (.inl ⟨rfl, rfl⟩) r bounds hr h24
  exact ⟨u, h1, h2⟩

/-- non-vacuity: a quarter turn combined with a translation by (100, -7), and a rectangle of 640 by 480 pixels -/
example : (∃ m : M4 F32, PixelMap 1 100 m 0 1 (-1) 0 100 (-7)) ∧
    GridRect 0 3000 (⟨⟨Fp.lit (-635) 1, Fp.lit (-3000) 1⟩, ⟨Fp.lit (-640) 1, Fp.lit 480 1⟩⟩ : Rect F32) ∧
    576 * 3000 + 78 * 100 ≤ 2 ^ 24 := by
  have key : ∀ e : ℤ → F32, (∀ n : ℤ, n.natAbs ≤ 3000 → Is (e n) n) →
      (∃ m : M4 F32, PixelMap 1 100 m 0 1 (-1) 0 100 (-7)) := by
    intro e h
    have a0 := h 0 (by decide)
    have a1 := h 1 (by decide)
    have a2 := h (-1) (by decide)
    have a3 := h 100 (by decide)
    have a4 := h (-7) (by decide)
    refine ⟨⟨⟨e 0, e 1, e 0, e 0⟩, ⟨e (-1), e 0, e 0, e 0⟩, ⟨e 0, e 0, e 1, e 0⟩, ⟨e 100, e (-7), e 0, e 1⟩⟩, ?_, ?_, by simp, by simp, by simp⟩
    · intro i j
      fin_cases i <;> fin_cases j <;> first | exact a0.fin | exact a1.fin | exact a2.fin | exact a3.fin | exact a4.fin
    · ext i j
      fin_cases i <;> fin_cases j <;> first
        | exact a0.val.trans (by simp) | exact a1.val.trans (by simp) | exact a2.val.trans (by simp)
        | exact a3.val.trans (by simp) | exact a4.val.trans (by simp)
  have q : ∀ n : ℤ, n.natAbs ≤ 3000 → Is (Fp.lit n 1 : F32) n := fun n hn =>
    ⟨(lit_int n (by omega)).1, (lit_int n (by omega)).2⟩
  refine ⟨key (fun n => Fp.lit n 1) q, ?_, by norm_num⟩
  have g : ∀ n : ℤ, n.natAbs ≤ 3000 → Grid 0 3000 (Fp.lit n 1) := fun n hn =>
    ⟨(q n hn).fin, n, hn, by rw [(q n hn).val]; simp⟩
  exact ⟨g (-635) (by decide), g (-3000) (by decide), g (-640) (by decide), g 480 (by decide)⟩

end Graphene

/-
  C102: 2D transformations are exact on a pixel grid, in floating point (IEEE binary32).
-/
import Verif.Props.Float5
import Verif.Props.Float3
import Verif.Props.Matrix3

set_option exponentiation.threshold 3000

namespace Graphene
open Fp Spec

/-- the 2D part of the matrix is on the grid: scale and shear entries are multiples of `2^-j` (integers for
`j = 0`) of magnitude at most `A · 2^-j`, the translation is a multiple of `2^-(j+k)`; the third row, which
multiplies the `z` coordinate 0, is finite -/
def Spec.GridAffine (j k A T : Nat) (m : M4 F32) : Prop :=
  (Grid j A m.x.x ∧ Grid j A m.x.y ∧ Grid j A m.y.x ∧ Grid j A m.y.y) ∧
  (Grid (j + k) T m.w.x ∧ Grid (j + k) T m.w.y) ∧ m.z.x.isFin = true ∧ m.z.y.isFin = true
/-- where the real affine map with the entries of the matrix takes a real point -/
noncomputable def Spec.moved (m : M4 F32) (p : Point ℝ) : Point ℝ :=
  ⟨p.x * m.x.x.val + p.y * m.y.x.val + m.w.x.val, p.x * m.x.y.val + p.y * m.y.y.val + m.w.y.val⟩
/-- the real matrix with the entries of a matrix of floats -/
noncomputable def Spec.exactMat (m : M4 F32) : M4 ℝ :=
  let v := fun v : V4 F32 => (⟨v.x.val, v.y.val, v.z.val, v.w.val⟩ : V4 ℝ)
  ⟨v m.x, v m.y, v m.z, v m.w⟩

theorem image2_exact (m : M4 F32) (p : Point ℝ) : image2 (exactMat m) p = moved m p := by
  simp only [image2, image_eq, exactMat, moved, Point.mk.injEq]; constructor <;> ring

variable [Libm binary32] {j k A T N D : Nat}

theorem OnGrid.mul_zero' {x : F32} (h : x.isFin = true) : OnGrid k 0 (Fp.mul x f0) 0 := by
  have r := rnd_mul h (b := f0) (by rw [f0_eq]; rfl)
  have z : (f0 : F32).val = 0 := by rw [f0_eq]; exact Is.zero_is.val
  rw [z, mul_zero] at r
  exact ⟨r.is Is.zero_is, 0, by simp, by simp⟩

theorem lane_grid (hk : j + k ≤ 149) {a b z t x y : F32} {u v : ℝ} (ha : Grid j A a) (hb : Grid j A b)
    (hz : z.isFin = true) (ht : Grid (j + k) T t) (hx : OnGrid k N x u) (hy : OnGrid k N y v)
    (hD : 2 * (A * N) + T ≤ D) (h24 : D ≤ 2 ^ 24) :
    OnGrid (j + k) D (Fp.add (Fp.add (Fp.mul a x) (Fp.mul b y)) (Fp.add (Fp.mul z f0) (Fp.mul t f1)))
      (u * a.val + v * b.val + t.val) ∧
    OnGrid (j + k) D (Fp.add (Fp.add (Fp.mul a x) (Fp.mul b y)) (Fp.add (Fp.mul z f0) t))
      (u * a.val + v * b.val + t.val) := by
  have p1 := ha.on.mul hk hx (D := A * N) le_rfl (by omega)
  have p2 := hb.on.mul hk hy (D := A * N) le_rfl (by omega)
  have p3 := p1.add hk p2 (D := 2 * (A * N)) (by omega) (by omega)
  have p4 := (OnGrid.mul_zero' (k := j + k) hz).add hk ht.on (D := T) (by omega) (by omega)
  have e : Fp.mul t (f1 : F32) = t := mul_one32 t
  have p5 := p3.add hk p4 (D := D) hD h24
  rw [e, show u * a.val + v * b.val + t.val = a.val * u + b.val * v + (0 + t.val) by ring]
  exact ⟨p5, p5⟩

/-- a point on a grid -/
def OnGridP (k N : Nat) (p : Point F32) (q : Point ℝ) : Prop := OnGrid k N p.x q.x ∧ OnGrid k N p.y q.y

theorem corner_grid (hk : j + k ≤ 149) {m : M4 F32} (hm : GridAffine j k A T m) {p : Point F32} {q : Point ℝ}
    (hp : OnGridP k N p q) (hD : 2 * (A * N) + T ≤ D) (h24 : D ≤ 2 ^ 24) :
    OnGridP (j + k) D (GMatrix.transformCorner m p) (moved m q) ∧
    OnGridP (j + k) D (GMatrix.transformPoint m p) (moved m q) := by
  obtain ⟨⟨a, b, c, d⟩, ⟨e, f⟩, g, h⟩ := hm
  have l1 := lane_grid hk a c g e hp.1 hp.2 hD h24
  have l2 := lane_grid hk b d h f hp.1 hp.2 hD h24
  exact ⟨⟨l1.1, l2.1⟩, ⟨l1.2, l2.2⟩⟩

omit [Libm binary32] in
theorem OnGridP.exact {p : Point F32} {q : Point ℝ} (h : OnGridP k N p q) : exactPoint p = q := by
  cases q; simp only [exactPoint, Point.mk.injEq]; exact ⟨h.1.is.val, h.2.is.val⟩

/-- C102: a point on the grid is transformed exactly. -/
theorem C102_point (hk : j + k ≤ 149) (m : M4 F32) (hm : GridAffine j k A T m) (p : Point F32)
    (hx : Grid k N p.x) (hy : Grid k N p.y) (h24 : 2 * (A * N) + T ≤ 2 ^ 24) :
    (GMatrix.transformPoint m p).x.isFin = true ∧ (GMatrix.transformPoint m p).y.isFin = true ∧
    exactPoint (GMatrix.transformPoint m p) = moved m (exactPoint p) := by
  have h := (corner_grid hk hm (p := p) (q := exactPoint p) ⟨hx.on, hy.on⟩ le_rfl h24).2
  exact ⟨h.1.is.fin, h.2.is.fin, h.exact⟩

theorem corners_grid (hk : k ≤ 149) {r : Rect F32} (hr : GridRect k N r) (h24 : 4 * N ≤ 2 ^ 24) :
    OnGridP k (4 * N) r.normalize.getTopLeft ⟨left (Spec.exact r), top (Spec.exact r)⟩ ∧
    OnGridP k (4 * N) r.normalize.getTopRight ⟨right (Spec.exact r), top (Spec.exact r)⟩ ∧
    OnGridP k (4 * N) r.normalize.getBottomRight ⟨right (Spec.exact r), bottom (Spec.exact r)⟩ ∧
    OnGridP k (4 * N) r.normalize.getBottomLeft ⟨left (Spec.exact r), bottom (Spec.exact r)⟩ := by
  have g := (hr.gr.normalize hk (D := 2 * N) (by omega) (by omega)).normalize hk (D := 3 * N) (by omega) (by omega)
  have ax := g.x.add hk g.w (D := 4 * N) (by omega) h24
  have ay := g.y.add hk g.h (D := 4 * N) (by omega) h24
  have x := g.x.mono (C := 4 * N) (by omega)
  have y := g.y.mono (C := 4 * N) (by omega)
  obtain ⟨e1, e2, e3, e4⟩ := corners_normalize (Spec.exact r)
  rw [← e1, ← e2, ← e3, ← e4]
  exact ⟨⟨x, y⟩, ⟨ax, y⟩, ⟨ax, ay⟩, ⟨x, ay⟩⟩

/-- C102: `transform_rect` gives exactly the images of the four corners. -/
theorem C102_rect (hk : j + k ≤ 149) (m : M4 F32) (hm : GridAffine j k A T m) (r : Rect F32)
    (hr : GridRect k N r) (h24 : 8 * (A * N) + T ≤ 2 ^ 24) (hN : 4 * N ≤ 2 ^ 24) :
    let q := GMatrix.transformRect m r
    exactPoint q.p0 = moved m ⟨left (Spec.exact r), top (Spec.exact r)⟩ ∧
    exactPoint q.p1 = moved m ⟨right (Spec.exact r), top (Spec.exact r)⟩ ∧
    exactPoint q.p2 = moved m ⟨right (Spec.exact r), bottom (Spec.exact r)⟩ ∧
    exactPoint q.p3 = moved m ⟨left (Spec.exact r), bottom (Spec.exact r)⟩ ∧
    ∀ p ∈ [q.p0, q.p1, q.p2, q.p3], p.x.isFin = true ∧ p.y.isFin = true := by
  obtain ⟨c1, c2, c3, c4⟩ := corners_grid (by omega) hr hN
  have hD : 2 * (A * (4 * N)) + T ≤ 2 ^ 24 := by rw [Nat.mul_left_comm A 4 N]; omega
  have i1 := (corner_grid hk hm c1 le_rfl hD).1
  have i2 := (corner_grid hk hm c2 le_rfl hD).1
  have i3 := (corner_grid hk hm c3 le_rfl hD).1
  have i4 := (corner_grid hk hm c4 le_rfl hD).1
  refine ⟨i1.exact, i2.exact, i3.exact, i4.exact, ?_⟩
  intro p hp
  simp only [List.mem_cons, List.not_mem_nil, or_false] at hp
  rcases hp with rfl | rfl | rfl | rfl
  · exact ⟨i1.1.is.fin, i1.2.is.fin⟩
  · exact ⟨i2.1.is.fin, i2.2.is.fin⟩
  · exact ⟨i3.1.is.fin, i3.2.is.fin⟩
  · exact ⟨i4.1.is.fin, i4.2.is.fin⟩

theorem OnGrid.min1 (bk : Backend) {x y : F32} {v w : ℝ} (hx : OnGrid k N x v) (hy : OnGrid k N y w) :
    OnGrid k N (Simd4f.min1 bk x y) (Simd4f.min1 bk v w) := by
  rw [Simd4f.min1_real, ← cMin_real]
  have h := hx.cMin hy
  cases bk <;> try exact h
  have n1 : Scalar.isNaN x = false := isNaN_of_isFin hx.is.fin
  have n2 : Scalar.isNaN y = false := isNaN_of_isFin hy.is.fin
  simp only [Simd4f.min1, n1, n2, Bool.false_eq_true, if_false]
  split
  · rename_i hz
    rw [Bool.and_eq_true] at hz
    have z1 : v = 0 := hx.is.zero_of_feq hz.1
    have z2 : w = 0 := hy.is.zero_of_feq hz.2
    subst z1 z2
    rw [cMin_real]
    split <;> simpa
  · exact h
theorem OnGrid.max1 (bk : Backend) {x y : F32} {v w : ℝ} (hx : OnGrid k N x v) (hy : OnGrid k N y w) :
    OnGrid k N (Simd4f.max1 bk x y) (Simd4f.max1 bk v w) := by
  rw [Simd4f.max1_real, ← cMax_real]
  have h := hx.cMax hy
  cases bk <;> try exact h
  have n1 : Scalar.isNaN x = false := isNaN_of_isFin hx.is.fin
  have n2 : Scalar.isNaN y = false := isNaN_of_isFin hy.is.fin
  simp only [Simd4f.max1, n1, n2, Bool.false_eq_true, if_false]
  split
  · rename_i hz
    rw [Bool.and_eq_true] at hz
    have z1 : v = 0 := hx.is.zero_of_feq hz.1
    have z2 : w = 0 := hy.is.zero_of_feq hz.2
    subst z1 z2
    rw [cMax_real]
    split <;> simpa
  · exact h

theorem boundsOf_grid (bk : Backend) (hk : k ≤ 149) {a b c d : Point F32} {a' b' c' d' : Point ℝ}
    (ha : OnGridP k N a a') (hb : OnGridP k N b b') (hc : OnGridP k N c c') (hd : OnGridP k N d d')
    (h24 : 3 * N ≤ 2 ^ 24) :
    GR k (3 * N) (2 * N) (GMatrix.boundsOf bk a b c d) (GMatrix.boundsOf bk a' b' c' d') := by
  have mn : ∀ {p q r s : F32} {p' q' r' s' : ℝ}, OnGrid k N p p' → OnGrid k N q q' → OnGrid k N r r' →
      OnGrid k N s s' → OnGrid k N (Simd4f.minVal bk ⟨p, q, r, s⟩).x (Simd4f.minVal bk ⟨p', q', r', s'⟩).x :=
    fun h1 h2 h3 h4 => OnGrid.min1 bk (OnGrid.min1 bk h1 h4) (OnGrid.min1 bk h3 h2)
  have mx : ∀ {p q r s : F32} {p' q' r' s' : ℝ}, OnGrid k N p p' → OnGrid k N q q' → OnGrid k N r r' →
      OnGrid k N s s' → OnGrid k N (Simd4f.maxVal bk ⟨p, q, r, s⟩).x (Simd4f.maxVal bk ⟨p', q', r', s'⟩).x :=
    fun h1 h2 h3 h4 => OnGrid.max1 bk (OnGrid.max1 bk h1 h4) (OnGrid.max1 bk h3 h2)
  have x0 := mn ha.1 hb.1 hc.1 hd.1
  have y0 := mn ha.2 hb.2 hc.2 hd.2
  have x1 := (mx ha.1 hb.1 hc.1 hd.1).sub hk x0 (D := 2 * N) (by omega) (by omega)
  have y1 := (mx ha.2 hb.2 hc.2 hd.2).sub hk y0 (D := 2 * N) (by omega) (by omega)
  exact GR.init hk x0 y0 x1 y1 (by omega) h24

/-- C102: `transform_bounds` gives exactly the smallest rectangle around the images of the corners, which
contains the image of every point of the rectangle. -/
theorem C102_bounds (bk : Backend) (hk : j + k ≤ 149) (m : M4 F32) (hm : GridAffine j k A T m) (r : Rect F32)
    (hr : GridRect k N r) (h24 : 24 * (A * N) + 3 * T ≤ 2 ^ 24) (hN : 4 * N ≤ 2 ^ 24) :
    let b := GMatrix.transformBounds bk m r
    let s := Spec.exact r
    FiniteRect b ∧
    SmallestRect (Spec.exact b)
      [moved m ⟨left s, top s⟩, moved m ⟨right s, top s⟩, moved m ⟨right s, bottom s⟩, moved m ⟨left s, bottom s⟩] ∧
    ∀ p ∈ area s, moved m p ∈ area (Spec.exact b) := by
  obtain ⟨c1, c2, c3, c4⟩ := corners_grid (by omega) hr hN
  have hD : 2 * (A * (4 * N)) + T ≤ 8 * (A * N) + T := by rw [Nat.mul_left_comm A 4 N]; omega
  have i1 := (corner_grid hk hm c1 hD (by omega)).1
  have i2 := (corner_grid hk hm c2 hD (by omega)).1
  have i3 := (corner_grid hk hm c3 hD (by omega)).1
  have i4 := (corner_grid hk hm c4 hD (by omega)).1
  have g := boundsOf_grid bk hk i1 i2 i3 i4 (by omega)
  obtain ⟨e1, e2, e3, e4⟩ := corners_normalize (Spec.exact r)
  have e : Spec.exact (GMatrix.transformBounds bk m r) =
      GMatrix.transformBounds bk (exactMat m) (Spec.exact r) := by
    simp only [GMatrix.transformBounds, transformCorner_real, e1, e2, e3, e4, image2_exact]
    exact g.exact
  have h := C57_bounds bk (exactMat m) (Spec.exact r)
  simp only [image2_exact] at h
  intro b s
  refine ⟨g.fin, ?_, ?_⟩
  · show SmallestRect (Spec.exact (GMatrix.transformBounds bk m r)) _
    rw [e]; exact h.1
  · show ∀ p ∈ _, _ ∈ area (Spec.exact (GMatrix.transformBounds bk m r))
    rw [e]; exact h.2

/-- every entry of the matrix is on the grid -/
def Spec.GridMat (k N : Nat) (m : M4 F32) : Prop := ∀ r c, Grid k N (mat m r c)

/-- C102: the product of two matrices on grids is exact. -/
theorem C102_multiply (hk : j + k ≤ 149) (a b : M4 F32) (ha : GridMat j A a) (hb : GridMat k N b)
    (h24 : 4 * (A * N) ≤ 2 ^ 24) :
    FinMat (GMatrix.multiply a b) ∧ rmat (GMatrix.multiply a b) = rmat a * rmat b ∧
    GridMat (j + k) (4 * (A * N)) (GMatrix.multiply a b) := by
  have row : ∀ (v : V4 F32), (∀ i, Grid j A (vec v i)) → ∀ c,
      OnGrid (j + k) (4 * (A * N)) (vec (Simd4x4f.vec4Mul b v) c) (∑ i, rvec v i * rmat b i c) := by
    intro v hv c
    have p : ∀ i, OnGrid (j + k) (A * N) (Fp.mul (mat b i c) (vec v i)) ((mat b i c).val * (vec v i).val) := by
      intro i
      have := (hb i c).on.mul (by omega) (hv i).on (D := A * N) (by rw [Nat.mul_comm]) (by omega)
      rwa [Nat.add_comm] at this
    have s := ((p 0).add hk (p 1) (D := 2 * (A * N)) (by omega) (by omega)).add hk
      ((p 2).add hk (p 3) (D := 2 * (A * N)) (by omega) (by omega)) (D := 4 * (A * N)) (by omega) h24
    have e : ∑ i, rvec v i * rmat b i c = (mat b 0 c).val * (vec v 0).val + (mat b 1 c).val * (vec v 1).val +
        ((mat b 2 c).val * (vec v 2).val + (mat b 3 c).val * (vec v 3).val) := by
      rw [Fin.sum_univ_four]; simp only [rvec, rmat, Matrix.map_apply]; ring
    rw [e]
    fin_cases c <;> exact s
  have all : ∀ i c, OnGrid (j + k) (4 * (A * N)) (mat (GMatrix.multiply a b) i c) ((rmat a * rmat b) i c) := by
    intro i c
    rw [Matrix.mul_apply]
    fin_cases i
    · exact row a.x (ha 0) c
    · exact row a.y (ha 1) c
    · exact row a.z (ha 2) c
    · exact row a.w (ha 3) c
  refine ⟨fun i c => (all i c).is.fin, ?_, ?_⟩
  · ext i c; exact (all i c).is.val
  · intro i c
    obtain ⟨n, hn, e⟩ := (all i c).grid
    exact ⟨(all i c).is.fin, n, hn, by rw [(all i c).is.val, e]⟩

/-- C102: transforming a point by the product is transforming it by the first matrix and then by the second,
with no rounding error, when the first matrix is an affine 2D transformation. -/
theorem C102_compose {l M : Nat} (hk : j + k + l ≤ 149) (a b : M4 F32) (ha : GridMat j A a) (hb : GridMat k N b)
    (p : Point F32) (hx : Grid l M p.x) (hy : Grid l M p.y)
    (haff : rmat a 0 2 = 0 ∧ rmat a 1 2 = 0 ∧ rmat a 3 2 = 0 ∧ rmat a 0 3 = 0 ∧ rmat a 1 3 = 0 ∧ rmat a 3 3 = 1)
    (h24 : 8 * (A * N * M) + 4 * (A * N * 2 ^ l) ≤ 2 ^ 24) (h4 : 4 * (A * N) ≤ 2 ^ 24) :
    exactPoint (GMatrix.transformPoint (GMatrix.multiply a b) p) = moved b (moved a (exactPoint p)) := by
  obtain ⟨-, e, g⟩ := C102_multiply (by omega) a b ha hb h4
  have t : ∀ {x : F32}, Grid (j + k) (4 * (A * N)) x → Grid (j + k + l) (4 * (A * N) * 2 ^ l) x := by
    rintro x ⟨f, n, hn, e⟩
    refine ⟨f, n * 2 ^ l, ?_, ?_⟩
    · rw [Int.natAbs_mul, Int.natAbs_pow]; exact Nat.mul_le_mul_right _ hn
    · rw [e, pow_add _ (j + k)]; push_cast; rw [mul_div_mul_right _ _ (by positivity)]
  have hm : GridAffine (j + k) l (4 * (A * N)) (4 * (A * N) * 2 ^ l) (GMatrix.multiply a b) :=
    ⟨⟨g 0 0, g 0 1, g 1 0, g 1 1⟩, ⟨t (g 3 0), t (g 3 1)⟩, (g 2 0).1, (g 2 1).1⟩
  have h := (C102_point hk _ hm p hx hy (by
    rw [Nat.mul_assoc 4 _ M, Nat.mul_assoc 4 _ (2 ^ l)]; omega)).2.2
  rw [h]
  obtain ⟨h1, h2, h3, h4, h5, h6⟩ := haff
  have ee : ∀ r c, rmat (GMatrix.multiply a b) r c = ∑ i, rmat a r i * rmat b i c := by
    intro r c; rw [e, Matrix.mul_apply]
  have e00 := ee 0 0
  have e01 := ee 0 1
  have e10 := ee 1 0
  have e11 := ee 1 1
  have e30 := ee 3 0
  have e31 := ee 3 1
  simp only [Fin.sum_univ_four, h1, h2, h3, h4, h5, h6] at e00 e01 e10 e11 e30 e31
  have d : ∀ m : M4 F32, ∀ q, moved m q = ⟨q.x * rmat m 0 0 + q.y * rmat m 1 0 + rmat m 3 0,
      q.x * rmat m 0 1 + q.y * rmat m 1 1 + rmat m 3 1⟩ := fun _ _ => rfl
  simp only [d, e00, e01, e10, e11, e30, e31, Point.mk.injEq]
  constructor <;> ring

/-- the hypotheses hold for concrete data: a mirrored scaling by 3/2 with a shear of 1/4 and a translation by
`(100.125, -7)`, on rectangles with quarter-pixel coordinates up to 16384. -/
example : ∃ m : M4 F32, GridAffine 2 2 6 2000 m ∧ 24 * (6 * 65536) + 3 * 2000 ≤ 2 ^ 24 ∧
    moved m ⟨8, 4⟩ = ⟨8 * (-3 / 2) + 4 / 4 + 801 / 8, 4 * (3 / 2) - 7⟩ := by
  refine ⟨⟨⟨lit (-6) (2 ^ 2), lit 0 (2 ^ 2), f0, f0⟩, ⟨lit 1 (2 ^ 2), lit 6 (2 ^ 2), f0, f0⟩, ⟨f0, f0, f1, f0⟩,
    ⟨lit 1602 (2 ^ 4), lit (-112) (2 ^ 4), f0, f1⟩⟩, ⟨⟨?_, ?_, ?_, ?_⟩, ⟨?_, ?_⟩, ?_, ?_⟩, by decide, ?_⟩
  · exact grid_lit (k := 2) (N := 6) (by decide) (by decide) (-6) (by decide)
  · exact grid_lit (k := 2) (N := 6) (by decide) (by decide) (0) (by decide)
  · exact grid_lit (k := 2) (N := 6) (by decide) (by decide) (1) (by decide)
  · exact grid_lit (k := 2) (N := 6) (by decide) (by decide) (6) (by decide)
  · exact grid_lit (k := 4) (N := 2000) (by decide) (by decide) (1602) (by decide)
  · exact grid_lit (k := 4) (N := 2000) (by decide) (by decide) (-112) (by decide)
  · rw [f0_eq]; rfl
  · rw [f0_eq]; rfl
  · simp only [moved, (lit_dyadic (-6) 2 (by decide) (by decide)).2, (lit_dyadic 0 2 (by decide) (by decide)).2,
      (lit_dyadic 1 2 (by decide) (by decide)).2, (lit_dyadic 6 2 (by decide) (by decide)).2,
      (lit_dyadic 1602 4 (by decide) (by decide)).2, (lit_dyadic (-112) 4 (by decide) (by decide)).2]
    norm_num

/-- the hypotheses of `C102_multiply` hold for concrete data: the matrix with entries `(r - c) / 2`. -/
example : ∃ m : M4 F32, GridMat 1 3 m ∧ rmat m 0 3 = -3 / 2 := by
  have key : ∀ e : ℤ → F32, (∀ n : ℤ, n.natAbs ≤ 3 → Grid 1 3 (e n)) → GridMat 1 3
    ⟨⟨e (0), e (-1), e (-2), e (-3)⟩,
    ⟨e (1), e (0), e (-1), e (-2)⟩,
    ⟨e (2), e (1), e (0), e (-1)⟩,
    ⟨e (3), e (2), e (1), e (0)⟩⟩ := by
    intro e h r c
    fin_cases r <;> fin_cases c
    · exact h (0) (by decide)
    · exact h (-1) (by decide)
    · exact h (-2) (by decide)
    · exact h (-3) (by decide)
    · exact h (1) (by decide)
    · exact h (0) (by decide)
    · exact h (-1) (by decide)
    · exact h (-2) (by decide)
    · exact h (2) (by decide)
    · exact h (1) (by decide)
    · exact h (0) (by decide)
    · exact h (-1) (by decide)
    · exact h (3) (by decide)
    · exact h (2) (by decide)
    · exact h (1) (by decide)
    · exact h (0) (by decide)
  refine ⟨_, key (fun n => lit n (2 ^ 1)) (fun n hn => grid_lit (by decide) (by decide) n hn), ?_⟩
  show (lit (-3) (2 ^ 1) : F32).val = _
  rw [(lit_dyadic (-3) 1 (by decide) (by decide)).2]; norm_num

end Graphene

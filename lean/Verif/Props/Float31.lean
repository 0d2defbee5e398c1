/-
  C121: bounding spheres of boxes, and transformed spheres and rays, in single precision.
-/
import Verif.Props.Float25
import Verif.Props.Float28

set_option exponentiation.threshold 3000

namespace Graphene
open Fp Spec
variable [Libm binary32]

/-! ### The bounding sphere of a box -/

omit [Libm binary32] in
/-- lengths of vectors with coordinates a little over those of another -/
theorem len3_le_add {a b c x y z e f g : ℝ} (hx : 0 ≤ x) (hy : 0 ≤ y) (hz : 0 ≤ z) (he : 0 ≤ e) (hf : 0 ≤ f) (hg : 0 ≤ g)
    (h1 : |a| ≤ x + e) (h2 : |b| ≤ y + f) (h3 : |c| ≤ z + g) :
    √(a ^ 2 + b ^ 2 + c ^ 2) ≤ √(x ^ 2 + y ^ 2 + z ^ 2) + (e + f + g) := by
  have s : (√(x ^ 2 + y ^ 2 + z ^ 2)) ^ 2 = x ^ 2 + y ^ 2 + z ^ 2 := Real.sq_sqrt (by positivity)
  obtain ⟨H, hH⟩ : ∃ H, H = √(x ^ 2 + y ^ 2 + z ^ 2) := ⟨_, rfl⟩
  have H0 : 0 ≤ H := hH ▸ Real.sqrt_nonneg _
  rw [← hH] at s ⊢
  have kx : x ≤ H := by nlinarith
  have ky : y ≤ H := by nlinarith
  have kz : z ≤ H := by nlinarith
  rw [Real.sqrt_le_left (by positivity)]
  have q : ∀ {a x : ℝ}, |a| ≤ x → a ^ 2 ≤ x ^ 2 := fun h => by rw [← sq_abs]; exact pow_le_pow_left₀ (abs_nonneg _) h 2
  have p1 := mul_le_mul_of_nonneg_right kx he
  have p2 := mul_le_mul_of_nonneg_right ky hf
  have p3 := mul_le_mul_of_nonneg_right kz hg
  have p4 := mul_nonneg he hf
  have p5 := mul_nonneg he hg
  have p6 := mul_nonneg hf hg
  nlinarith [q h1, q h2, q h3]

/-- half a computed length -/
theorem half_length {l : F32} {L' D : ℝ} (hl : l.isFin = true) (h : |l.val - L'| ≤ L' / 2 ^ 18) (hL : |L' - D| ≤ D / 2 ^ 23)
    (h1 : 1 / 2 ^ 48 ≤ D) (h2 : D ≤ 2 ^ 60) :
    (Fp.mul l (Fp.lit 1 2)).isFin = true ∧ |(Fp.mul l (Fp.lit 1 2)).val - D / 2| ≤ D / 2 ^ 18 := by
  have k : (Fp.lit 1 2 : F32).isFin = true ∧ (Fp.lit 1 2 : F32).val = 1 / 2 := by
    have := lit_dyadic (n := 1) (k := 1) (by decide) (by decide)
    norm_num at this; exact this
  obtain ⟨a1, a2⟩ := _root_.abs_le.1 h
  obtain ⟨b1, b2⟩ := _root_.abs_le.1 hL
  have lb : |l.val| ≤ 2 * D := by rw [_root_.abs_le]; constructor <;> (norm_num at *; linarith)
  have e := prod_approx hl k.1 (by rw [k.2, _root_.abs_mul]; norm_num at *; linarith)
  refine ⟨e.fin, ?_⟩
  have e1 := e.err
  rw [k.2, _root_.abs_mul] at e1
  have : |(1 / 2 : ℝ)| = 1 / 2 := by norm_num
  rw [this] at e1
  generalize |l.val| = q at *
  rw [_root_.abs_le] at e1 ⊢
  norm_num at *
  constructor <;> linarith [e1.1, e1.2]

/-- C121: `graphene_box_get_bounding_sphere`: its centre is the centre of the box, its radius half the diagonal `D` up to `D/2^18`, and every
point of the box is within the radius of the centre, up to a relative 2^-18 and the rounding of the coordinates of the centre. -/
theorem C121_box_sphere (bk : Backend) (he : EstAccurate bk) (lo hi : Point3D F32) (hx : SaneAxis lo.x hi.x) (hy : SaneAxis lo.y hi.y)
    (hz : SaneAxis lo.z hi.z) {D : ℝ} (hD : D = eucl (exactPoint3 lo) (exactPoint3 hi)) (h1 : 1 / 2 ^ 48 ≤ D) (h2 : D ≤ 2 ^ 60) :
    let b := Box.init (some lo) (some hi)
    let s := b.getBoundingSphere bk
    s.getCenter = b.getCenter ∧ s.getRadius.isFin = true ∧ |s.getRadius.val - D / 2| ≤ D / 2 ^ 18 ∧
    ∀ p ∈ between (exactPoint3 lo) (exactPoint3 hi), eucl (exactPoint3 s.getCenter) p ≤ s.getRadius.val + D / 2 ^ 18 +
      (|lo.x.val + hi.x.val| + |lo.y.val + hi.y.val| + |lo.z.val + hi.z.val|) / 2 ^ 23 + 1 / 2 ^ 148 := by
  intro b s
  obtain ⟨x1, x2, x3, x4, x5⟩ := hx
  obtain ⟨y1, y2, y3, y4, y5⟩ := hy
  obtain ⟨z1, z2, z3, z4, z5⟩ := hz
  obtain ⟨cx1, cx2, cx3, cx4⟩ := mid_between x1 x2 x3 x4 x5
  obtain ⟨cy1, cy2, cy3, cy4⟩ := mid_between y1 y2 y3 y4 y5
  obtain ⟨cz1, cz2, cz3, cz4⟩ := mid_between z1 z2 z3 z4 z5
  have ne : b.isEmpty = false := by
    rw [← Bool.not_eq_true, isEmpty_iff]
    rintro ⟨h, -⟩
    change lo.x = _ at h
    rw [h] at x1; cases x1
  have ni : b.isInfinity = false := by
    rw [← Bool.not_eq_true, isInfinity_iff]
    rintro ⟨h, -⟩
    change lo.x = _ at h
    rw [h] at x1; cases x1
  have cen : b.getCenter = ⟨Fp.mul (Fp.add lo.x hi.x) (Fp.lit 1 2), Fp.mul (Fp.add lo.y hi.y) (Fp.lit 1 2),
      Fp.mul (Fp.add lo.z hi.z) (Fp.lit 1 2)⟩ := by
    unfold Box.getCenter; rw [ne, ni]; rfl
  have siz : b.getSize = ⟨Simd4f.sub b.max.value b.min.value⟩ := by
    unfold Box.getSize; rw [ne, ni]; rfl
  have sc : s.getCenter = b.getCenter := rfl
  have sq : D ^ 2 = (hi.x.val - lo.x.val) ^ 2 + (hi.y.val - lo.y.val) ^ 2 + (hi.z.val - lo.z.val) ^ 2 := by
    rw [hD]; unfold eucl
    rw [Real.sq_sqrt (by unfold distSq; positivity)]; simp only [distSq, exactPoint3]; ring
  have D0 : 0 ≤ D := _root_.le_trans (by positivity) h1
  have comp : ∀ {t : ℝ}, t ^ 2 ≤ D ^ 2 → |t| ≤ D := fun h => abs_le_of_sq_le_sq h D0
  have kx := comp (t := hi.x.val - lo.x.val) (by rw [sq]; nlinarith [sq_nonneg (hi.y.val - lo.y.val), sq_nonneg (hi.z.val - lo.z.val)])
  have ky := comp (t := hi.y.val - lo.y.val) (by rw [sq]; nlinarith [sq_nonneg (hi.x.val - lo.x.val), sq_nonneg (hi.z.val - lo.z.val)])
  have kz := comp (t := hi.z.val - lo.z.val) (by rw [sq]; nlinarith [sq_nonneg (hi.x.val - lo.x.val), sq_nonneg (hi.y.val - lo.y.val)])
  have nx := near_sub x2 x1 (kx.trans (h2.trans (by norm_num)))
  have ny := near_sub y2 y1 (ky.trans (h2.trans (by norm_num)))
  have nz := near_sub z2 z1 (kz.trans (h2.trans (by norm_num)))
  have ln := len3_near (E := D / 2 ^ 24) (by positivity) (nx.2.trans (by gcongr)) (ny.2.trans (by gcongr)) (nz.2.trans (by gcongr))
  rw [← sq, Real.sqrt_sq D0] at ln
  have ln' := ln.trans (show 2 * (D / 2 ^ 24) ≤ D / 2 ^ 23 by norm_num; linarith)
  obtain ⟨q1, q2⟩ := _root_.abs_le.1 ln'
  have len := C99_length3 bk he b.getSize (by rw [siz]; exact ⟨nx.1, ny.1, nz.1⟩) (L := √((Fp.sub hi.x lo.x).val ^ 2 + (Fp.sub hi.y lo.y).val ^ 2 + (Fp.sub hi.z lo.z).val ^ 2))
    (by rw [siz]; rfl) (by norm_num at q1 h1 ⊢; linarith) (by norm_num at q2 h2 ⊢; linarith)
  have rad := half_length len.1 len.2 ln' h1 h2
  refine ⟨sc, rad.1, rad.2, ?_⟩
  rintro p ⟨p1, p2, p3, p4, p5, p6⟩
  rw [sc, cen]
  simp only [exactPoint3] at p1 p2 p3 p4 p5 p6
  have hp : 0 ≤ (2⁻¹ : ℝ) ^ 150 := by positivity
  have side : ∀ {c l h t : ℝ}, |c - (l + h) / 2| ≤ 2⁻¹ ^ 23 * |l + h| + 2⁻¹ ^ 150 → l ≤ t → t ≤ h →
      |c - t| ≤ (h - l) / 2 + (2⁻¹ ^ 23 * |l + h| + 2⁻¹ ^ 150) := by
    intro c l h t hc h1 h2
    rw [_root_.abs_le] at hc ⊢
    constructor <;> linarith [hc.1, hc.2]
  have fin := len3_le_add (by linarith) (by linarith) (by linarith) (by positivity) (by positivity) (by positivity)
    (side cx4 p1 p2) (side cy4 p3 p4) (side cz4 p5 p6)
  have hh : √(((hi.x.val - lo.x.val) / 2) ^ 2 + ((hi.y.val - lo.y.val) / 2) ^ 2 + ((hi.z.val - lo.z.val) / 2) ^ 2) = D / 2 := by
    rw [show ((hi.x.val - lo.x.val) / 2) ^ 2 + ((hi.y.val - lo.y.val) / 2) ^ 2 + ((hi.z.val - lo.z.val) / 2) ^ 2 = (D / 2) ^ 2 by
      rw [show (D / 2) ^ 2 = D ^ 2 / 4 by ring, sq]; ring]
    exact Real.sqrt_sq (by linarith)
  rw [hh] at fin
  have rr := (_root_.abs_le.1 rad.2).1
  refine fin.trans ?_
  change _ ≤ (Fp.mul (Vec3.length bk b.getSize) (Fp.lit 1 2)).val + _ + _ + _
  clear_value s b
  clear fin hh side len rad ln ln' kx ky kz nx ny nz cx4 cy4 cz4
  norm_num at rr ⊢
  linarith

/-! ### Transformed spheres -/

/-- the largest stretch of the three axes of a matrix -/
noncomputable def Spec.stretch (m : M4 ℝ) : ℝ :=
  √(max (max (m.x.x ^ 2 + m.x.y ^ 2 + m.x.z ^ 2) (m.y.x ^ 2 + m.y.y ^ 2 + m.y.z ^ 2)) (m.z.x ^ 2 + m.z.y ^ 2 + m.z.z ^ 2))

/-- the images of the three axes are orthogonal up to `δ`, relative to the largest stretch -/
def Spec.AlmostOrthogonal (δ : ℝ) (m : M4 ℝ) : Prop :=
  |m.x.x * m.y.x + m.x.y * m.y.y + m.x.z * m.y.z| ≤ δ * stretch m ^ 2 ∧
  |m.x.x * m.z.x + m.x.y * m.z.y + m.x.z * m.z.z| ≤ δ * stretch m ^ 2 ∧
  |m.y.x * m.z.x + m.y.y * m.z.y + m.y.z * m.z.z| ≤ δ * stretch m ^ 2

omit [Libm binary32] in
/-- distances grow at most by the largest stretch, up to the defect of orthogonality -/
theorem stretch_bound {δ : ℝ} {m : M4 ℝ} (h : AlmostOrthogonal δ m) (hd : 0 ≤ δ) (p q : Point3D ℝ) :
    eucl (image m p) (image m q) ≤ eucl p q * stretch m * (1 + δ) := by
  obtain ⟨h1, h2, h3⟩ := h
  have hK : stretch m ^ 2 = max (max (m.x.x ^ 2 + m.x.y ^ 2 + m.x.z ^ 2) (m.y.x ^ 2 + m.y.y ^ 2 + m.y.z ^ 2)) (m.z.x ^ 2 + m.z.y ^ 2 + m.z.z ^ 2) := by
    unfold stretch; exact Real.sq_sqrt ((by positivity : (0 : ℝ) ≤ m.z.x ^ 2 + m.z.y ^ 2 + m.z.z ^ 2).trans (le_max_right _ _))
  have k1 : m.x.x ^ 2 + m.x.y ^ 2 + m.x.z ^ 2 ≤ stretch m ^ 2 := hK ▸ (le_max_left _ _).trans (le_max_left _ _)
  have k2 : m.y.x ^ 2 + m.y.y ^ 2 + m.y.z ^ 2 ≤ stretch m ^ 2 := hK ▸ (le_max_right _ _).trans (le_max_left _ _)
  have k3 : m.z.x ^ 2 + m.z.y ^ 2 + m.z.z ^ 2 ≤ stretch m ^ 2 := hK ▸ le_max_right _ _
  have K0 : 0 ≤ stretch m := Real.sqrt_nonneg _
  have E0 : 0 ≤ eucl p q := Real.sqrt_nonneg _
  have hE : eucl p q ^ 2 = (p.x - q.x) ^ 2 + (p.y - q.y) ^ 2 + (p.z - q.z) ^ 2 := by
    unfold eucl; rw [Real.sq_sqrt (by unfold distSq; positivity)]; rfl
  unfold eucl at E0 hE ⊢
  rw [Real.sqrt_le_left (by positivity)]
  rw [mul_pow, mul_pow, hE]
  simp only [image_eq, distSq]
  clear hK hE E0
  generalize stretch m ^ 2 = T at *
  obtain ⟨x, hx⟩ : ∃ x, x = p.x - q.x := ⟨_, rfl⟩
  obtain ⟨y, hy⟩ : ∃ x, x = p.y - q.y := ⟨_, rfl⟩
  obtain ⟨z, hz⟩ : ∃ x, x = p.z - q.z := ⟨_, rfl⟩
  rw [← hx, ← hy, ← hz]
  have T0 : 0 ≤ T := _root_.le_trans (by positivity) k1
  have c : ∀ {a b g : ℝ}, |g| ≤ δ * T → 2 * (a * b) * g ≤ (a ^ 2 + b ^ 2) * (δ * T) := by
    intro a b g hg
    have e1 : 2 * (a * b) * g ≤ |2 * (a * b)| * |g| := by rw [← _root_.abs_mul]; exact le_abs_self _
    have e2 : |2 * (a * b)| ≤ a ^ 2 + b ^ 2 := by
      rw [_root_.abs_le]; constructor <;> nlinarith [sq_nonneg (a + b), sq_nonneg (a - b)]
    exact e1.trans (mul_le_mul e2 hg (abs_nonneg _) (by positivity))
  have p1 := mul_le_mul_of_nonneg_left k1 (sq_nonneg x)
  have p2 := mul_le_mul_of_nonneg_left k2 (sq_nonneg y)
  have p3 := mul_le_mul_of_nonneg_left k3 (sq_nonneg z)
  have q1 := c (a := x) (b := y) h1
  have q2 := c (a := x) (b := z) h2
  have q3 := c (a := y) (b := z) h3
  have e : (p.x * m.x.x + p.y * m.y.x + p.z * m.z.x + m.w.x - (q.x * m.x.x + q.y * m.y.x + q.z * m.z.x + m.w.x)) ^ 2 +
      (p.x * m.x.y + p.y * m.y.y + p.z * m.z.y + m.w.y - (q.x * m.x.y + q.y * m.y.y + q.z * m.z.y + m.w.y)) ^ 2 +
      (p.x * m.x.z + p.y * m.y.z + p.z * m.z.z + m.w.z - (q.x * m.x.z + q.y * m.y.z + q.z * m.z.z + m.w.z)) ^ 2
      = x ^ 2 * (m.x.x ^ 2 + m.x.y ^ 2 + m.x.z ^ 2) + y ^ 2 * (m.y.x ^ 2 + m.y.y ^ 2 + m.y.z ^ 2) + z ^ 2 * (m.z.x ^ 2 + m.z.y ^ 2 + m.z.z ^ 2)
        + 2 * (x * y) * (m.x.x * m.y.x + m.x.y * m.y.y + m.x.z * m.y.z) + 2 * (x * z) * (m.x.x * m.z.x + m.x.y * m.z.y + m.x.z * m.z.z)
        + 2 * (y * z) * (m.y.x * m.z.x + m.y.y * m.z.y + m.y.z * m.z.z) := by
    rw [hx, hy, hz]; ring
  rw [e]
  have last : (x ^ 2 + y ^ 2 + z ^ 2) * T * (1 + δ) ^ 2 = (x ^ 2 + y ^ 2 + z ^ 2) * T + 2 * δ * ((x ^ 2 + y ^ 2 + z ^ 2) * T) + δ ^ 2 * ((x ^ 2 + y ^ 2 + z ^ 2) * T) := by ring
  rw [last]
  have : 0 ≤ δ ^ 2 * ((x ^ 2 + y ^ 2 + z ^ 2) * T) := by positivity
  linarith

/-- the largest of three computed squared lengths -/
theorem max3_near {a b c : F32} {A B C : ℝ} (ha : a.isFin = true ∧ 0 ≤ a.val ∧ |a.val - A| ≤ dotErr A)
    (hb : b.isFin = true ∧ 0 ≤ b.val ∧ |b.val - B| ≤ dotErr B) (hc : c.isFin = true ∧ 0 ≤ c.val ∧ |c.val - C| ≤ dotErr C) :
    let r := fmaxf (fmaxf a b) c
    r.isFin = true ∧ 0 ≤ r.val ∧ |r.val - max (max A B) C| ≤ dotErr (max (max A B) C) := by
  intro r
  obtain ⟨r1, r2, r3, r4⟩ := foldl_fmaxf id [b, c] a ha.1 (by
    intro x hx
    simp only [List.mem_cons, List.not_mem_nil, or_false] at hx
    rcases hx with rfl | rfl
    · exact hb.1
    · exact hc.1)
  change r.isFin = true at r1
  change a.val ≤ r.val at r2
  change r = a ∨ ∃ x ∈ [b, c], r = x at r4
  have r5 : b.val ≤ r.val := r3 b (by simp)
  have r6 : c.val ≤ r.val := r3 c (by simp)
  have mA : A ≤ max (max A B) C := (le_max_left _ _).trans (le_max_left _ _)
  have mB : B ≤ max (max A B) C := (le_max_right _ _).trans (le_max_left _ _)
  have mC : C ≤ max (max A B) C := le_max_right _ _
  refine ⟨r1, ha.2.1.trans r2, ?_⟩
  obtain ⟨-, -, a3⟩ := ha
  obtain ⟨-, -, b3⟩ := hb
  obtain ⟨-, -, c3⟩ := hc
  obtain ⟨T, hT⟩ : ∃ T, T = max (max A B) C := ⟨_, rfl⟩
  have big : T = A ∨ T = B ∨ T = C := by
    rcases max_choice (max A B) C with h | h
    · rcases max_choice A B with h' | h'
      · left; rw [hT, h, h']
      · right; left; rw [hT, h, h']
    · right; right; rw [hT, h]
  rw [← hT] at mA mB mC ⊢
  simp only [dotErr, _root_.abs_le] at a3 b3 c3 ⊢
  have k : ∀ X : ℝ, X ≤ T → X / 2 ^ 22 ≤ T / 2 ^ 22 := fun X h => by gcongr
  have kA := k A mA
  have kB := k B mB
  have kC := k C mC
  constructor
  · rcases big with h | h | h <;> rw [h] at kA kB kC ⊢ <;> linarith
  · rcases r4 with h | ⟨x, hx, h⟩
    · rw [h]; linarith
    · simp only [List.mem_cons, List.not_mem_nil, or_false] at hx
      rcases hx with rfl | rfl <;> rw [h] <;> linarith

/-- the radius of a transformed sphere -/
theorem sphere_radius {d r : F32} {S : ℝ} (hd : d.isFin = true) (h0 : 0 ≤ d.val) (hS : 0 ≤ S) (h : |d.val - S| ≤ dotErr S)
    (hr : r.isFin = true) (r0 : 0 ≤ r.val) (rb : r.val ≤ 2 ^ 60) (Sb : √S ≤ 2 ^ 60) :
    (Fp.mul r (Fp.sqrt d)).isFin = true ∧
    |(Fp.mul r (Fp.sqrt d)).val - r.val * √S| ≤ r.val * √S / 2 ^ 19 + r.val / 2 ^ 71 + 1 / 2 ^ 149 := by
  obtain ⟨f, e⟩ := dist_approx hd h0 hS (h.trans (by unfold dotErr; have : S / 2 ^ 22 ≤ S / 2 ^ 21 := by gcongr <;> norm_num
                                                     linarith))
  obtain ⟨K, hK⟩ : ∃ K, K = √S := ⟨_, rfl⟩
  have K0 : 0 ≤ K := hK ▸ Real.sqrt_nonneg _
  rw [← hK] at e Sb ⊢
  unfold distErr at e
  obtain ⟨q, hq⟩ : ∃ q, q = (Fp.sqrt d).val := ⟨_, rfl⟩
  obtain ⟨ρ, hρ⟩ : ∃ ρ, ρ = r.val := ⟨_, rfl⟩
  have rq : |ρ * q - ρ * K| ≤ ρ * K / 2 ^ 20 + ρ / 2 ^ 72 := by
    rw [← mul_sub, _root_.abs_mul, abs_of_nonneg (hρ ▸ r0), hq]
    have := mul_le_mul_of_nonneg_left e (hρ ▸ r0 : 0 ≤ ρ)
    refine this.trans (le_of_eq ?_); ring
  have rK : 0 ≤ ρ * K := mul_nonneg (hρ ▸ r0) K0
  have rK2 : ρ * K ≤ 2 ^ 120 := by
    have := mul_le_mul (hρ ▸ rb) Sb K0 (by positivity : (0 : ℝ) ≤ 2 ^ 60)
    norm_num at this ⊢; exact this
  have hρ0 : 0 ≤ ρ := hρ ▸ r0
  have hρb : ρ ≤ 2 ^ 60 := hρ ▸ rb
  have ab : |ρ * q| ≤ ρ * K + (ρ * K / 2 ^ 20 + ρ / 2 ^ 72) := by
    have := abs_add_le (ρ * q - ρ * K) (ρ * K)
    rw [sub_add_cancel, abs_of_nonneg rK] at this
    linarith
  have m := prod_approx hr f (by rw [← hq, ← hρ]; norm_num at ab rK2 hρb ⊢; linarith)
  refine ⟨m.fin, ?_⟩
  have e2 := m.err
  rw [← hq, ← hρ] at e2
  rw [← hρ]
  generalize |ρ * q| = w at *
  generalize ρ * K = t at *
  rw [_root_.abs_le] at *
  norm_num at e2 rq ab ⊢
  constructor <;> linarith [e2.1, e2.2, rq.1, rq.2]

/-- C121: `graphene_matrix_transform_sphere`: the centre is the exact image up to `ε`, the radius is scaled by the largest stretch of the
three axes, up to a relative 2^-19; and when the axes stay orthogonal up to `δ`, the transformed sphere contains the image of every
point of the sphere, up to those errors. -/
theorem C121_transform_sphere (bk : Backend) (m : M4 F32) (c : Point3D F32) (r : F32) (hm : FinMat m) (hc : FinPoint c) {M N : ℝ}
    (hM : |c.x.val| ≤ M ∧ |c.y.val| ≤ M ∧ |c.z.val| ≤ M) (hN : ∀ i j, |rmat m i j| ≤ N) (hMN : (3 * M + 1) * N ≤ 2 ^ 126) (N2 : N ≤ 2 ^ 58)
    (hr : r.isFin = true) (r0 : 0 ≤ r.val) (rb : r.val ≤ 2 ^ 60) :
    let s := GMatrix.transformSphere bk m (Sphere.init (some c) r)
    let ε := dotErr ((3 * M + 1) * N)
    let f := fun p => image (exactMat m) p
    let K := stretch (exactMat m)
    FinPoint s.getCenter ∧
    |s.getCenter.x.val - (f (exactPoint3 c)).x| ≤ ε ∧ |s.getCenter.y.val - (f (exactPoint3 c)).y| ≤ ε ∧ |s.getCenter.z.val - (f (exactPoint3 c)).z| ≤ ε ∧
    s.getRadius.isFin = true ∧ |s.getRadius.val - r.val * K| ≤ r.val * K / 2 ^ 19 + r.val / 2 ^ 71 + 1 / 2 ^ 149 ∧
    (∀ δ, AlmostOrthogonal δ (exactMat m) → ∀ p, eucl (exactPoint3 c) p ≤ r.val →
      eucl (exactPoint3 s.getCenter) (f p) ≤ s.getRadius.val + (r.val * K / 2 ^ 19 + r.val / 2 ^ 71 + 1 / 2 ^ 149) + r.val * K * δ + 2 * ε) := by
  intro s ε f K
  obtain ⟨M1, M2, M3⟩ := hM
  obtain ⟨c1, c2, c3⟩ := hc
  have k := fun j : Fin 4 => point3_lane (hm 0 j) (hm 1 j) (hm 2 j) (hm 3 j) c1 c2 c3 M1 M2 M3 (hN 0 j) (hN 1 j) (hN 2 j) (hN 3 j) hMN
  have N0 : 0 ≤ N := (abs_nonneg _).trans (hN 0 0)
  have ε0 : 0 ≤ ε := (abs_nonneg _).trans (k 0).2
  have sqb : ∀ i j, rmat m i j ^ 2 ≤ 2 ^ 116 := fun i j => by
    have := pow_le_pow_left₀ (abs_nonneg _) ((hN i j).trans N2) 2
    rw [sq_abs] at this; norm_num at this ⊢; exact this
  have d := fun (v : Vec3 F32) h1 h2 => dot3_self bk v h1 h2
  have rx := d ⟨m.x⟩ ⟨hm 0 0, hm 0 1, hm 0 2⟩ (by
    have := sqb 0 0; have := sqb 0 1; have := sqb 0 2
    change rmat m 0 0 ^ 2 + rmat m 0 1 ^ 2 + rmat m 0 2 ^ 2 ≤ _; norm_num at *; linarith)
  have ry := d ⟨m.y⟩ ⟨hm 1 0, hm 1 1, hm 1 2⟩ (by
    have := sqb 1 0; have := sqb 1 1; have := sqb 1 2
    change rmat m 1 0 ^ 2 + rmat m 1 1 ^ 2 + rmat m 1 2 ^ 2 ≤ _; norm_num at *; linarith)
  have rz := d ⟨m.z⟩ ⟨hm 2 0, hm 2 1, hm 2 2⟩ (by
    have := sqb 2 0; have := sqb 2 1; have := sqb 2 2
    change rmat m 2 0 ^ 2 + rmat m 2 1 ^ 2 + rmat m 2 2 ^ 2 ≤ _; norm_num at *; linarith)
  have mx := max3_near rx ry rz
  have K2 : K ≤ 2 ^ 60 := by
    change √_ ≤ _
    rw [Real.sqrt_le_left (by positivity)]
    have t : ∀ i, rmat m i 0 ^ 2 + rmat m i 1 ^ 2 + rmat m i 2 ^ 2 ≤ (2 ^ 60) ^ 2 := fun i => by
      have := sqb i 0; have := sqb i 1; have := sqb i 2; norm_num at *; linarith
    exact max_le (max_le (t 0) (t 1)) (t 2)
  have rad := sphere_radius mx.1 mx.2.1 ((by positivity : (0 : ℝ) ≤ _ ^ 2 + _ ^ 2 + _ ^ 2).trans (le_max_right _ _)) mx.2.2 hr r0 rb K2
  change s.getRadius.isFin = true ∧ |s.getRadius.val - r.val * K| ≤ r.val * K / 2 ^ 19 + r.val / 2 ^ 71 + 1 / 2 ^ 149 at rad
  have cx : |s.getCenter.x.val - (f (exactPoint3 c)).x| ≤ ε := by simp only [f, image_eq]; exact (k 0).2
  have cy : |s.getCenter.y.val - (f (exactPoint3 c)).y| ≤ ε := by simp only [f, image_eq]; exact (k 1).2
  have cz : |s.getCenter.z.val - (f (exactPoint3 c)).z| ≤ ε := by simp only [f, image_eq]; exact (k 2).2
  refine ⟨⟨(k 0).1, (k 1).1, (k 2).1⟩, cx, cy, cz, rad.1, rad.2, fun δ hδ p hp => ?_⟩
  have K0 : 0 ≤ K := Real.sqrt_nonneg _
  have d0 : 0 ≤ δ * K ^ 2 := (abs_nonneg _).trans hδ.1
  have main : eucl (f (exactPoint3 c)) (f p) ≤ r.val * K + r.val * K * δ := by
    rcases lt_or_ge δ 0 with h | h
    · have k0 : K = 0 := by
        by_contra hK
        have : 0 < K ^ 2 := by positivity
        nlinarith
      have := stretch_bound (δ := 0) (m := exactMat m) (by
        obtain ⟨e1, e2, e3⟩ := hδ
        change |_| ≤ δ * K ^ 2 at e1; change |_| ≤ δ * K ^ 2 at e2; change |_| ≤ δ * K ^ 2 at e3
        rw [k0] at e1 e2 e3
        norm_num at e1 e2 e3
        refine ⟨?_, ?_, ?_⟩
        · rw [e1]; simp
        · rw [e2]; simp
        · rw [e3]; simp) le_rfl (exactPoint3 c) p
      change _ ≤ _ * K * _ at this
      rw [k0] at this ⊢
      simpa using this
    · have := stretch_bound hδ h (exactPoint3 c) p
      change _ ≤ _ * K * _ at this
      refine this.trans ?_
      have := mul_le_mul_of_nonneg_right hp (mul_nonneg K0 (by linarith : 0 ≤ 1 + δ))
      linarith
  have nr := len3_near ε0 cx cy cz
  have tri : eucl (exactPoint3 s.getCenter) (f p) ≤ eucl (f (exactPoint3 c)) (f p) + 2 * ε := by
    have e1 : |(s.getCenter.x.val - (f p).x) - ((f (exactPoint3 c)).x - (f p).x)| ≤ ε := by rw [sub_sub_sub_cancel_right]; exact cx
    have e2 : |(s.getCenter.y.val - (f p).y) - ((f (exactPoint3 c)).y - (f p).y)| ≤ ε := by rw [sub_sub_sub_cancel_right]; exact cy
    have e3 : |(s.getCenter.z.val - (f p).z) - ((f (exactPoint3 c)).z - (f p).z)| ≤ ε := by rw [sub_sub_sub_cancel_right]; exact cz
    have := (_root_.abs_le.1 (len3_near ε0 e1 e2 e3)).2
    unfold eucl distSq
    change √((s.getCenter.x.val - _) ^ 2 + (s.getCenter.y.val - _) ^ 2 + (s.getCenter.z.val - _) ^ 2) ≤ _
    linarith
  have := (_root_.abs_le.1 rad.2).1
  linarith

/-! ### Transformed rays -/

/-- the exact image of a direction -/
def Spec.imageVec (m : M4 ℝ) (v : Point3D ℝ) : Point3D ℝ :=
  ⟨v.x * m.x.x + v.y * m.y.x + v.z * m.z.x, v.x * m.x.y + v.y * m.y.y + v.z * m.z.y, v.x * m.x.z + v.y * m.y.z + v.z * m.z.z⟩

/-- the components of a vector -/
noncomputable def Spec.exactVec3 (v : Vec3 F32) : Point3D ℝ := ⟨v.getX.val, v.getY.val, v.getZ.val⟩

/-- the length of a vector -/
noncomputable def Spec.norm3 (v : Point3D ℝ) : ℝ := √(v.x ^ 2 + v.y ^ 2 + v.z ^ 2)

omit [Libm binary32] in
/-- unit vectors of two vectors that are close -/
theorem unit_near {w v W V η : ℝ} (hV : 0 < V) (hW : 0 < W) (h : |w - v| ≤ η) (hl : |W - V| ≤ 2 * η) (hw : |w| ≤ W) :
    |w / W - v / V| ≤ 3 * η / V := by
  have e : w / W - v / V = (w - v) / V + w / W * ((V - W) / V) := by field_simp; ring
  have a1 : |(w - v) / V| ≤ η / V := by rw [abs_div, abs_of_pos hV]; gcongr
  have a2 : |w / W| ≤ 1 := by rw [abs_div, abs_of_pos hW, div_le_one hW]; exact hw
  have a3 : |(V - W) / V| ≤ 2 * η / V := by rw [abs_div, abs_of_pos hV, _root_.abs_sub_comm]; gcongr
  rw [e]
  refine (abs_add_le _ _).trans ?_
  rw [_root_.abs_mul]
  have := mul_le_mul a2 a3 (abs_nonneg _) zero_le_one
  have k : 3 * η / V = η / V + 1 * (2 * η / V) := by ring
  rw [k]; linarith

omit [Libm binary32] in
/-- a component of a unit vector up to rounding -/
theorem unit_comp_near {c : F32} {w v W V η : ℝ} (hc : UnitComp c w W) (hV : 0 < V) (hW : 0 < W) (h : |w - v| ≤ η) (hl : |W - V| ≤ 2 * η) (hw : |w| ≤ W) :
    c.isFin = true ∧ |c.val - v / V| ≤ 1 / 2 ^ 18 + 3 * η / V := by
  refine ⟨hc.1, ?_⟩
  have a := hc.2
  have b := unit_near hV hW h hl hw
  have d : |w| / W ≤ 1 := by rw [div_le_one hW]; exact hw
  have := abs_add_le (c.val - w / W) (w / W - v / V)
  rw [sub_add_sub_cancel] at this
  generalize |w| / W = t at *
  norm_num at a b this ⊢
  linarith

/-- C121: `graphene_matrix_transform_ray`: the origin is the exact image up to rounding, and the direction is the exact image of the
direction, normalised, up to 2^-18 and three times the relative error of the image; the result is a unit ray again. -/
theorem C121_transform_ray (bk : Backend) (he : EstAccurate bk) (m : M4 F32) (r : Ray F32) (hm : FinMat m) (ho : FinPoint r.getOrigin) {M A N V η : ℝ}
    (hM : |r.getOrigin.x.val| ≤ M ∧ |r.getOrigin.y.val| ≤ M ∧ |r.getOrigin.z.val| ≤ M)
    (hd : r.getDirection.getX.isFin = true ∧ r.getDirection.getY.isFin = true ∧ r.getDirection.getZ.isFin = true)
    (hA : |r.getDirection.getX.val| ≤ A ∧ |r.getDirection.getY.val| ≤ A ∧ |r.getDirection.getZ.val| ≤ A)
    (hN : ∀ i j, |rmat m i j| ≤ N) (hMN : (3 * M + 1) * N ≤ 2 ^ 126) (hAN : 3 * A * N ≤ 2 ^ 126)
    (hV : V = norm3 (imageVec (exactMat m) (exactVec3 r.getDirection))) (hη : η = dotErr (3 * A * N))
    (V1 : 1 / 2 ^ 10 ≤ V) (V2 : V ≤ 2 ^ 61) (sm : η ≤ V / 4) :
    let s := GMatrix.transformRay bk m r
    let ε := dotErr ((3 * M + 1) * N)
    let o := image (exactMat m) (exactPoint3 r.getOrigin)
    let d := imageVec (exactMat m) (exactVec3 r.getDirection)
    UnitRay s ∧
    |s.getOrigin.x.val - o.x| ≤ ε ∧ |s.getOrigin.y.val - o.y| ≤ ε ∧ |s.getOrigin.z.val - o.z| ≤ ε ∧
    |s.getDirection.getX.val - d.x / V| ≤ 1 / 2 ^ 18 + 3 * η / V ∧
    |s.getDirection.getY.val - d.y / V| ≤ 1 / 2 ^ 18 + 3 * η / V ∧
    |s.getDirection.getZ.val - d.z / V| ≤ 1 / 2 ^ 18 + 3 * η / V := by
  intro s ε o d
  obtain ⟨M1, M2, M3⟩ := hM
  obtain ⟨A1, A2, A3⟩ := hA
  obtain ⟨o1, o2, o3⟩ := ho
  obtain ⟨d1, d2, d3⟩ := hd
  have N0 : 0 ≤ N := (abs_nonneg _).trans (hN 0 0)
  have mono : ∀ {S T : ℝ}, S ≤ T → dotErr S ≤ dotErr T := fun h => by unfold dotErr; gcongr
  have pr : ∀ {x a B : ℝ}, |x| ≤ B → |a| ≤ N → |x * a| ≤ B * N := fun h1 h2 => by
    rw [_root_.abs_mul]; exact mul_le_mul h1 h2 (abs_nonneg _) ((abs_nonneg _).trans h1)
  -- the origin
  have ob : ∀ j : Fin 4, ∑ i, |rvec (Vec4.initFromVec3 r.origin f1).value i * rmat m i j| ≤ (3 * M + 1) * N := by
    intro j
    rw [Fin.sum_univ_four]
    have e1 := pr M1 (hN 0 j)
    have e2 := pr M2 (hN 1 j)
    have e3 := pr M3 (hN 2 j)
    have e4 : |rvec (Vec4.initFromVec3 r.origin f1).value 3 * rmat m 3 j| ≤ N := by
      have : rvec (Vec4.initFromVec3 r.origin f1).value 3 = 1 := is_f1.val
      rw [this, _root_.one_mul]; exact hN 3 j
    have : (3 * M + 1) * N = M * N + M * N + M * N + N := by ring
    rw [this]
    change |r.getOrigin.x.val * _| + |r.getOrigin.y.val * _| + |r.getOrigin.z.val * _| + _ ≤ _
    linarith
  have og := fun j => C87_transform_vec4 m (Vec4.initFromVec3 r.origin f1) hm (by
    intro i; fin_cases i
    · exact o1
    · exact o2
    · exact o3
    · exact is_f1.fin) j ((ob j).trans hMN)
  have oc : ∀ j : Fin 4, ∑ i, rvec (Vec4.initFromVec3 r.origin f1).value i * rmat m i j =
      r.getOrigin.x.val * rmat m 0 j + r.getOrigin.y.val * rmat m 1 j + r.getOrigin.z.val * rmat m 2 j + rmat m 3 j := by
    intro j
    rw [Fin.sum_univ_four]
    have : rvec (Vec4.initFromVec3 r.origin f1).value 3 = 1 := is_f1.val
    rw [this, _root_.one_mul]; rfl
  have ox : |s.getOrigin.x.val - o.x| ≤ ε := by
    have := (og 0).2.trans (mono (ob 0)); rw [oc] at this
    simp only [o, image_eq]; exact this
  have oy : |s.getOrigin.y.val - o.y| ≤ ε := by
    have := (og 1).2.trans (mono (ob 1)); rw [oc] at this
    simp only [o, image_eq]; exact this
  have oz : |s.getOrigin.z.val - o.z| ≤ ε := by
    have := (og 2).2.trans (mono (ob 2)); rw [oc] at this
    simp only [o, image_eq]; exact this
  -- the direction
  have db : ∀ j : Fin 3, |r.getDirection.getX.val * rmat m 0 j.castSucc| + |r.getDirection.getY.val * rmat m 1 j.castSucc|
      + |r.getDirection.getZ.val * rmat m 2 j.castSucc| ≤ 3 * A * N := fun j => by
    have e1 := pr A1 (hN 0 j.castSucc)
    have e2 := pr A2 (hN 1 j.castSucc)
    have e3 := pr A3 (hN 2 j.castSucc)
    have : 3 * A * N = A * N + A * N + A * N := by ring
    rw [this]; linarith
  have dg := fun j => C87_transform_vec3 m r.getDirection hm d1 d2 d3 j ((db j).trans hAN)
  obtain ⟨w, hw⟩ : ∃ w, w = GMatrix.transformVec3 m r.getDirection := ⟨_, rfl⟩
  have wx : w.getX.isFin = true ∧ |w.getX.val - d.x| ≤ η := by rw [hw, hη]; exact ⟨(dg 0).1, (dg 0).2.trans (mono (db 0))⟩
  have wy : w.getY.isFin = true ∧ |w.getY.val - d.y| ≤ η := by rw [hw, hη]; exact ⟨(dg 1).1, (dg 1).2.trans (mono (db 1))⟩
  have wz : w.getZ.isFin = true ∧ |w.getZ.val - d.z| ≤ η := by rw [hw, hη]; exact ⟨(dg 2).1, (dg 2).2.trans (mono (db 2))⟩
  have η0 : 0 ≤ η := (abs_nonneg _).trans wx.2
  have ln := len3_near η0 wx.2 wy.2 wz.2
  obtain ⟨W, hW⟩ : ∃ W, W = √(w.getX.val ^ 2 + w.getY.val ^ 2 + w.getZ.val ^ 2) := ⟨_, rfl⟩
  have hV' : √(d.x ^ 2 + d.y ^ 2 + d.z ^ 2) = V := hV.symm
  rw [← hW, hV'] at ln
  obtain ⟨l1, l2⟩ := _root_.abs_le.1 ln
  have V0 : 0 < V := lt_of_lt_of_le (by positivity) V1
  have W0 : 0 < W := by linarith
  have nl : NormLen bk W := ⟨by norm_num at V1 ⊢; linarith, by norm_num at V2 ⊢; linarith, fun _ _ => by norm_num at V1 ⊢; linarith⟩
  obtain ⟨f0', f1', f2', f3', f4'⟩ := C99_ray bk he ⟨w.getX, w.getY, w.getZ⟩ w ⟨wx.1, wy.1, wz.1⟩ hW nl
  have sd : s.getDirection = (Ray.init bk (some (⟨w.getX, w.getY, w.getZ⟩ : Point3D F32)) (some w)).getDirection := by rw [hw]; rfl
  rw [← sd] at f1' f2' f3' f4'
  have sqW : W ^ 2 = w.getX.val ^ 2 + w.getY.val ^ 2 + w.getZ.val ^ 2 := by rw [hW]; exact Real.sq_sqrt (by positivity)
  have cw : ∀ {t : ℝ}, t ^ 2 ≤ W ^ 2 → |t| ≤ W := fun h => abs_le_of_sq_le_sq h W0.le
  have gx := unit_comp_near f1' V0 W0 wx.2 ln (cw (by rw [sqW]; nlinarith [sq_nonneg w.getY.val, sq_nonneg w.getZ.val]))
  have gy := unit_comp_near f2' V0 W0 wy.2 ln (cw (by rw [sqW]; nlinarith [sq_nonneg w.getX.val, sq_nonneg w.getZ.val]))
  have gz := unit_comp_near f3' V0 W0 wz.2 ln (cw (by rw [sqW]; nlinarith [sq_nonneg w.getX.val, sq_nonneg w.getY.val]))
  exact ⟨⟨⟨(og 0).1, (og 1).1, (og 2).1⟩, ⟨gx.1, gy.1, gz.1⟩, f4'⟩, ox, oy, oz, gx.2, gy.2, gz.2⟩

/-- a box, and a matrix turning and stretching, with a sphere and a ray, that meet the conditions -/
example : ∃ (lo hi : Point3D F32) (m : M4 F32) (r : Ray F32),
    (SaneAxis lo.x hi.x ∧ SaneAxis lo.y hi.y ∧ SaneAxis lo.z hi.z ∧ 1 / 2 ^ 48 ≤ eucl (exactPoint3 lo) (exactPoint3 hi) ∧
      eucl (exactPoint3 lo) (exactPoint3 hi) ≤ 2 ^ 60) ∧
    FinMat m ∧ (∀ i j, |rmat m i j| ≤ 7) ∧ rmat m 0 1 ≠ 0 ∧ AlmostOrthogonal 0 (exactMat m) ∧
    FinPoint r.getOrigin ∧ |r.getDirection.getX.val| ≤ 1 ∧
    norm3 (imageVec (exactMat m) (exactVec3 r.getDirection)) = 5 := by
  have g : ∀ n : ℤ, n.natAbs ≤ 7 → (lit n 1 : F32).isFin = true ∧ (lit n 1 : F32).val = n := fun n hn => lit_int n (by omega)
  have c0 := g 0 (by decide)
  have c1 := g 1 (by decide)
  have c3 := g 3 (by decide)
  have c4 := g 4 (by decide)
  have c7 := g 7 (by decide)
  have d4 := g (-4) (by decide)
  have d1 := g (-1) (by decide)
  have v0 : (lit 0 1 : F32).val = 0 := by simpa using c0.2
  have v1 : (lit 1 1 : F32).val = 1 := by simpa using c1.2
  have v3 : (lit 3 1 : F32).val = 3 := by simpa using c3.2
  have v4 : (lit 4 1 : F32).val = 4 := by simpa using c4.2
  have v7 : (lit 7 1 : F32).val = 7 := by simpa using c7.2
  have w4 : (lit (-4) 1 : F32).val = -4 := by simpa using d4.2
  have w1 : (lit (-1) 1 : F32).val = -1 := by simpa using d1.2
  have ax : SaneAxis (lit (-1) 1) (lit 1 1) := ⟨d1.1, c1.1, by rw [w1, v1]; norm_num, by rw [w1]; norm_num, by rw [v1]; norm_num⟩
  have ed : eucl (exactPoint3 ⟨lit (-1) 1, lit (-1) 1, lit (-1) 1⟩) (exactPoint3 ⟨lit 1 1, lit 1 1, lit 1 1⟩) = √12 := by
    simp only [eucl, distSq, exactPoint3, v1, w1]; norm_num
  refine ⟨⟨lit (-1) 1, lit (-1) 1, lit (-1) 1⟩, ⟨lit 1 1, lit 1 1, lit 1 1⟩,
    ⟨⟨lit 3 1, lit 4 1, lit 0 1, lit 0 1⟩, ⟨lit (-4) 1, lit 3 1, lit 0 1, lit 0 1⟩, ⟨lit 0 1, lit 0 1, lit 1 1, lit 0 1⟩,
    ⟨lit 7 1, lit 7 1, lit 1 1, lit 1 1⟩⟩, ⟨Vec3.init (lit 7 1) (lit 3 1) (lit 0 1), Vec3.init (lit 1 1) (lit 0 1) (lit 0 1)⟩,
    ⟨ax, ax, ax, ?_, ?_⟩, ?_, ?_, ?_, ?_, ⟨c7.1, c3.1, c0.1⟩, ?_, ?_⟩
  · rw [ed]; exact Real.le_sqrt_of_sq_le (by norm_num)
  · rw [ed, Real.sqrt_le_left (by norm_num)]; norm_num
  · intro i j; fin_cases i <;> fin_cases j <;> first | exact c0.1 | exact c1.1 | exact c3.1 | exact c4.1 | exact c7.1 | exact d4.1
  · have k0 : |(lit 0 1 : F32).val| ≤ 7 := by rw [v0]; norm_num
    have k1 : |(lit 1 1 : F32).val| ≤ 7 := by rw [v1]; norm_num
    have k3 : |(lit 3 1 : F32).val| ≤ 7 := by rw [v3]; norm_num
    have k4 : |(lit 4 1 : F32).val| ≤ 7 := by rw [v4]; norm_num
    have k7 : |(lit 7 1 : F32).val| ≤ 7 := by rw [v7]; norm_num
    have j4 : |(lit (-4) 1 : F32).val| ≤ 7 := by rw [w4]; norm_num
    intro i j; fin_cases i <;> fin_cases j <;> first | exact k0 | exact k1 | exact k3 | exact k4 | exact k7 | exact j4
  · change (lit 4 1 : F32).val ≠ 0; rw [v4]; norm_num
  · simp only [AlmostOrthogonal, exactMat, v0, v1, v3, v4, w4]; norm_num
  · change |(lit 1 1 : F32).val| ≤ 1; rw [v1]; norm_num
  · have e : exactVec3 (⟨Vec3.init (lit 7 1) (lit 3 1) (lit 0 1), Vec3.init (lit 1 1) (lit 0 1) (lit 0 1)⟩ : Ray F32).getDirection = ⟨1, 0, 0⟩ := by
      change (⟨(lit 1 1 : F32).val, (lit 0 1 : F32).val, (lit 0 1 : F32).val⟩ : Point3D ℝ) = _
      rw [v1, v0]
    rw [e]
    simp only [norm3, imageVec, exactMat, v0, v1, v3, v4, w4]
    rw [show ((1 : ℝ) * 3 + 0 * -4 + 0 * 0) ^ 2 + (1 * 4 + 0 * 3 + 0 * 0) ^ 2 + (1 * 0 + 0 * 0 + 0 * 1) ^ 2 = 5 ^ 2 by norm_num]
    exact Real.sqrt_sq (by norm_num)

end Graphene

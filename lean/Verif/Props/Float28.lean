/-
  C117 (continued): the point of a ray nearest to a given point, and its distance, in single precision.
-/
import Verif.Props.Float23
import Verif.Props.Float27

set_option exponentiation.threshold 3000

namespace Graphene
open Fp Spec
variable [Libm binary32]

omit [Libm binary32] in
/-- the parameter of the nearest point, clamped at the origin -/
theorem nearest_param {s L θ q tca d2 r2 : ℝ} (n : SphereNear s L 0 θ q tca d2 r2) (h0 : 0 ≤ tca) (w : ℝ) :
    sphF s L θ tca ≤ sphF s L θ w + q ^ 2 / 2 ^ 32 := by
  have q0 := n.q0
  obtain ⟨a1, a2⟩ := _root_.abs_le.1 n.hθ
  have e : sphF s L θ w - sphF s L θ tca = (1 + θ) * (w - tca) ^ 2 + 2 * (w - tca) * ((tca - s) + θ * tca) := by unfold sphF; ring
  obtain ⟨x, hx⟩ : ∃ x, x = w - tca := ⟨_, rfl⟩
  obtain ⟨y, hy⟩ : ∃ y, y = (tca - s) + θ * tca := ⟨_, rfl⟩
  rw [← hx, ← hy] at e
  have tb : |tca| ≤ 102 / 100 * q := by
    have := abs_add_le (tca - s) s
    rw [sub_add_cancel] at this
    have := n.s_le; have := n.tca
    norm_num at *; linarith
  have yb : |y| ≤ q * (5 / 4 / 2 ^ 17) := by
    rw [hy]
    refine (abs_add_le _ _).trans ?_
    rw [_root_.abs_mul]
    have := mul_le_mul n.hθ tb (abs_nonneg _) (by positivity)
    have := n.tca
    norm_num at *; linarith
  have y2 : y ^ 2 ≤ q ^ 2 * (25 / 16 / 2 ^ 34) := by
    rw [← sq_abs]
    refine (pow_le_pow_left₀ (abs_nonneg _) yb 2).trans (le_of_eq (by ring))
  have h1 : (99 / 100 : ℝ) ≤ 1 + θ := by norm_num at a1; linarith
  have h2 : 0 ≤ (1 + θ) * x ^ 2 + 2 * x * y + y ^ 2 * (100 / 99) := by
    have : (99 / 100) * x ^ 2 ≤ (1 + θ) * x ^ 2 := mul_le_mul_of_nonneg_right h1 (sq_nonneg _)
    nlinarith [sq_nonneg (99 / 100 * x + y)]
  have q2 := sq_nonneg q
  norm_num at y2 ⊢
  linarith

omit [Libm binary32] in
/-- behind the origin, the origin itself is nearest -/
theorem nearest_origin {s L θ q tca d2 r2 : ℝ} (n : SphereNear s L 0 θ q tca d2 r2) (h0 : tca < 0) {w : ℝ} (hw : 0 ≤ w) :
    sphF s L θ 0 ≤ sphF s L θ w + q ^ 2 / 2 ^ 32 := by
  have q0 := n.q0
  obtain ⟨a1, a2⟩ := _root_.abs_le.1 n.hθ
  obtain ⟨b1, b2⟩ := _root_.abs_le.1 n.tca
  have e : sphF s L θ w - sphF s L θ 0 = (1 + θ) * w ^ 2 - 2 * w * s := by unfold sphF; ring
  have sb : s ≤ q / 2 ^ 20 := by linarith
  have h1 : (1 / 2 : ℝ) ≤ 1 + θ := by norm_num at a1; linarith
  have h2 : (1 / 2) * w ^ 2 ≤ (1 + θ) * w ^ 2 := mul_le_mul_of_nonneg_right h1 (sq_nonneg _)
  have h3 : w * s ≤ w * (q / 2 ^ 20) := mul_le_mul_of_nonneg_left sb hw
  have h4 := sq_nonneg (w - 2 * (q / 2 ^ 20))
  have q2 := sq_nonneg q
  have h5 : (w - 2 * (q / 2 ^ 20)) ^ 2 = w ^ 2 - 4 * (w * (q / 2 ^ 20)) + q ^ 2 * (4 / 2 ^ 40) := by ring
  rw [h5] at h4
  generalize w * (q / 2 ^ 20) = z at *
  norm_num at *
  linarith

/-- the sphere of radius 0 about a point: only a device of the proof, to reuse the analysis of spheres -/
theorem closest_setup (bk : Backend) (r : Ray F32) (p : Point3D F32) (hr : UnitRay r) (hp : FinPoint p)
    {Q : ℝ} (hQ : Q = distSq (exactPoint3 r.getOrigin) (exactPoint3 p)) (hQ1 : 1 / 2 ^ 100 ≤ Q) (hQ2 : Q ≤ 2 ^ 120) :
    let tca := Vec3.dot bk (Vec3.subtract p.toVec3 r.origin) r.direction
    ∃ q : ℝ, 0 < q ∧ q ^ 2 = Q ∧ q ≤ 2 ^ 60 ∧ tca.isFin = true ∧ |tca.val| ≤ 102 / 100 * q ∧
      (0 ≤ tca.val → ∀ w, distSq (rayPoint r tca.val) (exactPoint3 p) ≤ distSq (rayPoint r w) (exactPoint3 p) + Q / 2 ^ 32) ∧
      (tca.val < 0 → ∀ w, 0 ≤ w → distSq (rayPoint r 0) (exactPoint3 p) ≤ distSq (rayPoint r w) (exactPoint3 p) + Q / 2 ^ 32) := by
  intro tca
  have hf0 := is_f0
  obtain ⟨S, L, θ, q, qq, q2, ft, -, -, n, feq⟩ := sphere_setup bk r ⟨p.toVec3, f0⟩ hr hp hf0.fin (Q := Q)
    (by rw [hQ, show (Sphere.getRadius (⟨p.toVec3, f0⟩ : Sphere F32)).val = 0 from hf0.val]
        change _ = distSq _ (exactPoint3 p) + 0 ^ 2; ring) hQ1 hQ2
  rw [show (⟨p.toVec3, f0⟩ : Sphere F32).radius.val = 0 from hf0.val] at n
  have feq : ∀ u, distSq (rayPoint r u) (exactPoint3 p) = sphF S L θ u := feq
  have n : SphereNear S L 0 θ q tca.val _ _ := n
  have tb : |tca.val| ≤ 102 / 100 * q := by
    have := abs_add_le (tca.val - S) S
    rw [sub_add_cancel] at this
    have := n.s_le; have := n.tca; have := n.q0
    norm_num at *; linarith
  refine ⟨q, n.q0, qq, q2, ft, tb, fun h w => ?_, fun h w hw => ?_⟩
  · rw [feq, feq, ← qq]; exact nearest_param n h w
  · rw [feq, feq, ← qq]; exact nearest_origin n h hw

theorem unit_comp {r : Ray F32} (hr : UnitRay r) : |r.getDirection.getX.val| ≤ 101 / 100 ∧ |r.getDirection.getY.val| ≤ 101 / 100 ∧ |r.getDirection.getZ.val| ≤ 101 / 100 := by
  obtain ⟨-, -, h⟩ := hr
  obtain ⟨-, h⟩ := _root_.abs_le.1 h
  have h1 := sq_nonneg r.getDirection.getX.val
  have h2 := sq_nonneg r.getDirection.getY.val
  have h3 := sq_nonneg r.getDirection.getZ.val
  norm_num at h
  refine ⟨?_, ?_, ?_⟩ <;> apply abs_le_of_sq_le_sq _ (by norm_num) <;> norm_num <;> linarith

/-- C117: `graphene_ray_get_closest_point_to_point` in single precision.  The answer is, coordinate by coordinate and up to 2^-22 of
the magnitude of the terms, a point of the ray at some parameter `u ≥ 0`, and no point of the ray is closer in squared distance by
more than `Q / 2^32`, `Q` being the squared distance of the point from the origin of the ray. -/
theorem C117_closest (bk : Backend) (r : Ray F32) (p : Point3D F32) (hr : UnitRay r) (hp : FinPoint p)
    {Q : ℝ} (hQ : Q = distSq (exactPoint3 r.getOrigin) (exactPoint3 p)) (hQ1 : 1 / 2 ^ 100 ≤ Q) (hQ2 : Q ≤ 2 ^ 120)
    (hox : |r.getOrigin.x.val| ≤ 2 ^ 100) (hoy : |r.getOrigin.y.val| ≤ 2 ^ 100) (hoz : |r.getOrigin.z.val| ≤ 2 ^ 100) :
    let c := r.getClosestPointToPoint bk p
    let e := fun (u o d : ℝ) => (|d * u| + |o|) / 2 ^ 22 + 1 / 2 ^ 149
    ∃ u : ℝ, 0 ≤ u ∧
      (∀ w, 0 ≤ w → distSq (rayPoint r u) (exactPoint3 p) ≤ distSq (rayPoint r w) (exactPoint3 p) + Q / 2 ^ 32) ∧
      FinPoint c ∧
      |c.x.val - (rayPoint r u).x| ≤ e u r.getOrigin.x.val r.getDirection.getX.val ∧
      |c.y.val - (rayPoint r u).y| ≤ e u r.getOrigin.y.val r.getDirection.getY.val ∧
      |c.z.val - (rayPoint r u).z| ≤ e u r.getOrigin.z.val r.getDirection.getZ.val := by
  intro c e
  obtain ⟨q, q0, qq, q2, ft, tb, c1, c2⟩ := closest_setup bk r p hr hp hQ hQ1 hQ2
  obtain ⟨u1, u2, u3⟩ := unit_comp hr
  obtain ⟨⟨o1, o2, o3⟩, ⟨d1, d2, d3⟩, -⟩ := hr
  set tca := Vec3.dot bk (Vec3.subtract p.toVec3 r.origin) r.direction with htca
  have lt0 : (tca <. f0) = true ↔ tca.val < 0 := by
    rw [f0_eq]; exact (lt_iff_val (isNaN_of_isFin ft) rfl).trans (by rw [val_zero])
  have res : c = Point3D.initFromVec3 (if (tca <. f0) = true then r.origin else Vec3.add (Vec3.scale r.direction tca) r.origin) := rfl
  by_cases hneg : tca.val < 0
  · rw [if_pos (lt0.2 hneg)] at res
    have res : c = r.getOrigin := res
    have z : ∀ x y : ℝ, |x - (x + 0 * y)| ≤ e 0 x y := by
      intro x y; rw [MulZeroClass.zero_mul, _root_.add_zero, sub_self, abs_zero]; simp only [e]; positivity
    exact ⟨0, le_rfl, c2 hneg, by rw [res]; exact ⟨o1, o2, o3⟩, by rw [res]; exact z _ _, by rw [res]; exact z _ _, by rw [res]; exact z _ _⟩
  · rw [if_neg (fun h => hneg (lt0.1 h))] at res
    have bd : ∀ d o : ℝ, |d| ≤ 101 / 100 → |o| ≤ 2 ^ 100 → |d * tca.val| + |o| ≤ 2 ^ 126 := by
      intro d o h1 h2
      rw [_root_.abs_mul]
      have := mul_le_mul h1 (tb.trans (mul_le_mul_of_nonneg_left q2 (by norm_num))) (abs_nonneg _) (by norm_num)
      norm_num at this h2 ⊢; linarith
    obtain ⟨f1, e1⟩ := axpy_approx d1 ft o1 (bd _ _ u1 hox)
    obtain ⟨f2, e2⟩ := axpy_approx d2 ft o2 (bd _ _ u2 hoy)
    obtain ⟨f3, e3⟩ := axpy_approx d3 ft o3 (bd _ _ u3 hoz)
    exact ⟨tca.val, not_lt.1 hneg, fun w _ => c1 (not_lt.1 hneg) w, by rw [res]; exact ⟨f1, f2, f3⟩, by rw [res]; exact e1, by rw [res]; exact e2, by rw [res]; exact e3⟩

omit [Libm binary32] in
/-- the length of a vector known up to a small error in each coordinate -/
theorem len3_near {a b c x y z E : ℝ} (hE : 0 ≤ E) (h1 : |a - x| ≤ E) (h2 : |b - y| ≤ E) (h3 : |c - z| ≤ E) :
    |√(a ^ 2 + b ^ 2 + c ^ 2) - √(x ^ 2 + y ^ 2 + z ^ 2)| ≤ 2 * E := by
  have l3 : ∀ a b c : ℝ, len ![a, b, c, 0] = √(a ^ 2 + b ^ 2 + c ^ 2) := by
    intro a b c; unfold len; congr 1; rw [Fin.sum_univ_four]; simp
  have t : ∀ a b c x y z : ℝ, |a - x| ≤ E → |b - y| ≤ E → |c - z| ≤ E → √(a ^ 2 + b ^ 2 + c ^ 2) ≤ √(x ^ 2 + y ^ 2 + z ^ 2) + 2 * E := by
    intro a b c x y z h1 h2 h3
    have e : (![a, b, c, 0] : Fin 4 → ℝ) = ![x, y, z, 0] + ![a - x, b - y, c - z, 0] := by
      funext i; fin_cases i <;> simp
    have h := len_add ![x, y, z, 0] ![a - x, b - y, c - z, 0]
    rw [← e, l3, l3] at h
    have g := len_le_of (v := ![a - x, b - y, c - z, 0]) hE (by intro i; fin_cases i <;> simp <;> assumption)
    linarith
  rw [_root_.abs_le]
  have k1 := t a b c x y z h1 h2 h3
  have k2 := t x y z a b c (by rw [_root_.abs_sub_comm]; exact h1) (by rw [_root_.abs_sub_comm]; exact h2) (by rw [_root_.abs_sub_comm]; exact h3)
  constructor <;> linarith

/-- one coordinate of the vector from the point to the nearest point -/
theorem foot_coord {d t o p : F32} (hd : d.isFin = true) (ht : t.isFin = true) (ho : o.isFin = true) (hp : p.isFin = true) {M q : ℝ}
    (hdb : |d.val| ≤ 101 / 100) (htb : |t.val| ≤ 102 / 100 * q) (hob : |o.val| ≤ M) (hop : |o.val - p.val| ≤ q) (hq0 : 0 ≤ q)
    (hM : M ≤ 2 ^ 100) (hq : q ≤ 2 ^ 60) (hMq : 1 / 2 ^ 50 ≤ M + q) :
    (Fp.sub (Fp.add (Fp.mul d t) o) p).isFin = true ∧
    |(Fp.sub (Fp.add (Fp.mul d t) o) p).val - (o.val + t.val * d.val - p.val)| ≤ (M + q) / 2 ^ 21 ∧
    |o.val + t.val * d.val - p.val| ≤ 3 * q := by
  have M0 := (abs_nonneg _).trans hob
  have dt : |d.val * t.val| ≤ 104 / 100 * q := by
    rw [_root_.abs_mul]
    have := mul_le_mul hdb htb (abs_nonneg _) (by norm_num)
    linarith
  obtain ⟨f1, e1⟩ := axpy_approx hd ht ho (by norm_num [-_root_.abs_mul] at hM hq ⊢; linarith)
  set tmp := Fp.add (Fp.mul d t) o
  have e3 : |o.val + t.val * d.val - p.val| ≤ 3 * q := by
    rw [show o.val + t.val * d.val - p.val = (o.val - p.val) + d.val * t.val by ring]
    exact (abs_add_le _ _).trans (by linarith)
  have e2 : |tmp.val - p.val| ≤ 3 * q + ((104 / 100 * q + M) / 2 ^ 22 + 1 / 2 ^ 149) := by
    rw [show tmp.val - p.val = (o.val + t.val * d.val - p.val) + (tmp.val - (o.val + t.val * d.val)) by ring]
    refine (abs_add_le _ _).trans (add_le_add e3 (e1.trans ?_))
    gcongr
  have s := near_sub f1 hp (e2.trans (by norm_num at hM hq ⊢; linarith))
  refine ⟨s.1, ?_, e3⟩
  rw [show (Fp.sub tmp p).val - (o.val + t.val * d.val - p.val) = ((Fp.sub tmp p).val - (tmp.val - p.val)) + (tmp.val - (o.val + t.val * d.val)) by ring]
  refine (abs_add_le _ _).trans ?_
  have s2 := s.2
  generalize |d.val * t.val| = y1 at *
  generalize |o.val| = y2 at *
  generalize |tmp.val - p.val| = y3 at *
  generalize |(Fp.sub tmp p).val - (tmp.val - p.val)| = y4 at *
  generalize |tmp.val - (o.val + t.val * d.val)| = y5 at *
  norm_num at e1 e2 s2 hMq ⊢
  linarith

/-- a computed length of a nearly known vector -/
theorem foot_length (bk : Backend) (hbk : bk ≠ .neon) {v : Vec3 F32} {x y z G : ℝ}
    (f1 : v.getX.isFin = true) (f2 : v.getY.isFin = true) (f3 : v.getZ.isFin = true)
    (e1 : |v.getX.val - x| ≤ G / 2 ^ 21) (e2 : |v.getY.val - y| ≤ G / 2 ^ 21) (e3 : |v.getZ.val - z| ≤ G / 2 ^ 21)
    (x1 : |x| ≤ 3 * G) (y1 : |y| ≤ 3 * G) (z1 : |z| ≤ 3 * G) (small : |x| ≤ 3 * 2 ^ 60 ∧ |y| ≤ 3 * 2 ^ 60 ∧ |z| ≤ 3 * 2 ^ 60) (hG : 1 / 2 ^ 50 ≤ G) (hG2 : G ≤ 2 ^ 62) :
    (Vec3.length bk v).isFin = true ∧ |(Vec3.length bk v).val - √(x ^ 2 + y ^ 2 + z ^ 2)| ≤ G / 2 ^ 18 := by
  have G0 : 0 ≤ G := _root_.le_trans (by positivity) hG
  have b : ∀ {a x : ℝ}, |a - x| ≤ G / 2 ^ 21 → |x| ≤ 3 * 2 ^ 60 → a ^ 2 ≤ 2 ^ 124 := by
    intro a x h1 h2
    have := abs_add_le (a - x) x
    rw [sub_add_cancel] at this
    have h : |a| ≤ 31 / 10 * 2 ^ 60 := by norm_num at *; linarith
    rw [← sq_abs]
    exact (pow_le_pow_left₀ (abs_nonneg _) h 2).trans (by norm_num)
  obtain ⟨fl, el⟩ := C85_length3 bk hbk v ⟨f1, f2, f3⟩ (by
    have := b e1 small.1; have := b e2 small.2.1; have := b e3 small.2.2
    norm_num at *; linarith)
  refine ⟨fl, ?_⟩
  have n := len3_near (by positivity) e1 e2 e3
  have lx : √(x ^ 2 + y ^ 2 + z ^ 2) ≤ 53 / 10 * G := by
    apply Real.sqrt_le_iff.2 ⟨by positivity, ?_⟩
    have h : ∀ {x : ℝ}, |x| ≤ 3 * G → x ^ 2 ≤ 9 * G ^ 2 := by
      intro x h; rw [← sq_abs]; exact (pow_le_pow_left₀ (abs_nonneg _) h 2).trans (le_of_eq (by ring))
    have := h x1; have := h y1; have := h z1
    nlinarith [sq_nonneg G]
  unfold lengthErr at el
  set l := (Vec3.length bk v).val
  set l1 := √(v.getX.val ^ 2 + v.getY.val ^ 2 + v.getZ.val ^ 2)
  set l2 := √(x ^ 2 + y ^ 2 + z ^ 2)
  have k := abs_add_le (l - l1) (l1 - l2)
  rw [sub_add_sub_cancel] at k
  have := le_of_abs_le n
  refine k.trans ?_
  norm_num at el n hG this ⊢
  linarith

/-- C117: `graphene_ray_get_distance_to_point` in single precision on the backends with a square root (all but NEON), for an origin
with coordinates up to `M` and a point at distance `√Q` from it: the answer is the exact distance to a point of the ray, and at most
the distance to any point of the ray, up to `(M + √Q) / 2^15`. -/
theorem C117_point_distance (bk : Backend) (hbk : bk ≠ .neon) (r : Ray F32) (p : Point3D F32) (hr : UnitRay r) (hp : FinPoint p)
    {Q M : ℝ} (hQ : Q = distSq (exactPoint3 r.getOrigin) (exactPoint3 p)) (hQ1 : 1 / 2 ^ 100 ≤ Q) (hQ2 : Q ≤ 2 ^ 120)
    (hox : |r.getOrigin.x.val| ≤ M) (hoy : |r.getOrigin.y.val| ≤ M) (hoz : |r.getOrigin.z.val| ≤ M) (hM : M ≤ 2 ^ 60) :
    let t := r.getDistanceToPoint bk p
    t.isFin = true ∧
    (∃ u, 0 ≤ u ∧ |t.val - eucl (rayPoint r u) (exactPoint3 p)| ≤ (M + √Q) / 2 ^ 18) ∧
    (∀ w, 0 ≤ w → t.val ≤ eucl (rayPoint r w) (exactPoint3 p) + (M + √Q) / 2 ^ 15) := by
  intro t
  obtain ⟨q, q0, qq, q2, ft, tb, c1, c2⟩ := closest_setup bk r p hr hp hQ hQ1 hQ2
  have M0 := (abs_nonneg _).trans hox
  have q1 : 1 / 2 ^ 50 ≤ q := by
    refine (sq_le_sq₀ (by positivity) q0.le).1 ?_
    rw [qq]; norm_num at hQ1 ⊢; linarith
  have sq : √Q = q := by rw [← qq]; exact Real.sqrt_sq q0.le
  rw [sq]
  obtain ⟨u1, u2, u3⟩ := unit_comp hr
  obtain ⟨⟨o1, o2, o3⟩, ⟨d1, d2, d3⟩, -⟩ := hr
  have comp : |r.getOrigin.x.val - p.x.val| ≤ q ∧ |r.getOrigin.y.val - p.y.val| ≤ q ∧ |r.getOrigin.z.val - p.z.val| ≤ q := by
    have e : q ^ 2 = (r.getOrigin.x.val - p.x.val) ^ 2 + (r.getOrigin.y.val - p.y.val) ^ 2 + (r.getOrigin.z.val - p.z.val) ^ 2 := by rw [qq, hQ]; rfl
    have h1 := sq_nonneg (r.getOrigin.x.val - p.x.val)
    have h2 := sq_nonneg (r.getOrigin.y.val - p.y.val)
    have h3 := sq_nonneg (r.getOrigin.z.val - p.z.val)
    refine ⟨?_, ?_, ?_⟩ <;> apply abs_le_of_sq_le_sq _ q0.le <;> linarith
  obtain ⟨k1, k2, k3⟩ := comp
  set tca := Vec3.dot bk (Vec3.subtract p.toVec3 r.origin) r.direction with htca
  have lt0 : (tca <. f0) = true ↔ tca.val < 0 := by
    rw [f0_eq]; exact (lt_iff_val (isNaN_of_isFin ft) rfl).trans (by rw [val_zero])
  have res : t = if (tca <. f0) = true then Vec3.length bk (Vec3.subtract r.origin p.toVec3) else
    Vec3.length bk (Vec3.subtract (Vec3.add (Vec3.scale r.direction tca) r.origin) p.toVec3) := rfl
  -- from one point of the ray to all of them
  have fin : ∀ u, 0 ≤ u → |t.val - eucl (rayPoint r u) (exactPoint3 p)| ≤ (M + q) / 2 ^ 18 →
      (∀ w, 0 ≤ w → distSq (rayPoint r u) (exactPoint3 p) ≤ distSq (rayPoint r w) (exactPoint3 p) + Q / 2 ^ 32) →
      (∃ u, 0 ≤ u ∧ |t.val - eucl (rayPoint r u) (exactPoint3 p)| ≤ (M + q) / 2 ^ 18) ∧
      (∀ w, 0 ≤ w → t.val ≤ eucl (rayPoint r w) (exactPoint3 p) + (M + q) / 2 ^ 15) := by
    intro u hu h1 h2
    refine ⟨⟨u, hu, h1⟩, fun w hw => ?_⟩
    have e1 : eucl (rayPoint r u) (exactPoint3 p) ≤ eucl (rayPoint r w) (exactPoint3 p) + q / 2 ^ 16 := by
      apply Real.sqrt_le_iff.2
      have n := Real.sqrt_nonneg (distSq (rayPoint r w) (exactPoint3 p))
      have s : eucl (rayPoint r w) (exactPoint3 p) ^ 2 = distSq (rayPoint r w) (exactPoint3 p) :=
        Real.sq_sqrt (by unfold distSq; positivity)
      have n' : 0 ≤ eucl (rayPoint r w) (exactPoint3 p) := n
      refine ⟨by positivity, (h2 w hw).trans ?_⟩
      rw [← s, ← qq]
      have := mul_nonneg n' q0.le
      rw [show (eucl (rayPoint r w) (exactPoint3 p) + q / 2 ^ 16) ^ 2 = eucl (rayPoint r w) (exactPoint3 p) ^ 2 + q ^ 2 / 2 ^ 32 +
        eucl (rayPoint r w) (exactPoint3 p) * q / 2 ^ 15 by ring]
      have : 0 ≤ eucl (rayPoint r w) (exactPoint3 p) * q / 2 ^ 15 := by positivity
      linarith
    have := le_of_abs_le h1
    norm_num at this e1 ⊢; linarith
  have G1 : 1 / 2 ^ 50 ≤ M + q := by linarith
  have G2 : M + q ≤ 2 ^ 62 := by norm_num at hM q2 ⊢; linarith
  have sm : ∀ {x : ℝ}, |x| ≤ 3 * q → |x| ≤ 3 * (M + q) := fun h => by linarith
  by_cases hneg : tca.val < 0
  · rw [if_pos (lt0.2 hneg)] at res
    have cc : ∀ {a b : F32}, a.isFin = true → b.isFin = true → |a.val - b.val| ≤ q →
        (Fp.sub a b).isFin = true ∧ |(Fp.sub a b).val - (a.val - b.val)| ≤ (M + q) / 2 ^ 21 := by
      intro a b ha hb h
      have := near_sub ha hb (h.trans (q2.trans (by norm_num)))
      refine ⟨this.1, this.2.trans ?_⟩
      norm_num; linarith
    obtain ⟨x1, x2⟩ := cc o1 hp.1 k1
    obtain ⟨y1, y2⟩ := cc o2 hp.2.1 k2
    obtain ⟨z1, z2⟩ := cc o3 hp.2.2 k3
    have B : ∀ {x : ℝ}, |x| ≤ q → |x| ≤ 3 * 2 ^ 60 := fun h => h.trans (q2.trans (by norm_num))
    obtain ⟨fl, el⟩ := foot_length bk hbk (v := Vec3.subtract r.origin p.toVec3) x1 y1 z1 x2 y2 z2 (by linarith) (by linarith) (by linarith)
      ⟨B k1, B k2, B k3⟩ G1 G2
    refine ⟨by rw [res]; exact fl, fin 0 le_rfl ?_ (fun w hw => c2 hneg w hw)⟩
    rw [res]
    have ee : eucl (rayPoint r 0) (exactPoint3 p) = √((r.getOrigin.x.val - p.x.val) ^ 2 + (r.getOrigin.y.val - p.y.val) ^ 2 + (r.getOrigin.z.val - p.z.val) ^ 2) := by
      simp only [eucl, distSq, rayPoint, exactPoint3, MulZeroClass.zero_mul, _root_.add_zero]
    rw [ee]; exact el
  · rw [if_neg (fun h => hneg (lt0.1 h))] at res
    have M1 : M ≤ 2 ^ 100 := hM.trans (by norm_num)
    obtain ⟨x1, x2, x3⟩ := foot_coord d1 ft o1 hp.1 u1 tb hox k1 q0.le M1 q2 G1
    obtain ⟨y1, y2, y3⟩ := foot_coord d2 ft o2 hp.2.1 u2 tb hoy k2 q0.le M1 q2 G1
    obtain ⟨z1, z2, z3⟩ := foot_coord d3 ft o3 hp.2.2 u3 tb hoz k3 q0.le M1 q2 G1
    have B : ∀ {x : ℝ}, |x| ≤ 3 * q → |x| ≤ 3 * 2 ^ 60 := fun h => h.trans (by norm_num at q2 ⊢; linarith)
    obtain ⟨fl, el⟩ := foot_length bk hbk (v := Vec3.subtract (Vec3.add (Vec3.scale r.direction tca) r.origin) p.toVec3) x1 y1 z1 x2 y2 z2 (sm x3) (sm y3) (sm z3)
      ⟨B x3, B y3, B z3⟩ G1 G2
    refine ⟨by rw [res]; exact fl, fin tca.val (not_lt.1 hneg) ?_ (fun w _ => c1 (not_lt.1 hneg) w)⟩
    rw [res]; exact el

/-- C117: the rays of the theorems are those `graphene_ray_init` makes from a finite origin and a direction of moderate length. -/
theorem C117_made_rays (bk : Backend) (he : EstAccurate bk) (o : Point3D F32) (d : Vec3 F32) (ho : FinPoint o)
    (hfin : d.getX.isFin = true ∧ d.getY.isFin = true ∧ d.getZ.isFin = true)
    (hn : NormLen bk √(d.getX.val ^ 2 + d.getY.val ^ 2 + d.getZ.val ^ 2)) : UnitRay (Ray.init bk (some o) (some d)) := by
  obtain ⟨h0, h1, h2, h3, h4⟩ := C99_ray bk he o d hfin rfl hn
  exact ⟨by rw [h0]; exact ho, ⟨h1.1, h2.1, h3.1⟩, h4⟩

/-! ### A concrete ray: from the origin along the first axis -/

private def exRay : Ray F32 := ⟨Vec3.init (Fp.lit 0 1) (Fp.lit 0 1) (Fp.lit 0 1), Vec3.init (Fp.lit 1 1) (Fp.lit 0 1) (Fp.lit 0 1)⟩

private theorem litv (n : ℤ) (h : n.natAbs ≤ 2 ^ 24) : (Fp.lit n 1 : F32).isFin = true ∧ (Fp.lit n 1 : F32).val = n := lit_int n h

private theorem exRay_vals : exRay.getOrigin.x.val = 0 ∧ exRay.getOrigin.y.val = 0 ∧ exRay.getOrigin.z.val = 0 ∧
    exRay.getDirection.getX.val = 1 ∧ exRay.getDirection.getY.val = 0 ∧ exRay.getDirection.getZ.val = 0 := by
  have e1 : (Fp.lit 1 1 : F32).val = 1 := by simpa using (litv 1 (by decide)).2
  have e0 : (Fp.lit 0 1 : F32).val = 0 := by simpa using (litv 0 (by decide)).2
  exact ⟨e0, e0, e0, e1, e0, e0⟩

private theorem exRay_unit : UnitRay exRay := by
  have l0 := (litv 0 (by decide)).1
  obtain ⟨-, -, -, h1, h2, h3⟩ := exRay_vals
  refine ⟨⟨l0, l0, l0⟩, ⟨(litv 1 (by decide)).1, l0, l0⟩, ?_⟩
  rw [h1, h2, h3]; norm_num

private theorem lv (n : ℤ) (x : ℝ) (h : n.natAbs ≤ 2 ^ 24) (e : (n : ℝ) = x) : (Fp.lit n 1 : F32).val = x := (litv n h).2.trans e

/-- a sphere it enters, whose centre lies deep inside -/
example : let s : Sphere F32 := ⟨Vec3.init (Fp.lit 5 1) (Fp.lit 0 1) (Fp.lit 0 1), Fp.lit 1 1⟩
    UnitRay exRay ∧ FinPoint s.getCenter ∧ s.getRadius.isFin = true ∧
    distSq (exactPoint3 exRay.getOrigin) (exactPoint3 s.getCenter) + s.getRadius.val ^ 2 = 26 ∧
    distSq (rayPoint exRay 5) (exactPoint3 s.getCenter) ≤ s.getRadius.val ^ 2 - 26 / 2 ^ 12 := by
  intro s
  have l0 := (litv 0 (by decide)).1
  obtain ⟨o1, o2, o3, h1, h2, h3⟩ := exRay_vals
  have c1 : s.getCenter.x.val = 5 := lv 5 5 (by decide) (by norm_num)
  have c2 : s.getCenter.y.val = 0 := lv 0 0 (by decide) (by norm_num)
  have c3 : s.getCenter.z.val = 0 := lv 0 0 (by decide) (by norm_num)
  have r1 : s.getRadius.val = 1 := lv 1 1 (by decide) (by norm_num)
  refine ⟨exRay_unit, ⟨(litv 5 (by decide)).1, l0, l0⟩, (litv 1 (by decide)).1, ?_, ?_⟩ <;>
    simp only [distSq, rayPoint, exactPoint3, o1, o2, o3, h1, h2, h3, c1, c2, c3, r1] <;> norm_num

/-- a plane it is clearly heading for -/
example : let pl : Plane F32 := ⟨Vec3.init (Fp.lit 1 1) (Fp.lit 0 1) (Fp.lit 0 1), Fp.lit (-5) 1⟩
    FinPlane pl ∧ planeMag pl exRay.getOrigin ≤ 5 ∧ climbMag pl exRay ≤ 1 ∧ 1 / 2 ^ 23 + 1 / 2 ^ 21 ≤ |climb pl exRay| ∧
    5 / 2 ^ 20 + 1 / 2 ^ 80 < |planeVal pl (rayPoint exRay 0)| ∧ planeVal pl (rayPoint exRay 0) * climb pl exRay < 0 := by
  intro pl
  have l0 := (litv 0 (by decide)).1
  obtain ⟨o1, o2, o3, h1, h2, h3⟩ := exRay_vals
  have n1 : pl.normal.getX.val = 1 := lv 1 1 (by decide) (by norm_num)
  have n2 : pl.normal.getY.val = 0 := lv 0 0 (by decide) (by norm_num)
  have n3 : pl.normal.getZ.val = 0 := lv 0 0 (by decide) (by norm_num)
  have c : pl.constant.val = -5 := lv (-5) (-5) (by decide) (by norm_num)
  refine ⟨⟨(litv 1 (by decide)).1, l0, l0, (litv (-5) (by decide)).1⟩, ?_, ?_, ?_, ?_, ?_⟩ <;>
    simp only [planeMag, climbMag, climb, planeVal, rayPoint, o1, o2, o3, h1, h2, h3, n1, n2, n3, c] <;> norm_num

/-- a point beside it -/
example : let p : Point3D F32 := ⟨Fp.lit 3 1, Fp.lit 4 1, Fp.lit 0 1⟩
    FinPoint p ∧ distSq (exactPoint3 exRay.getOrigin) (exactPoint3 p) = 25 ∧ |exRay.getOrigin.x.val| ≤ 0 ∧
    distSq (rayPoint exRay 3) (exactPoint3 p) = 16 := by
  intro p
  obtain ⟨o1, o2, o3, h1, h2, h3⟩ := exRay_vals
  have p1 : p.x.val = 3 := lv 3 3 (by decide) (by norm_num)
  have p2 : p.y.val = 4 := lv 4 4 (by decide) (by norm_num)
  have p3 : p.z.val = 0 := lv 0 0 (by decide) (by norm_num)
  refine ⟨⟨(litv 3 (by decide)).1, (litv 4 (by decide)).1, (litv 0 (by decide)).1⟩, ?_, ?_, ?_⟩ <;>
    simp only [distSq, rayPoint, exactPoint3, o1, o2, o3, h1, h2, h3, p1, p2, p3] <;> norm_num

end Graphene

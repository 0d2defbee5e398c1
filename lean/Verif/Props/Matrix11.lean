/-
  C69: matrix interpolation, 2D transformations, failures and aliasing.
-/
import Verif.Props.Matrix10

namespace Graphene
open Spec Simd4f Matrix

namespace Spec

/-- rotation by `φ` about the z axis, counter-clockwise -/
noncomputable def turn (φ : ℝ) : Matrix (Fin 4) (Fin 4) ℝ :=
  !![Real.cos φ, Real.sin φ, 0, 0; -Real.sin φ, Real.cos φ, 0, 0; 0, 0, 1, 0; 0, 0, 0, 1]

/-- linear interpolation -/
noncomputable def lerp (a b f : ℝ) : ℝ := (1 - f) * a + f * b

/-- a 2D transformation: scale by `sx`, `sy`, turn by `θ`, translate by `(tx, ty)`; scale and turn commute because the
scale is the same on both axes or there is no turn -/
structure Sim (m : M4 ℝ) (sx sy θ tx ty : ℝ) : Prop where
  eq : mat m = scaleMat ⟨sx, sy, 1⟩ * turn θ * translateMat ⟨tx, ty, 0⟩
  sx_ok : eps ≤ sx
  sy_ok : eps ≤ sy
  det_ok : eps ≤ sx * sy
  range : -Real.pi ≤ θ ∧ θ < Real.pi
  sharp : θ = 0 ∨ eps < |θ|
  commute : sx = sy ∨ θ = 0

end Spec

theorem Spec.Sim.entries {m : M4 ℝ} {sx sy θ tx ty : ℝ} (h : Sim m sx sy θ tx ty) :
    m = ⟨⟨sx * Real.cos θ, sx * Real.sin θ, 0, 0⟩, ⟨-(sy * Real.sin θ), sy * Real.cos θ, 0, 0⟩, ⟨0, 0, 1, 0⟩, ⟨tx, ty, 0, 1⟩⟩ := by
  apply mat_injective
  rw [h.eq]
  ext i j
  fin_cases i <;> fin_cases j <;> simp [scaleMat, turn, translateMat, mat, vec, Matrix.mul_apply, Fin.sum_univ_succ]

theorem Spec.Sim.twoD {m : M4 ℝ} {sx sy θ tx ty : ℝ} (h : Sim m sx sy θ tx ty) : TwoD m := by
  rw [h.entries]; simp [TwoD]

theorem Spec.Sim.decompose {m : M4 ℝ} {sx sy θ tx ty : ℝ} (h : Sim m sx sy θ tx ty) :
    GMatrix.decompose2d m = some (⟨Vec2.init tx ty, Vec2.init sx sy, -θ * (180 / Real.pi), ⟨1, 0, 0, 1⟩⟩ : Decomp2D ℝ ℝ) := by
  have hx : 0 < sx := lt_of_lt_of_le eps_pos h.sx_ok
  have hy : 0 < sy := lt_of_lt_of_le eps_pos h.sy_ok
  have he := h.entries
  have hcs := Real.cos_sq_add_sin_sq θ
  have g00 : GMatrix.getValue m 0 0 = sx * Real.cos θ := by rw [he]; rfl
  have g10 : GMatrix.getValue m 1 0 = -(sy * Real.sin θ) := by rw [he]; rfl
  have g01 : GMatrix.getValue m 0 1 = sx * Real.sin θ := by rw [he]; rfl
  have g11 : GMatrix.getValue m 1 1 = sy * Real.cos θ := by rw [he]; rfl
  have g30 : GMatrix.getValue m 3 0 = tx := by rw [he]; rfl
  have g31 : GMatrix.getValue m 3 1 = ty := by rw [he]; rfl
  have hdet : sx * Real.cos θ * (sy * Real.cos θ) - -(sy * Real.sin θ) * (sx * Real.sin θ) = sx * sy := by
    linear_combination sx * sy * hcs
  have hq1 : √(sx * Real.cos θ * (sx * Real.cos θ) + -(sy * Real.sin θ) * -(sy * Real.sin θ)) = sx := by
    rcases h.commute with rfl | rfl
    · rw [show sx * Real.cos θ * (sx * Real.cos θ) + -(sx * Real.sin θ) * -(sx * Real.sin θ) = sx * sx by
        linear_combination sx * sx * hcs]; exact Real.sqrt_mul_self hx.le
    · simp [Real.sqrt_mul_self hx.le]
  have hq2 : √(sx * Real.sin θ * (sx * Real.sin θ) + sy * Real.cos θ * (sy * Real.cos θ)) = sy := by
    rcases h.commute with rfl | rfl
    · rw [show sx * Real.sin θ * (sx * Real.sin θ) + sx * Real.cos θ * (sx * Real.cos θ) = sx * sx by
        linear_combination sx * sx * hcs]; exact Real.sqrt_mul_self hx.le
    · simp [Real.sqrt_mul_self hy.le]
  have nd : ¬ sx * sy < 0 := not_lt.mpr (by positivity)
  have ax : approxVal sx f0 = false := by
    rw [← Bool.not_eq_true, approxVal_real]; simp [abs_of_pos hx, h.sx_ok]
  have ay : approxVal sy f0 = false := by
    rw [← Bool.not_eq_true, approxVal_real]; simp [abs_of_pos hy, h.sy_ok]
  have c1 : sx * Real.cos θ * (1 / sx) = Real.cos θ := by field_simp
  have c2 : -(sy * Real.sin θ) * (1 / sy) = -Real.sin θ := by field_simp
  have c3 : sx * Real.sin θ * (1 / sx) = Real.sin θ := by field_simp
  have c4 : sy * Real.cos θ * (1 / sy) = Real.cos θ := by field_simp
  have harg : Complex.arg ⟨Real.cos θ, -Real.sin θ⟩ = -θ := by
    have := Complex.arg_cos_add_sin_mul_I (θ := -θ) ⟨by linarith [h.range.2], by linarith [h.range.1]⟩
    rw [← this]
    congr 1
    apply Complex.ext <;> simp [Complex.cos_neg, Complex.sin_neg, ← Complex.ofReal_cos, ← Complex.ofReal_sin]
  have hd0 : (Scalar.abs (sx * Real.cos θ *. (sy * Real.cos θ) -. -(sy * Real.sin θ) *. (sx * Real.sin θ)) <. fltEps) = false := by
    simp only [RealScalar.sub_eq, RealScalar.mul_eq, RealScalar.abs_eq, hdet, fltEps_real, RealScalar.lt_eq_false]
    rw [abs_of_pos (by positivity)]; exact h.det_ok
  simp only [GMatrix.decompose2d, g00, g10, g01, g11, g30, g31, hd0, Bool.false_eq_true, if_false]
  simp only [RealScalar.sub_eq, RealScalar.mul_eq, RealScalar.add_eq, RealScalar.div_eq, RealScalar.sqrt_eq, hdet, hq1, hq2,
    Bool.and_eq_true, RealScalar.lt_eq, RealScalar.f0_eq, RealScalar.f1_eq, nd, false_and, if_false, RealScalar.neg_eq]
  rw [RealScalar.f0_eq] at ax ay
  simp only [ax, ay, Bool.not_false, if_true, c1, c2, c3, c4, RealScalar.atan2_eq, harg, RealScalar.widen_eq, RealScalar.narrow_eq,
    RealScalar.abs_eq, fltEps_real, RealScalar.lt_eq, abs_neg]
  congr 1
  have hdeg : radToDeg (-θ) = -θ * (180 / Real.pi) := by simp [radToDeg]
  rw [hdeg]
  congr 1
  rcases h.sharp with h0 | h0
  · subst h0
    simp [not_lt.mpr eps_pos.le]
  · rw [if_pos h0]
    simp only [V4.mk.injEq, neg_neg]
    refine ⟨?_, ?_, ?_, ?_⟩ <;> first | ring1 | linear_combination hcs

/-- the angles between which the library interpolates, in degrees: no long way around -/
theorem short_way {ra rb : ℝ} (ha : -180 < ra ∧ ra ≤ 180) (hb : -180 < rb ∧ rb ≤ 180) {e : ℝ} (he : 0 ≤ e)
    (sa : ra = 0 ∨ e < |ra|) (sb : rb = 0 ∨ e < |rb|) :
    let ra1 := if |ra| ≤ e then 360 else ra
    let rb1 := if |rb| ≤ e then 360 else rb
    let far := 180 < |ra1 - rb1|
    ∃ ka kb : ℤ, (if far ∧ rb1 < ra1 then ra1 - 360 else ra1) = ra + 360 * ka ∧
      (if far ∧ ¬ rb1 < ra1 then rb1 - 360 else rb1) = rb + 360 * kb ∧
      |(ra + 360 * ka) - (rb + 360 * kb)| ≤ 180 := by
  have ea : (if |ra| ≤ e then 360 else ra) = if ra = 0 then 360 else ra := by
    rcases sa with rfl | sa
    · simp [he]
    · rw [if_neg (not_le.mpr sa), if_neg]; rintro rfl; simp at sa; linarith
  have eb : (if |rb| ≤ e then 360 else rb) = if rb = 0 then 360 else rb := by
    rcases sb with rfl | sb
    · simp [he]
    · rw [if_neg (not_le.mpr sb), if_neg]; rintro rfl; simp at sb; linarith
  intro ra1 rb1 far
  have ea' : ra1 = if ra = 0 then 360 else ra := ea
  have eb' : rb1 = if rb = 0 then 360 else rb := eb
  obtain ⟨a1, a2⟩ := ha
  obtain ⟨b1, b2⟩ := hb
  have key : ∃ na nb : ℤ, ra1 = ra + 360 * na ∧ rb1 = rb + 360 * nb := by
    refine ⟨if ra = 0 then 1 else 0, if rb = 0 then 1 else 0, ?_, ?_⟩
    · rw [ea']; split <;> simp [*]
    · rw [eb']; split <;> simp [*]
  obtain ⟨na, nb, h1, h2⟩ := key
  have l1 : ra1 ≤ 180 ∨ ra1 = 360 := by rw [ea']; split <;> [right; left] <;> [rfl; exact a2]
  have l2 : rb1 ≤ 180 ∨ rb1 = 360 := by rw [eb']; split <;> [right; left] <;> [rfl; exact b2]
  have l3 : -180 < ra1 := by rw [ea']; split <;> linarith
  have l4 : -180 < rb1 := by rw [eb']; split <;> linarith
  by_cases hf : far
  · by_cases hc : rb1 < ra1
    · refine ⟨na - 1, nb, ?_, ?_, ?_⟩
      · rw [if_pos ⟨hf, hc⟩, h1]; push_cast; ring
      · rw [if_neg (by tauto), h2]
      · have : ra + 360 * ((na - 1 : ℤ) : ℝ) - (rb + 360 * (nb : ℝ)) = ra1 - 360 - rb1 := by rw [h1, h2]; push_cast; ring
        rw [this]
        have hf' : 180 < |ra1 - rb1| := hf
        rw [abs_of_pos (by linarith)] at hf'
        rw [abs_le]
        rcases l1 with l1 | l1 <;> rcases l2 with l2 | l2 <;> constructor <;> linarith
    · refine ⟨na, nb - 1, ?_, ?_, ?_⟩
      · rw [if_neg (by tauto), h1]
      · rw [if_pos ⟨hf, hc⟩, h2]; push_cast; ring
      · have : ra + 360 * (na : ℝ) - (rb + 360 * ((nb - 1 : ℤ) : ℝ)) = ra1 + 360 - rb1 := by rw [h1, h2]; push_cast; ring
        rw [this]
        have hf' : 180 < |ra1 - rb1| := hf
        rw [abs_of_nonpos (by linarith [not_lt.mp hc])] at hf'
        rw [abs_le]
        rcases l1 with l1 | l1 <;> rcases l2 with l2 | l2 <;> constructor <;> linarith
  · refine ⟨na, nb, ?_, ?_, ?_⟩
    · rw [if_neg (by tauto), h1]
    · rw [if_neg (by tauto), h2]
    · rw [← h1, ← h2]; exact not_lt.mp hf

/-- C69, the general result of a 2D interpolation of scales and turns: scale, angle (the short way around) and
translation are interpolated linearly, but the parts are put together in the order translation, turn, scale. -/
theorem C69_2d_partial (bk : Backend) (a b : M4 ℝ) (sxa sya θa txa tya sxb syb θb txb tyb f : ℝ)
    (pa : Sim a sxa sya θa txa tya) (pb : Sim b sxb syb θb txb tyb) :
    ∃ (r : M4 ℝ) (ka kb : ℤ), GMatrix.interpolate bk a b f = .ok r ∧
      |(θa + 2 * Real.pi * ka) - (θb + 2 * Real.pi * kb)| ≤ Real.pi ∧
      mat r = translateMat ⟨lerp txa txb f, lerp tya tyb f, 0⟩ *
        turn (lerp (θa + 2 * Real.pi * ka) (θb + 2 * Real.pi * kb) f) * scaleMat ⟨lerp sxa sxb f, lerp sya syb f, 1⟩ := by
  have hpi := Real.pi_pos
  have cv : ∀ {θ : ℝ}, (-Real.pi ≤ θ ∧ θ < Real.pi) → (θ = 0 ∨ eps < |θ|) →
      (-180 < -θ * (180 / Real.pi) ∧ -θ * (180 / Real.pi) ≤ 180) ∧
      (-θ * (180 / Real.pi) = 0 ∨ (1 / 4503599627370496 : ℝ) < |-θ * (180 / Real.pi)|) := by
    intro θ h1 h2
    refine ⟨⟨?_, ?_⟩, ?_⟩
    · rw [show -θ * (180 / Real.pi) = (-θ * 180) / Real.pi by ring, lt_div_iff₀ hpi]; nlinarith [h1.2]
    · rw [show -θ * (180 / Real.pi) = (-θ * 180) / Real.pi by ring, div_le_iff₀ hpi]; nlinarith [h1.1]
    · rcases h2 with rfl | h2
      · left; ring
      · right
        rw [abs_mul, abs_neg, abs_of_pos (div_pos (by norm_num : (0 : ℝ) < 180) hpi)]
        have : (1 : ℝ) ≤ 180 / Real.pi := by
          rw [le_div_iff₀ hpi]; linarith [Real.pi_le_four]
        have h3 : (1 / 4503599627370496 : ℝ) < eps := by unfold eps; norm_num
        nlinarith [eps_pos, abs_nonneg θ]
  obtain ⟨ra, sa⟩ := cv pa.range pa.sharp
  obtain ⟨rb, sb⟩ := cv pb.range pb.sharp
  obtain ⟨ka, kb, e1, e2, e3⟩ := short_way ra rb (by norm_num : (0 : ℝ) ≤ 1 / 4503599627370496) sa sb
  refine ⟨GMatrix.recompose2d bk ⟨Vec2.init txa tya, Vec2.init sxa sya, -θa * (180 / Real.pi), ⟨1, 0, 0, 1⟩⟩
    ⟨Vec2.init txb tyb, Vec2.init sxb syb, -θb * (180 / Real.pi), ⟨1, 0, 0, 1⟩⟩ f, -ka, -kb, ?_, ?_, ?_⟩
  · simp only [GMatrix.interpolate, pa.twoD.is2d, pb.twoD.is2d, Bool.and_self, if_true, pa.decompose, pb.decompose]
  · have : θa + 2 * Real.pi * ((-ka : ℤ) : ℝ) - (θb + 2 * Real.pi * ((-kb : ℤ) : ℝ)) =
        -((-θa * (180 / Real.pi) + 360 * (ka : ℝ)) - (-θb * (180 / Real.pi) + 360 * (kb : ℝ))) * (Real.pi / 180) := by
      push_cast; field_simp; ring
    rw [this, abs_mul, abs_neg, abs_of_pos (show 0 < Real.pi / 180 by positivity)]
    calc _ ≤ 180 * (Real.pi / 180) := mul_le_mul_of_nonneg_right e3 (by positivity)
      _ = Real.pi := by ring
  · have n1 : ¬ sxa < 0 := not_lt.mpr (le_trans eps_pos.le pa.sx_ok)
    have n2 : ¬ sya < 0 := not_lt.mpr (le_trans eps_pos.le pa.sy_ok)
    have hz : (GMatrix.dblEps : ℝ) = 1 / 4503599627370496 := by simp [GMatrix.dblEps]
    have hx : Vec2.getX (Vec2.init sxa sya) = sxa := rfl
    have hy : Vec2.getY (Vec2.init sxa sya) = sya := rfl
    have hflip : (((Vec2.getX (Vec2.init sxa sya)) <. f0) && ((Vec2.getY (Vec2.init sxb syb)) <. f0) ||
        ((Vec2.getY (Vec2.init sxa sya)) <. f0) && ((Vec2.getX (Vec2.init sxb syb)) <. f0)) = false := by
      rw [hx, hy]
      simp [← Bool.not_eq_true, n1, n2]
    simp only [GMatrix.recompose2d, hflip, Bool.false_eq_true, if_false, hz, RealScalar.le_eq, RealScalar.abs_eq, RealScalar.lit_eq,
      Int.cast_ofNat, Nat.cast_one, div_one, Bool.and_eq_true, Bool.not_eq_true', ← Bool.not_eq_true, RealScalar.lt_eq, RealScalar.sub_eq]
    rw [e1, e2]
    simp only [RealScalar.narrow_eq, Vec2.interpolate]
    rw [matrixMul_real, matrixMul_real]
    set A := -θa * (180 / Real.pi) + 360 * (ka : ℝ) with hA
    set B := -θb * (180 / Real.pi) + 360 * (kb : ℝ) with hB
    have hφ : degToRad (GMatrix.flerp A B f) = -lerp (θa + 2 * Real.pi * ((-ka : ℤ) : ℝ)) (θb + 2 * Real.pi * ((-kb : ℤ) : ℝ)) f := by
      simp only [degToRad_real, GMatrix.flerp, RealScalar.add_eq, RealScalar.sub_eq, RealScalar.mul_eq, RealScalar.f1_eq, lerp, hA, hB]
      push_cast; field_simp; ring
    rw [hφ]
    generalize lerp (θa + 2 * Real.pi * ((-ka : ℤ) : ℝ)) (θb + 2 * Real.pi * ((-kb : ℤ) : ℝ)) f = Φ
    ext i j
    fin_cases i <;> fin_cases j <;>
      simp [mat, vec, translateMat, turn, scaleMat, Matrix.mul_apply, Fin.sum_univ_succ, Simd4x4f.scale, Simd4x4f.init, Simd4f.init, Vec2.init,
        Vec2.getX, Vec2.getY, Simd4f.get, Simd4f.interpolate, Simd4f.add, Simd4f.mul, Simd4f.sub, map2, splat, lerp]

/-- either no translation, or nothing but a translation -/
def Spec.OrderFree2 (sx sy θ tx ty : ℝ) : Prop := (tx = 0 ∧ ty = 0) ∨ (sx = 1 ∧ sy = 1 ∧ θ = 0)

theorem turn_add (θ : ℝ) (k : ℤ) : turn (θ + 2 * Real.pi * k) = turn θ := by
  rw [turn, turn, show θ + 2 * Real.pi * (k : ℝ) = θ + k * (2 * Real.pi) by ring, Real.cos_add_int_mul_two_pi, Real.sin_add_int_mul_two_pi]

theorem Spec.Sim.reorder {m : M4 ℝ} {sx sy θ tx ty : ℝ} (h : Sim m sx sy θ tx ty) (ho : OrderFree2 sx sy θ tx ty) :
    translateMat ⟨tx, ty, 0⟩ * turn θ * scaleMat ⟨sx, sy, 1⟩ = mat m := by
  rw [h.eq]
  rcases ho with ⟨rfl, rfl⟩ | ⟨rfl, rfl, rfl⟩
  · rcases h.commute with rfl | rfl
    · ext i j
      fin_cases i <;> fin_cases j <;> simp [scaleMat, turn, translateMat, Matrix.mul_apply, Fin.sum_univ_succ] <;> ring
    · ext i j
      fin_cases i <;> fin_cases j <;> simp [scaleMat, turn, translateMat, Matrix.mul_apply, Fin.sum_univ_succ]
  · ext i j
    fin_cases i <;> fin_cases j <;> simp [scaleMat, turn, translateMat, Matrix.mul_apply, Fin.sum_univ_succ]

/-- C69: scales and turns without translation, and pure translations, are interpolated with exact end points. -/
theorem C69_2d_endpoints_partial (bk : Backend) (a b : M4 ℝ) (sxa sya θa txa tya sxb syb θb txb tyb : ℝ)
    (pa : Sim a sxa sya θa txa tya) (pb : Sim b sxb syb θb txb tyb) :
    (OrderFree2 sxa sya θa txa tya → GMatrix.interpolate bk a b (0 : ℝ) = .ok a) ∧
    (OrderFree2 sxb syb θb txb tyb → GMatrix.interpolate bk a b (1 : ℝ) = .ok b) := by
  have l0 : ∀ x y : ℝ, lerp x y 0 = x := by intro x y; simp [lerp]
  have l1 : ∀ x y : ℝ, lerp x y 1 = y := by intro x y; simp [lerp]
  constructor
  · intro ho
    obtain ⟨r, ka, kb, h1, h2, h3⟩ := C69_2d_partial bk a b _ _ _ _ _ _ _ _ _ _ 0 pa pb
    rw [h1]; congr 1; apply mat_injective
    rw [h3]; simp only [l0]; rw [turn_add, pa.reorder ho]
  · intro ho
    obtain ⟨r, ka, kb, h1, h2, h3⟩ := C69_2d_partial bk a b _ _ _ _ _ _ _ _ _ _ 1 pa pb
    rw [h1]; congr 1; apply mat_injective
    rw [h3]; simp only [l1]; rw [turn_add, pb.reorder ho]

/-- C69: such a matrix interpolated with itself is unchanged. -/
theorem C69_2d_self_partial (bk : Backend) (a : M4 ℝ) (sx sy θ tx ty f : ℝ) (p : Sim a sx sy θ tx ty)
    (ho : OrderFree2 sx sy θ tx ty) : GMatrix.interpolate bk a a f = .ok a := by
  have l : ∀ x : ℝ, lerp x x f = x := by intro x; simp only [lerp]; ring
  obtain ⟨r, ka, kb, h1, h2, h3⟩ := C69_2d_partial bk a a _ _ _ _ _ _ _ _ _ _ f p p
  rw [h1]; congr 1; apply mat_injective
  have hk : ka = kb := by
    have hpi := Real.pi_pos
    rw [show θ + 2 * Real.pi * (ka : ℝ) - (θ + 2 * Real.pi * (kb : ℝ)) = 2 * Real.pi * ((ka : ℝ) - kb) by ring, abs_mul,
      abs_of_pos (by positivity)] at h2
    have h4 : |((ka - kb : ℤ) : ℝ)| < 1 := by push_cast; nlinarith
    rw [← Int.cast_abs] at h4
    have : |ka - kb| < 1 := by exact_mod_cast h4
    rw [Int.abs_lt_one_iff] at this
    omega
  subst hk
  rw [h3]; simp only [l]; rw [turn_add, p.reorder ho]

/-- C69 is false in 2D once a translation meets a scale: scaling by 2 and translating by 10, interpolated with itself,
translates by 20. -/
theorem C69_2d_false (bk : Backend) (f : ℝ) :
    let m : M4 ℝ := ⟨⟨2, 0, 0, 0⟩, ⟨0, 2, 0, 0⟩, ⟨0, 0, 1, 0⟩, ⟨10, 0, 0, 1⟩⟩
    GMatrix.interpolate bk m m f = .ok ⟨⟨2, 0, 0, 0⟩, ⟨0, 2, 0, 0⟩, ⟨0, 0, 1, 0⟩, ⟨20, 0, 0, 1⟩⟩ := by
  intro m
  have hpi := Real.pi_pos
  have p : Sim m 2 2 0 10 0 := by
    refine ⟨?_, ?_, ?_, ?_, ⟨by linarith, hpi⟩, Or.inl rfl, Or.inl rfl⟩
    · ext i j
      fin_cases i <;> fin_cases j <;> simp [m, mat, vec, scaleMat, turn, translateMat, Matrix.mul_apply, Fin.sum_univ_succ]
    all_goals unfold eps; norm_num
  have l : ∀ x : ℝ, lerp x x f = x := by intro x; simp only [lerp]; ring
  obtain ⟨r, ka, kb, h1, h2, h3⟩ := C69_2d_partial bk m m _ _ _ _ _ _ _ _ _ _ f p p
  have hk : ka = kb := by
    rw [show (0 : ℝ) + 2 * Real.pi * (ka : ℝ) - (0 + 2 * Real.pi * (kb : ℝ)) = 2 * Real.pi * ((ka : ℝ) - kb) by ring, abs_mul,
      abs_of_pos (by positivity)] at h2
    have h4 : |((ka - kb : ℤ) : ℝ)| < 1 := by push_cast; nlinarith
    rw [← Int.cast_abs] at h4
    have : |ka - kb| < 1 := by exact_mod_cast h4
    rw [Int.abs_lt_one_iff] at this
    omega
  subst hk
  rw [h1]; congr 1; apply mat_injective
  rw [h3]; simp only [l]; rw [turn_add]
  ext i j
  fin_cases i <;> fin_cases j <;> simp [mat, vec, scaleMat, turn, translateMat, Matrix.mul_apply, Fin.sum_univ_succ]; norm_num

theorem decompose2d_none (m : M4 ℝ) : (GMatrix.decompose2d m : Option (Decomp2D ℝ ℝ)) = none ↔ |det2 m| < eps := by
  have g00 : GMatrix.getValue m 0 0 = m.x.x := rfl
  have g10 : GMatrix.getValue m 1 0 = m.y.x := rfl
  have g01 : GMatrix.getValue m 0 1 = m.x.y := rfl
  have g11 : GMatrix.getValue m 1 1 = m.y.y := rfl
  have e : m.x.x * m.y.y - m.y.x * m.x.y = det2 m := by simp only [det2]; ring
  simp only [GMatrix.decompose2d, g00, g10, g01, g11]
  by_cases h : |det2 m| < eps
  · rw [if_pos (by simp only [greal]; rw [e]; exact h)]; simp [h]
  · rw [if_neg (by simp only [greal]; rw [e]; exact h)]; simp [h]

/-- C69: two 2D transformations without inverse are interpolated to the identity; if only one of the two has an inverse
the parts of the other are used without having been computed. -/
theorem C69_singular_partial (bk : Backend) (a b : M4 ℝ) (f : ℝ) (ha : TwoD a) (hb : TwoD b) :
    (|det2 a| < eps → |det2 b| < eps → GMatrix.interpolate bk a b f = .ok GMatrix.initIdentity) ∧
    (¬ (|det2 a| < eps ↔ |det2 b| < eps) → GMatrix.interpolate bk a b f = .ub) := by
  simp only [← decompose2d_none, GMatrix.interpolate, ha.is2d, hb.is2d, Bool.and_self, if_true]
  constructor
  · intro h1 h2
    rw [h1, h2]
  · intro h
    cases h1 : (GMatrix.decompose2d a : Option (Decomp2D ℝ ℝ)) <;> cases h2 : (GMatrix.decompose2d b : Option (Decomp2D ℝ ℝ)) <;>
      simp [h1, h2] at h ⊢

/-- C69 is false: from the identity to the zero scale, whatever the factor, uninitialised memory is read. -/
theorem C69_uninitialised_false (bk : Backend) (f : ℝ) :
    GMatrix.interpolate bk GMatrix.initIdentity (⟨⟨0, 0, 0, 0⟩, ⟨0, 0, 0, 0⟩, ⟨0, 0, 1, 0⟩, ⟨0, 0, 0, 1⟩⟩ : M4 ℝ) f = .ub := by
  apply (C69_singular_partial bk _ _ f _ _).2
  · have h0 : ¬ |(1 : ℝ)| < eps := by rw [abs_one]; exact not_lt.mpr eps_lt_one.le
    simp [det2, GMatrix.initIdentity, Simd4f.init, eps_pos, eps_lt_one.le]
  · simp [TwoD, GMatrix.initIdentity, Simd4f.init]
  · simp [TwoD]

theorem interpolateP_ok (bk : Backend) (m : Mem (M4 ℝ)) (i j k : Nat) (f : ℝ) (r : M4 ℝ)
    (h : GMatrix.interpolate bk ((m.upd k GMatrix.initIdentity) i) ((m.upd k GMatrix.initIdentity) j) f = .ok r) :
    GMatrix.interpolateP bk m i j f k = .ok ((m.upd k GMatrix.initIdentity).upd k r) := by
  simp only [GMatrix.interpolateP, h]

/-- C69 is false when the result is stored over the first argument: interpolating from the translation by 10 to the
translation by 20 with factor 0 must give the translation by 10 (and does, into a separate matrix), but gives the identity. -/
theorem C69_alias_false (bk : Backend) (m : Mem (M4 ℝ)) (i j k : Nat) (hij : i ≠ j) (hik : k ≠ i) (hjk : k ≠ j)
    (hi : m i = ⟨⟨1, 0, 0, 0⟩, ⟨0, 1, 0, 0⟩, ⟨0, 0, 1, 0⟩, ⟨10, 0, 0, 1⟩⟩)
    (hj : m j = ⟨⟨1, 0, 0, 0⟩, ⟨0, 1, 0, 0⟩, ⟨0, 0, 1, 0⟩, ⟨20, 0, 0, 1⟩⟩) :
    (∃ m', GMatrix.interpolateP bk m i j (0 : ℝ) k = .ok m' ∧ m' k = m i) ∧
    (∃ m', GMatrix.interpolateP bk m i j (0 : ℝ) i = .ok m' ∧ m' i = GMatrix.initIdentity ∧ m' i ≠ m i) := by
  have hpi := Real.pi_pos
  have hs : ∀ x : ℝ, Sim ⟨⟨1, 0, 0, 0⟩, ⟨0, 1, 0, 0⟩, ⟨0, 0, 1, 0⟩, ⟨x, 0, 0, 1⟩⟩ 1 1 0 x 0 := by
    intro x
    refine ⟨?_, eps_lt_one.le, eps_lt_one.le, by simpa using eps_lt_one.le, ⟨by linarith, hpi⟩, Or.inl rfl, Or.inl rfl⟩
    ext i j
    fin_cases i <;> fin_cases j <;> simp [mat, vec, scaleMat, turn, translateMat, Matrix.mul_apply, Fin.sum_univ_succ]
  have key : ∀ x y : ℝ, GMatrix.interpolate bk (⟨⟨1, 0, 0, 0⟩, ⟨0, 1, 0, 0⟩, ⟨0, 0, 1, 0⟩, ⟨x, 0, 0, 1⟩⟩ : M4 ℝ)
      ⟨⟨1, 0, 0, 0⟩, ⟨0, 1, 0, 0⟩, ⟨0, 0, 1, 0⟩, ⟨y, 0, 0, 1⟩⟩ (0 : ℝ) = .ok ⟨⟨1, 0, 0, 0⟩, ⟨0, 1, 0, 0⟩, ⟨0, 0, 1, 0⟩, ⟨x, 0, 0, 1⟩⟩ :=
    fun x y => (C69_2d_endpoints_partial bk _ _ _ _ _ _ _ _ _ _ _ _ (hs x) (hs y)).1 (Or.inr ⟨rfl, rfl, rfl⟩)
  have hid : (GMatrix.initIdentity : M4 ℝ) = ⟨⟨1, 0, 0, 0⟩, ⟨0, 1, 0, 0⟩, ⟨0, 0, 1, 0⟩, ⟨0, 0, 0, 1⟩⟩ := by
    simp [GMatrix.initIdentity, Simd4f.init]
  constructor
  · refine ⟨_, interpolateP_ok bk m i j k 0 _ (by simp only [Mem.upd, if_neg hik.symm, if_neg hjk.symm, hi, hj]; exact key 10 20), ?_⟩
    simp [Mem.upd, hi]
  · refine ⟨_, interpolateP_ok bk m i j i 0 _ (by simp only [Mem.upd, if_neg hij.symm, if_true, hj, hid]; exact key 0 20), ?_, ?_⟩
    · simp [Mem.upd, hid]
    · simp [Mem.upd, hi]

/-- C69: stored into a matrix of its own the result is the interpolation of the two matrices, and nothing else is written. -/
theorem C69_separate_partial (bk : Backend) (m : Mem (M4 ℝ)) (i j k : Nat) (f : ℝ) (hik : k ≠ i) (hjk : k ≠ j) (r : M4 ℝ)
    (h : GMatrix.interpolate bk (m i) (m j) f = .ok r) :
    ∃ m', GMatrix.interpolateP bk m i j f k = .ok m' ∧ m' k = r ∧ ∀ l, l ≠ k → m' l = m l := by
  refine ⟨_, interpolateP_ok bk m i j k f r (by simp only [Mem.upd, if_neg hik.symm, if_neg hjk.symm]; exact h), ?_, ?_⟩
  · simp [Mem.upd]
  · intro l hl; simp [Mem.upd, hl]

/-- non-vacuity: two turns -/
example : ∃ a b : M4 ℝ, Sim a 2 2 1 0 0 ∧ Sim b 3 3 (-1) 0 0 ∧ OrderFree2 2 2 1 0 0 ∧ OrderFree2 3 3 (-1) 0 0 := by
  have h3 := Real.two_le_pi
  have ex : ∀ s t : ℝ, ∃ m : M4 ℝ, mat m = scaleMat ⟨s, s, 1⟩ * turn t * translateMat ⟨0, 0, 0⟩ := by
    intro s t
    refine ⟨⟨⟨s * Real.cos t, s * Real.sin t, 0, 0⟩, ⟨-(s * Real.sin t), s * Real.cos t, 0, 0⟩, ⟨0, 0, 1, 0⟩, ⟨0, 0, 0, 1⟩⟩, ?_⟩
    ext i j
    fin_cases i <;> fin_cases j <;> simp [mat, vec, scaleMat, turn, translateMat, Matrix.mul_apply, Fin.sum_univ_succ]
  obtain ⟨a, ha⟩ := ex 2 1
  obtain ⟨b, hb⟩ := ex 3 (-1)
  refine ⟨a, b, ⟨ha, ?_, ?_, ?_, ⟨by linarith, by linarith⟩, Or.inr ?_, Or.inl rfl⟩,
    ⟨hb, ?_, ?_, ?_, ⟨by linarith, by linarith⟩, Or.inr ?_, Or.inl rfl⟩, Or.inl ⟨rfl, rfl⟩, Or.inl ⟨rfl, rfl⟩⟩ <;>
    unfold eps <;> norm_num

end Graphene

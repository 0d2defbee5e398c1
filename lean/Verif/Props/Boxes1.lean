/-
  C29 – C33: boxes as point sets, over IEEE binary32.
-/
import Verif.Proofs.BoxLemmas
import Verif.Proofs.KDecide

namespace Graphene
open Spec Simd4f
variable [Libm binary32]

/-! ## C29 boxes from points -/

/-- C29: `box_init_from_vectors` gives, on each axis, the least and the greatest of the given
coordinates, for any number of vectors in any order (no NaN among the coordinates; the unused
fourth lane of the vectors must not be NaN either for the box to be usable). -/
theorem C29_box_vectors (bk : Backend) (l : List (Vec3 F32))
    (hl : ∀ v ∈ l, v.value.x.isNaN = false ∧ v.value.y.isNaN = false ∧ v.value.z.isNaN = false ∧
      v.value.w.isNaN = false) (hne : l ≠ []) :
    let b := Box.initFromVectors bk l
    IsLeast b.min.value.x (l.map (·.value.x)) ∧ IsGreatest b.max.value.x (l.map (·.value.x)) ∧
    IsLeast b.min.value.y (l.map (·.value.y)) ∧ IsGreatest b.max.value.y (l.map (·.value.y)) ∧
    IsLeast b.min.value.z (l.map (·.value.z)) ∧ IsGreatest b.max.value.z (l.map (·.value.z)) ∧
    Usable b := by
  have h := fold_vectors_lanes bk l Box.empty
  have hx : ∀ x ∈ l.map (·.value.x), x.isNaN = false := by
    intro x hx; obtain ⟨v, hv, rfl⟩ := List.mem_map.1 hx; exact (hl v hv).1
  have hy : ∀ x ∈ l.map (·.value.y), x.isNaN = false := by
    intro x hx; obtain ⟨v, hv, rfl⟩ := List.mem_map.1 hx; exact (hl v hv).2.1
  have hz : ∀ x ∈ l.map (·.value.z), x.isNaN = false := by
    intro x hx; obtain ⟨v, hv, rfl⟩ := List.mem_map.1 hx; exact (hl v hv).2.2.1
  have hw : ∀ x ∈ l.map (·.value.w), x.isNaN = false := by
    intro x hx; obtain ⟨v, hv, rfl⟩ := List.mem_map.1 hx; exact (hl v hv).2.2.2
  have nx : l.map (·.value.x) ≠ [] := by simpa using hne
  have ny : l.map (·.value.y) ≠ [] := by simpa using hne
  have nz : l.map (·.value.z) ≠ [] := by simpa using hne
  have w1 := foldl_min1 bk (l.map (·.value.w)) (Fp.zero false) rfl hw
  have w2 := foldl_max1 bk (l.map (·.value.w)) (Fp.zero false) rfl hw
  simp only [Box.empty, Simd4f.init, Fp.sc_inf, Fp.sc_neg, Fp.neg, Bool.not_false, Fp.f0_eq] at h
  obtain ⟨h1, h2, h3, h4, h5, h6, h7, h8⟩ := h
  simp only [Box.initFromVectors, Box.empty, Simd4f.init, Fp.sc_inf, Fp.sc_neg, Fp.neg,
    Bool.not_false, Fp.f0_eq, Usable]
  rw [h1, h2, h3, h4, h5, h6, h7, h8]
  exact ⟨foldl_min1_inf bk nx hx, foldl_max1_inf bk nx hx, foldl_min1_inf bk ny hy,
    foldl_max1_inf bk ny hy, foldl_min1_inf bk nz hz, foldl_max1_inf bk nz hz,
    w1.2 _ (by simp), w2.2 _ (by simp)⟩

theorem foldl_zero_w (g : F32 → F32 → F32) (hg : g (Fp.zero false) (Fp.zero false) = Fp.zero false)
    (l : List (Point3D F32)) :
    (l.map (fun _ => (Fp.zero false : F32))).foldl g (Fp.zero false) = Fp.zero false := by
  induction l with
  | nil => rfl
  | cons a l ih => simp only [List.map_cons, List.foldl_cons, hg]; exact ih

/-- C29: `box_init_from_points` gives the smallest box containing every given point. -/
theorem C29_box_points (bk : Backend) (l : List (Point3D F32)) (hl : ∀ p ∈ l, NoNaN3 p) :
    let b := Box.initFromPoints bk l
    (l = [] → b = Box.empty) ∧
    (l ≠ [] →
      IsLeast b.min.value.x (l.map (·.x)) ∧ IsGreatest b.max.value.x (l.map (·.x)) ∧
      IsLeast b.min.value.y (l.map (·.y)) ∧ IsGreatest b.max.value.y (l.map (·.y)) ∧
      IsLeast b.min.value.z (l.map (·.z)) ∧ IsGreatest b.max.value.z (l.map (·.z))) ∧
    (∀ p ∈ l, b.containsPoint p = true) ∧
    (∀ c : Box F32, Usable c → (∀ p ∈ l, c.containsPoint p = true) →
      ∀ q, NoNaN3 q → b.containsPoint q = true → c.containsPoint q = true) ∧
    Plain b := by
  intro b
  have hplain : Plain b := by
    have h := fold_vectors_lanes bk (l.map Point3D.toVec3) Box.empty
    have e : ∀ g : F32 → F32 → F32,
        g (Fp.zero false) (Fp.zero false) = Fp.zero false →
        ((l.map Point3D.toVec3).map (·.value.w)).foldl g (Fp.zero false) = Fp.zero false := by
      intro g hg
      have := foldl_zero_w g hg l
      rw [List.map_map]
      simpa only [Function.comp_def, Point3D.toVec3, Simd4f.init, Fp.f0_eq] using this
    simp only [Box.empty, Simd4f.init, Fp.f0_eq] at h
    obtain ⟨-, -, -, h4, -, -, -, h8⟩ := h
    show Plain (Box.initFromPoints bk l)
    rw [initFromPoints_eq]
    simp only [Plain, Box.initFromVectors, Box.empty, Simd4f.init, Fp.f0_eq]
    exact ⟨h4.trans (e _ (min1_zero bk)), h8.trans (e _ (max1_zero bk))⟩
  have hext : l ≠ [] → IsLeast b.min.value.x (l.map (·.x)) ∧ IsGreatest b.max.value.x (l.map (·.x)) ∧
      IsLeast b.min.value.y (l.map (·.y)) ∧ IsGreatest b.max.value.y (l.map (·.y)) ∧
      IsLeast b.min.value.z (l.map (·.z)) ∧ IsGreatest b.max.value.z (l.map (·.z)) := by
    intro hne
    have h := C29_box_vectors bk (l.map Point3D.toVec3) (by
      intro v hv
      obtain ⟨p, hp, rfl⟩ := List.mem_map.1 hv
      obtain ⟨a1, a2, a3⟩ := hl p hp
      simp only [Point3D.toVec3, Simd4f.init, Fp.f0_eq]
      exact ⟨a1, a2, a3, rfl⟩) (by simpa using hne)
    rw [← initFromPoints_eq] at h
    simp only [List.map_map, Function.comp_def, Point3D.toVec3, Simd4f.init] at h
    exact ⟨h.1, h.2.1, h.2.2.1, h.2.2.2.1, h.2.2.2.2.1, h.2.2.2.2.2.1⟩
  have hmem : ∀ p ∈ l, b.containsPoint p = true := by
    intro p hp
    obtain ⟨h1, h2, h3, h4, h5, h6⟩ := hext (List.ne_nil_of_mem hp)
    rw [contains_iff (Plain.usable hplain) (hl p hp)]
    exact ⟨⟨h1.2 _ (List.mem_map_of_mem hp), h2.2 _ (List.mem_map_of_mem hp)⟩,
      ⟨h3.2 _ (List.mem_map_of_mem hp), h4.2 _ (List.mem_map_of_mem hp)⟩,
      ⟨h5.2 _ (List.mem_map_of_mem hp), h6.2 _ (List.mem_map_of_mem hp)⟩⟩
  refine ⟨?_, hext, hmem, ?_, hplain⟩
  · rintro rfl; rfl
  · intro c hc hall q hq hbq
    rw [contains_iff (Plain.usable hplain) hq] at hbq
    rw [contains_iff hc hq]
    by_cases hne : l = []
    · exfalso
      subst hne
      exact not_mem_empty (b := Box.empty) ((isEmpty_iff _).1 rfl) q hbq
    · obtain ⟨h1, h2, h3, h4, h5, h6⟩ := hext hne
      have key : ∀ {r : F32} {g : Point3D F32 → F32}, r ∈ l.map g → ∃ p ∈ l, g p = r :=
        fun h => List.mem_map.1 h
      have pc : ∀ p ∈ l, p ∈ boxPts c := fun p hp => (contains_iff hc (hl p hp)).1 (hall p hp)
      obtain ⟨⟨q1, q2⟩, ⟨q3, q4⟩, q5, q6⟩ := hbq
      obtain ⟨p1, m1, e1⟩ := key h1.1
      obtain ⟨p2, m2, e2⟩ := key h2.1
      obtain ⟨p3, m3, e3⟩ := key h3.1
      obtain ⟨p4, m4, e4⟩ := key h4.1
      obtain ⟨p5, m5, e5⟩ := key h5.1
      obtain ⟨p6, m6, e6⟩ := key h6.1
      rw [← e1] at q1; rw [← e2] at q2; rw [← e3] at q3; rw [← e4] at q4; rw [← e5] at q5
      rw [← e6] at q6
      exact ⟨⟨Fp.le_trans (pc p1 m1).1.1 q1, Fp.le_trans q2 (pc p2 m2).1.2⟩,
        ⟨Fp.le_trans (pc p3 m3).2.1.1 q3, Fp.le_trans q4 (pc p4 m4).2.1.2⟩,
        Fp.le_trans (pc p5 m5).2.2.1 q5, Fp.le_trans q6 (pc p6 m6).2.2.2⟩

/-- C29 for 2D boxes; the unused lanes of the vectors are irrelevant. -/
theorem C29_box2d_vectors (bk : Backend) (l : List (Vec2 F32))
    (hl : ∀ v ∈ l, v.value.x.isNaN = false ∧ v.value.y.isNaN = false) :
    let b := Box2d.initFromVectors bk l
    (l = [] → b = Box2d.empty) ∧
    (l ≠ [] →
      IsLeast b.minmax.x (l.map (·.value.x)) ∧ IsGreatest b.minmax.z (l.map (·.value.x)) ∧
      IsLeast b.minmax.y (l.map (·.value.y)) ∧ IsGreatest b.minmax.w (l.map (·.value.y))) := by
  refine ⟨by rintro rfl; rfl, fun hne => ?_⟩
  have h := fold2_lanes bk l Box2d.empty
  have hx : ∀ x ∈ l.map (·.value.x), x.isNaN = false := by
    intro x hx; obtain ⟨v, hv, rfl⟩ := List.mem_map.1 hx; exact (hl v hv).1
  have hy : ∀ x ∈ l.map (·.value.y), x.isNaN = false := by
    intro x hx; obtain ⟨v, hv, rfl⟩ := List.mem_map.1 hx; exact (hl v hv).2
  have nx : l.map (·.value.x) ≠ [] := by simpa using hne
  have ny : l.map (·.value.y) ≠ [] := by simpa using hne
  simp only [Box2d.empty, Simd4f.init, Fp.sc_inf, Fp.sc_neg, Fp.neg, Bool.not_false] at h
  obtain ⟨h1, h2, h3, h4⟩ := h
  simp only [Box2d.initFromVectors, Box2d.empty, Simd4f.init, Fp.sc_inf, Fp.sc_neg, Fp.neg,
    Bool.not_false]
  rw [h1, h2, h3, h4]
  exact ⟨foldl_min1_inf bk nx hx, foldl_max1_inf bk nx hx, foldl_min1_inf bk ny hy,
    foldl_max1_inf bk ny hy⟩

/-- C29: `box2d_init_from_points` gives the smallest 2D box containing every given point. -/
theorem C29_box2d_points (bk : Backend) (l : List (Point F32)) (hl : ∀ p ∈ l, NoNaN2 p) :
    let b := Box2d.initFromPoints bk l
    (l = [] → b = Box2d.empty) ∧
    (l ≠ [] →
      IsLeast b.minmax.x (l.map (·.x)) ∧ IsGreatest b.minmax.z (l.map (·.x)) ∧
      IsLeast b.minmax.y (l.map (·.y)) ∧ IsGreatest b.minmax.w (l.map (·.y))) ∧
    (∀ p ∈ l, b.containsPoint p = true) ∧
    (∀ c : Box2d F32, (∀ p ∈ l, c.containsPoint p = true) →
      ∀ q, NoNaN2 q → b.containsPoint q = true → c.containsPoint q = true) := by
  intro b
  have hext : l ≠ [] → IsLeast b.minmax.x (l.map (·.x)) ∧ IsGreatest b.minmax.z (l.map (·.x)) ∧
      IsLeast b.minmax.y (l.map (·.y)) ∧ IsGreatest b.minmax.w (l.map (·.y)) := by
    intro hne
    have h := (C29_box2d_vectors bk (l.map Point.toVec2) (by
      intro v hv
      obtain ⟨p, hp, rfl⟩ := List.mem_map.1 hv
      exact hl p hp)).2 (by simpa using hne)
    rw [← initFromPoints2_eq] at h
    simpa only [List.map_map, Function.comp_def, Point.toVec2, Simd4f.init] using h
  have hmem : ∀ p ∈ l, b.containsPoint p = true := by
    intro p hp
    obtain ⟨h1, h2, h3, h4⟩ := hext (List.ne_nil_of_mem hp)
    rw [contains2_iff b (hl p hp)]
    exact ⟨⟨h1.2 _ (List.mem_map_of_mem hp), h2.2 _ (List.mem_map_of_mem hp)⟩,
      ⟨h3.2 _ (List.mem_map_of_mem hp), h4.2 _ (List.mem_map_of_mem hp)⟩⟩
  refine ⟨by rintro rfl; rfl, hext, hmem, ?_⟩
  intro c hall q hq hbq
  rw [contains2_iff b hq] at hbq
  rw [contains2_iff c hq]
  by_cases hne : l = []
  · exfalso
    subst hne
    exact not_mem_empty2 (b := Box2d.empty) ((isEmpty2_iff _).1 rfl) q hbq
  · obtain ⟨h1, h2, h3, h4⟩ := hext hne
    have key : ∀ {r : F32} {g : Point F32 → F32}, r ∈ l.map g → ∃ p ∈ l, g p = r :=
      fun h => List.mem_map.1 h
    have pc : ∀ p ∈ l, p ∈ box2Pts c := fun p hp => (contains2_iff c (hl p hp)).1 (hall p hp)
    obtain ⟨⟨q1, q2⟩, q3, q4⟩ := hbq
    obtain ⟨p1, m1, e1⟩ := key h1.1
    obtain ⟨p2, m2, e2⟩ := key h2.1
    obtain ⟨p3, m3, e3⟩ := key h3.1
    obtain ⟨p4, m4, e4⟩ := key h4.1
    rw [← e1] at q1; rw [← e2] at q2; rw [← e3] at q3; rw [← e4] at q4
    exact ⟨⟨Fp.le_trans (pc p1 m1).1.1 q1, Fp.le_trans q2 (pc p2 m2).1.2⟩,
      Fp.le_trans (pc p3 m3).2.1 q3, Fp.le_trans q4 (pc p4 m4).2.2⟩

/-- non-vacuity: three points (one with an infinite coordinate) and the box they span -/
example (bk : Backend) : (Box2d.initFromPoints bk
    [⟨f1, f2⟩, ⟨f0, .inf false⟩, ⟨f2, Fp.neg f1⟩] : Box2d F32).minmax =
    ⟨f0, Fp.neg f1, f2, .inf false⟩ := by
  rcases bk with ⟨_, _⟩ | _ | _ | _ <;> kdecide

/-! ## C30 the empty and the infinite box -/

/-- C30: the empty box contains no point at all, the infinite box every point (NaN or not). -/
theorem C30_contains (p : Point3D F32) (q : Point F32) :
    Box.empty.containsPoint p = false ∧ Box2d.empty.containsPoint q = false ∧
    Box.infinite.containsPoint p = true ∧ Box2d.infinite.containsPoint q = true := by
  refine ⟨rfl, rfl, rfl, rfl⟩

/-- C30: the empty box is neutral for `union`, on both sides; `expand` of the empty box by a
point is the box of that single point. -/
theorem C30_union_empty (bk : Backend) (b : Box F32) (c : Box2d F32) (hb : Plain b)
    (hn : BoundsNoNaN b) (hc : Bounds2NoNaN c) (p : Point3D F32) (q : Point F32) :
    Box.union bk Box.empty b = b ∧ Box.union bk b Box.empty = b ∧
    Box2d.union bk Box2d.empty c = c ∧ Box2d.union bk c Box2d.empty = c ∧
    Box.expand bk Box.empty p = Box.init (some p) (some p) ∧
    Box2d.expand bk Box2d.empty q = Box2d.init (some q) (some q) := by
  obtain ⟨⟨n1, n2, n3⟩, n4, n5, n6⟩ := hn
  obtain ⟨m1, m2, m3, m4⟩ := hc
  refine ⟨?_, ?_, ?_, ?_, ?_, ?_⟩
  · ext <;> simp only [Box.union, Box.empty, Simd4f.min, Simd4f.max, map2, Simd4f.init, Fp.sc_inf,
      Fp.sc_neg, Fp.neg, Bool.not_false, min1_posInf, max1_negInf, Fp.f0_eq, hb.1, hb.2, min1_zero,
      max1_zero]
  · ext <;> simp only [Box.union, Box.empty, Simd4f.min, Simd4f.max, map2, Simd4f.init, Fp.sc_inf,
      Fp.sc_neg, Fp.neg, Bool.not_false, min1_posInf_right, max1_negInf_right, Fp.f0_eq, hb.1, hb.2,
      min1_zero, max1_zero, n1, n2, n3, n4, n5, n6]
  · ext <;> simp only [Box2d.union, Box2d.empty, Simd4f.min, Simd4f.max, map2, Simd4f.init, Fp.sc_inf,
      Fp.sc_neg, Fp.neg, Bool.not_false, min1_posInf, max1_negInf, Box2d.minV, Box2d.maxV, mergeLow,
      mergeHigh, Box2d.initFromSimd4f]
  · ext <;> simp only [Box2d.union, Box2d.empty, Simd4f.min, Simd4f.max, map2, Simd4f.init, Fp.sc_inf,
      Fp.sc_neg, Fp.neg, Bool.not_false, min1_posInf_right, max1_negInf_right, Box2d.minV, Box2d.maxV,
      mergeLow, mergeHigh, Box2d.initFromSimd4f, m1, m2, m3, m4]
  · ext <;> simp only [Box.expand, Box.expandSimd4f, Box.init, Point3D.toVec3, Box.empty, Simd4f.min,
      Simd4f.max, map2, Simd4f.init, Fp.sc_inf, Fp.sc_neg, Fp.neg, Bool.not_false, min1_posInf,
      max1_negInf, Fp.f0_eq, min1_zero, max1_zero]
  · ext <;> simp only [Box2d.expand, Box2d.expandSimd4f, Box2d.init, Box2d.empty, Simd4f.min,
      Simd4f.max, map2, Simd4f.init, Fp.sc_inf, Fp.sc_neg, Fp.neg, Bool.not_false, min1_posInf,
      max1_negInf, Box2d.minV, Box2d.maxV, mergeLow, mergeHigh, Box2d.initFromSimd4f]

/-- C30: the infinite box is neutral for `intersection` with every box whose corners are in
order, and gives the empty box otherwise. -/
theorem C30_intersection_infinite (bk : Backend) (b : Box F32) (c : Box2d F32) (hb : Plain b)
    (hn : BoundsNoNaN b) (hc : Bounds2NoNaN c) :
    (Ordered b → Box.intersection bk Box.infinite b = (true, b) ∧
      Box.intersection bk b Box.infinite = (true, b)) ∧
    (¬ Ordered b → Box.intersection bk Box.infinite b = (false, Box.empty) ∧
      Box.intersection bk b Box.infinite = (false, Box.empty)) ∧
    (Ordered2 c → Box2d.intersection bk Box2d.infinite c = (true, c) ∧
      Box2d.intersection bk c Box2d.infinite = (true, c)) ∧
    (¬ Ordered2 c → Box2d.intersection bk Box2d.infinite c = (false, Box2d.empty) ∧
      Box2d.intersection bk c Box2d.infinite = (false, Box2d.empty)) := by
  obtain ⟨⟨n1, n2, n3⟩, n4, n5, n6⟩ := hn
  obtain ⟨m1, m2, m3, m4⟩ := hc
  obtain ⟨⟨⟨x1, y1, z1, w1⟩⟩, ⟨⟨x2, y2, z2, w2⟩⟩⟩ := b
  obtain ⟨⟨u1, v1, u2, v2⟩⟩ := c
  obtain ⟨p1, p2⟩ := hb
  simp only at n1 n2 n3 n4 n5 n6 m1 m2 m3 m4 p1 p2
  subst p1; subst p2
  have e1 : Simd4f.cmpLe (⟨x1, y1, z1, Fp.zero false⟩ : V4 F32) ⟨x2, y2, z2, Fp.zero false⟩ = true ↔
      Ordered ⟨⟨⟨x1, y1, z1, Fp.zero false⟩⟩, ⟨⟨x2, y2, z2, Fp.zero false⟩⟩⟩ := by
    simp only [cmpLe, Fp.sc_le, Bool.and_eq_true, zero_le_zero, and_true, Ordered, and_assoc]
  have e2 : Simd4f.cmpLe (⟨u1, v1, Fp.zero false, Fp.zero false⟩ : V4 F32)
      ⟨u2, v2, Fp.zero false, Fp.zero false⟩ = true ↔ Ordered2 ⟨⟨u1, v1, u2, v2⟩⟩ := by
    simp only [cmpLe, Fp.sc_le, Bool.and_eq_true, zero_le_zero, and_true, Ordered2]
  have i1 : ∀ c d : Box F32, c = Box.infinite ∧ d = ⟨⟨⟨x1, y1, z1, Fp.zero false⟩⟩, ⟨⟨x2, y2, z2, Fp.zero false⟩⟩⟩ ∨
      d = Box.infinite ∧ c = ⟨⟨⟨x1, y1, z1, Fp.zero false⟩⟩, ⟨⟨x2, y2, z2, Fp.zero false⟩⟩⟩ →
      Simd4f.max bk c.min.value d.min.value = ⟨x1, y1, z1, Fp.zero false⟩ ∧
      Simd4f.min bk c.max.value d.max.value = ⟨x2, y2, z2, Fp.zero false⟩ := by
    rintro c d (⟨rfl, rfl⟩ | ⟨rfl, rfl⟩) <;>
      simp only [Box.infinite, Simd4f.min, Simd4f.max, map2, Simd4f.init, Fp.sc_inf, Fp.sc_neg,
        Fp.neg, Bool.not_false, max1_negInf, min1_posInf, max1_negInf_right, min1_posInf_right,
        Fp.f0_eq, min1_zero, max1_zero, n1, n2, n3, n4, n5, n6, and_self]
  have i2 : ∀ c d : Box2d F32, c = Box2d.infinite ∧ d = ⟨⟨u1, v1, u2, v2⟩⟩ ∨
      d = Box2d.infinite ∧ c = ⟨⟨u1, v1, u2, v2⟩⟩ →
      Simd4f.max bk c.minV d.minV = ⟨u1, v1, Fp.zero false, Fp.zero false⟩ ∧
      Simd4f.min bk c.maxV d.maxV = ⟨u2, v2, Fp.zero false, Fp.zero false⟩ := by
    rintro c d (⟨rfl, rfl⟩ | ⟨rfl, rfl⟩) <;>
      simp only [Box2d.infinite, Simd4f.min, Simd4f.max, map2, Simd4f.init, Fp.sc_inf, Fp.sc_neg,
        Fp.neg, Bool.not_false, max1_negInf, min1_posInf, max1_negInf_right, min1_posInf_right,
        Fp.f0_eq, min1_zero, max1_zero, m1, m2, m3, m4, and_self, Box2d.minV, Box2d.maxV, mergeLow,
        mergeHigh, initZero, splat]
  have j1 := i1 _ _ (Or.inl ⟨rfl, rfl⟩)
  have j2 := i1 _ _ (Or.inr ⟨rfl, rfl⟩)
  have j3 := i2 _ _ (Or.inl ⟨rfl, rfl⟩)
  have j4 := i2 _ _ (Or.inr ⟨rfl, rfl⟩)
  refine ⟨fun h => ?_, fun h => ?_, fun h => ?_, fun h => ?_⟩
  · rw [← e1] at h
    simp only [Box.intersection, j1.1, j1.2, j2.1, j2.2, h]; exact ⟨rfl, rfl⟩
  · rw [← e1, Bool.not_eq_true] at h
    simp only [Box.intersection, j1.1, j1.2, j2.1, j2.2, h]; exact ⟨rfl, rfl⟩
  · rw [← e2] at h
    simp only [Box2d.intersection, j3.1, j3.2, j4.1, j4.2, h]; exact ⟨rfl, rfl⟩
  · rw [← e2, Bool.not_eq_true] at h
    simp only [Box2d.intersection, j3.1, j3.2, j4.1, j4.2, h]; exact ⟨rfl, rfl⟩

/-- C30: measurements of the empty and the infinite box are the documented constants. -/
theorem C30_measures :
    (Box.empty : Box F32).getSize.value = ⟨f0, f0, f0, f0⟩ ∧
    (Box.empty : Box F32).getCenter = ⟨f0, f0, f0⟩ ∧
    (Box.infinite : Box F32).getSize.value = ⟨.inf false, .inf false, .inf false, f0⟩ ∧
    (Box.infinite : Box F32).getCenter = ⟨f0, f0, f0⟩ ∧
    (Box2d.empty : Box2d F32).getSize.value = ⟨f0, f0, f0, f0⟩ ∧
    (Box2d.empty : Box2d F32).getCenter = ⟨f0, f0⟩ ∧
    (Box2d.infinite : Box2d F32).getSize.value = ⟨.inf false, .inf false, f0, f0⟩ ∧
    (Box2d.infinite : Box2d F32).getCenter = ⟨f0, f0⟩ := by
  refine ⟨rfl, rfl, rfl, rfl, rfl, rfl, rfl, rfl⟩

/-- non-vacuity: an ordinary box satisfies the hypotheses -/
example : Plain (Box.oneMinusOne : Box F32) ∧ BoundsNoNaN (Box.oneMinusOne : Box F32) ∧
    Ordered (Box.oneMinusOne : Box F32) ∧ Ordered2 (Box2d.oneMinusOne : Box2d F32) ∧
    Bounds2NoNaN (Box2d.oneMinusOne : Box2d F32) := by
  refine ⟨⟨?_, ?_⟩, ⟨⟨?_, ?_, ?_⟩, ?_, ?_, ?_⟩, ⟨?_, ?_, ?_⟩, ⟨?_, ?_⟩, ?_, ?_, ?_, ?_⟩ <;> kdecide

end Graphene

/-
  C101: `graphene_*_get_type ()` under any schedule.
-/
import Verif.Model.GType
import Mathlib.Tactic.Tauto
import Mathlib.Data.List.Basic
import Mathlib.Algebra.Order.BigOperators.Group.List
import Mathlib.Data.Nat.Lattice

namespace Graphene.GTypes
open Heap

/-! ### Specification -/

/-- the names bindings know the types by (the introspection names listed in the documentation of
graphene-gobject.c:90-98: CamelCase of the C name without `_t`) -/
def Spec.girName (t : Obj) : String :=
  "Graphene" ++ match t with
  | .point => "Point" | .point3d => "Point3D" | .size => "Size" | .rect => "Rect" | .quad => "Quad"
  | .quaternion => "Quaternion" | .vec2 => "Vec2" | .vec3 => "Vec3" | .vec4 => "Vec4" | .matrix => "Matrix"
  | .ray => "Ray" | .box => "Box" | .box2d => "Box2D" | .plane => "Plane" | .sphere => "Sphere"
  | .triangle => "Triangle" | .frustum => "Frustum" | .euler => "Euler"

/-- the boxed type of `t` is registered under `id`: there is an entry with that identifier, the name of `t` and
the copy and free functions of `t`, and no other entry has the identifier or the name -/
def Spec.Boxed (reg : List Entry) (t : Obj) (id : Nat) : Prop :=
  id ≠ 0 ∧ ∃ e ∈ reg, e.id = id ∧ e.name = Spec.girName t ∧ e.copy = .graphene t ∧ e.free = .graphene t ∧
    ∀ e' ∈ reg, e'.id = id ∨ e'.name = Spec.girName t → e' = e

/-- a process start: other types may be registered, none of them under a Graphene name -/
def Spec.Clean (reg : List Entry) : Prop :=
  (∀ e ∈ reg, ∀ e' ∈ reg, e.id = e'.id → e = e') ∧ ∀ e ∈ reg, ∀ t, e.name ≠ Spec.girName t

/-- the states an execution that starts with the registry `reg` can be in -/
def Spec.Reachable (reg : List Entry) (s : State) : Prop := Steps (init reg) s

/-! ### Invariant -/

theorem gir_eq (t : Obj) : Spec.girName t = typeName t := by cases t <;> rfl

theorem typeName_inj {t u : Obj} (h : typeName t = typeName u) : t = u := by
  cases t <;> cases u <;> first | rfl | (exact absurd h (by decide))

theorem upd_same {K T : Type} [DecidableEq K] (f : K → T) (k : K) (v : T) : upd f k v k = v := by simp [upd]
theorem upd_other {K T : Type} [DecidableEq K] (f : K → T) {k j : K} (v : T) (h : j ≠ k) : upd f k v j = f j := by
  simp [upd, h]

/-- inside the initialisation of `u` -/
def Crit (u : Obj) (p : PC) : Prop := p = .won u ∨ (∃ id, p = .leaving u id) ∨ p = .stored u
/-- past the first decision of `g_once_init_enter` for `u` -/
def Mid (u : Obj) (p : PC) : Prop := Crit u p ∨ p = .waiting u ∨ p = .ret u

/-- the entry of `u` -/
def ent (u : Obj) (id : Nat) : Entry := ⟨id, typeName u, .graphene u, .graphene u⟩
/-- registered exactly once -/
def Has (reg : List Entry) (u : Obj) (id : Nat) : Prop :=
  id ≠ 0 ∧ ent u id ∈ reg ∧ ∀ e ∈ reg, e.name = typeName u → e = ent u id

def PhA (s : State) (u : Obj) : Prop :=
  s.cell u = 0 ∧ s.busy u = false ∧ (∀ j, ¬ Mid u (s.pc j)) ∧ ∀ e ∈ s.reg, e.name ≠ typeName u
def PhB (s : State) (u : Obj) : Prop :=
  ∃ i, s.pc i = .won u ∧ (∀ j, j ≠ i → ¬ Crit u (s.pc j)) ∧ (∀ j, s.pc j ≠ .ret u) ∧ s.cell u = 0 ∧
    s.busy u = true ∧ ∀ e ∈ s.reg, e.name ≠ typeName u
def PhC (s : State) (u : Obj) : Prop :=
  ∃ i id, s.pc i = .leaving u id ∧ (∀ j, j ≠ i → ¬ Crit u (s.pc j)) ∧ (∀ j, s.pc j ≠ .ret u) ∧ s.cell u = 0 ∧
    s.busy u = true ∧ Has s.reg u id
def PhD (s : State) (u : Obj) : Prop :=
  ∃ i, s.pc i = .stored u ∧ (∀ j, j ≠ i → ¬ Crit u (s.pc j)) ∧ s.busy u = true ∧ Has s.reg u (s.cell u)
def PhE (s : State) (u : Obj) : Prop :=
  (∀ j, ¬ Crit u (s.pc j)) ∧ s.busy u = false ∧ Has s.reg u (s.cell u)
def Ph (s : State) (u : Obj) : Prop := PhA s u ∨ PhB s u ∨ PhC s u ∨ PhD s u ∨ PhE s u

structure Inv (s : State) : Prop where
  ids : ∀ e ∈ s.reg, ∀ e' ∈ s.reg, e.id = e'.id → e = e'
  ph : ∀ u, Ph s u
  log : ∀ x ∈ s.log, x.2.2 = s.cell x.2.1 ∧ s.cell x.2.1 ≠ 0

theorem inv_init {reg : List Entry} (h : Spec.Clean reg) : Inv (init reg) := by
  refine ⟨h.1, fun u => .inl ⟨rfl, rfl, ?_, fun e he => gir_eq u ▸ h.2 e he u⟩, by simp [init]⟩
  intro j; simp [init, Mid, Crit]

theorem Has.mono {reg : List Entry} {u : Obj} {id : Nat} (h : Has reg u id) {e : Entry} (he : e.name ≠ typeName u) :
    Has (e :: reg) u id := by
  obtain ⟨h0, h1, h2⟩ := h
  refine ⟨h0, List.mem_cons_of_mem _ h1, fun x hx hn => ?_⟩
  rcases List.mem_cons.1 hx with rfl | hx
  · exact absurd hn he
  · exact h2 x hx hn

/-- steps that do not concern the initialisation of `u` -/
theorem ph_frame {s s' : State} {u : Obj} (h : Ph s u) (hc : s'.cell u = s.cell u) (hb : s'.busy u = s.busy u)
    (hr : s'.reg = s.reg ∨ ∃ e, s'.reg = e :: s.reg ∧ e.name ≠ typeName u)
    (hp : ∀ j, s'.pc j = s.pc j ∨ (¬ Mid u (s.pc j) ∧ ¬ Mid u (s'.pc j))) : Ph s' u := by
  have eqOf : ∀ {j p}, s.pc j = p → Mid u p → s'.pc j = p := by
    intro j p hj hm
    rcases hp j with e | e
    · rw [e, hj]
    · exact absurd (hj ▸ hm) e.1
  have crit : ∀ {j}, ¬ Crit u (s.pc j) → ¬ Crit u (s'.pc j) := by
    intro j hj
    rcases hp j with e | e
    · rwa [e]
    · exact fun h => e.2 (.inl h)
  have mid : ∀ {j}, ¬ Mid u (s.pc j) → ¬ Mid u (s'.pc j) := by
    intro j hj
    rcases hp j with e | e
    · rwa [e]
    · exact e.2
  have nret : ∀ {j}, s.pc j ≠ .ret u → s'.pc j ≠ .ret u := by
    intro j hj
    rcases hp j with e | e
    · rwa [e]
    · exact fun h => e.2 (.inr (.inr h))
  have none' : (∀ e ∈ s.reg, e.name ≠ typeName u) → ∀ e ∈ s'.reg, e.name ≠ typeName u := by
    rcases hr with e | ⟨x, e, hx⟩
    · rw [e]; exact id
    · rw [e]; intro h y hy
      rcases List.mem_cons.1 hy with rfl | hy
      · exact hx
      · exact h y hy
  have has : ∀ {id}, Has s.reg u id → Has s'.reg u id := by
    intro id h
    rcases hr with e | ⟨x, e, hx⟩
    · rwa [e]
    · rw [e]; exact h.mono hx
  rcases h with ⟨a, b, c, d⟩ | ⟨i, a, b, c, d, e, f⟩ | ⟨i, id, a, b, c, d, e, f⟩ | ⟨i, a, b, c, d⟩ | ⟨a, b, c⟩
  · exact .inl ⟨hc.trans a, hb.trans b, fun j => mid (c j), none' d⟩
  · exact .inr (.inl ⟨i, eqOf a (.inl (.inl rfl)), fun j hj => crit (b j hj), fun j => nret (c j), hc.trans d,
      hb.trans e, none' f⟩)
  · exact .inr (.inr (.inl ⟨i, id, eqOf a (.inl (.inr (.inl ⟨id, rfl⟩))), fun j hj => crit (b j hj),
      fun j => nret (c j), hc.trans d, hb.trans e, has f⟩))
  · exact .inr (.inr (.inr (.inl ⟨i, eqOf a (.inl (.inr (.inr rfl))), fun j hj => crit (b j hj), hb.trans c,
      by rw [hc]; exact has d⟩)))
  · exact .inr (.inr (.inr (.inr ⟨fun j => crit (a j), hb.trans b, by rw [hc]; exact has c⟩)))

/-- one thread moves between points that are not past the decision for `u` -/
theorem pc_frame {s : State} {i : Nat} {p : PC} {u : Obj} (h1 : ¬ Mid u (s.pc i)) (h2 : ¬ Mid u p) (j : Nat) :
    upd s.pc i p j = s.pc j ∨ (¬ Mid u (s.pc j) ∧ ¬ Mid u (upd s.pc i p j)) := by
  by_cases h : j = i
  · subst h; right; rw [upd_same]; exact ⟨h1, h2⟩
  · left; exact upd_other _ _ h

theorem cell_pos {s : State} {u : Obj} (h : Ph s u) (hc : s.cell u ≠ 0) : PhD s u ∨ PhE s u := by
  rcases h with ⟨a, _⟩ | ⟨i, _, _, _, a, _⟩ | ⟨i, id, _, _, _, a, _⟩ | h | h
  · exact absurd a hc
  · exact absurd a hc
  · exact absurd a hc
  · exact .inl h
  · exact .inr h
theorem ret_pos {s : State} {u : Obj} (h : Ph s u) {i : Nat} (hi : s.pc i = .ret u) : PhD s u ∨ PhE s u := by
  rcases h with ⟨_, _, a, _⟩ | ⟨_, _, _, a, _⟩ | ⟨_, _, _, _, a, _⟩ | h | h
  · exact absurd (.inr (.inr hi)) (a i)
  · exact absurd hi (a i)
  · exact absurd hi (a i)
  · exact .inl h
  · exact .inr h
theorem has_cell {s : State} {u : Obj} (h : PhD s u ∨ PhE s u) : Has s.reg u (s.cell u) := by
  rcases h with ⟨_, _, _, _, h⟩ | ⟨_, _, h⟩ <;> exact h

/-- a step to or from `ret` of a thread that is not in the critical section, once the type is initialised -/
theorem phDE_pc {s : State} {u : Obj} (h : PhD s u ∨ PhE s u) {i : Nat} {p : PC} (h1 : ¬ Crit u (s.pc i))
    (h2 : ¬ Crit u p) (log) : Ph { s with pc := upd s.pc i p, log := log } u := by
  have key : ∀ {j}, ¬ Crit u (s.pc j) → ¬ Crit u (upd s.pc i p j) := by
    intro j hj
    by_cases e : j = i
    · subst e; rw [upd_same]; exact h2
    · rw [upd_other _ _ e]; exact hj
  rcases h with ⟨k, a, b, c, d⟩ | ⟨a, b, c⟩
  · refine .inr (.inr (.inr (.inl ⟨k, ?_, fun j hj => key (b j hj), c, d⟩)))
    have : k ≠ i := by rintro rfl; exact h1 (by rw [a]; exact .inr (.inr rfl))
    exact (upd_other _ _ this).trans a
  · exact .inr (.inr (.inr (.inr ⟨fun j => key (a j), b, c⟩)))

theorem nmid_other {u t : Obj} (h : u ≠ t) : ¬ Mid u (.won t) ∧ (∀ id, ¬ Mid u (.leaving t id)) ∧ ¬ Mid u (.stored t) ∧
    ¬ Mid u (.waiting t) ∧ ¬ Mid u (.ret t) := by
  refine ⟨?_, fun _ => ?_, ?_, ?_, ?_⟩ <;> simp [Mid, Crit] <;> exact fun e => h e.symm
theorem nmid_fast (u t : Obj) : ¬ Mid u (.fast t) := by simp [Mid, Crit]
theorem nmid_slow (u t : Obj) : ¬ Mid u (.slow t) := by simp [Mid, Crit]
theorem nmid_idle (u : Obj) : ¬ Mid u .idle := by simp [Mid, Crit]

theorem inv_step {s s' : State} (h : Inv s) (st : Step s s') : Inv s' := by
  obtain ⟨hids, hph, hlog⟩ := h
  cases st with
  | call i t hp =>
    exact ⟨hids, fun u => ph_frame (hph u) rfl rfl (.inl rfl) (pc_frame (by rw [hp]; exact nmid_idle u) (nmid_fast u t)), hlog⟩
  | fastYes i t hp hc =>
    refine ⟨hids, fun u => ?_, hlog⟩
    by_cases e : u = t
    · subst e
      exact phDE_pc (cell_pos (hph u) hc) (by rw [hp]; exact fun h => nmid_fast u u (.inl h)) (by simp [Crit]) _
    · exact ph_frame (hph u) rfl rfl (.inl rfl) (pc_frame (by rw [hp]; exact nmid_fast u t) (nmid_other e).2.2.2.2)
  | fastNo i t hp hc =>
    exact ⟨hids, fun u => ph_frame (hph u) rfl rfl (.inl rfl) (pc_frame (by rw [hp]; exact nmid_fast u t) (nmid_slow u t)), hlog⟩
  | slowYes i t hp hc =>
    refine ⟨hids, fun u => ?_, hlog⟩
    by_cases e : u = t
    · subst e
      exact phDE_pc (cell_pos (hph u) hc) (by rw [hp]; exact fun h => nmid_slow u u (.inl h)) (by simp [Crit]) _
    · exact ph_frame (hph u) rfl rfl (.inl rfl) (pc_frame (by rw [hp]; exact nmid_slow u t) (nmid_other e).2.2.2.2)
  | slowWin i t hp hc hb =>
    refine ⟨hids, fun u => ?_, hlog⟩
    by_cases e : u = t
    · subst e
      rcases hph u with ⟨a, b, c, d⟩ | ⟨_, _, _, _, _, a, _⟩ | ⟨_, _, _, _, _, _, a, _⟩ | ⟨_, _, _, a, _⟩ | ⟨_, _, a, _⟩
      · refine .inr (.inl ⟨i, upd_same _ _ _, fun j hj => ?_, fun j => ?_, a, upd_same _ _ _, d⟩)
        · dsimp only; rw [upd_other _ _ hj]; exact fun h => c j (.inl h)
        · dsimp only
          by_cases e : j = i
          · subst e; rw [upd_same]; simp
          · rw [upd_other _ _ e]; exact fun h => c j (.inr (.inr h))
      · rw [hb] at a; cases a
      · rw [hb] at a; cases a
      · rw [hb] at a; cases a
      · exact absurd hc a
    · exact ph_frame (hph u) rfl (upd_other _ _ e) (.inl rfl) (pc_frame (by rw [hp]; exact nmid_slow u t) (nmid_other e).1)
  | slowWait i t hp hc hb =>
    refine ⟨hids, fun u => ?_, hlog⟩
    by_cases e : u = t
    · subst e
      have key : ∀ {j}, ¬ Crit u (s.pc j) → ¬ Crit u (upd s.pc i (.waiting u) j) := by
        intro j hj
        by_cases e : j = i
        · subst e; rw [upd_same]; simp [Crit]
        · rw [upd_other _ _ e]; exact hj
      have nret : ∀ {j}, s.pc j ≠ .ret u → upd s.pc i (.waiting u) j ≠ .ret u := by
        intro j hj
        by_cases e : j = i
        · subst e; rw [upd_same]; simp
        · rw [upd_other _ _ e]; exact hj
      rcases hph u with ⟨_, a, _⟩ | ⟨k, a, b, c, d, f, g⟩ | ⟨k, id, a, b, c, d, f, g⟩ | ⟨_, _, _, _, a, _⟩ | ⟨_, _, a, _⟩
      · rw [hb] at a; cases a
      · have : k ≠ i := by rintro rfl; rw [hp] at a; cases a
        exact .inr (.inl ⟨k, (upd_other _ _ this).trans a, fun j hj => key (b j hj), fun j => nret (c j), d, f, g⟩)
      · have : k ≠ i := by rintro rfl; rw [hp] at a; cases a
        exact .inr (.inr (.inl ⟨k, id, (upd_other _ _ this).trans a, fun j hj => key (b j hj), fun j => nret (c j), d, f, g⟩))
      · exact absurd hc a
      · exact absurd hc a
    · exact ph_frame (hph u) rfl rfl (.inl rfl) (pc_frame (by rw [hp]; exact nmid_slow u t) (nmid_other e).2.2.2.1)
  | wake i t hp hb =>
    refine ⟨hids, fun u => ?_, hlog⟩
    by_cases e : u = t
    · subst e
      have : PhD s u ∨ PhE s u := by
        rcases hph u with ⟨_, _, a, _⟩ | ⟨_, _, _, _, _, a, _⟩ | ⟨_, _, _, _, _, _, a, _⟩ | ⟨_, _, _, a, _⟩ | h
        · exact absurd (.inr (.inl hp)) (a i)
        · rw [hb] at a; cases a
        · rw [hb] at a; cases a
        · rw [hb] at a; cases a
        · exact .inr h
      exact phDE_pc this (by rw [hp]; simp [Crit]) (by simp [Crit]) _
    · exact ph_frame (hph u) rfl rfl (.inl rfl) (pc_frame (by rw [hp]; exact (nmid_other e).2.2.2.1) (nmid_other e).2.2.2.2)
  | register i t id hp hn h0 hf =>
    refine ⟨?_, fun u => ?_, hlog⟩
    · intro a ha b hb hab
      rcases List.mem_cons.1 ha with rfl | ha <;> rcases List.mem_cons.1 hb with rfl | hb
      · rfl
      · exact absurd hab.symm (hf b hb)
      · exact absurd hab (hf a ha)
      · exact hids a ha b hb hab
    · by_cases e : u = t
      · subst e
        rcases hph u with ⟨_, _, a, _⟩ | ⟨k, a, b, c, d, f, g⟩ | ⟨k, _, a, b, _⟩ | ⟨k, a, b, _⟩ | ⟨a, _⟩
        · exact absurd (.inl (.inl hp)) (a i)
        · have : i = k := by
            by_contra hne; exact b i hne (.inl hp)
          subst this
          refine .inr (.inr (.inl ⟨i, id, upd_same _ _ _, fun j hj => ?_, fun j => ?_, d, f, h0, List.mem_cons_self, ?_⟩))
          · dsimp only; rw [upd_other _ _ hj]; exact b j hj
          · dsimp only
            by_cases e : j = i
            · subst e; rw [upd_same]; simp
            · rw [upd_other _ _ e]; exact c j
          · intro x hx hxn
            rcases List.mem_cons.1 hx with rfl | hx
            · rfl
            · exact absurd hxn (g x hx)
        · have : i = k := by
            by_contra hne; exact b i hne (.inl hp)
          subst this; rw [hp] at a; cases a
        · have : i = k := by
            by_contra hne; exact b i hne (.inl hp)
          subst this; rw [hp] at a; cases a
        · exact absurd (.inl hp) (a i)
      · exact ph_frame (hph u) rfl rfl (.inr ⟨_, rfl, fun h => e (typeName_inj h).symm⟩)
          (pc_frame (by rw [hp]; exact (nmid_other e).1) ((nmid_other e).2.1 id))
  | refused i t hp hn =>
    exfalso
    obtain ⟨x, hx, hxn⟩ := hn
    rcases hph t with ⟨_, _, _, a⟩ | ⟨k, a, b, c, d, f, g⟩ | ⟨k, _, a, b, _⟩ | ⟨k, a, b, _⟩ | ⟨a, _⟩
    · exact a x hx hxn
    · exact g x hx hxn
    · have : i = k := by
        by_contra hne; exact b i hne (.inl hp)
      subst this; rw [hp] at a; cases a
    · have : i = k := by
        by_contra hne; exact b i hne (.inl hp)
      subst this; rw [hp] at a; cases a
    · exact a i (.inl hp)
  | store i t id hp h0 =>
    have hC : s.cell t = 0 ∧ s.busy t = true ∧ Has s.reg t id ∧ (∀ j, j ≠ i → ¬ Crit t (s.pc j)) := by
      have cr : Crit t (s.pc i) := by rw [hp]; exact .inr (.inl ⟨id, rfl⟩)
      rcases hph t with ⟨_, _, a, _⟩ | ⟨k, a, b, _⟩ | ⟨k, id', a, b, c, d, f, g⟩ | ⟨k, a, b, _⟩ | ⟨a, _⟩
      · exact absurd (.inl cr) (a i)
      · have : i = k := by
          by_contra hne; exact b i hne cr
        subst this; rw [hp] at a; cases a
      · have : i = k := by
          by_contra hne; exact b i hne cr
        subst this; rw [hp] at a; cases a
        exact ⟨d, f, g, b⟩
      · have : i = k := by
          by_contra hne; exact b i hne cr
        subst this; rw [hp] at a; cases a
      · exact absurd cr (a i)
    obtain ⟨hC1, hC2, hC3, hC4⟩ := hC
    refine ⟨hids, fun u => ?_, fun x hx => ?_⟩
    · by_cases e : u = t
      · subst e
        refine .inr (.inr (.inr (.inl ⟨i, upd_same _ _ _, fun j hj => ?_, hC2, ?_⟩)))
        · dsimp only; rw [upd_other _ _ hj]; exact hC4 j hj
        · dsimp only; rw [upd_same]; exact hC3
      · exact ph_frame (hph u) (upd_other _ _ e) rfl (.inl rfl)
          (pc_frame (by rw [hp]; exact (nmid_other e).2.1 id) (nmid_other e).2.2.1)
    · obtain ⟨h1, h2⟩ := hlog x hx
      have : x.2.1 ≠ t := by rintro e; rw [e] at h2; exact h2 hC1
      dsimp only; rw [upd_other _ _ this]; exact ⟨h1, h2⟩
  | storeZero i t hp =>
    exfalso
    have cr : Crit t (s.pc i) := by rw [hp]; exact .inr (.inl ⟨0, rfl⟩)
    rcases hph t with ⟨_, _, a, _⟩ | ⟨k, a, b, _⟩ | ⟨k, id', a, b, c, d, f, g⟩ | ⟨k, a, b, _⟩ | ⟨a, _⟩
    · exact absurd (.inl cr) (a i)
    · have : i = k := by
        by_contra hne; exact b i hne cr
      subst this; rw [hp] at a; cases a
    · have : i = k := by
        by_contra hne; exact b i hne cr
      subst this; rw [hp] at a; cases a
      exact g.1 rfl
    · have : i = k := by
        by_contra hne; exact b i hne cr
      subst this; rw [hp] at a; cases a
    · exact absurd cr (a i)
  | done i t hp =>
    refine ⟨hids, fun u => ?_, hlog⟩
    by_cases e : u = t
    · subst e
      have cr : Crit u (s.pc i) := by rw [hp]; exact .inr (.inr rfl)
      rcases hph u with ⟨_, _, a, _⟩ | ⟨k, a, b, _⟩ | ⟨k, id', a, b, _⟩ | ⟨k, a, b, c, d⟩ | ⟨a, _⟩
      · exact absurd (.inl cr) (a i)
      · have : i = k := by
          by_contra hne; exact b i hne cr
        subst this; rw [hp] at a; cases a
      · have : i = k := by
          by_contra hne; exact b i hne cr
        subst this; rw [hp] at a; cases a
      · have : i = k := by
          by_contra hne; exact b i hne cr
        subst this
        refine .inr (.inr (.inr (.inr ⟨fun j => ?_, upd_same _ _ _, d⟩)))
        dsimp only
        by_cases e : j = i
        · subst e; rw [upd_same]; simp [Crit]
        · rw [upd_other _ _ e]; exact b j e
      · exact absurd cr (a i)
    · exact ph_frame (hph u) rfl (upd_other _ _ e) (.inl rfl)
        (pc_frame (by rw [hp]; exact (nmid_other e).2.2.1) (nmid_other e).2.2.2.2)
  | ret i t hp =>
    refine ⟨hids, fun u => ?_, fun x hx => ?_⟩
    · by_cases e : u = t
      · subst e
        exact phDE_pc (ret_pos (hph u) hp) (by rw [hp]; simp [Crit]) (by simp [Crit]) _
      · exact ph_frame (hph u) rfl rfl (.inl rfl) (pc_frame (by rw [hp]; exact (nmid_other e).2.2.2.2) (nmid_idle u))
    · rcases List.mem_cons.1 hx with rfl | hx
      · exact ⟨rfl, (has_cell (ret_pos (hph t) hp)).1⟩
      · exact hlog x hx
  | env e h0 hf hn ho =>
    refine ⟨?_, fun u => ph_frame (hph u) rfl rfl (.inr ⟨e, rfl, ho u⟩) (fun j => .inl rfl), hlog⟩
    intro a ha b hb hab
    rcases List.mem_cons.1 ha with ea | ma <;> rcases List.mem_cons.1 hb with eb | mb
    · rw [ea, eb]
    · exact absurd (by rw [← hab, ea]) (hf b mb)
    · exact absurd (by rw [hab, eb]) (hf a ma)
    · exact hids a ma b mb hab

theorem inv_of_reach {reg : List Entry} (h : Spec.Clean reg) {s : State} (r : Spec.Reachable reg s) : Inv s := by
  unfold Spec.Reachable at r
  generalize hs : init reg = s0 at r
  induction r with
  | refl => subst hs; exact inv_init h
  | tail _ st ih => exact inv_step ih st

/-! ### The property -/

/-- C101: whatever the number of threads, the calls and the schedule, every `graphene_T_get_type ()` returns
the identifier of the boxed type registered under `T`'s name with `T`'s own copy and free functions, and no other
entry has that identifier or that name. -/
theorem C101_get_type {reg : List Entry} (hreg : Spec.Clean reg) {s : State} (r : Spec.Reachable reg s)
    {i id : Nat} {t : Obj} (h : (i, t, id) ∈ s.log) : Spec.Boxed s.reg t id := by
  obtain ⟨hids, hph, hlog⟩ := inv_of_reach hreg r
  obtain ⟨h1, h2⟩ := hlog _ h
  dsimp only at h1 h2
  obtain ⟨a, b, c⟩ := has_cell (cell_pos (hph t) h2)
  rw [Spec.Boxed, gir_eq]
  refine ⟨h1 ▸ h2, _, b, h1.symm, rfl, rfl, rfl, fun e he hor => ?_⟩
  rcases hor with hor | hor
  · exact hids e he _ b (hor.trans h1)
  · exact c e he hor

/-- C101: all calls for the same type return the same identifier, in every thread and for ever; calls for
different types return different identifiers. -/
theorem C101_same {reg : List Entry} (hreg : Spec.Clean reg) {s : State} (r : Spec.Reachable reg s)
    {i j id id' : Nat} {t u : Obj} (h : (i, t, id) ∈ s.log) (h' : (j, u, id') ∈ s.log) : id = id' ↔ t = u := by
  obtain ⟨hids, hph, hlog⟩ := inv_of_reach hreg r
  constructor
  · intro e
    obtain ⟨_, x, hx, a, b, _, _, c⟩ := C101_get_type hreg r h
    obtain ⟨_, y, hy, a', b', _, _, c'⟩ := C101_get_type hreg r h'
    have : y = x := c y hy (.inl (a'.trans e.symm))
    subst this
    exact typeName_inj (by rw [← gir_eq, ← gir_eq]; exact b.symm.trans b')
  · rintro rfl
    exact (hlog _ h).1.trans (hlog _ h').1.symm

/-- C101: no Graphene type is ever registered twice, even while calls race. -/
theorem C101_once {reg : List Entry} (hreg : Spec.Clean reg) {s : State} (r : Spec.Reachable reg s) (t : Obj)
    {e e' : Entry} (he : e ∈ s.reg) (he' : e' ∈ s.reg) (hn : e.name = Spec.girName t) (hn' : e'.name = Spec.girName t) :
    e = e' := by
  rw [gir_eq] at hn hn'
  obtain ⟨hids, hph, hlog⟩ := inv_of_reach hreg r
  have key : (∀ e ∈ s.reg, e.name ≠ typeName t) ∨ ∃ id, Has s.reg t id := by
    rcases hph t with ⟨_, _, _, a⟩ | ⟨_, _, _, _, _, _, a⟩ | ⟨_, id, _, _, _, _, _, a⟩ | ⟨_, _, _, _, a⟩ | ⟨_, _, a⟩
    · exact .inl a
    · exact .inl a
    · exact .inr ⟨_, a⟩
    · exact .inr ⟨_, a⟩
    · exact .inr ⟨_, a⟩
  rcases key with k | ⟨id, -, -, k⟩
  · exact absurd hn (k e he)
  · rw [k e he hn, k e' he' hn']

/-! ### Progress -/

theorem Steps.trans {a b c : State} (h1 : Steps a b) (h2 : Steps b c) : Steps a c := by
  induction h2 with
  | refl => exact h1
  | tail _ st ih => exact .tail ih st
theorem Steps.one {a b : State} (h : Step a b) : Steps a b := .tail (.refl a) h

theorem exists_fresh (l : List Entry) : ∃ id, id ≠ 0 ∧ ∀ e ∈ l, e.id ≠ id := by
  have : ∃ B, ∀ e ∈ l, e.id ≤ B := by
    induction l with
    | nil => exact ⟨0, by simp⟩
    | cons a l ih =>
      obtain ⟨B, hB⟩ := ih
      refine ⟨a.id + B, fun e he => ?_⟩
      rcases List.mem_cons.1 he with rfl | he
      · omega
      · have := hB e he; omega
  obtain ⟨B, hB⟩ := this
  exact ⟨B + 1, by omega, fun e he h => by have := hB e he; omega⟩

/-- what a thread is calling -/
def Inside (t : Obj) (p : PC) : Prop := p = .fast t ∨ p = .slow t ∨ Mid t p

/-- C101: a thread inside `graphene_T_get_type ()` can always make a step, except when it waits for
another thread that is registering `T`; and that thread can make a step. -/
theorem C101_no_deadlock {reg : List Entry} (hreg : Spec.Clean reg) {s : State} (r : Spec.Reachable reg s) (i : Nat)
    (hi : s.pc i ≠ .idle) :
    (∃ s', Step s s' ∧ s'.pc i ≠ s.pc i) ∨
    (∃ t j, s.pc i = .waiting t ∧ s.busy t = true ∧ j ≠ i ∧ Crit t (s.pc j) ∧ ∃ s', Step s s' ∧ s'.pc j ≠ s.pc j) := by
  obtain ⟨hids, hph, hlog⟩ := inv_of_reach hreg r
  have go : ∀ {s' k p}, Step s s' → s'.pc = upd s.pc k p → s.pc k ≠ p → ∃ s', Step s s' ∧ s'.pc k ≠ s.pc k := by
    intro s' k p st e hne
    exact ⟨s', st, by rw [e, upd_same]; exact hne.symm⟩
  -- a thread in the critical section is never blocked
  have crit : ∀ t k, Crit t (s.pc k) → ∃ s', Step s s' ∧ s'.pc k ≠ s.pc k := by
    rintro t k (h | ⟨id, h⟩ | h)
    · by_cases hn : ∃ e ∈ s.reg, e.name = typeName t
      · exact go (.refused s k t h hn) rfl (by rw [h]; simp)
      · obtain ⟨id, h0, hf⟩ := exists_fresh s.reg
        refine go (.register s k t id h (fun e he h => hn ⟨e, he, h⟩) h0 hf) rfl (by rw [h]; simp)
    · by_cases h0 : id = 0
      · subst h0; exact go (.storeZero s k t h) rfl (by rw [h]; simp)
      · exact go (.store s k t id h h0) rfl (by rw [h]; simp)
    · exact go (.done s k t h) rfl (by rw [h]; simp)
  rcases hpc : s.pc i with _ | t | t | t | t | ⟨t, id⟩ | t | t
  · exact absurd hpc hi
  · left; rw [← hpc]
    by_cases hc : s.cell t = 0
    · exact go (.fastNo s i t hpc hc) rfl (by rw [hpc]; simp)
    · exact go (.fastYes s i t hpc hc) rfl (by rw [hpc]; simp)
  · left; rw [← hpc]
    by_cases hc : s.cell t = 0
    · cases hb : s.busy t
      · exact go (.slowWin s i t hpc hc hb) rfl (by rw [hpc]; simp)
      · exact go (.slowWait s i t hpc hc hb) rfl (by rw [hpc]; simp)
    · exact go (.slowYes s i t hpc hc) rfl (by rw [hpc]; simp)
  · cases hb : s.busy t
    · left; rw [← hpc]; exact go (.wake s i t hpc hb) rfl (by rw [hpc]; simp)
    · right
      have : ∃ k, Crit t (s.pc k) := by
        rcases hph t with ⟨_, a, _⟩ | ⟨k, a, _⟩ | ⟨k, id, a, _⟩ | ⟨k, a, _⟩ | ⟨_, a, _⟩
        · rw [hb] at a; cases a
        · exact ⟨k, .inl a⟩
        · exact ⟨k, .inr (.inl ⟨id, a⟩)⟩
        · exact ⟨k, .inr (.inr a)⟩
        · rw [hb] at a; cases a
      obtain ⟨k, hk⟩ := this
      refine ⟨t, k, rfl, hb, ?_, hk, crit t k hk⟩
      rintro rfl; rw [hpc] at hk; simp [Crit] at hk
  · left; rw [← hpc]; exact crit t i (by rw [hpc]; exact .inl rfl)
  · left; rw [← hpc]; exact crit t i (by rw [hpc]; exact .inr (.inl ⟨id, rfl⟩))
  · left; rw [← hpc]; exact crit t i (by rw [hpc]; exact .inr (.inr rfl))
  · left; rw [← hpc]; exact go (.ret s i t hpc) rfl (by rw [hpc]; simp)

/-- the owner of the initialisation of `t` finishes it; no other thread moves -/
theorem finish {s : State} (h : Inv s) {t : Obj} {k : Nat} (hk : Crit t (s.pc k)) :
    ∃ s', Steps s s' ∧ s'.cell t ≠ 0 ∧ s'.busy t = false ∧ s'.pc = upd s.pc k (.ret t) ∧ s'.log = s.log := by
  have uu : ∀ (f : Nat → PC) p q, upd (upd f k p) k q = upd f k q := by
    intro f p q; funext j; simp only [upd]; split <;> rfl
  have fromStored : ∀ {s}, Inv s → s.pc k = .stored t →
      ∃ s', Steps s s' ∧ s'.cell t ≠ 0 ∧ s'.busy t = false ∧ s'.pc = upd s.pc k (.ret t) ∧ s'.log = s.log := by
    intro s h hk
    have hc : s.cell t ≠ 0 := by
      have cr : Crit t (s.pc k) := by rw [hk]; exact .inr (.inr rfl)
      rcases h.ph t with ⟨_, _, a, _⟩ | ⟨k', a, b, _⟩ | ⟨k', id', a, b, _⟩ | ⟨k', a, b, c, d⟩ | ⟨a, _⟩
      · exact absurd (.inl cr) (a k)
      · have : k = k' := by
          by_contra hne; exact b k hne cr
        subst this; rw [hk] at a; cases a
      · have : k = k' := by
          by_contra hne; exact b k hne cr
        subst this; rw [hk] at a; cases a
      · exact d.1
      · exact absurd cr (a k)
    exact ⟨_, .one (.done s k t hk), hc, upd_same _ _ _, rfl, rfl⟩
  have fromLeaving : ∀ {s id}, Inv s → s.pc k = .leaving t id →
      ∃ s', Steps s s' ∧ s'.cell t ≠ 0 ∧ s'.busy t = false ∧ s'.pc = upd s.pc k (.ret t) ∧ s'.log = s.log := by
    intro s id h hk
    have h0 : id ≠ 0 := by
      rintro rfl
      have cr : Crit t (s.pc k) := by rw [hk]; exact .inr (.inl ⟨0, rfl⟩)
      rcases h.ph t with ⟨_, _, a, _⟩ | ⟨k', a, b, _⟩ | ⟨k', id', a, b, c, d, f, g⟩ | ⟨k', a, b, c, d⟩ | ⟨a, _⟩
      · exact absurd (.inl cr) (a k)
      · have : k = k' := by
          by_contra hne; exact b k hne cr
        subst this; rw [hk] at a; cases a
      · have : k = k' := by
          by_contra hne; exact b k hne cr
        subst this; rw [hk] at a; cases a; exact g.1 rfl
      · have : k = k' := by
          by_contra hne; exact b k hne cr
        subst this; rw [hk] at a; cases a
      · exact absurd cr (a k)
    have st := Step.store s k t id hk h0
    obtain ⟨s', h1, h2, h3, h4, h5⟩ := fromStored (inv_step h st) (upd_same _ _ _)
    exact ⟨s', (Steps.one st).trans h1, h2, h3, by rw [h4]; exact uu _ _ _, h5⟩
  rcases hk with hk | ⟨id, hk⟩ | hk
  · have hn : ∀ e ∈ s.reg, e.name ≠ typeName t := by
      rcases h.ph t with ⟨_, _, a, _⟩ | ⟨k', a, b, _, _, _, g⟩ | ⟨k', id', a, b, _⟩ | ⟨k', a, b, _⟩ | ⟨a, _⟩
      · exact absurd (.inl (.inl hk)) (a k)
      · exact g
      · have : k = k' := by
          by_contra hne; exact b k hne (.inl hk)
        subst this; rw [hk] at a; cases a
      · have : k = k' := by
          by_contra hne; exact b k hne (.inl hk)
        subst this; rw [hk] at a; cases a
      · exact absurd (.inl hk) (a k)
    obtain ⟨id, h0, hf⟩ := exists_fresh s.reg
    have st := Step.register s k t id hk hn h0 hf
    obtain ⟨s', h1, h2, h3, h4, h5⟩ := fromLeaving (inv_step h st) (upd_same _ _ _)
    exact ⟨s', (Steps.one st).trans h1, h2, h3, by rw [h4]; exact uu _ _ _, h5⟩
  · exact fromLeaving h hk
  · exact fromStored h hk

/-- C101: from every reachable state every call can complete: no history leaves a thread that is inside
`graphene_T_get_type ()` without a continuation in which it returns. -/
theorem C101_returns {reg : List Entry} (hreg : Spec.Clean reg) {s : State} (r : Spec.Reachable reg s) {i : Nat} {t : Obj}
    (hi : Inside t (s.pc i)) :
    ∃ s' id, Steps s s' ∧ s'.pc i = .idle ∧ s'.log = (i, t, id) :: s.log ∧ Spec.Boxed s'.reg t id := by
  have hinv := inv_of_reach hreg r
  suffices h : ∃ s' id, Steps s s' ∧ s'.pc i = .idle ∧ s'.log = (i, t, id) :: s.log by
    obtain ⟨s', id, h1, h2, h3⟩ := h
    exact ⟨s', id, h1, h2, h3, C101_get_type hreg (Steps.trans r h1) (i := i) (by rw [h3]; exact List.mem_cons_self)⟩
  have cRet : ∀ {s}, s.pc i = .ret t → ∃ s' id, Steps s s' ∧ s'.pc i = .idle ∧ s'.log = (i, t, id) :: s.log :=
    fun {s} h => ⟨_, _, .one (.ret s i t h), upd_same _ _ _, rfl⟩
  -- prefix a computation that leaves the log alone
  have pre : ∀ {s u}, Steps s u → u.log = s.log →
      (∃ s' id, Steps u s' ∧ s'.pc i = .idle ∧ s'.log = (i, t, id) :: u.log) →
      ∃ s' id, Steps s s' ∧ s'.pc i = .idle ∧ s'.log = (i, t, id) :: s.log := by
    rintro s u h1 h2 ⟨s', id, h3, h4, h5⟩
    exact ⟨s', id, h1.trans h3, h4, by rw [h5, h2]⟩
  have cCrit : ∀ {s}, Inv s → Crit t (s.pc i) →
      ∃ s' id, Steps s s' ∧ s'.pc i = .idle ∧ s'.log = (i, t, id) :: s.log := by
    intro s h hc
    obtain ⟨u, h1, -, -, h4, h5⟩ := finish h hc
    exact pre h1 h5 (cRet (by rw [h4, upd_same]))
  have cWait : ∀ {s}, Inv s → s.pc i = .waiting t →
      ∃ s' id, Steps s s' ∧ s'.pc i = .idle ∧ s'.log = (i, t, id) :: s.log := by
    intro s h hw
    have wake : ∀ {s}, s.pc i = .waiting t → s.busy t = false →
        ∃ s' id, Steps s s' ∧ s'.pc i = .idle ∧ s'.log = (i, t, id) :: s.log :=
      fun {s} h hb => pre (.one (.wake s i t h hb)) rfl (cRet (upd_same _ _ _))
    cases hb : s.busy t
    · exact wake hw hb
    · have : ∃ k, Crit t (s.pc k) := by
        rcases h.ph t with ⟨_, a, _⟩ | ⟨k, a, _⟩ | ⟨k, id, a, _⟩ | ⟨k, a, _⟩ | ⟨_, a, _⟩
        · rw [hb] at a; cases a
        · exact ⟨k, .inl a⟩
        · exact ⟨k, .inr (.inl ⟨id, a⟩)⟩
        · exact ⟨k, .inr (.inr a)⟩
        · rw [hb] at a; cases a
      obtain ⟨k, hk⟩ := this
      have hne : i ≠ k := by rintro rfl; rw [hw] at hk; simp [Crit] at hk
      obtain ⟨u, h1, -, h3, h4, h5⟩ := finish h hk
      exact pre h1 h5 (wake (by rw [h4, upd_other _ _ hne]; exact hw) h3)
  have cSlow : ∀ {s}, Inv s → s.pc i = .slow t →
      ∃ s' id, Steps s s' ∧ s'.pc i = .idle ∧ s'.log = (i, t, id) :: s.log := by
    intro s h hw
    by_cases hc : s.cell t = 0
    · cases hb : s.busy t
      · have st := Step.slowWin s i t hw hc hb
        exact pre (.one st) rfl (cCrit (inv_step h st) (by dsimp only; rw [upd_same]; exact .inl rfl))
      · have st := Step.slowWait s i t hw hc hb
        exact pre (.one st) rfl (cWait (inv_step h st) (upd_same _ _ _))
    · exact pre (.one (.slowYes s i t hw hc)) rfl (cRet (upd_same _ _ _))
  rcases hi with hi | hi | hi | hi | hi
  · by_cases hc : s.cell t = 0
    · have st := Step.fastNo s i t hi hc
      exact pre (.one st) rfl (cSlow (inv_step hinv st) (upd_same _ _ _))
    · exact pre (.one (.fastYes s i t hi hc)) rfl (cRet (upd_same _ _ _))
  · exact cSlow hinv hi
  · exact cCrit hinv hi
  · exact cWait hinv hi
  · exact cRet hi

/-! ### The hypothesis on the names is needed -/

/-- the states of a type whose name somebody else has registered -/
def Stuck (s : State) (u : Obj) : Prop :=
  s.cell u = 0 ∧ (∃ e ∈ s.reg, e.name = typeName u) ∧
  ((s.busy u = false ∧ (∀ j, ¬ Mid u (s.pc j)) ∧ ∀ x ∈ s.log, x.2.1 ≠ u) ∨
   (s.busy u = true ∧ (∃ i, (s.pc i = .won u ∨ s.pc i = .leaving u 0 ∨ s.pc i = .ret u) ∧
      ∀ j, j ≠ i → ¬ Crit u (s.pc j) ∧ s.pc j ≠ .ret u) ∧ ∀ x ∈ s.log, x.2.1 ≠ u) ∨
   (s.busy u = true ∧ (∀ j, ¬ Crit u (s.pc j) ∧ s.pc j ≠ .ret u) ∧
      ∃ i l l', s.log = l ++ (i, u, 0) :: l' ∧ (∀ x ∈ l, x.2.1 ≠ u) ∧ ∀ x ∈ l', x.2.1 ≠ u))

theorem stuck_frame {s s' : State} {u : Obj} (h : Stuck s u) (hc : s'.cell u = s.cell u) (hb : s'.busy u = s.busy u)
    (hr : ∀ e ∈ s.reg, e ∈ s'.reg) (hl : s'.log = s.log ∨ ∃ x, x.2.1 ≠ u ∧ s'.log = x :: s.log)
    (hp : ∀ j, s'.pc j = s.pc j ∨ (¬ Mid u (s.pc j) ∧ ¬ Mid u (s'.pc j))) : Stuck s' u := by
  obtain ⟨h1, ⟨e, he, hn⟩, h⟩ := h
  have eqOf : ∀ {j p}, s.pc j = p → Mid u p → s'.pc j = p := by
    intro j p hj hm
    rcases hp j with e | e
    · rw [e, hj]
    · exact absurd (hj ▸ hm) e.1
  have mid : ∀ {j}, ¬ Mid u (s.pc j) → ¬ Mid u (s'.pc j) := by
    intro j hj
    rcases hp j with e | e
    · rwa [e]
    · exact e.2
  have cr : ∀ {j}, (¬ Crit u (s.pc j) ∧ s.pc j ≠ .ret u) → (¬ Crit u (s'.pc j) ∧ s'.pc j ≠ .ret u) := by
    intro j hj
    rcases hp j with e | e
    · rwa [e]
    · exact ⟨fun h => e.2 (.inl h), fun h => e.2 (.inr (.inr h))⟩
  have lg : (∀ x ∈ s.log, x.2.1 ≠ u) → ∀ x ∈ s'.log, x.2.1 ≠ u := by
    intro h x hx
    rcases hl with e | ⟨y, hy, e⟩
    · rw [e] at hx; exact h x hx
    · rw [e] at hx
      rcases List.mem_cons.1 hx with rfl | hx
      · exact hy
      · exact h x hx
  refine ⟨hc.trans h1, ⟨e, hr e he, hn⟩, ?_⟩
  rcases h with ⟨a, b, c⟩ | ⟨a, ⟨i, b, b'⟩, c⟩ | ⟨a, b, i, l, l', c, d, d'⟩
  · exact .inl ⟨hb.trans a, fun j => mid (b j), lg c⟩
  · refine .inr (.inl ⟨hb.trans a, ⟨i, ?_, fun j hj => cr (b' j hj)⟩, lg c⟩)
    rcases b with b | b | b
    · exact .inl (eqOf b (.inl (.inl rfl)))
    · exact .inr (.inl (eqOf b (.inl (.inr (.inl ⟨0, rfl⟩)))))
    · exact .inr (.inr (eqOf b (.inr (.inr rfl))))
  · refine .inr (.inr ⟨hb.trans a, fun j => cr (b j), ?_⟩)
    rcases hl with e | ⟨y, hy, e⟩
    · exact ⟨i, l, l', e.trans c, d, d'⟩
    · refine ⟨i, y :: l, l', by rw [e, c]; rfl, fun x hx => ?_, d'⟩
      rcases List.mem_cons.1 hx with rfl | hx
      · exact hy
      · exact d x hx

theorem stuck_init {reg : List Entry} {u : Obj} (h : ∃ e ∈ reg, e.name = typeName u) : Stuck (init reg) u :=
  ⟨rfl, h, .inl ⟨rfl, fun j => by simp [init, Mid, Crit], by simp [init]⟩⟩

/-- the thread in the middle of things is the owner -/
theorem stuck_owner {s : State} {u : Obj} (h : Stuck s u) {i : Nat} (hi : Crit u (s.pc i) ∨ s.pc i = .ret u) :
    s.busy u = true ∧ (s.pc i = .won u ∨ s.pc i = .leaving u 0 ∨ s.pc i = .ret u) ∧
      (∀ j, j ≠ i → ¬ Crit u (s.pc j) ∧ s.pc j ≠ .ret u) ∧ ∀ x ∈ s.log, x.2.1 ≠ u := by
  obtain ⟨-, -, h⟩ := h
  rcases h with ⟨a, b, c⟩ | ⟨a, ⟨k, b, b'⟩, c⟩ | ⟨a, b, _⟩
  · exact absurd (hi.elim .inl (fun h => .inr (.inr h))) (b i)
  · have : i = k := by
      by_contra hne
      exact hi.elim (b' i hne).1 (b' i hne).2
    subst this; exact ⟨a, b, b', c⟩
  · exact (hi.elim (b i).1 (b i).2).elim

theorem stuck_step {s s' : State} {u : Obj} (h : Stuck s u) (st : Step s s') : Stuck s' u := by
  cases st with
  | call i t hp =>
    exact stuck_frame h rfl rfl (fun _ => id) (.inl rfl) (pc_frame (by rw [hp]; exact nmid_idle u) (nmid_fast u t))
  | fastYes i t hp hc =>
    by_cases e : u = t
    · subst e; exact absurd h.1 hc
    · exact stuck_frame h rfl rfl (fun _ => id) (.inl rfl)
        (pc_frame (by rw [hp]; exact nmid_fast u t) (nmid_other e).2.2.2.2)
  | fastNo i t hp hc =>
    exact stuck_frame h rfl rfl (fun _ => id) (.inl rfl) (pc_frame (by rw [hp]; exact nmid_fast u t) (nmid_slow u t))
  | slowYes i t hp hc =>
    by_cases e : u = t
    · subst e; exact absurd h.1 hc
    · exact stuck_frame h rfl rfl (fun _ => id) (.inl rfl)
        (pc_frame (by rw [hp]; exact nmid_slow u t) (nmid_other e).2.2.2.2)
  | slowWin i t hp hc hb =>
    by_cases e : u = t
    · subst e
      obtain ⟨h1, h2, ⟨a, b, c⟩ | ⟨a, _⟩ | ⟨a, _⟩⟩ := h
      · refine ⟨h1, h2, .inr (.inl ⟨upd_same _ _ _, ⟨i, .inl (upd_same _ _ _), fun j hj => ?_⟩, c⟩)⟩
        dsimp only; rw [upd_other _ _ hj]
        exact ⟨fun h => b j (.inl h), fun h => b j (.inr (.inr h))⟩
      · rw [hb] at a; cases a
      · rw [hb] at a; cases a
    · exact stuck_frame h rfl (upd_other _ _ e) (fun _ => id) (.inl rfl)
        (pc_frame (by rw [hp]; exact nmid_slow u t) (nmid_other e).1)
  | slowWait i t hp hc hb =>
    by_cases e : u = t
    · subst e
      have cr : ∀ {j}, (¬ Crit u (s.pc j) ∧ s.pc j ≠ .ret u) →
          (¬ Crit u (upd s.pc i (.waiting u) j) ∧ upd s.pc i (.waiting u) j ≠ .ret u) := by
        intro j hj
        by_cases e : j = i
        · subst e; rw [upd_same]; simp [Crit]
        · rw [upd_other _ _ e]; exact hj
      obtain ⟨h1, h2, ⟨a, _⟩ | ⟨a, ⟨k, b, b'⟩, c⟩ | ⟨a, b, c⟩⟩ := h
      · rw [hb] at a; cases a
      · have : k ≠ i := by
          rintro rfl; rw [hp] at b; simp at b
        refine ⟨h1, h2, .inr (.inl ⟨a, ⟨k, ?_, fun j hj => cr (b' j hj)⟩, c⟩)⟩
        dsimp only; rw [upd_other _ _ this]; exact b
      · exact ⟨h1, h2, .inr (.inr ⟨a, fun j => cr (b j), c⟩)⟩
    · exact stuck_frame h rfl rfl (fun _ => id) (.inl rfl)
        (pc_frame (by rw [hp]; exact nmid_slow u t) (nmid_other e).2.2.2.1)
  | wake i t hp hb =>
    by_cases e : u = t
    · subst e
      obtain ⟨h1, h2, ⟨_, b, _⟩ | ⟨a, _⟩ | ⟨a, _⟩⟩ := h
      · exact absurd (.inr (.inl hp)) (b i)
      · rw [hb] at a; cases a
      · rw [hb] at a; cases a
    · exact stuck_frame h rfl rfl (fun _ => id) (.inl rfl)
        (pc_frame (by rw [hp]; exact (nmid_other e).2.2.2.1) (nmid_other e).2.2.2.2)
  | register i t id hp hn h0 hf =>
    by_cases e : u = t
    · subst e
      obtain ⟨-, ⟨x, hx, hxn⟩, -⟩ := h
      exact absurd hxn (hn x hx)
    · exact stuck_frame h rfl rfl (fun _ h => List.mem_cons_of_mem _ h) (.inl rfl)
        (pc_frame (by rw [hp]; exact (nmid_other e).1) ((nmid_other e).2.1 id))
  | refused i t hp hn =>
    by_cases e : u = t
    · subst e
      obtain ⟨a, -, c, d⟩ := stuck_owner h (i := i) (.inl (.inl hp))
      refine ⟨h.1, h.2.1, .inr (.inl ⟨a, ⟨i, .inr (.inl (upd_same _ _ _)), fun j hj => ?_⟩, d⟩)⟩
      dsimp only; rw [upd_other _ _ hj]; exact c j hj
    · exact stuck_frame h rfl rfl (fun _ => id) (.inl rfl)
        (pc_frame (by rw [hp]; exact (nmid_other e).1) ((nmid_other e).2.1 0))
  | store i t id hp h0 =>
    by_cases e : u = t
    · subst e
      obtain ⟨-, b, -⟩ := stuck_owner h (i := i) (.inl (by rw [hp]; exact .inr (.inl ⟨id, rfl⟩)))
      rw [hp] at b; simp at b; exact absurd b h0
    · exact stuck_frame h (upd_other _ _ e) rfl (fun _ h => h) (.inl rfl)
        (pc_frame (by rw [hp]; exact (nmid_other e).2.1 id) (nmid_other e).2.2.1)
  | storeZero i t hp =>
    by_cases e : u = t
    · subst e
      obtain ⟨a, -, c, d⟩ := stuck_owner h (i := i) (.inl (by rw [hp]; exact .inr (.inl ⟨0, rfl⟩)))
      refine ⟨h.1, h.2.1, .inr (.inl ⟨a, ⟨i, .inr (.inr (upd_same _ _ _)), fun j hj => ?_⟩, d⟩)⟩
      dsimp only; rw [upd_other _ _ hj]; exact c j hj
    · exact stuck_frame h rfl rfl (fun _ => id) (.inl rfl)
        (pc_frame (by rw [hp]; exact (nmid_other e).2.1 0) (nmid_other e).2.2.2.2)
  | done i t hp =>
    by_cases e : u = t
    · subst e
      obtain ⟨-, b, -⟩ := stuck_owner h (i := i) (.inl (by rw [hp]; exact .inr (.inr rfl)))
      rw [hp] at b; simp at b
    · exact stuck_frame h rfl (upd_other _ _ e) (fun _ => id) (.inl rfl)
        (pc_frame (by rw [hp]; exact (nmid_other e).2.2.1) (nmid_other e).2.2.2.2)
  | ret i t hp =>
    by_cases e : u = t
    · subst e
      obtain ⟨a, -, c, d⟩ := stuck_owner h (i := i) (.inr hp)
      refine ⟨h.1, h.2.1, .inr (.inr ⟨a, fun j => ?_, i, [], s.log, by rw [h.1]; rfl, by simp, d⟩)⟩
      dsimp only
      by_cases e : j = i
      · subst e; rw [upd_same]; simp [Crit]
      · rw [upd_other _ _ e]; exact c j e
    · exact stuck_frame h rfl rfl (fun _ => id) (.inr ⟨_, fun h => e h.symm, rfl⟩)
        (pc_frame (by rw [hp]; exact (nmid_other e).2.2.2.2) (nmid_idle u))
  | env e h0 hf hn ho =>
    exact stuck_frame h rfl rfl (fun _ h => List.mem_cons_of_mem _ h) (.inl rfl) (fun j => .inl rfl)

/-- Where C101 ends: if other code has registered a type under the name of `T`, the first
`graphene_T_get_type ()` returns 0 and no other call ever returns: at most one value is returned, and it is 0. -/
theorem C101_name_clash {reg : List Entry} {t : Obj} (hreg : ∃ e ∈ reg, e.name = Spec.girName t) {s : State}
    (r : Spec.Reachable reg s) :
    (∀ x ∈ s.log, x.2.1 = t → x.2.2 = 0) ∧ (s.log.filter (fun x => x.2.1 = t)).length ≤ 1 := by
  rw [gir_eq] at hreg
  have h : Stuck s t := by
    unfold Spec.Reachable at r
    generalize hs : init reg = s0 at r
    induction r with
    | refl => subst hs; exact stuck_init hreg
    | tail _ st ih => exact stuck_step ih st
  have fl : ∀ l : List (Nat × Obj × Nat), (∀ x ∈ l, x.2.1 ≠ t) → l.filter (fun x => x.2.1 = t) = [] := by
    intro l hl
    exact List.filter_eq_nil_iff.2 (fun x hx => by simpa using hl x hx)
  obtain ⟨-, -, ⟨_, _, c⟩ | ⟨_, _, c⟩ | ⟨_, _, i, l, l', c, d, d'⟩⟩ := h
  · exact ⟨fun x hx e => absurd e (c x hx), by rw [fl _ c]; simp⟩
  · exact ⟨fun x hx e => absurd e (c x hx), by rw [fl _ c]; simp⟩
  · refine ⟨fun x hx e => ?_, ?_⟩
    · rw [c] at hx
      rcases List.mem_append.1 hx with hx | hx
      · exact absurd e (d x hx)
      · rcases List.mem_cons.1 hx with rfl | hx
        · rfl
        · exact absurd e (d' x hx)
    · rw [c, List.filter_append, fl l d, List.filter_cons_of_pos (by simp), fl l' d']; simp

/-! ### Non-vacuity: two threads race for the rectangle type -/

/-- a process in which GLib's own types are registered -/
def glibTypes : List Entry := [⟨24, "GObject", .other 0, .other 1⟩, ⟨25, "GStrv", .other 2, .other 3⟩]

example : Spec.Clean glibTypes := by
  refine ⟨?_, ?_⟩
  · simp [glibTypes]
  · intro e he t
    simp only [glibTypes, List.mem_cons, List.not_mem_nil, or_false] at he
    rcases he with rfl | rfl <;> cases t <;> decide

/-- thread 0 wins, thread 1 waits, both get the identifier 100 -/
example : ∃ s, Spec.Reachable glibTypes s ∧ s.log = [(1, .rect, 100), (0, .rect, 100)] := by
  have s0 := Steps.refl (init glibTypes)
  have s1 := s0.tail (.call _ 0 .rect rfl)
  have s2 := s1.tail (.call _ 1 .rect rfl)
  have s3 := s2.tail (.fastNo _ 0 .rect rfl rfl)
  have s4 := s3.tail (.slowWin _ 0 .rect rfl rfl rfl)
  have s5 := s4.tail (.fastNo _ 1 .rect rfl rfl)
  have s6 := s5.tail (.register _ 0 .rect 100 rfl (by simp [init, glibTypes, typeName]) (by decide)
    (by simp [init, glibTypes]))
  have s7 := s6.tail (.slowWait _ 1 .rect rfl rfl rfl)
  have s8 := s7.tail (.store _ 0 .rect 100 rfl (by decide))
  have s9 := s8.tail (.done _ 0 .rect rfl)
  have s10 := s9.tail (.ret _ 0 .rect rfl)
  have s11 := s10.tail (.wake _ 1 .rect rfl rfl)
  have s12 := s11.tail (.ret _ 1 .rect rfl)
  exact ⟨_, s12, rfl⟩

end Graphene.GTypes

/-
  C83: lazily initialised static constants.
-/
import Verif.Model.Consts
import Verif.Model.Fp
import Verif.Proofs.KDecide
import Mathlib.Data.List.Basic
import Mathlib.Tactic.Tauto

namespace Graphene.Once

theorem set_same {T : Type} (f : Nat → T) (i : Nat) (v : T) : set f i v i = v := by simp [set]
theorem set_other {T : Type} (f : Nat → T) {i j : Nat} (v : T) (h : j ≠ i) : set f i v j = f j := by simp [set, h]

variable {V : Type}

/-- what holds in every reachable state of the `pthread_once` build -/
structure Inv (N : Nat) (val : Nat → V) (s : State V) : Prop where
  noFlag : ∀ t, Loc.flag ∉ s.buf t
  log : ∀ e ∈ s.log, e.2 = val e.1
  want : ∀ t w, s.pc t = .ready w → w < N
  wantE : ∀ t w, s.pc t = .enter w → w < N
  wantS : ∀ t w k, s.pc t = .storing w k → w < N
  fresh : s.ctl = .fresh → ∀ t, (s.pc t = .idle ∨ ∃ w, s.pc t = .enter w) ∧ s.buf t = []
  running : ∀ u, s.ctl = .running u → (∀ t, t ≠ u → (s.pc t = .idle ∨ ∃ w, s.pc t = .enter w) ∧ s.buf t = []) ∧
    ∃ w k, s.pc u = .storing w k ∧ k ≤ N ∧ ∀ i < k, s.slots i = val i ∨ Loc.slot i ∈ s.buf u
  done : s.ctl = .done → (∀ i < N, s.slots i = val i) ∧ (∀ t, s.buf t = []) ∧ ∀ t w k, s.pc t ≠ .storing w k

theorem inv_init (N : Nat) (val : Nat → V) (junk : V) : Inv N val (init junk) := by
  constructor <;> simp [init]

theorem inv_step {N : Nat} {val : Nat → V} {s s' : State V} (h : Inv N val s) (st : Step .once N val s s') : Inv N val s' := by
  obtain ⟨h1, h2, h3, h3e, h3s, h4, h5, h6⟩ := h
  cases st with
  | call t w hw hi =>
    have nu : ∀ u, s.ctl = .running u → t ≠ u := by
      rintro u hu rfl
      obtain ⟨-, w', k, h, -⟩ := h5 _ hu
      rw [hi] at h; cases h
    refine ⟨h1, h2, ?_, ?_, ?_, ?_, ?_, ?_⟩
    · intro u v hv
      by_cases hu : u = t
      · subst hu; (dsimp only at hv; rw [set_same] at hv); cases hv
      · (dsimp only at hv; rw [set_other _ _ hu] at hv); exact h3 u v hv
    · intro u v hv
      by_cases hu : u = t
      · subst hu; (dsimp only at hv; rw [set_same] at hv); cases hv; exact hw
      · (dsimp only at hv; rw [set_other _ _ hu] at hv); exact h3e u v hv
    · intro u v k hv
      by_cases hu : u = t
      · subst hu; (dsimp only at hv; rw [set_same] at hv); cases hv
      · (dsimp only at hv; rw [set_other _ _ hu] at hv); exact h3s u v k hv
    · intro hf u
      refine ⟨?_, (h4 hf u).2⟩
      by_cases hu : u = t
      · subst hu; right; exact ⟨w, set_same _ _ _⟩
      · (dsimp only; rw [set_other _ _ hu]); exact (h4 hf u).1
    · intro u hu
      obtain ⟨a, w', k, b, c⟩ := h5 u hu
      refine ⟨fun v hv => ⟨?_, (a v hv).2⟩, w', k, ?_, c⟩
      · by_cases hvt : v = t
        · subst hvt; right; exact ⟨w, set_same _ _ _⟩
        · (dsimp only; rw [set_other _ _ hvt]); exact (a v hv).1
      · (dsimp only; rw [set_other _ _ (nu u hu).symm]); exact b
    · intro hd
      obtain ⟨a, b, c⟩ := h6 hd
      refine ⟨a, b, fun u v k hv => ?_⟩
      by_cases hu : u = t
      · subst hu; (dsimp only at hv; rw [set_same] at hv); cases hv
      · (dsimp only at hv; rw [set_other _ _ hu] at hv); exact c u v k hv
  | onceBegin t w hb hp hc =>
    have hf := h4 hc
    refine ⟨h1, h2, ?_, ?_, ?_, by simp, ?_, by simp⟩
    · intro u v hv
      by_cases hu : u = t
      · subst hu; (dsimp only at hv; rw [set_same] at hv); cases hv
      · (dsimp only at hv; rw [set_other _ _ hu] at hv); exact h3 u v hv
    · intro u v hv
      by_cases hu : u = t
      · subst hu; (dsimp only at hv; rw [set_same] at hv); cases hv
      · (dsimp only at hv; rw [set_other _ _ hu] at hv); exact h3e u v hv
    · intro u v k hv
      by_cases hu : u = t
      · subst hu; (dsimp only at hv; rw [set_same] at hv); cases hv; exact h3e _ _ hp
      · (dsimp only at hv; rw [set_other _ _ hu] at hv); exact h3s u v k hv
    · intro u hu
      simp only [Ctl.running.injEq] at hu
      subst hu
      refine ⟨fun v hv => ?_, w, 0, set_same _ _ _, Nat.zero_le _, by simp⟩
      (dsimp only; rw [set_other _ _ hv]); exact hf v
  | onceSkip t w hb hp hc =>
    obtain ⟨a, b, c⟩ := h6 hc
    refine ⟨h1, h2, ?_, ?_, ?_, by simp [hc], by simp [hc], ?_⟩
    · intro u v hv
      by_cases hu : u = t
      · subst hu; (dsimp only at hv; rw [set_same] at hv); cases hv; exact h3e _ _ hp
      · (dsimp only at hv; rw [set_other _ _ hu] at hv); exact h3 u v hv
    · intro u v hv
      by_cases hu : u = t
      · subst hu; (dsimp only at hv; rw [set_same] at hv); cases hv
      · (dsimp only at hv; rw [set_other _ _ hu] at hv); exact h3e u v hv
    · intro u v k hv
      by_cases hu : u = t
      · subst hu; (dsimp only at hv; rw [set_same] at hv); cases hv
      · (dsimp only at hv; rw [set_other _ _ hu] at hv); exact h3s u v k hv
    · intro _
      refine ⟨a, b, fun u v k hv => ?_⟩
      by_cases hu : u = t
      · subst hu; (dsimp only at hv; rw [set_same] at hv); cases hv
      · (dsimp only at hv; rw [set_other _ _ hu] at hv); exact c u v k hv
  | store t w k hp hk =>
    have hrun : s.ctl = .running t := by
      cases hc : s.ctl with
      | fresh => rcases (h4 hc t).1 with e | ⟨_, e⟩ <;> rw [hp] at e <;> cases e
      | done => exact absurd hp ((h6 hc).2.2 t w k)
      | running u =>
        by_cases hu : t = u
        · rw [hu]
        · rcases ((h5 u hc).1 t hu).1 with e | ⟨_, e⟩ <;> rw [hp] at e <;> cases e
    obtain ⟨a, w', k', b, c, d⟩ := h5 t hrun
    rw [hp] at b; cases b
    refine ⟨?_, h2, ?_, ?_, ?_, by simp [hrun], ?_, by simp [hrun]⟩
    · intro u
      by_cases hu : u = t
      · subst hu; (dsimp only; rw [set_same]); simp [h1]
      · (dsimp only; rw [set_other _ _ hu]); exact h1 u
    · intro u v hv
      by_cases hu : u = t
      · subst hu; (dsimp only at hv; rw [set_same] at hv); cases hv
      · (dsimp only at hv; rw [set_other _ _ hu] at hv); exact h3 u v hv
    · intro u v hv
      by_cases hu : u = t
      · subst hu; (dsimp only at hv; rw [set_same] at hv); cases hv
      · (dsimp only at hv; rw [set_other _ _ hu] at hv); exact h3e u v hv
    · intro u v l hv
      by_cases hu : u = t
      · subst hu; (dsimp only at hv; rw [set_same] at hv); cases hv; exact h3s _ _ _ hp
      · (dsimp only at hv; rw [set_other _ _ hu] at hv); exact h3s u v l hv
    · intro u hu
      rw [hrun] at hu; cases hu
      refine ⟨fun v hv => ?_, w, k + 1, set_same _ _ _, hk, ?_⟩
      · (dsimp only; rw [set_other _ _ hv, set_other _ _ hv]); exact a v hv
      · intro i hi
        (dsimp only; rw [set_same])
        rcases Nat.lt_or_ge i k with h | h
        · rcases d i h with e | e
          · exact Or.inl e
          · exact Or.inr (by simp [e])
        · have : i = k := by omega
          subst this; exact Or.inr (by simp)
  | onceEnd t w hb hp he =>
    have hrun : s.ctl = .running t := by
      cases hc : s.ctl with
      | fresh => rcases (h4 hc t).1 with e | ⟨_, e⟩ <;> rw [hp] at e <;> cases e
      | done => exact absurd hp ((h6 hc).2.2 t w N)
      | running u =>
        by_cases hu : t = u
        · rw [hu]
        · rcases ((h5 u hc).1 t hu).1 with e | ⟨_, e⟩ <;> rw [hp] at e <;> cases e
    obtain ⟨a, w', k', b, c, d⟩ := h5 t hrun
    rw [hp] at b; cases b
    refine ⟨h1, h2, ?_, ?_, ?_, by simp, by simp, ?_⟩
    · intro u v hv
      by_cases hu : u = t
      · subst hu; (dsimp only at hv; rw [set_same] at hv); cases hv; exact h3s _ _ _ hp
      · (dsimp only at hv; rw [set_other _ _ hu] at hv); exact h3 u v hv
    · intro u v hv
      by_cases hu : u = t
      · subst hu; (dsimp only at hv; rw [set_same] at hv); cases hv
      · (dsimp only at hv; rw [set_other _ _ hu] at hv); exact h3e u v hv
    · intro u v k hv
      by_cases hu : u = t
      · subst hu; (dsimp only at hv; rw [set_same] at hv); cases hv
      · (dsimp only at hv; rw [set_other _ _ hu] at hv); exact h3s u v k hv
    · intro _
      refine ⟨fun i hi => ?_, fun u => ?_, fun u v k hv => ?_⟩
      · rcases d i hi with e | e
        · exact e
        · rw [he] at e; cases e
      · by_cases hu : u = t
        · subst hu; exact he
        · exact (a u hu).2
      · by_cases hu : u = t
        · subst hu; (dsimp only at hv; rw [set_same] at hv); cases hv
        · (dsimp only at hv; rw [set_other _ _ hu] at hv)
          rcases (a u hu).1 with e | ⟨_, e⟩ <;> rw [hv] at e <;> cases e
  | flagSkip t w hb => cases hb
  | flagBegin t w hb => cases hb
  | flagEnd t w hb => cases hb
  | drainSlot t i hm =>
    have hrun : s.ctl = .running t := by
      cases hc : s.ctl with
      | fresh => rw [(h4 hc t).2] at hm; cases hm
      | done => rw [(h6 hc).2.1 t] at hm; cases hm
      | running u =>
        by_cases hu : t = u
        · rw [hu]
        · rw [((h5 u hc).1 t hu).2] at hm; cases hm
    obtain ⟨a, w', k', b, c, d⟩ := h5 t hrun
    refine ⟨?_, h2, h3, h3e, h3s, by simp [hrun], ?_, by simp [hrun]⟩
    · intro u
      by_cases hu : u = t
      · subst hu; (dsimp only; rw [set_same]); exact fun h => h1 u (List.mem_of_mem_erase h)
      · (dsimp only; rw [set_other _ _ hu]); exact h1 u
    · intro u hu
      rw [hrun] at hu; cases hu
      refine ⟨fun v hv => ?_, w', k', b, c, ?_⟩
      · (dsimp only; rw [set_other _ _ hv]); exact a v hv
      · intro j hj
        by_cases hji : j = i
        · subst hji; left; exact set_same _ _ _
        · (dsimp only; rw [set_other _ _ hji])
          rcases d j hj with e | e
          · exact Or.inl e
          · right; rw [set_same]
            exact (List.mem_erase_of_ne (by intro h; cases h; exact hji rfl)).2 e
  | drainFlag t hm => exact absurd hm (h1 t)
  | read t w hp =>
    have hdone : s.ctl = .done := by
      cases hc : s.ctl with
      | fresh => rcases (h4 hc t).1 with e | ⟨_, e⟩ <;> rw [hp] at e <;> cases e
      | done => rfl
      | running u =>
        by_cases hu : t = u
        · obtain ⟨-, w', k, b, -⟩ := h5 u hc
          rw [← hu, hp] at b; cases b
        · rcases ((h5 u hc).1 t hu).1 with e | ⟨_, e⟩ <;> rw [hp] at e <;> cases e
    obtain ⟨a, b, c⟩ := h6 hdone
    refine ⟨h1, ?_, h3, h3e, h3s, h4, h5, h6⟩
    intro e he
    rcases List.mem_cons.1 he with rfl | he
    · simp only [b t, List.not_mem_nil, if_false]; exact a w (h3 t w hp)
    · exact h2 e he
  | leave t w hp =>
    have nu : ∀ u, s.ctl = .running u → t ≠ u := by
      rintro u hu rfl
      obtain ⟨-, w', k, h, -⟩ := h5 _ hu
      rw [hp] at h; cases h
    refine ⟨h1, h2, ?_, ?_, ?_, ?_, ?_, ?_⟩
    · intro u v hv
      by_cases hu : u = t
      · subst hu; (dsimp only at hv; rw [set_same] at hv); cases hv
      · (dsimp only at hv; rw [set_other _ _ hu] at hv); exact h3 u v hv
    · intro u v hv
      by_cases hu : u = t
      · subst hu; (dsimp only at hv; rw [set_same] at hv); cases hv
      · (dsimp only at hv; rw [set_other _ _ hu] at hv); exact h3e u v hv
    · intro u v k hv
      by_cases hu : u = t
      · subst hu; (dsimp only at hv; rw [set_same] at hv); cases hv
      · (dsimp only at hv; rw [set_other _ _ hu] at hv); exact h3s u v k hv
    · intro hf u
      refine ⟨?_, (h4 hf u).2⟩
      by_cases hu : u = t
      · subst hu; left; exact set_same _ _ _
      · (dsimp only; rw [set_other _ _ hu]); exact (h4 hf u).1
    · intro u hu
      obtain ⟨a, w', k, b, c⟩ := h5 u hu
      refine ⟨fun v hv => ⟨?_, (a v hv).2⟩, w', k, ?_, c⟩
      · by_cases hvt : v = t
        · subst hvt; left; exact set_same _ _ _
        · (dsimp only; rw [set_other _ _ hvt]); exact (a v hv).1
      · (dsimp only; rw [set_other _ _ (nu u hu).symm]); exact b
    · intro hd
      obtain ⟨a, b, c⟩ := h6 hd
      refine ⟨a, b, fun u v k hv => ?_⟩
      by_cases hu : u = t
      · subst hu; (dsimp only at hv; rw [set_same] at hv); cases hv
      · (dsimp only at hv; rw [set_other _ _ hu] at hv); exact c u v k hv

theorem inv_reach {N : Nat} {val : Nat → V} {junk : V} {s : State V} (h : Reach .once N val junk s) : Inv N val s := by
  induction h with
  | init => exact inv_init N val junk
  | step _ st ih => exact inv_step ih st

/-- C83 with `pthread_once` (or `InitOnceExecuteOnce`): whatever the schedule, however many threads, and in whatever order stores
reach memory, every read through a pointer returned by an accessor yields the constant. -/
theorem C83_once (N : Nat) (val : Nat → V) (junk : V) (s : State V) (h : Reach .once N val junk s) :
    ∀ e ∈ s.log, e.2 = val e.1 := (inv_reach h).log

/-- C83: and no thread is ever stuck: while any thread is inside an accessor, some step other than a new call is possible. -/
theorem C83_progress (N : Nat) (val : Nat → V) (junk : V) (s : State V) (h : Reach .once N val junk s) (t : Nat) (ht : s.pc t ≠ .idle) :
    ∃ s', Step .once N val s s' ∧ (s'.pc ≠ s.pc ∨ s'.buf ≠ s.buf) ∧ ∀ u, s.pc u = .idle → s'.pc u = .idle := by
  have hi := inv_reach h
  have move : ∀ u p, s.pc u ≠ .idle → s.pc u ≠ p → (set s.pc u p ≠ s.pc) ∧ ∀ v, s.pc v = .idle → set s.pc u p v = .idle := by
    intro u p h1 h2
    constructor
    · intro h3; apply h2; rw [← congrFun h3 u, set_same]
    · intro v hv
      have : v ≠ u := by rintro rfl; exact h1 hv
      rw [set_other _ _ this]; exact hv
  cases hc : s.ctl with
  | fresh =>
    rcases (hi.fresh hc t).1 with e | ⟨w, e⟩
    · exact absurd e ht
    · have m := move t (.storing w 0) ht (by rw [e]; simp)
      exact ⟨_, .onceBegin s t w rfl e hc, Or.inl m.1, m.2⟩
  | done =>
    cases hp : s.pc t with
    | idle => exact absurd hp ht
    | enter w =>
      have m := move t (.ready w) ht (by rw [hp]; simp)
      exact ⟨_, .onceSkip s t w rfl hp hc, Or.inl m.1, m.2⟩
    | storing w k => exact absurd hp ((hi.done hc).2.2 t w k)
    | ready w =>
      have m := move t .idle ht (by rw [hp]; simp)
      exact ⟨_, .leave s t w hp, Or.inl m.1, m.2⟩
  | running u =>
    obtain ⟨a, w, k, b, c, d⟩ := hi.running u hc
    have hu : s.pc u ≠ .idle := by rw [b]; simp
    rcases Nat.lt_or_ge k N with hk | hk
    · have m := move u (.storing w (k + 1)) hu (by rw [b]; simp)
      exact ⟨_, .store s u w k b hk, Or.inl m.1, m.2⟩
    · have hkN : k = N := by omega
      subst hkN
      cases hb : s.buf u with
      | nil =>
        have m := move u (.ready w) hu (by rw [b]; simp)
        exact ⟨_, .onceEnd s u w rfl b hb, Or.inl m.1, m.2⟩
      | cons l ls =>
        cases l with
        | flag => exact absurd (by rw [hb]; simp) (hi.noFlag u)
        | slot i =>
          have hm : Loc.slot i ∈ s.buf u := by rw [hb]; simp
          refine ⟨_, .drainSlot s u i hm, Or.inr ?_, fun v hv => hv⟩
          intro h3
          have := congrFun h3 u
          dsimp only at this; rw [set_same] at this
          have h4 := congrArg List.length this
          rw [List.length_erase_of_mem hm] at h4
          have : 0 < (s.buf u).length := by rw [hb]; simp
          omega

/-- C83 is false for the build without threads support, when used from two threads: the flag may become visible before the
constants, and a second thread then reads an uninitialised constant. -/
theorem C84_two_threads_false (N : Nat) (hN : 0 < N) (val : Nat → V) (junk : V) :
    ∃ s, Reach .flag N val junk s ∧ (0, junk) ∈ s.log := by
  -- thread 0 runs its initialiser to the end
  have h1 : ∀ k ≤ N, ∃ s, Reach .flag N val junk s ∧ s.slots 0 = junk ∧ s.pc 0 = .storing 0 k ∧ s.pc 1 = .idle ∧ s.buf 1 = [] := by
    intro k
    induction k with
    | zero =>
      intro _
      refine ⟨_, .step (.step .init (.call _ 0 0 hN rfl)) (.flagBegin _ 0 0 rfl (by dsimp only; exact set_same _ _ _) ⟨rfl, by simp [init]⟩), ?_, ?_, ?_, ?_⟩ <;>
        simp [init, set]
    | succ k ih =>
      intro hk
      obtain ⟨s, r, a, b, c, d⟩ := ih (by omega)
      refine ⟨_, .step r (.store s 0 0 k b (by omega)), a, by dsimp only; exact set_same _ _ _, ?_, ?_⟩
      · (dsimp only; rw [set_other _ _ (by decide)]); exact c
      · (dsimp only; rw [set_other _ _ (by decide)]); exact d
  obtain ⟨s, r, a, b, c, d⟩ := h1 N (Nat.le_refl _)
  have r1 := Reach.step r (.flagEnd s 0 0 rfl b)
  have r2 := Reach.step r1 (.drainFlag _ 0 (by (dsimp only; rw [set_same]); simp))
  have r3 := Reach.step r2 (.call _ 1 0 hN (by (dsimp only; rw [set_other _ _ (by decide)]); exact c))
  have r4 := Reach.step r3 (.flagSkip _ 1 0 rfl (by dsimp only; exact set_same _ _ _) (Or.inl rfl))
  have r5 := Reach.step r4 (.read _ 1 0 (by dsimp only; exact set_same _ _ _))
  refine ⟨_, r5, ?_⟩
  have hb : set (set s.buf 0 (s.buf 0 ++ [Loc.flag])) 0 ((set s.buf 0 (s.buf 0 ++ [Loc.flag]) 0).erase .flag) 1 = [] := by
    rw [set_other _ _ (by decide), set_other _ _ (by decide)]; exact d
  simp only [hb, List.not_mem_nil, if_false, a]
  simp

/-- a history in which only thread `t` ever calls an accessor -/
inductive ReachSolo (b : Build) (N : Nat) (val : Nat → V) (junk : V) (t : Nat) : State V → Prop where
  | init : ReachSolo b N val junk t (init junk)
  | step {s s'} : ReachSolo b N val junk t s → Step b N val s s' → (∀ u, u ≠ t → s'.pc u = .idle) →
      ReachSolo b N val junk t s'

/-- the state of the slots as thread `t` sees them -/
def Seen (val : Nat → V) (s : State V) (t i : Nat) : Prop := s.slots i = val i ∨ Loc.slot i ∈ s.buf t

/-- what holds in every state of a single-threaded run of either build -/
structure Solo (N : Nat) (val : Nat → V) (t : Nat) (s : State V) : Prop where
  others : ∀ u, u ≠ t → s.pc u = .idle ∧ s.buf u = []
  log : ∀ e ∈ s.log, e.2 = val e.1
  want : ∀ w, (s.pc t = .enter w ∨ (∃ k, s.pc t = .storing w k) ∨ s.pc t = .ready w) → w < N
  flag : (s.flagSet = true ∨ Loc.flag ∈ s.buf t) → ∀ i < N, Seen val s t i
  storing : ∀ w k, s.pc t = .storing w k → ∀ i < k, Seen val s t i
  ready : ∀ w, s.pc t = .ready w → ∀ i < N, Seen val s t i

theorem solo_step {N : Nat} {val : Nat → V} {t : Nat} {s s' : State V} (h : Solo N val t s) (st : Step .flag N val s s')
    (ho : ∀ u, u ≠ t → s'.pc u = .idle) : Solo N val t s' := by
  obtain ⟨h1, h2, h3, h4, h5, h6⟩ := h
  -- the stepping thread can only be `t`
  cases st with
  | call u w hw hi =>
    have e : u = t := by
      by_contra hne
      have := ho u hne; dsimp only at this; rw [set_same] at this; cases this
    subst e
    refine ⟨fun v hv => ⟨ho v hv, (h1 v hv).2⟩, h2, ?_, h4, ?_, ?_⟩
    · intro w' h; simp only [set_same] at h
      rcases h with h | ⟨k, h⟩ | h <;> cases h; exact hw
    · intro w' k h; simp only [set_same] at h; cases h
    · intro w' h; simp only [set_same] at h; cases h
  | onceBegin u w hb => cases hb
  | onceSkip u w hb => cases hb
  | onceEnd u w hb => cases hb
  | store u w k hp hk =>
    have e : u = t := by
      by_contra hne
      rw [(h1 u hne).1] at hp; cases hp
    subst e
    have sub : ∀ i, Seen val s u i → Seen val { s with pc := set s.pc u (.storing w (k + 1)), buf := set s.buf u (s.buf u ++ [.slot k]) } u i := by
      rintro i (h | h)
      · exact Or.inl h
      · right; simp only [set_same]; simp [h]
    refine ⟨fun v hv => ⟨ho v hv, ?_⟩, h2, ?_, ?_, ?_, ?_⟩
    · dsimp only; rw [set_other _ _ hv]; exact (h1 v hv).2
    · intro w' h; simp only [set_same] at h
      rcases h with h | ⟨k', h⟩ | h <;> cases h
      exact h3 _ (Or.inr (Or.inl ⟨_, hp⟩))
    · intro h i hi
      apply sub
      refine h4 ?_ i hi
      rcases h with h | h
      · exact Or.inl h
      · right; simp only [set_same] at h; simpa using h
    · intro w' k' h i hi
      simp only [set_same] at h; cases h
      rcases Nat.lt_or_ge i k with hik | hik
      · exact sub i (h5 _ _ hp i hik)
      · have : i = k := by omega
        subst this; right; simp only [set_same]; simp
    · intro w' h; simp only [set_same] at h; cases h
  | flagSkip u w hb hp hf =>
    have e : u = t := by
      by_contra hne
      rw [(h1 u hne).1] at hp; cases hp
    subst e
    refine ⟨fun v hv => ⟨ho v hv, (h1 v hv).2⟩, h2, ?_, h4, ?_, ?_⟩
    · intro w' h; simp only [set_same] at h
      rcases h with h | ⟨k, h⟩ | h <;> cases h; exact h3 _ (Or.inl hp)
    · intro w' k h; simp only [set_same] at h; cases h
    · intro w' _; exact h4 hf
  | flagBegin u w hb hp hf =>
    have e : u = t := by
      by_contra hne
      rw [(h1 u hne).1] at hp; cases hp
    subst e
    refine ⟨fun v hv => ⟨ho v hv, (h1 v hv).2⟩, h2, ?_, h4, ?_, ?_⟩
    · intro w' h; simp only [set_same] at h
      rcases h with h | ⟨k, h⟩ | h <;> cases h; exact h3 _ (Or.inl hp)
    · intro w' k h i hi; simp only [set_same] at h; cases h; omega
    · intro w' h; simp only [set_same] at h; cases h
  | flagEnd u w hb hp =>
    have e : u = t := by
      by_contra hne
      rw [(h1 u hne).1] at hp; cases hp
    subst e
    have sub : ∀ i < N, Seen val { s with pc := set s.pc u (.ready w), buf := set s.buf u (s.buf u ++ [.flag]) } u i := by
      intro i hi
      rcases h5 _ _ hp i hi with h | h
      · exact Or.inl h
      · right; simp only [set_same]; simp [h]
    refine ⟨fun v hv => ⟨ho v hv, ?_⟩, h2, ?_, fun _ => sub, ?_, fun _ _ => sub⟩
    · dsimp only; rw [set_other _ _ hv]; exact (h1 v hv).2
    · intro w' h; simp only [set_same] at h
      rcases h with h | ⟨k', h⟩ | h <;> cases h
      exact h3 _ (Or.inr (Or.inl ⟨_, hp⟩))
    · intro w' k h; simp only [set_same] at h; cases h
  | drainSlot u i hm =>
    have e : u = t := by
      by_contra hne
      rw [(h1 u hne).2] at hm; cases hm
    subst e
    have sub : ∀ j, Seen val s u j → Seen val { s with slots := set s.slots i (val i), buf := set s.buf u ((s.buf u).erase (.slot i)) } u j := by
      intro j hj
      by_cases hji : j = i
      · subst hji; left; exact set_same _ _ _
      · rcases hj with h | h
        · left; dsimp only; rw [set_other _ _ hji]; exact h
        · right; simp only [set_same]
          exact (List.mem_erase_of_ne (by intro h; cases h; exact hji rfl)).2 h
    refine ⟨fun v hv => ⟨ho v hv, ?_⟩, h2, h3, ?_, fun w k h j hj => sub j (h5 w k h j hj), fun w h j hj => sub j (h6 w h j hj)⟩
    · dsimp only; rw [set_other _ _ hv]; exact (h1 v hv).2
    · intro h j hj
      apply sub
      refine h4 ?_ j hj
      rcases h with h | h
      · exact Or.inl h
      · right; simp only [set_same] at h; exact List.mem_of_mem_erase h
  | drainFlag u hm =>
    have e : u = t := by
      by_contra hne
      rw [(h1 u hne).2] at hm; cases hm
    subst e
    have sub : ∀ j, Seen val s u j → Seen val { s with flagSet := true, buf := set s.buf u ((s.buf u).erase .flag) } u j := by
      rintro j (h | h)
      · exact Or.inl h
      · right; simp only [set_same]
        exact (List.mem_erase_of_ne (by intro h; cases h)).2 h
    refine ⟨fun v hv => ⟨ho v hv, ?_⟩, h2, h3, fun _ j hj => sub j (h4 (Or.inr hm) j hj), fun w k h j hj => sub j (h5 w k h j hj), fun w h j hj => sub j (h6 w h j hj)⟩
    dsimp only; rw [set_other _ _ hv]; exact (h1 v hv).2
  | read u w hp =>
    have e : u = t := by
      by_contra hne
      rw [(h1 u hne).1] at hp; cases hp
    subst e
    refine ⟨h1, ?_, h3, h4, h5, h6⟩
    intro e he
    rcases List.mem_cons.1 he with rfl | he
    · dsimp only
      split
      · rfl
      · rename_i hn
        exact (h6 w hp w (h3 w (Or.inr (Or.inr hp)))).resolve_right hn
    · exact h2 e he
  | leave u w hp =>
    have e : u = t := by
      by_contra hne
      rw [(h1 u hne).1] at hp; cases hp
    subst e
    refine ⟨fun v hv => ⟨ho v hv, (h1 v hv).2⟩, h2, ?_, h4, ?_, ?_⟩
    · intro w' h; simp only [set_same] at h
      rcases h with h | ⟨k, h⟩ | h <;> cases h
    · intro w' k h; simp only [set_same] at h; cases h
    · intro w' h; simp only [set_same] at h; cases h

/-- C83 without threads support: a program that calls the accessors from one thread only reads the constants, however the
compiler and the machine reorder the plain stores. -/
theorem C84_single_thread (N : Nat) (val : Nat → V) (junk : V) (t : Nat) (s : State V) (h : ReachSolo .flag N val junk t s) :
    ∀ e ∈ s.log, e.2 = val e.1 := by
  have : Solo N val t s := by
    induction h with
    | init => constructor <;> simp [init]
    | step _ st ho ih => exact solo_step ih st ho
  exact this.log

/-- Reads do happen: a run in which a thread obtains every slot (so the theorems above are not about empty
logs). -/
theorem reads_happen (b : Build) (N : Nat) (hN : 0 < N) (val : Nat → V) (junk : V) (hb : b = .once) :
    ∃ s, Reach b N val junk s ∧ s.ctl = .done ∧ ∀ w < N, (w, val w) ∈ s.log := by
  subst hb
  have h1 : ∀ k ≤ N, ∃ s, Reach .once N val junk s ∧ s.ctl = .running 0 ∧ s.pc 0 = .storing 0 k ∧ s.buf 0 = [] := by
    intro k
    induction k with
    | zero =>
      intro _
      refine ⟨_, .step (.step .init (.call _ 0 0 hN rfl)) (.onceBegin _ 0 0 rfl (by dsimp only; exact set_same _ _ _) rfl), rfl, ?_, ?_⟩ <;>
        simp [init, set]
    | succ k ih =>
      intro hk
      obtain ⟨s, r, a, b, c⟩ := ih (by omega)
      have r1 := Reach.step r (.store s 0 0 k b (by omega))
      have r2 := Reach.step r1 (.drainSlot _ 0 k (by simp [set, c]))
      refine ⟨_, r2, a, by simp [set], by simp [set, c]⟩
  obtain ⟨s, r, a, b, c⟩ := h1 N (Nat.le_refl _)
  have r1 := Reach.step r (.onceEnd s 0 0 rfl b c)
  have r2 := Reach.step r1 (.leave _ 0 0 (by dsimp only; exact set_same _ _ _))
  have h2 : ∀ k ≤ N, ∃ s, Reach .once N val junk s ∧ s.ctl = .done ∧ s.pc 0 = .idle ∧ ∀ w < k, (w, val w) ∈ s.log := by
    intro k
    induction k with
    | zero => intro _; exact ⟨_, r2, rfl, by simp [set], by simp⟩
    | succ k ih =>
      intro hk
      obtain ⟨s, r, a, b, c⟩ := ih (by omega)
      have q1 := Reach.step r (.call s 0 k (by omega) b)
      have q2 := Reach.step q1 (.onceSkip _ 0 k rfl (by dsimp only; exact set_same _ _ _) a)
      have q3 := Reach.step q2 (.read _ 0 k (by dsimp only; exact set_same _ _ _))
      have q4 := Reach.step q3 (.leave _ 0 k (by dsimp only; exact set_same _ _ _))
      refine ⟨_, q4, a, by dsimp only; exact set_same _ _ _, ?_⟩
      intro w hw
      rcases Nat.lt_or_ge w k with h | h
      · exact List.mem_cons_of_mem _ (c w h)
      · have : w = k := by omega
        subst this
        have hl := (inv_reach q3).log _ (List.mem_cons_self ..)
        dsimp only at hl ⊢
        rw [hl]; exact List.mem_cons_self ..
  obtain ⟨s, r, a, -, c⟩ := h2 N (Nat.le_refl _)
  exact ⟨s, r, a, c⟩

/-! ### the constants themselves -/

open Consts

namespace Spec
/-- the documented coordinates of the constant vectors and of the corners of the constant boxes; `i` is +∞ -/
def vec2 (o l : F32) : Vec2Const → F32 × F32
  | .zero => (o, o) | .one => (l, l) | .xAxis => (l, o) | .yAxis => (o, l)
def vec3 (o l : F32) : Vec3Const → F32 × F32 × F32
  | .zero => (o, o, o) | .one => (l, l, l) | .xAxis => (l, o, o) | .yAxis => (o, l, o) | .zAxis => (o, o, l)
def vec4 (o l : F32) : Vec4Const → F32 × F32 × F32 × F32
  | .zero => (o, o, o, o) | .one => (l, l, l, l) | .xAxis => (l, o, o, o) | .yAxis => (o, l, o, o)
  | .zAxis => (o, o, l, o) | .wAxis => (o, o, o, l)
/-- every coordinate of the minimum corner, every coordinate of the maximum corner -/
def box (o l m i j : F32) : BoxConst → F32 × F32
  | .zero => (o, o) | .one => (o, l) | .minusOne => (m, o) | .oneMinusOne => (m, l) | .infinite => (j, i) | .empty => (i, j)
end Spec

variable [Libm binary32]

/-- C83: the vector constants.  In the `pthread_once` build every read through the pointer returned by `graphene_vec2_zero ()`,
…, `graphene_vec4_w_axis ()` yields the documented vector, whatever the schedule. -/
theorem C83_vectors :
    (∀ junk s, Reach .once 4 (entry vec2Table junk) junk s → ∀ (c : Vec2Const) v, (c.slot, v) ∈ s.log →
      (v.getX, v.getY) = Spec.vec2 (Fp.lit 0 1) (Fp.lit 1 1) c) ∧
    (∀ junk s, Reach .once 5 (entry vec3Table junk) junk s → ∀ (c : Vec3Const) v, (c.slot, v) ∈ s.log →
      (v.getX, v.getY, v.getZ) = Spec.vec3 (Fp.lit 0 1) (Fp.lit 1 1) c) ∧
    (∀ junk s, Reach .once 6 (entry vec4Table junk) junk s → ∀ (c : Vec4Const) v, (c.slot, v) ∈ s.log →
      (v.getX, v.getY, v.getZ, v.getW) = Spec.vec4 (Fp.lit 0 1) (Fp.lit 1 1) c) := by
  refine ⟨?_, ?_, ?_⟩ <;> intro junk s hr c v hm <;> have h := C83_once _ _ _ _ hr _ hm <;>
    dsimp only at h <;> subst h <;> cases c <;> rfl

/-- C83: the box constants. -/
theorem C83_boxes :
    (∀ junk s, Reach .once 6 (entry boxTable junk) junk s → ∀ (c : BoxConst) b, (c.slot, b) ∈ s.log →
      let e := Spec.box (Fp.lit 0 1) (Fp.lit 1 1) (Fp.lit (-1) 1) (.inf false) (.inf true) c
      Box.getMin b = ⟨e.1, e.1, e.1⟩ ∧ Box.getMax b = ⟨e.2, e.2, e.2⟩) ∧
    (∀ junk s, Reach .once 6 (entry box2dTable junk) junk s → ∀ (c : BoxConst) b, (c.slot, b) ∈ s.log →
      let e := Spec.box (Fp.lit 0 1) (Fp.lit 1 1) (Fp.lit (-1) 1) (.inf false) (.inf true) c
      Box2d.getMin b = ⟨e.1, e.1⟩ ∧ Box2d.getMax b = ⟨e.2, e.2⟩) := by
  refine ⟨?_, ?_⟩ <;> intro junk s hr c v hm <;> have h := C83_once _ _ _ _ hr _ hm <;>
    dsimp only at h <;> subst h <;> cases c <;> exact ⟨rfl, rfl⟩

/-- the logs of these theorems do contain reads of every constant -/
example (c : BoxConst) (junk : Box F32) : ∃ s b, Reach .once 6 (entry boxTable junk) junk s ∧ (c.slot, b) ∈ s.log := by
  obtain ⟨s, r, -, h⟩ := reads_happen .once 6 (by decide) (entry boxTable junk) junk rfl
  exact ⟨s, _, r, h c.slot (by cases c <;> decide)⟩

end Graphene.Once

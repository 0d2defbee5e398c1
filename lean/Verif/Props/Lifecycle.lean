/-
  C95: objects as independent values.  Histories of allocation, stores, copies and deallocation of objects of
  the eighteen types, on one shared byte memory, with a system allocator that answers as it likes within its
  contract.
-/
import Verif.Model.Heap
import Verif.Props.Allocs
import Mathlib.Data.List.Pairwise
import Mathlib.Tactic.Common

namespace Graphene.Heap
open Alloc

namespace Spec

/-- the size of an object in bytes -/
def objSize : Obj → Nat
  | .point | .size => 8
  | .point3d => 12
  | .rect | .quaternion | .vec2 | .vec3 | .vec4 | .box2d => 16
  | .quad | .ray | .box | .plane | .sphere | .euler => 32
  | .triangle => 48
  | .matrix => 64
  | .frustum => 192

/-- the alignment an object needs: 16 if there is a SIMD register in it -/
def alignOf : Obj → Nat
  | .point | .point3d | .size | .rect | .quad | .quaternion => 4
  | _ => 16

/-- the contents of a new object: zeroes, except that vectors, matrices and rays start with unspecified contents -/
def initialValue : Obj → Option (List Nat)
  | .vec2 | .vec3 | .vec4 | .matrix | .ray => none
  | t => some (List.replicate (objSize t) 0)

/-- what the client holds: the objects it owns, by address, with their type and, when known, their contents -/
abbrev Store := Nat → Option (Obj × Option (List Nat))

def Store.empty : Store := fun _ => none
def Store.set (σ : Store) (p : Nat) (v : Option (Obj × Option (List Nat))) : Store := fun a => if a = p then v else σ a

/-- what a client may do: free, overwrite or copy an object it owns, as the type it has (or free/copy `NULL`) -/
def Allowed (σ : Store) : Event → Prop
  | .alloc _ _ => True
  | .free t p => p = 0 ∨ ∃ v, σ p = some (t, v)
  | .write t p bytes => bytes.length = objSize t ∧ ∃ v, σ p = some (t, v)
  | .copy t p ans => p = 0 ∨ ((∃ v, σ p = some (t, v)) ∧ ans ≠ none)

/-- what the client holds after a call that returned `ret`: objects are separate values -/
def Store.after (σ : Store) (ret : Nat) : Event → Store
  | .alloc t _ => if ret = 0 then σ else σ.set ret (some (t, initialValue t))
  | .free _ p => σ.set p none
  | .write t p bytes => σ.set p (some (t, some bytes))
  | .copy _ p _ => if p = 0 then σ else σ.set ret (σ p)

/-- ... and after a history, given the pointers returned -/
def Store.afterAll : Store → List Event → List Nat → Store
  | σ, e :: es, r :: rs => (σ.after r e).afterAll es rs
  | σ, _, _ => σ

/-- the contract of the system allocator: the address is not `NULL`, is aligned (to 16 from the aligned
allocators, as `malloc` aligns otherwise), and the block overlaps no block handed out. -/
def LegalAnswer (pf : Platform) (s : State) (t : Obj) (ans : Answer) : Prop :=
  ∀ a junk, ans = some (a, junk) →
    a ≠ 0 ∧ (if source t = .calloc ∨ pf.cfg.path = .malloc then pf.malign ∣ a else 16 ∣ a) ∧
    ∀ b ∈ s.blocks, a + request pf t ≤ b.addr ∨ b.addr + b.len ≤ a

def Legal (pf : Platform) (s : State) : Event → Prop
  | .alloc t ans => LegalAnswer pf s t ans
  | .copy t _ ans => LegalAnswer pf s t ans
  | _ => True

/-- the system refused memory in this event -/
def Refused : Event → Prop
  | .alloc _ ans => ans = none
  | _ => False

/-- a history in which the client follows the rules and the system allocator keeps its contract -/
def Disciplined (pf : Platform) : State → Store → List Event → Prop
  | _, _, [] => True
  | s, σ, e :: es => Allowed σ e ∧ Legal pf s e ∧
      ∀ s' r, step pf s e = .ok s' r → Disciplined pf s' (σ.after r e) es

/-- a supported build: `size_t` has at least 16 bits, `_aligned_malloc` is the only aligned allocator when it is
available (meson.build:164-177), `malloc` aligns for `float`, and a build falling back on `malloc` has a `malloc`
that aligns to 16. -/
structure Supported (pf : Platform) : Prop where
  wide : 16 ≤ pf.cfg.W
  win : pf.win = true → pf.cfg.path = .alignedAlloc
  malign : 4 ∣ pf.malign
  fallback : pf.cfg.path = .malloc → 16 ∣ pf.malign

/-- the memory holds exactly what the client believes -/
structure Faithful (s : State) (σ : Store) : Prop where
  /-- objects are not at `NULL`, are aligned, and have their contents -/
  value : ∀ p t v, σ p = some (t, v) → p ≠ 0 ∧ alignOf t ∣ p ∧
    ∀ bytes, v = some bytes → load s.mem p (objSize t) = bytes
  /-- no two objects share a byte -/
  apart : ∀ p t v q u w, σ p = some (t, v) → σ q = some (u, w) → p ≠ q → p + objSize t ≤ q ∨ q + objSize u ≤ p
  /-- nothing is leaked: every block handed out belongs to an object the client holds -/
  noLeak : ∀ b ∈ s.blocks, σ b.addr ≠ none

end Spec
open Spec

theorem layout_eq (t : Obj) : layout t = ⟨objSize t, alignOf t⟩ := by cases t <;> rfl
theorem layout_size (t : Obj) : (layout t).size = objSize t := by rw [layout_eq]
theorem objSize_bounds (t : Obj) : 0 < objSize t ∧ objSize t ≤ 192 := by cases t <;> decide

/-- memory and client agree -/
structure Inv (pf : Platform) (s : State) (σ : Store) : Prop where
  disj : s.blocks.Pairwise fun b c => b.addr + b.len ≤ c.addr ∨ c.addr + c.len ≤ b.addr
  own : ∀ b ∈ s.blocks, 0 < b.addr ∧ 0 < b.len ∧ σ b.addr ≠ none
  blk : ∀ p t v, σ p = some (t, v) → ∃ b ∈ s.blocks, b.addr = p ∧ objSize t ≤ b.len ∧
    b.special = (freesAligned t && pf.win) ∧ alignOf t ∣ p ∧
    ∀ bytes, v = some bytes → bytes.length = objSize t ∧ load s.mem p (objSize t) = bytes

theorem pairwise_disj {l : List Blk} (h : l.Pairwise fun b c => b.addr + b.len ≤ c.addr ∨ c.addr + c.len ≤ b.addr) {b c : Blk}
    (hb : b ∈ l) (hc : c ∈ l) (hne : b ≠ c) : b.addr + b.len ≤ c.addr ∨ c.addr + c.len ≤ b.addr := by
  induction l with
  | nil => cases hb
  | cons x l ih =>
    rw [List.pairwise_cons] at h
    rcases List.mem_cons.1 hb with e1 | hb' <;> rcases List.mem_cons.1 hc with e2 | hc'
    · exact absurd (e1.trans e2.symm) hne
    · rw [e1]; exact h.1 c hc'
    · rw [e2]; exact (h.1 b hb').symm
    · exact ih h.2 hb' hc'

theorem Inv.unique {pf : Platform} {s : State} {σ : Store} (h : Inv pf s σ) {b c : Blk} (hb : b ∈ s.blocks) (hc : c ∈ s.blocks)
    (e : b.addr = c.addr) : b = c := by
  by_contra hne
  have := pairwise_disj h.disj hb hc hne
  have h1 := (h.own b hb).2.1
  have h2 := (h.own c hc).2.1
  omega

theorem Inv.apart {pf : Platform} {s : State} {σ : Store} (h : Inv pf s σ) {b c : Blk} (hb : b ∈ s.blocks) (hc : c ∈ s.blocks)
    (e : b.addr ≠ c.addr) : b.addr + b.len ≤ c.addr ∨ c.addr + c.len ≤ b.addr :=
  pairwise_disj h.disj hb hc (fun hh => e (by rw [hh]))

theorem Inv.faithful {pf : Platform} {s : State} {σ : Store} (h : Inv pf s σ) : Faithful s σ where
  value p t v hp := by
    obtain ⟨b, hb, e, -, -, ha, hv⟩ := h.blk p t v hp
    exact ⟨by have := (h.own b hb).1; omega, ha, fun bytes hh => (hv bytes hh).2⟩
  apart p t v q u w hp hq hne := by
    obtain ⟨b, hb, e1, l1, -⟩ := h.blk p t v hp
    obtain ⟨c, hc, e2, l2, -⟩ := h.blk q u w hq
    have := h.apart hb hc (by omega)
    omega
  noLeak b hb := (h.own b hb).2.2

/-- reading what another range holds is not disturbed by a store -/
theorem load_store_of_apart {m : Nat → Nat} {p q n : Nat} {bytes : List Nat}
    (h : p + bytes.length ≤ q ∨ q + n ≤ p) : load (store m p bytes) q n = load m q n := by
  unfold load
  refine List.map_congr_left fun i hi => ?_
  rw [List.mem_range] at hi
  unfold store
  rw [if_neg (by omega)]

/-- reading back a prefix of what was stored -/
theorem load_store {m : Nat → Nat} {p n : Nat} {bytes : List Nat} (h : n ≤ bytes.length) :
    load (store m p bytes) p n = bytes.take n := by
  unfold load store
  refine List.ext_getElem? fun i => ?_
  rw [List.getElem?_map]
  rcases Nat.lt_or_ge i n with hi | hi
  · rw [List.getElem?_range hi, List.getElem?_take_of_lt hi]
    simp only [Option.map_some]
    rw [if_pos (by omega), show p + i - p = i by omega]
    rw [List.getD_eq_getElem?_getD, List.getElem?_eq_getElem (by omega)]
    rfl
  · rw [List.getElem?_eq_none (by simpa using hi), List.getElem?_eq_none (by rw [List.length_take]; omega)]
    rfl

theorem load_length (m : Nat → Nat) (p n : Nat) : (load m p n).length = n := by simp [load]

/-- what `graphene_T_alloc` does with the system's answer -/
theorem alloc_spec {pf : Platform} (hs : Supported pf) (s : State) (t : Obj) (ans : Answer) :
    (ans = none → (alloc pf s t ans = .abort ∧ pf.cfg.asserts = true) ∨ alloc pf s t ans = .ok s 0) ∧
    ∀ a junk, ans = some (a, junk) → ∃ b : List Nat, b.length = request pf t ∧ objSize t ≤ b.length ∧
      (∀ bytes, initialValue t = some bytes → b.take (objSize t) = bytes) ∧
      alloc pf s t ans = .ok ⟨store s.mem a b, ⟨a, b.length, freesAligned t && pf.win⟩ :: s.blocks⟩ a := by
  have hb := objSize_bounds t
  have hW : 2 ^ 16 ≤ 2 ^ pf.cfg.W := Nat.pow_le_pow_right (by decide) hs.wide
  have hf : Alloc.Spec.Fits pf.cfg (objSize t) 1 16 := ⟨by omega, by omega, by omega, by omega⟩
  have hr : Alloc.Spec.Roomy pf.cfg (objSize t) 1 16 := fun _ => by omega
  have hq := realSize_spec hf hr (by omega : objSize t * 1 < 2 ^ pf.cfg.W)
  have hno : ¬ (objSize t > 0 ∧ 1 > (2 ^ pf.cfg.W - 1) / objSize t) := by
    rintro ⟨h0, h⟩; have := (overflow_iff pf.cfg (objSize t) 1 h0).1 h; omega
  have hz : ¬ (objSize t = 0 ∨ 1 = 0) := by omega
  have hm : objSize t * 1 % 2 ^ pf.cfg.W = objSize t := by
    rw [Nat.mul_one]; exact Nat.mod_eq_of_lt (by omega)
  have hsp : (decide (source t ≠ .calloc) && pf.win && decide (pf.cfg.path = .alignedAlloc)) = (freesAligned t && pf.win) := by
    have hx : decide (source t ≠ .calloc) = freesAligned t := by cases t <;> rfl
    rw [hx]
    rcases hw : pf.win with _ | _
    · simp
    · simp [hs.win hw]
  constructor
  · rintro rfl
    unfold alloc
    simp only [answerBlock, layout_size]
    rcases hsrc : source t with _ | _ | _
    · right; rfl
    · simp only [alignedAlloc, if_neg hz, if_neg hno, Option.map_none]
      rcases ha : pf.cfg.asserts with _ | _
      · right; rfl
      · left; exact ⟨rfl, rfl⟩
    · simp only [alignedAlloc0, alignedAlloc, if_neg hz, if_neg hno, Option.map_none]
      rcases ha : pf.cfg.asserts with _ | _
      · right; rfl
      · left; exact ⟨rfl, rfl⟩
  · rintro a junk rfl
    unfold alloc request
    rw [hsp]
    simp only [answerBlock, layout_size, answerAddr]
    rcases hsrc : source t with _ | _ | _
    · refine ⟨List.replicate (objSize t) 0, by simp, by simp, ?_, by simp⟩
      have hi : initialValue t = some (List.replicate (objSize t) 0) := by
        cases t <;> first | rfl | (simp [source] at hsrc)
      intro bytes h
      rw [hi] at h
      simp only [Option.some.injEq] at h
      rw [← h]; simp
    · refine ⟨(List.range (realSize pf.cfg (objSize t) 1 16)).map junk, by simp, by simp; omega, ?_, ?_⟩
      · have hi : initialValue t = none := by cases t <;> first | rfl | (simp [source] at hsrc)
        rw [hi]; simp
      · simp only [alignedAlloc, if_neg hz, if_neg hno, Option.map_some]
    · refine ⟨List.replicate (objSize t) 0 ++ ((List.range (realSize pf.cfg (objSize t) 1 16)).map junk).drop (objSize t), ?_, ?_, ?_, ?_⟩
      · simp; omega
      · simp
      · have hi : initialValue t = some (List.replicate (objSize t) 0) := by
          cases t <;> first | rfl | (simp [source] at hsrc)
        intro bytes h
        rw [hi] at h
        simp only [Option.some.injEq] at h
        rw [← h, List.take_append_of_le_length (by simp)]; simp
      · simp only [alignedAlloc0, alignedAlloc, if_neg hz, if_neg hno, Option.map_some, hm, memset0]
        rw [if_pos (by simp; omega)]

theorem align_of_legal {pf : Platform} (hs : Supported pf) {s : State} {t : Obj} {ans : Answer} (h : LegalAnswer pf s t ans) {a : Nat}
    {junk : Nat → Nat} (e : ans = some (a, junk)) : alignOf t ∣ a := by
  have h2 := (h a junk e).2.1
  have hc : source t = .calloc → alignOf t = 4 := by cases t <;> simp [source, alignOf]
  have ha : alignOf t ∣ 16 := by cases t <;> simp [alignOf]
  by_cases h1 : source t = .calloc
  · rw [if_pos (Or.inl h1)] at h2
    rw [hc h1]; exact Nat.dvd_trans hs.malign h2
  · by_cases h3 : pf.cfg.path = .malloc
    · rw [if_pos (Or.inr h3)] at h2
      exact Nat.dvd_trans (Nat.dvd_trans ha (hs.fallback h3)) h2
    · rw [if_neg (by tauto)] at h2
      exact Nat.dvd_trans ha h2

/-- a new block extends the invariant, with any contents agreeing with the claimed value -/
theorem Inv.grow {pf : Platform} {s : State} {σ : Store} (h : Inv pf s σ) {t : Obj} {a : Nat} {b : List Nat} {v : Option (List Nat)}
    (ha : a ≠ 0) (hal : alignOf t ∣ a) (hl : objSize t ≤ b.length)
    (hd : ∀ c ∈ s.blocks, a + b.length ≤ c.addr ∨ c.addr + c.len ≤ a) {m : Nat → Nat}
    (hm : ∀ q n, a + b.length ≤ q ∨ q + n ≤ a → load m q n = load s.mem q n)
    (hv : ∀ bytes, v = some bytes → bytes.length = objSize t ∧ load m a (objSize t) = bytes) :
    Inv pf ⟨m, ⟨a, b.length, freesAligned t && pf.win⟩ :: s.blocks⟩ (σ.set a (some (t, v))) := by
  have h0 := (objSize_bounds t).1
  refine ⟨?_, ?_, ?_⟩
  · exact List.pairwise_cons.2 ⟨fun c hc => hd c hc, h.disj⟩
  · intro c hc
    rcases List.mem_cons.1 hc with rfl | hc
    · refine ⟨by simp; omega, by simp; omega, by simp [Store.set]⟩
    · obtain ⟨x, y, z⟩ := h.own c hc
      refine ⟨x, y, ?_⟩
      have := hd c hc
      simp only [Store.set]
      rw [if_neg (by omega)]; exact z
  · intro p u w hp
    simp only [Store.set] at hp
    split at hp
    · rename_i e
      subst e
      simp only [Option.some.injEq, Prod.mk.injEq] at hp
      obtain ⟨rfl, rfl⟩ := hp
      exact ⟨_, List.mem_cons_self .., rfl, hl, rfl, hal, hv⟩
    · rename_i hne
      obtain ⟨c, hc, e, l, sp, al, val⟩ := h.blk p u w hp
      refine ⟨c, List.mem_cons_of_mem _ hc, e, l, sp, al, fun bytes hb => ?_⟩
      obtain ⟨x, y⟩ := val bytes hb
      refine ⟨x, ?_⟩
      rw [← y]
      have := hd c hc
      exact hm _ _ (by omega)

theorem inBlock_of {s : State} {b : Blk} (hb : b ∈ s.blocks) {p n : Nat} (e : b.addr = p) (l : n ≤ b.len) : inBlock s p n = true := by
  unfold inBlock
  rw [List.any_eq_true]
  exact ⟨b, hb, by simp; omega⟩

/-- one call -/
theorem Inv.step {pf : Platform} (hs : Supported pf) {s : State} {σ : Store} (h : Inv pf s σ) (e : Event) (ha : Allowed σ e)
    (hl : Legal pf s e) :
    (Heap.step pf s e = .abort ∧ pf.cfg.asserts = true ∧ Refused e) ∨
    ∃ s' r, Heap.step pf s e = .ok s' r ∧ Inv pf s' (σ.after r e) := by
  cases e with
  | alloc t ans =>
    obtain ⟨h1, h2⟩ := alloc_spec hs s t ans
    rcases hans : ans with _ | ⟨a, junk⟩
    · rcases h1 hans with ⟨h3, h4⟩ | h3
      · left; exact ⟨by rw [← hans]; exact h3, h4, rfl⟩
      · right
        refine ⟨s, 0, by rw [← hans]; exact h3, ?_⟩
        simpa [Store.after] using h
    · right
      obtain ⟨b, hb, hsz, hini, heq⟩ := h2 a junk hans
      obtain ⟨l1, l2, l3⟩ := hl a junk hans
      refine ⟨_, _, by rw [← hans]; exact heq, ?_⟩
      simp only [Store.after, if_neg l1]
      refine h.grow l1 (align_of_legal hs hl hans) hsz (by rw [hb]; exact l3) (fun q n hq => load_store_of_apart hq) ?_
      intro bytes hbytes
      have := hini bytes hbytes
      refine ⟨?_, ?_⟩
      · rw [← this, List.length_take]; omega
      · rw [load_store hsz]; exact this
  | free t p =>
    right
    rcases Nat.eq_zero_or_pos p with rfl | hp
    · refine ⟨s, 0, by simp [Heap.step, Heap.free, sysFree], ?_⟩
      have h0 : σ 0 = none := by
        rcases hz : σ 0 with _ | ⟨u, w⟩
        · rfl
        · obtain ⟨b, hb, e0, -⟩ := h.blk 0 u w hz
          have := (h.own b hb).1
          omega
      have : Store.after σ 0 (.free t 0) = σ := by
        funext a
        simp only [Store.after, Store.set]
        split
        · rename_i e; rw [e, h0]
        · rfl
      rw [this]; exact h
    · obtain ⟨v, hv⟩ := ha.resolve_left (by omega)
      obtain ⟨b, hb, e0, -, sp, -⟩ := h.blk p t v hv
      have hfind : s.blocks.find? (fun b => b.addr == p) = some b := by
        rcases hf : s.blocks.find? (fun b => b.addr == p) with _ | c
        · have := List.find?_eq_none.1 hf b hb
          simp [e0] at this
        · have h1 := List.find?_some hf
          have h2 := List.mem_of_find?_eq_some hf
          exact hf.trans (congrArg some (h.unique h2 hb (by simp at h1; omega)))
      refine ⟨⟨s.mem, s.blocks.filter fun b => b.addr != p⟩, 0, ?_, ?_, ?_, ?_⟩
      · simp only [Heap.step, Heap.free, sysFree, if_neg (show p ≠ 0 by omega), hfind, if_pos sp]
      · exact h.disj.filter _
      · intro c hc
        rw [List.mem_filter] at hc
        obtain ⟨x, y, z⟩ := h.own c hc.1
        refine ⟨x, y, ?_⟩
        simp only [Store.after, Store.set]
        rw [if_neg (by simpa using hc.2)]; exact z
      · intro q u w hq
        simp only [Store.after, Store.set] at hq
        split at hq
        · cases hq
        · rename_i hne
          obtain ⟨c, hc, e1, rest⟩ := h.blk q u w hq
          exact ⟨c, List.mem_filter.2 ⟨hc, by simp; omega⟩, e1, rest⟩
  | write t p bytes =>
    right
    obtain ⟨hlen, v, hv⟩ := ha
    obtain ⟨b, hb, e0, l0, sp, al, -⟩ := h.blk p t v hv
    refine ⟨⟨store s.mem p bytes, s.blocks⟩, 0, ?_, h.disj, ?_, ?_⟩
    · simp only [Heap.step, Heap.write, layout_size, inBlock_of hb e0 l0, if_true]
    · intro c hc
      obtain ⟨x, y, z⟩ := h.own c hc
      refine ⟨x, y, ?_⟩
      simp only [Store.after, Store.set]
      split
      · simp
      · exact z
    · intro q u w hq
      simp only [Store.after, Store.set] at hq
      split at hq
      · rename_i e1
        subst e1
        simp only [Option.some.injEq, Prod.mk.injEq] at hq
        obtain ⟨rfl, rfl⟩ := hq
        refine ⟨b, hb, e0, l0, sp, al, fun bs hbs => ?_⟩
        simp only [Option.some.injEq] at hbs
        subst hbs
        refine ⟨hlen, ?_⟩
        rw [load_store (by omega), ← hlen, List.take_length]
      · rename_i hne
        obtain ⟨c, hc, e1, l1, sp1, al1, val⟩ := h.blk q u w hq
        refine ⟨c, hc, e1, l1, sp1, al1, fun bs hbs => ?_⟩
        obtain ⟨x, y⟩ := val bs hbs
        refine ⟨x, ?_⟩
        have := h.apart hb hc (by omega)
        rw [← y]
        exact load_store_of_apart (by omega)
  | copy t p ans =>
    right
    rcases Nat.eq_zero_or_pos p with rfl | hp
    · exact ⟨s, 0, by simp [Heap.step, Heap.copy], by simpa [Store.after] using h⟩
    · obtain ⟨⟨v, hv⟩, hans0⟩ := ha.resolve_left (by omega)
      obtain ⟨⟨a, junk⟩, hans⟩ := Option.ne_none_iff_exists'.1 hans0
      obtain ⟨-, h2⟩ := alloc_spec hs s t ans
      obtain ⟨b, hb, hsz, -, heq⟩ := h2 a junk hans
      obtain ⟨l1, l2, l3⟩ := hl a junk hans
      obtain ⟨c, hc, e0, l0, sp, al, val⟩ := h.blk p t v hv
      have hd := l3 c hc
      have hload : load (store s.mem a b) p (objSize t) = load s.mem p (objSize t) := load_store_of_apart (by omega)
      refine ⟨⟨store (store s.mem a b) a (load s.mem p (objSize t)), ⟨a, b.length, freesAligned t && pf.win⟩ :: s.blocks⟩, a, ?_, ?_⟩
      · simp only [Heap.step, Heap.copy, if_neg (show p ≠ 0 by omega), heq, layout_size]
        rw [inBlock_of (List.mem_cons_of_mem _ hc) e0 l0, inBlock_of (b := ⟨a, b.length, freesAligned t && pf.win⟩) (List.mem_cons_self ..) rfl hsz, hload]
        rfl
      · simp only [Store.after, if_neg (show p ≠ 0 by omega), hv]
        refine h.grow l1 (align_of_legal hs hl hans) hsz (by rw [hb]; exact l3) ?_ ?_
        · intro q n hq
          rw [load_store_of_apart (by rw [load_length]; omega), load_store_of_apart hq]
        · intro bytes hbytes
          obtain ⟨x, y⟩ := val bytes hbytes
          refine ⟨x, ?_⟩
          rw [load_store (Nat.le_of_eq (load_length _ _ _).symm), List.take_of_length_le (Nat.le_of_eq (load_length _ _ _)), y]

theorem Inv.run {pf : Platform} (hs : Supported pf) (es : List Event) : ∀ {s : State} {σ : Store}, Inv pf s σ → Disciplined pf s σ es →
    (Heap.run pf s es = .abort ∧ pf.cfg.asserts = true ∧ ∃ e ∈ es, Refused e) ∨
    ∃ s' rs, Heap.run pf s es = .ok s' rs ∧ rs.length = es.length ∧ Inv pf s' (σ.afterAll es rs) := by
  induction es with
  | nil => intro s σ h _; right; exact ⟨s, [], rfl, rfl, h⟩
  | cons e es ih =>
    intro s σ h hd
    obtain ⟨ha, hl, hn⟩ := hd
    rcases h.step hs e ha hl with ⟨h1, h2, h3⟩ | ⟨s', r, h1, h2⟩
    · left; exact ⟨by simp only [Heap.run, h1], h2, e, List.mem_cons_self .., h3⟩
    · rcases ih h2 (hn s' r h1) with ⟨h3, h4, e', he, h5⟩ | ⟨s'', rs, h3, h4, h5⟩
      · left; exact ⟨by simp only [Heap.run, h1, h3], h4, e', List.mem_cons_of_mem _ he, h5⟩
      · right; exact ⟨s'', r :: rs, by simp only [Heap.run, h1, h3], by simp [h4], h5⟩

/-- C95: whatever the history of allocations, stores, copies and frees, if the client follows the rules and the
system allocator keeps its contract, then no call has undefined behaviour; the program is aborted only when the
system refuses memory and assertions are enabled; and otherwise the memory holds exactly the objects the client
holds, as independent values: each aligned as it needs, with the contents last stored or copied into it (zeroes when it is
new, for the types that promise it), sharing no byte with another, and no block outlives its object. -/
theorem C95_histories (pf : Platform) (hs : Supported pf) (m : Nat → Nat) (es : List Event)
    (h : Disciplined pf (start m) Store.empty es) :
    (run pf (start m) es = .abort ∧ pf.cfg.asserts = true ∧ ∃ e ∈ es, Refused e) ∨
    ∃ s rs, run pf (start m) es = .ok s rs ∧ rs.length = es.length ∧ Faithful s (Store.empty.afterAll es rs) := by
  have h0 : Inv pf (start m) Store.empty := ⟨List.Pairwise.nil, by simp [start], by simp [Store.empty]⟩
  rcases Inv.run hs es h0 h with h1 | ⟨s, rs, h1, h2, h3⟩
  · exact Or.inl h1
  · exact Or.inr ⟨s, rs, h1, h2, h3.faithful⟩

/-- C95: when the client has given back everything, nothing is left allocated. -/
theorem C95_no_leak (pf : Platform) (hs : Supported pf) (m : Nat → Nat) (es : List Event)
    (h : Disciplined pf (start m) Store.empty es) (s : State) (rs : List Nat) (hr : run pf (start m) es = .ok s rs)
    (hf : ∀ p, Store.empty.afterAll es rs p = none) : s.blocks = [] := by
  rcases C95_histories pf hs m es h with ⟨h1, -⟩ | ⟨s', rs', h1, -, h2⟩
  · rw [hr] at h1; cases h1
  · rw [hr] at h1
    cases h1
    exact List.eq_nil_iff_forall_not_mem.2 fun b hb => h2.noLeak b hb (hf _)

/-- C95: sizes and alignments of the types are what the structure declarations give, and a type that needs
alignment to 16 never comes from `calloc`. -/
theorem C95_layout (t : Obj) : (layout t).size = objSize t ∧ (layout t).align = alignOf t ∧ alignOf t ∣ objSize t ∧
    (source t = .calloc ↔ alignOf t = 4) ∧ (freesAligned t = false ↔ source t = .calloc) := by
  cases t <;> decide

/-- C95, limits: copying a boxed object without memory to spare writes through `NULL` in a build without
assertions, and for the types allocated with `calloc` in every build: the rule that excludes it in the histories
above is needed. -/
theorem C95_copy_out_of_memory (pf : Platform) (hs : Supported pf) (m : Nat → Nat) (es : List Event)
    (hd : Disciplined pf (start m) Store.empty es) (s : State) (rs : List Nat) (hr : run pf (start m) es = .ok s rs)
    (t : Obj) (p : Nat) (v : Option (List Nat)) (hp : Store.empty.afterAll es rs p = some (t, v))
    (hc : source t = .calloc ∨ pf.cfg.asserts = false) :
    step pf s (.copy t p none) = .ub := by
  have hi : Inv pf (start m) Store.empty := ⟨List.Pairwise.nil, by simp [start], by simp [Store.empty]⟩
  have h : Inv pf s (Store.empty.afterAll es rs) := by
    rcases Inv.run hs es hi hd with ⟨h1, -⟩ | ⟨s', rs', h1, -, h2⟩
    · rw [hr] at h1; cases h1
    · rw [hr] at h1; cases h1; exact h2
  have hp0 : p ≠ 0 := (h.faithful.value p t v hp).1
  have h1 := (alloc_spec hs s t none).1 rfl
  have h2 : alloc pf s t none = .ok s 0 := by
    rcases h1 with ⟨h3, h4⟩ | h3
    · rcases hc with hc | hc
      · simp [alloc, hc, answerBlock] at h3
      · rw [hc] at h4; cases h4
    · exact h3
  have h3 : inBlock s 0 (objSize t) = false := by
    rw [Bool.eq_false_iff, ne_eq, inBlock, List.any_eq_true]
    rintro ⟨b, hb, hh⟩
    have := (h.own b hb).1
    simp at hh
    omega
  simp only [step, copy, if_neg hp0, h2, layout_size, h3, Bool.and_false]
  rfl

/-- C95, limits: a build that falls back on `malloc` (meson refuses to configure one) may return a vector that is
not aligned. -/
theorem C95_malloc_misaligned : ∃ pf : Platform, 16 ≤ pf.cfg.W ∧ pf.cfg.path = .malloc ∧ pf.malign = 8 ∧
    ∃ ans s, LegalAnswer pf (start fun _ => 0) .vec4 ans ∧ alloc pf (start fun _ => 0) .vec4 ans = .ok s 24 ∧ ¬ alignOf .vec4 ∣ 24 := by
  refine ⟨⟨⟨32, .malloc, true⟩, false, 8⟩, by decide, rfl, rfl, some (24, fun _ => 7), ?_⟩
  refine ⟨_, ?_, rfl, by decide⟩
  intro a junk h
  simp only [Option.some.injEq, Prod.mk.injEq] at h
  obtain ⟨rfl, -⟩ := h
  exact ⟨by decide, by decide, by simp [start]⟩

/-- C95, limits: freeing a vector with `free` is undefined on Windows, so a type must be freed by its own function. -/
theorem C95_wrong_free : ∃ (pf : Platform) (s : State), Supported pf ∧
    alloc pf (start fun _ => 0) .vec4 (some (64, fun _ => 7)) = .ok s 64 ∧
    free pf s .point 64 = .ub ∧ free pf s .vec4 64 ≠ .ub := by
  refine ⟨⟨⟨64, .alignedAlloc, true⟩, true, 16⟩, _, ⟨by decide, by decide, by decide, by decide⟩, rfl, rfl, ?_⟩
  intro h
  cases h

theorem disc_cons {pf : Platform} {s s' : State} {σ : Store} {e : Event} {es : List Event} {r : Nat} (h : step pf s e = .ok s' r)
    (ha : Allowed σ e) (hl : Legal pf s e) (hd : Disciplined pf s' (σ.after r e) es) : Disciplined pf s σ (e :: es) := by
  refine ⟨ha, hl, fun s'' r' h' => ?_⟩
  rw [h] at h'
  cases h'
  exact hd

/-- non-vacuity: a history that allocates a point, a box and a vector, stores, copies, frees, and reuses the address of a
freed object. -/
example : let pf : Platform := ⟨⟨64, .posixMemalign, true⟩, false, 16⟩
    let es : List Event := [.alloc .point (some (100 * 16, fun _ => 1)), .alloc .vec4 (some (16, fun i => i)),
      .write .point 1600 [1, 2, 3, 4, 5, 6, 7, 8], .copy .point 1600 (some (1616, fun _ => 9)), .free .point 1600,
      .alloc .box (some (1568, fun _ => 3)), .free .point 0]
    Supported pf ∧ Disciplined pf (start fun _ => 0) Store.empty es ∧
    ∃ s, run pf (start fun _ => 0) es = .ok s [1600, 16, 0, 1616, 0, 1568, 0] ∧
      load s.mem 1616 8 = [1, 2, 3, 4, 5, 6, 7, 8] := by
  refine ⟨⟨by decide, by decide, by decide, by decide⟩, ?_, _, rfl, rfl⟩
  have new : ∀ {pf : Platform} {s : State} {t : Obj} {a : Nat} {junk : Nat → Nat}, a ≠ 0 →
      (if source t = .calloc ∨ pf.cfg.path = .malloc then pf.malign ∣ a else 16 ∣ a) →
      (∀ b ∈ s.blocks, a + request pf t ≤ b.addr ∨ b.addr + b.len ≤ a) → LegalAnswer pf s t (some (a, junk)) := by
    intro pf s t a junk h1 h2 h3 a' j' h
    simp only [Option.some.injEq, Prod.mk.injEq] at h
    obtain ⟨rfl, -⟩ := h
    exact ⟨h1, h2, h3⟩
  refine disc_cons rfl trivial (new (by decide) (by decide) (by decide)) ?_
  refine disc_cons rfl trivial (new (by decide) (by decide) (by decide)) ?_
  refine disc_cons rfl ⟨rfl, _, rfl⟩ trivial ?_
  refine disc_cons rfl (Or.inr ⟨⟨_, rfl⟩, by simp⟩) (new (by decide) (by decide) (by decide)) ?_
  refine disc_cons rfl (Or.inr ⟨_, rfl⟩) trivial ?_
  refine disc_cons rfl trivial (new (by decide) (by decide) (by decide)) ?_
  exact disc_cons rfl (Or.inl rfl) trivial trivial

end Graphene.Heap

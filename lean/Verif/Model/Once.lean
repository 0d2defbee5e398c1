/-
  Model of the lazily initialised static constants: `graphene_vec2_zero` …,
  `graphene_vec3_*`, `graphene_vec4_*`, `graphene_box_*`, `graphene_box2d_*`.

  Every accessor calls the file's `init_static_… ()` and then returns the address of
  an element of a static array (e.g. box.c:726-814, 826-919; box2d.c:717-805;
  vectors.c:483-640, 1182-1341, 1899-2077).  Three builds exist for
  `init_static_… ()`: `pthread_once` (box.c:759-774), Windows `InitOnceExecuteOnce`
  (776-799, the same contract) and an unsynchronised `static bool` flag (801-812).

  The array has `N` slots of values `V`; before initialisation they hold `junk`
  (zero bytes in C).  Threads are numbered by `Nat`, any number of them may call
  any number of times, and the scheduler is arbitrary.  Stores go through a
  per-thread buffer that drains in ANY order, so the model covers machines and
  compilers that reorder plain stores; `pthread_once` drains the buffer of the
  initialising thread before it marks the control object as done.
-/
namespace Graphene
namespace Once

/-- Which `init_static_… ()` is compiled in. -/
inductive Build where
  /-- `pthread_once` / `InitOnceExecuteOnce` (box.c:759-799) -/
  | once
  /-- plain flag (box.c:801-812) -/
  | flag
deriving DecidableEq

/-- A memory location: a slot of the static array or the `static bool` flag. -/
inductive Loc where
  | slot (i : Nat)
  | flag
deriving DecidableEq

/-- Program counter of a thread inside an accessor that asks for slot `want`. -/
inductive PC where
  /-- not inside an accessor -/
  | idle
  /-- entered the accessor, `init_static_… ()` not yet begun -/
  | enter (want : Nat)
  /-- executing `init_static_…_once ()`, the stores to slots `< k` are issued -/
  | storing (want k : Nat)
  /-- `init_static_… ()` has returned; the caller may read the slot -/
  | ready (want : Nat)
deriving DecidableEq

/-- State of the `pthread_once_t` control object. -/
inductive Ctl where
  | fresh
  | running (t : Nat)
  | done
deriving DecidableEq

/-- Machine state.  `buf t` lists the stores of thread `t` not yet in memory; the flag
is represented by the Boolean `flagSet`; `log` records `(slot, value)` for every read a
caller made through a returned pointer. -/
structure State (V : Type) where
  slots : Nat → V
  flagSet : Bool
  ctl : Ctl
  pc : Nat → PC
  buf : Nat → List Loc
  log : List (Nat × V)

/-- Update of a function at one point. -/
def set {T : Type} (f : Nat → T) (i : Nat) (v : T) : Nat → T := fun j => if j = i then v else f j

variable {V : Type}

/-- The state at program start: nothing initialised. -/
def init (junk : V) : State V :=
  ⟨fun _ => junk, false, .fresh, fun _ => .idle, fun _ => [], []⟩

/-- One step of the machine, for `N` slots whose constants are `val`.  A thread that reads
a location with a pending store of its own sees that store (store forwarding). -/
inductive Step (b : Build) (N : Nat) (val : Nat → V) : State V → State V → Prop where
  /-- a thread calls an accessor for slot `w` -/
  | call (s t w) (hw : w < N) (h : s.pc t = .idle) :
      Step b N val s { s with pc := set s.pc t (.enter w) }
  /-- `pthread_once` finds a fresh control object and runs the initialiser -/
  | onceBegin (s t w) (hb : b = .once) (h : s.pc t = .enter w) (hc : s.ctl = .fresh) :
      Step b N val s { s with ctl := .running t, pc := set s.pc t (.storing w 0) }
  /-- `pthread_once` finds the control object done; a thread finding it running waits -/
  | onceSkip (s t w) (hb : b = .once) (h : s.pc t = .enter w) (hc : s.ctl = .done) :
      Step b N val s { s with pc := set s.pc t (.ready w) }
  /-- the initialiser issues the store of slot `k` -/
  | store (s t w k) (h : s.pc t = .storing w k) (hk : k < N) :
      Step b N val s { s with pc := set s.pc t (.storing w (k + 1)),
                              buf := set s.buf t (s.buf t ++ [.slot k]) }
  /-- `pthread_once` completes: the stores of the initialiser are visible first -/
  | onceEnd (s t w) (hb : b = .once) (h : s.pc t = .storing w N) (he : s.buf t = []) :
      Step b N val s { s with ctl := .done, pc := set s.pc t (.ready w) }
  /-- plain flag: the test `if (static_box_init) return;` succeeds -/
  | flagSkip (s t w) (hb : b = .flag) (h : s.pc t = .enter w)
      (hf : s.flagSet = true ∨ Loc.flag ∈ s.buf t) :
      Step b N val s { s with pc := set s.pc t (.ready w) }
  /-- plain flag: the test fails, the initialiser starts -/
  | flagBegin (s t w) (hb : b = .flag) (h : s.pc t = .enter w)
      (hf : s.flagSet = false ∧ Loc.flag ∉ s.buf t) :
      Step b N val s { s with pc := set s.pc t (.storing w 0) }
  /-- plain flag: `static_box_init = true;` is issued -/
  | flagEnd (s t w) (hb : b = .flag) (h : s.pc t = .storing w N) :
      Step b N val s { s with pc := set s.pc t (.ready w), buf := set s.buf t (s.buf t ++ [.flag]) }
  /-- a pending store of a slot reaches memory -/
  | drainSlot (s t i) (h : Loc.slot i ∈ s.buf t) :
      Step b N val s { s with slots := set s.slots i (val i),
                              buf := set s.buf t ((s.buf t).erase (.slot i)) }
  /-- a pending store of the flag reaches memory -/
  | drainFlag (s t) (h : Loc.flag ∈ s.buf t) :
      Step b N val s { s with flagSet := true, buf := set s.buf t ((s.buf t).erase .flag) }
  /-- the caller reads through the returned pointer (any number of times) -/
  | read (s t w) (h : s.pc t = .ready w) :
      Step b N val s { s with log := (w, if Loc.slot w ∈ s.buf t then val w else s.slots w) :: s.log }
  /-- the thread is done with this pointer -/
  | leave (s t w) (h : s.pc t = .ready w) :
      Step b N val s { s with pc := set s.pc t .idle }

/-- States reachable by any number of steps in any order. -/
inductive Reach (b : Build) (N : Nat) (val : Nat → V) (junk : V) : State V → Prop where
  | init : Reach b N val junk (init junk)
  | step {s s'} : Reach b N val junk s → Step b N val s s' → Reach b N val junk s'

end Once
end Graphene

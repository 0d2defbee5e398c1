import Verif.Model.Heap
/-
  Model of the eighteen `graphene_*_get_type ()` of src/graphene-gobject.c, called by any number of threads,
  any number of times, under any schedule.

  The two GLib functions the macro calls are modelled from their documentation and source:

  * `g_once_init_enter (loc)`: an atomic load of `*loc`, returning `FALSE` at once when it is not 0.
    Otherwise, holding one mutex: if `*loc` is not 0, return `FALSE`; if `loc` is not in the list of locations
    being initialised, add it and return `TRUE`; else wait until it has left the list and return `FALSE`.
  * `g_once_init_leave (loc, v)`: with `v = 0`, emit a critical warning and return; otherwise store `v`, then,
    holding the mutex, take `loc` off the list and wake the waiters.
  * `g_boxed_type_register_static (name, copy, free)`: under the lock of the type system, a new, non-zero
    identifier, or 0 when the name is taken.

  Other code of the process may register types at any time.  The reading of `graphene_define_id__volatile` by the
  final `return` is a step of its own.
-/
namespace Graphene
namespace GTypes
open Heap

/-- the GType name of each object type (graphene-gobject.c:155-189, first argument of the macro) -/
def typeName : Obj → String
  | .point => "GraphenePoint"
  | .point3d => "GraphenePoint3D"
  | .size => "GrapheneSize"
  | .rect => "GrapheneRect"
  | .vec2 => "GrapheneVec2"
  | .vec3 => "GrapheneVec3"
  | .vec4 => "GrapheneVec4"
  | .quad => "GrapheneQuad"
  | .quaternion => "GrapheneQuaternion"
  | .matrix => "GrapheneMatrix"
  | .plane => "GraphenePlane"
  | .frustum => "GrapheneFrustum"
  | .sphere => "GrapheneSphere"
  | .box => "GrapheneBox"
  | .triangle => "GrapheneTriangle"
  | .euler => "GrapheneEuler"
  | .ray => "GrapheneRay"
  | .box2d => "GrapheneBox2D"

/-- What a registered boxed type does on copy and free: the functions of a Graphene type
(`graphene_T_copy_internal`, `graphene_T_free`), or those of somebody else. -/
inductive Func where
  | graphene (t : Obj)
  | other (n : Nat)
deriving DecidableEq

/-- an entry of the GLib type system -/
structure Entry where
  id : Nat
  name : String
  copy : Func
  free : Func
deriving DecidableEq

/-- program counter of a thread in `graphene_T_get_type ()` (graphene-gobject.c:140-153) -/
inductive PC where
  /-- outside -/
  | idle
  /-- about to do the first, lock-free test of `g_once_init_enter` -/
  | fast (t : Obj)
  /-- about to take the mutex in `g_once_init_enter` -/
  | slow (t : Obj)
  /-- waiting for the condition in `g_once_init_enter` -/
  | waiting (t : Obj)
  /-- `g_once_init_enter` returned `TRUE`: about to register -/
  | won (t : Obj)
  /-- `graphene_define_id` has been assigned; about to store it in `g_once_init_leave` -/
  | leaving (t : Obj) (id : Nat)
  /-- the identifier is stored; about to take the location off the list -/
  | stored (t : Obj)
  /-- about to `return graphene_define_id__volatile` -/
  | ret (t : Obj)
deriving DecidableEq

/-- The state: the static variables, the list of locations being initialised, the registry, the threads, and
the record of the values returned so far `(thread, type, value)`. -/
structure State where
  cell : Obj → Nat
  busy : Obj → Bool
  reg : List Entry
  pc : Nat → PC
  log : List (Nat × Obj × Nat)

/-- update at one point -/
def upd {K T : Type} [DecidableEq K] (f : K → T) (k : K) (v : T) : K → T := fun j => if j = k then v else f j

/-- program start; `reg` holds the types registered before -/
def init (reg : List Entry) : State := ⟨fun _ => 0, fun _ => false, reg, fun _ => .idle, []⟩

/-- One step of one thread. -/
inductive Step : State → State → Prop where
  /-- a thread calls `graphene_T_get_type ()` -/
  | call (s i t) (h : s.pc i = .idle) : Step s { s with pc := upd s.pc i (.fast t) }
  /-- the lock-free test finds an identifier -/
  | fastYes (s i t) (h : s.pc i = .fast t) (hc : s.cell t ≠ 0) : Step s { s with pc := upd s.pc i (.ret t) }
  /-- the lock-free test finds 0 -/
  | fastNo (s i t) (h : s.pc i = .fast t) (hc : s.cell t = 0) : Step s { s with pc := upd s.pc i (.slow t) }
  /-- under the mutex: already initialised -/
  | slowYes (s i t) (h : s.pc i = .slow t) (hc : s.cell t ≠ 0) : Step s { s with pc := upd s.pc i (.ret t) }
  /-- under the mutex: nobody is initialising it, this thread will -/
  | slowWin (s i t) (h : s.pc i = .slow t) (hc : s.cell t = 0) (hb : s.busy t = false) :
      Step s { s with busy := upd s.busy t true, pc := upd s.pc i (.won t) }
  /-- under the mutex: somebody is initialising it -/
  | slowWait (s i t) (h : s.pc i = .slow t) (hc : s.cell t = 0) (hb : s.busy t = true) :
      Step s { s with pc := upd s.pc i (.waiting t) }
  /-- a waiter finds the location gone from the list -/
  | wake (s i t) (h : s.pc i = .waiting t) (hb : s.busy t = false) : Step s { s with pc := upd s.pc i (.ret t) }
  /-- `g_boxed_type_register_static` with the functions of the same type (graphene-gobject.c:146-149) -/
  | register (s i t id) (h : s.pc i = .won t) (hn : ∀ e ∈ s.reg, e.name ≠ typeName t) (h0 : id ≠ 0)
      (hf : ∀ e ∈ s.reg, e.id ≠ id) :
      Step s { s with reg := ⟨id, typeName t, .graphene t, .graphene t⟩ :: s.reg, pc := upd s.pc i (.leaving t id) }
  /-- the registration is refused: the name is taken -/
  | refused (s i t) (h : s.pc i = .won t) (hn : ∃ e ∈ s.reg, e.name = typeName t) :
      Step s { s with pc := upd s.pc i (.leaving t 0) }
  /-- `g_once_init_leave` stores the identifier -/
  | store (s i t id) (h : s.pc i = .leaving t id) (h0 : id ≠ 0) :
      Step s { s with cell := upd s.cell t id, pc := upd s.pc i (.stored t) }
  /-- `g_once_init_leave` with 0: nothing but a warning -/
  | storeZero (s i t) (h : s.pc i = .leaving t 0) : Step s { s with pc := upd s.pc i (.ret t) }
  /-- `g_once_init_leave` takes the location off the list -/
  | done (s i t) (h : s.pc i = .stored t) : Step s { s with busy := upd s.busy t false, pc := upd s.pc i (.ret t) }
  /-- `return graphene_define_id__volatile` -/
  | ret (s i t) (h : s.pc i = .ret t) :
      Step s { s with log := (i, t, s.cell t) :: s.log, pc := upd s.pc i .idle }
  /-- other code registers a type of its own -/
  | env (s : State) (e : Entry) (h0 : e.id ≠ 0) (hf : ∀ e' ∈ s.reg, e'.id ≠ e.id) (hn : ∀ e' ∈ s.reg, e'.name ≠ e.name)
      (ho : ∀ t, e.name ≠ typeName t) : Step s { s with reg := e :: s.reg }

/-- any number of steps -/
inductive Steps : State → State → Prop where
  | refl (s) : Steps s s
  | tail {s u v} : Steps s u → Step u v → Steps s v

end GTypes
end Graphene

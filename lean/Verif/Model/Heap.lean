import Verif.Model.Alloc
/-
  Model of the allocation interface of the eighteen object types: `graphene_*_alloc`, `graphene_*_free`, the
  boxed copy of src/graphene-gobject.c and plain stores into objects, on a flat byte-addressed memory shared by
  all objects.  The system allocator is an adversary: each allocation event carries its answer (refuse, or an
  address and the garbage found there); what a legal answer is, is said in the specification.
-/
namespace Graphene
namespace Heap
open Alloc

/-- size and alignment of a C type -/
structure Layout where
  size : Nat
  align : Nat
deriving DecidableEq

/-- `float` and the enumeration types -/
def float : Layout := ⟨4, 4⟩
/-- `graphene_simd4f_t`, 16 bytes aligned to 16 (graphene-vec2.h:47: `GRAPHENE_ALIGNED_DECL (…, 16)`) -/
def simd : Layout := ⟨16, 16⟩
/-- the next multiple of `a` -/
def roundUp (n a : Nat) : Nat := (n + (a - 1)) / a * a
/-- a C structure: members in order, each at the next multiple of its alignment, then padded -/
def struct (l : List Layout) : Layout :=
  let al := l.foldl (fun a m => max a m.align) 1
  ⟨roundUp (l.foldl (fun o m => roundUp o m.align + m.size) 0) al, al⟩
/-- an array member -/
def array (n : Nat) (l : Layout) : Layout := ⟨n * l.size, l.align⟩

/-- the object types -/
inductive Obj where
  | point | point3d | size | rect | quad | quaternion
  | vec2 | vec3 | vec4 | matrix | ray
  | box | box2d | plane | sphere | triangle | frustum | euler
deriving DecidableEq

/-- `sizeof` and `alignof`, from the structure declarations: graphene-point.h:70-74, point3d.h:67-72,
size.h:70-74, rect.h:83-87, quad.h:43-47, quaternion.h:47-54, vec2.h/vec3.h/vec4.h:44-48, matrix.h:40-44
(four `simd` registers), ray.h:47-52, box.h:45-50, box2d.h:29-33, plane.h:47-52, sphere.h:44-49,
triangle.h:44-50, frustum.h:47-51, euler.h:135-140. -/
def layout : Obj → Layout
  | .point => struct [float, float]
  | .point3d => struct [float, float, float]
  | .size => struct [float, float]
  | .rect => struct [struct [float, float], struct [float, float]]
  | .quad => struct [array 4 (struct [float, float])]
  | .quaternion => struct [float, float, float, float]
  | .vec2 | .vec3 | .vec4 => struct [simd]
  | .matrix => struct [struct [simd, simd, simd, simd]]
  | .ray => struct [struct [simd], struct [simd]]
  | .box => struct [struct [simd], struct [simd]]
  | .box2d => struct [struct [simd]]
  | .plane => struct [struct [simd], float]
  | .sphere => struct [struct [simd], float]
  | .triangle => struct [struct [simd], struct [simd], struct [simd]]
  | .frustum => struct [array 6 (struct [struct [simd], float])]
  | .euler => struct [struct [simd], float]

/-- which allocation function `graphene_*_alloc` calls -/
inductive Source where
  /-- `calloc (1, sizeof)` -/
  | calloc
  /-- `graphene_aligned_alloc (sizeof, 1, 16)` -/
  | aligned
  /-- `graphene_aligned_alloc0 (sizeof, 1, 16)` -/
  | aligned0
deriving DecidableEq

/-- graphene-point.c:80, point3d.c:61, size.c:54, rect.c:87, quad.c:58, quaternion.c:67 (`calloc`);
vectors.c:73,649,1371, matrix.c:119, ray.c:71 (`graphene_aligned_alloc`); box.c:68, box2d.c:52, plane.c:66,
sphere.c:61, triangle.c:63, frustum.c:66, euler.c:384 (`graphene_aligned_alloc0`). -/
def source : Obj → Source
  | .point | .point3d | .size | .rect | .quad | .quaternion => .calloc
  | .vec2 | .vec3 | .vec4 | .matrix | .ray => .aligned
  | .box | .box2d | .plane | .sphere | .triangle | .frustum | .euler => .aligned0

/-- which deallocation function `graphene_*_free` calls: `true` for `graphene_aligned_free`, `false` for `free`.
graphene-point.c:94, point3d.c:75, size.c:68, rect.c:101, quad.c:72, quaternion.c:81 (`free`); vectors.c:87,663,1385,
matrix.c:133, ray.c:85, box.c:82, box2d.c:66, plane.c:80, sphere.c:75, triangle.c:77, frustum.c:80, euler.c:398
(`graphene_aligned_free`). -/
def freesAligned : Obj → Bool
  | .point | .point3d | .size | .rect | .quad | .quaternion => false
  | .vec2 | .vec3 | .vec4 | .matrix | .ray => true
  | .box | .box2d | .plane | .sphere | .triangle | .frustum | .euler => true

/-- build configuration: `win` is `HAVE__ALIGNED_MALLOC` (graphene-alloc.c:38-46), under which aligned blocks
come from `_aligned_malloc` and `graphene_aligned_free` calls `_aligned_free`; `malign` is the alignment of what
`malloc` and `calloc` return. -/
structure Platform where
  cfg : Cfg
  win : Bool
  malign : Nat

/-- a block the system has handed out and not taken back; `special`: it is `_aligned_malloc`'s -/
structure Blk where
  addr : Nat
  len : Nat
  special : Bool
deriving DecidableEq

/-- the memory of the process: every byte, and the blocks handed out -/
structure State where
  mem : Nat → Nat
  blocks : List Blk

/-- the answer of the system allocator: refuse, or an address and what happens to be stored there -/
abbrev Answer := Option (Nat × (Nat → Nat))

/-- what the client does -/
inductive Event where
  /-- `graphene_T_alloc ()` -/
  | alloc (t : Obj) (ans : Answer)
  /-- `graphene_T_free (p)` -/
  | free (t : Obj) (p : Nat)
  /-- storing a complete value into `*p`, as the initialisers and out parameters do -/
  | write (t : Obj) (p : Nat) (bytes : List Nat)
  /-- `g_boxed_copy (GRAPHENE_TYPE_T, p)` -/
  | copy (t : Obj) (p : Nat) (ans : Answer)

/-- the effect of a call; the number is the pointer returned (0 is `NULL`) -/
inductive Res where
  | ok (s : State) (ret : Nat)
  | abort
  | ub

/-- storing bytes at an address -/
def store (m : Nat → Nat) (p : Nat) (bytes : List Nat) : Nat → Nat := fun a =>
  if p ≤ a ∧ a < p + bytes.length then bytes.getD (a - p) 0 else m a

/-- reading `n` bytes at an address -/
def load (m : Nat → Nat) (p n : Nat) : List Nat := (List.range n).map fun i => m (p + i)

/-- the block the system hands out for a request of `n` bytes -/
def answerBlock (ans : Answer) (n : Nat) : Option Block := ans.map fun q => (List.range n).map q.2

/-- the address in an answer -/
def answerAddr (ans : Answer) : Nat := match ans with | some (a, _) => a | none => 0

/-- the bytes requested from the system for a new object -/
def request (pf : Platform) (t : Obj) : Nat :=
  match source t with
  | .calloc => (layout t).size
  | _ => realSize pf.cfg (layout t).size 1 16

/-- `graphene_T_alloc`: as `graphene_aligned_alloc`, `graphene_aligned_alloc0` (graphene-alloc.c:69-150) or the C
library's `calloc` do, and the block is recorded as handed out.  -/
def alloc (pf : Platform) (s : State) (t : Obj) (ans : Answer) : Res :=
  let sys : Sys := fun _ n => answerBlock ans n
  let out : Outcome := match source t with
    | .calloc => match answerBlock ans (layout t).size with
      | some b => .block (List.replicate b.length 0)
      | none => .null
    | .aligned => alignedAlloc pf.cfg sys (layout t).size 1 16
    | .aligned0 => alignedAlloc0 pf.cfg sys (layout t).size 1 16
  match out with
  | .null => .ok s 0
  | .abort => .abort
  | .ub => .ub
  | .block b =>
    let a := answerAddr ans
    let special := decide (source t ≠ .calloc) && pf.win && decide (pf.cfg.path = .alignedAlloc)
    .ok ⟨store s.mem a b, ⟨a, b.length, special⟩ :: s.blocks⟩ a

/-- `free` (`special = false`) and `_aligned_free` (`special = true`) of the C library: `NULL` is ignored; a pointer
that is not the start of a block handed out by the matching allocator and not yet freed is undefined behaviour. -/
def sysFree (s : State) (special : Bool) (p : Nat) : Res :=
  if p = 0 then .ok s 0
  else match s.blocks.find? (fun b => b.addr == p) with
    | some b => if b.special = special then .ok ⟨s.mem, s.blocks.filter fun b => b.addr != p⟩ 0 else .ub
    | none => .ub

/-- `graphene_T_free`; `graphene_aligned_free` is `aligned_free` (graphene-alloc.c:38-46, 158-162) -/
def free (pf : Platform) (s : State) (t : Obj) (p : Nat) : Res :=
  sysFree s (freesAligned t && pf.win) p

/-- an access to `n` bytes at `p` is defined only inside a block handed out -/
def inBlock (s : State) (p n : Nat) : Bool :=
  s.blocks.any fun b => decide (b.addr ≤ p) && decide (p + n ≤ b.addr + b.len)

/-- `*p = value` -/
def write (s : State) (t : Obj) (p : Nat) (bytes : List Nat) : Res :=
  if inBlock s p (layout t).size then .ok ⟨store s.mem p bytes, s.blocks⟩ 0 else .ub

/-- `graphene_T_copy_internal` (graphene-gobject.c:127-138): `NULL` is copied to `NULL`; otherwise
`res = graphene_T_alloc (); *res = *v;` with no check of `res`. -/
def copy (pf : Platform) (s : State) (t : Obj) (p : Nat) (ans : Answer) : Res :=
  if p = 0 then .ok s 0
  else match alloc pf s t ans with
    | .ok s' q =>
      if inBlock s' p (layout t).size && inBlock s' q (layout t).size then
        .ok ⟨store s'.mem q (load s'.mem p (layout t).size), s'.blocks⟩ q
      else .ub
    | r => r

def step (pf : Platform) (s : State) : Event → Res
  | .alloc t ans => alloc pf s t ans
  | .free t p => free pf s t p
  | .write t p bytes => write s t p bytes
  | .copy t p ans => copy pf s t p ans

/-- the end of a run: the last state and the pointers returned by the calls, in order -/
inductive End where
  | ok (s : State) (rets : List Nat)
  | abort
  | ub

/-- a history of calls, one after the other -/
def run (pf : Platform) (s : State) : List Event → End
  | [] => .ok s []
  | e :: es =>
    match step pf s e with
    | .ok s' r =>
      match run pf s' es with
      | .ok s'' rs => .ok s'' (r :: rs)
      | e => e
    | .abort => .abort
    | .ub => .ub

/-- the state at program start: no object -/
def start (m : Nat → Nat) : State := ⟨m, []⟩

end Heap
end Graphene

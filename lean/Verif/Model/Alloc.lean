/-
  Model of src/graphene-alloc.c: `graphene_aligned_alloc`, `graphene_aligned_alloc0`.

  `size_t` has `W` bits, so arithmetic is modulo `2 ^ W`.  The system allocator is a
  parameter: given an alignment and a byte count it either fails or returns a block.
  A block is the function from byte offsets to byte contents together with its length.
-/
namespace Graphene
namespace Alloc

/-- Which system function is called (graphene-alloc.c:100-115). -/
inductive Path where
  | posixMemalign
  | alignedAlloc
  | memalign
  | malloc
deriving DecidableEq

/-- Build configuration: the width of `size_t`, the allocation function and whether
`G_DISABLE_ASSERT` is undefined. -/
structure Cfg where
  W : Nat
  path : Path
  asserts : Bool

/-- A heap block: `bytes` are its contents, its length is its usable size. -/
abbrev Block := List Nat

/-- A system allocator: alignment and size to a block, or failure. -/
abbrev Sys := Nat → Nat → Option Block

/-- What a call does. -/
inductive Outcome where
  /-- returns `NULL` -/
  | null
  /-- calls `abort ()` -/
  | abort
  /-- returns the block -/
  | block (b : Block)
  /-- writes outside a block: undefined behaviour -/
  | ub
deriving DecidableEq

/-- the size requested from the system (graphene-alloc.c:94, 102-108): `size * number`,
and on the `aligned_alloc` path rounded up to a multiple of the alignment, in `size_t`. -/
def realSize (c : Cfg) (size number alignment : Nat) : Nat :=
  let rs := (size * number) % 2 ^ c.W
  match c.path with
  | .alignedAlloc =>
    if rs % alignment ≠ 0 then (rs + (alignment - rs % alignment)) % 2 ^ c.W else rs
  | _ => rs

/-- `graphene_aligned_alloc` (graphene-alloc.c:69-126). -/
def alignedAlloc (c : Cfg) (sys : Sys) (size number alignment : Nat) : Outcome :=
  let maxSize := 2 ^ c.W - 1
  if size = 0 ∨ number = 0 then .null
  else if size > 0 ∧ number > maxSize / size then
    if c.asserts then .abort else .null
  else
    match sys alignment (realSize c size number alignment) with
    | some b => .block b
    | none => if c.asserts then .abort else .null

/-- `memset (res, 0, n)` on a block. -/
def memset0 (b : Block) (n : Nat) : Option Block :=
  if n ≤ b.length then some (List.replicate n 0 ++ b.drop n) else none

/-- `graphene_aligned_alloc0` (graphene-alloc.c:139-150). -/
def alignedAlloc0 (c : Cfg) (sys : Sys) (size number alignment : Nat) : Outcome :=
  match alignedAlloc c sys size number alignment with
  | .block b =>
    match memset0 b ((size * number) % 2 ^ c.W) with
    | some b => .block b
    | none => .ub
  | o => o

end Alloc
end Graphene

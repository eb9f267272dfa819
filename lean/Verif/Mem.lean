import Verif.TaggedPointer

/-!
# Memory, heap, outcomes

The runtime environment the crate's code runs in: byte-addressed memory, live heap blocks, the global allocator
(`alloc::alloc::alloc`, `src/tagged_box.rs:92`), typed reads and writes through raw pointers
(`ptr::read`, `ptr::write`, `&*p`), and destructor events.  None of this is code of the repository; it is the part of
Rust's semantics that the repository's `unsafe` code relies on, written down explicitly.
-/

set_option autoImplicit false

namespace TB

/-- A byte of memory: `none` is uninitialised (padding, fresh allocation). -/
abbrev MByte := Option (BitVec 8)

/-- An opaque Rust type `U` as far as this crate can see it: `size_of`, `align_of`, which byte strings are valid
values, whether it has drop glue.  `id` is its identity (Rust's `TypeId`). -/
structure Leaf where
  id : Nat
  size : Nat
  align : Nat
  valid : List MByte → Bool
  needsDrop : Bool

/-- Rust guarantees about every sized type: alignment is a power of two (at most `2^29`), size is a multiple of it. -/
structure Leaf.WF (l : Leaf) : Prop where
  align_pow : ∃ k, k ≤ 29 ∧ l.align = 2 ^ k
  size_dvd : l.align ∣ l.size

/-- `v` is (the representation of) a value of type `l`. -/
def Leaf.Has (l : Leaf) (v : List MByte) : Prop := v.length = l.size ∧ l.valid v = true

/-- A type with a field list: size, alignment, and for each field its offset and type. A single opaque type
is a shape with one field at offset 0. -/
structure Shape where
  size : Nat
  align : Nat
  fields : List (Nat × Leaf)

/-- A value of a shape: the byte strings of its fields, in declaration order. -/
abbrev Val := List (List MByte)

/-- An opaque type as a shape. -/
def Leaf.shape (l : Leaf) : Shape := ⟨l.size, l.align, [(0, l)]⟩

/-- Two fields occupy disjoint bytes (zero-sized fields overlap nothing). -/
def FieldsDisjoint (f g : Nat × Leaf) : Prop :=
  f.2.size = 0 ∨ g.2.size = 0 ∨ f.1 + f.2.size ≤ g.1 ∨ g.1 + g.2.size ≤ f.1

/-- A legal layout. -/
structure Shape.WF (sh : Shape) : Prop where
  align_pow : ∃ k, k ≤ 29 ∧ sh.align = 2 ^ k
  size_dvd : sh.align ∣ sh.size
  field : ∀ f ∈ sh.fields, f.2.WF ∧ f.1 + f.2.size ≤ sh.size ∧ f.2.align ∣ f.1 ∧ f.2.align ∣ sh.align
  disjoint : sh.fields.Pairwise FieldsDisjoint

/-- One valid byte string per field. -/
def FieldsHave : List (Nat × Leaf) → Val → Prop
  | [], [] => True
  | f :: fs, x :: xs => f.2.Has x ∧ FieldsHave fs xs
  | _, _ => False

/-- `v` is a value of shape `sh`. -/
def Shape.Has (sh : Shape) (v : Val) : Prop := FieldsHave sh.fields v

/-- A live heap allocation. -/
structure Block where
  base : Nat
  size : Nat
  align : Nat
deriving DecidableEq, Repr

/-- Observable events. -/
inductive Event where
  /-- the allocator handed out a block -/
  | alloc (b : Block)
  /-- the allocator was asked and returned null -/
  | allocNull (size align : Nat)
  /-- a block was returned to the allocator -/
  | dealloc (b : Block)
  /-- the destructor of the field value `v` of type `id` ran -/
  | drop (id : Nat) (v : List MByte)
  /-- the user's own `Drop` implementation of a `tagged_box!` enum ran (on a value of variant `variant`) -/
  | dropEnum (variant : String)
deriving DecidableEq

/-- Machine state. -/
structure State where
  mem : Nat → MByte
  blocks : List Block
  trace : List Event

/-- Append events to the trace. -/
def State.log (s : State) (es : List Event) : State := { s with trace := s.trace ++ es }

/-- Kinds of undefined behaviour the model detects. -/
inductive UBKind where
  | badPointer   -- null, misaligned or not inside one live block
  | badValue     -- bytes not valid for the type read
  | badFree      -- deallocation of something that is not a live block with that layout
deriving DecidableEq, Repr

/-- Outcome of a computation: normal return, panic (with the state when unwinding reaches the caller), or
undefined behaviour. -/
inductive Out (α : Type) where
  | ret (a : α) (s : State)
  | panic (k : PanicKind) (s : State)
  | ub (k : UBKind)

/-- Computations. -/
def M (α : Type) : Type := State → Out α

namespace M

def pure {α} (a : α) : M α := fun s => .ret a s

def bind {α β} (m : M α) (f : α → M β) : M β := fun s =>
  match m s with
  | .ret a s' => f a s'
  | .panic k s' => .panic k s'
  | .ub k => .ub k

instance : Monad M where
  pure := M.pure
  bind := M.bind

/-- Raise a panic. -/
def panic {α} (k : PanicKind) : M α := fun s => .panic k s

/-- Undefined behaviour. -/
def ub {α} (k : UBKind) : M α := fun _ => .ub k

/-- Append events. -/
def log (es : List Event) : M Unit := fun s => .ret () (s.log es)

/-- A pure computation that may panic. -/
def ofExcept {α} : Except PanicKind α → M α
  | .ok a => M.pure a
  | .error k => M.panic k

end M

/-- Write a byte string at address `a`. -/
def overlay (m : Nat → MByte) (a : Nat) (bs : List MByte) : Nat → MByte :=
  fun i => if a ≤ i ∧ i < a + bs.length then bs[i - a]?.getD none else m i

/-- Read `n` bytes at address `a`. -/
def readBytes (m : Nat → MByte) (a n : Nat) : List MByte := (List.range n).map (fun i => m (a + i))

/-- Write the fields of a value one by one; each write touches at most the bytes of the field. -/
def putFields (m : Nat → MByte) (a : Nat) : List (Nat × Leaf) → Val → (Nat → MByte)
  | f :: fs, x :: xs => putFields (overlay m (a + f.1) (x.take f.2.size)) a fs xs
  | _, _ => m

/-- A typed write: padding bytes become uninitialised, fields are written at their offsets. -/
def putVal (m : Nat → MByte) (a : Nat) (sh : Shape) (v : Val) : Nat → MByte :=
  putFields (overlay m a (List.replicate sh.size none)) a sh.fields v

/-- The bytes of the fields of a value of shape `sh` at address `a`. -/
def getVal (m : Nat → MByte) (a : Nat) (sh : Shape) : Val :=
  sh.fields.map (fun f => readBytes m (a + f.1) f.2.size)

/-- Are the bytes of all fields valid for their types? -/
def fieldsValid (sh : Shape) (v : Val) : Bool := (sh.fields.zip v).all (fun p => p.1.2.valid p.2)

/-- Pointer validity for an access of `size` bytes with alignment `align`: non-null, aligned and, unless
zero-sized, inside a single live block. -/
def validPtr (s : State) (a size align : Nat) : Bool :=
  decide (a ≠ 0) && decide (a % align = 0) &&
    (decide (size = 0) || s.blocks.any (fun b => decide (b.base ≤ a) && decide (a + size ≤ b.base + b.size)))

/-- `ptr.read()` / a move out of / a use of `*ptr` at type `sh`. -/
def ptrRead (sh : Shape) (a : Nat) : M Val := fun s =>
  if validPtr s a sh.size sh.align then
    (if fieldsValid sh (getVal s.mem a sh) then .ret (getVal s.mem a sh) s else .ub .badValue)
  else .ub .badPointer

/-- `ptr.write(v)` at type `sh` (does not drop the old contents). -/
def ptrWrite (sh : Shape) (a : Nat) (v : Val) : M Unit := fun s =>
  if validPtr s a sh.size sh.align then .ret () { s with mem := putVal s.mem a sh v }
  else .ub .badPointer

/-- Destructor events of a value: those of its fields that have drop glue, in declaration order. -/
def dropEvents (sh : Shape) (v : Val) : List Event :=
  (sh.fields.zip v).filterMap (fun p => if p.1.2.needsDrop then some (.drop p.1.2.id p.2) else none)

/-- Drop a value. -/
def dropVal (sh : Shape) (v : Val) : M Unit := M.log (dropEvents sh v)

/-- Everything the compiled crate is parameterised by. -/
structure Env where
  /-- the active settings row -/
  cfg : Config
  /-- `cfg(debug_assertions)` -/
  debug : Bool
  /-- `target_pointer_width` -/
  ptrBits : Nat
  /-- the global allocator: an arbitrary function of the whole state and the layout; 0 is null -/
  alloc : State → Nat → Nat → Nat
  /-- rustc's layout of the tuple type with these fields (`repr(Rust)`, unspecified) -/
  tuple : List Leaf → Shape
  /-- `align_of` the user's enum (unspecified `repr(Rust)` enum) -/
  enumAlign : Nat

/-- Two blocks do not overlap. -/
def Block.Disjoint (b b' : Block) : Prop := b.base + b.size ≤ b'.base ∨ b'.base + b'.size ≤ b.base

/-- The `GlobalAlloc` contract: for a non-zero size, null or an aligned block in the address space, disjoint from
all live blocks. -/
def Env.AllocLawful (env : Env) : Prop :=
  ∀ s size align, 0 < size → env.alloc s size align ≠ 0 →
    align ∣ env.alloc s size align ∧ env.alloc s size align + size ≤ 2 ^ env.ptrBits ∧
    ∀ b ∈ s.blocks, Block.Disjoint ⟨env.alloc s size align, size, align⟩ b

/-- What Rust guarantees about a tuple layout: the fields in order, legally placed. -/
def Env.TupleLegal (env : Env) : Prop :=
  ∀ ls : List Leaf, (∀ l ∈ ls, l.WF) → (env.tuple ls).WF ∧ (env.tuple ls).fields.map (·.2) = ls

/-- Standing assumptions about the environment. -/
structure Env.OK (env : Env) : Prop where
  cfg_mem : env.cfg ∈ table
  target : env.ptrBits = 32 ∨ env.ptrBits = 64
  lawful : env.AllocLawful
  tuple_legal : env.TupleLegal
  enumAlign_pow : ∃ k, k ≤ 29 ∧ env.enumAlign = 2 ^ k

/-- The allocator only returns addresses that fit the reserved pointer width. (True of user-space addresses on
current 64-bit hardware with a suitable setting, and always on 32-bit targets.) -/
def Env.InRange (env : Env) : Prop :=
  ∀ s size align, env.alloc s size align < 2 ^ env.cfg.ptrWidth

/-- `alloc::alloc::alloc(layout)`: ask the allocator; a non-null answer becomes a live, uninitialised block. -/
def allocM (env : Env) (size align : Nat) : M Nat := fun s =>
  let a := env.alloc s size align
  if a = 0 then .ret 0 (s.log [.allocNull size align])
  else .ret a { mem := overlay s.mem a (List.replicate size none),
                blocks := ⟨a, size, align⟩ :: s.blocks,
                trace := s.trace ++ [.alloc ⟨a, size, align⟩] }

/-- `alloc::alloc::dealloc(ptr, layout)`. -/
def deallocM (a size align : Nat) : M Unit := fun s =>
  if (⟨a, size, align⟩ : Block) ∈ s.blocks then
    .ret () { s with blocks := s.blocks.erase ⟨a, size, align⟩,
                     trace := s.trace ++ [.dealloc ⟨a, size, align⟩] }
  else .ub .badFree

/-- Well-formed heap: live blocks are non-null, non-empty, inside the address space, aligned, and disjoint. -/
structure HeapInv (env : Env) (s : State) : Prop where
  block : ∀ b ∈ s.blocks, b.base ≠ 0 ∧ 0 < b.size ∧ b.base + b.size ≤ 2 ^ env.ptrBits ∧ b.align ∣ b.base
  disjoint : s.blocks.Pairwise Block.Disjoint

end TB

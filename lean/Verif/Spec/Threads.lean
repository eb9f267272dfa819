import Verif.Threads

/-!
# Specification: isolation of threads

What it means that a thread owns a part of the heap, that a program is safe when it runs alone, and how it may end alone.
-/

set_option autoImplicit false

namespace TB

/-- The same environment with another allocator. -/
def Env.withAlloc (env : Env) (al : State → Nat → Nat → Nat) : Env := { env with alloc := al }

/-- An allocator that keeps the `GlobalAlloc` contract and, if `inRange` is set, the reserved pointer width. -/
def AllocOK (env : Env) (inRange : Bool) (al : State → Nat → Nat → Nat) : Prop :=
  (env.withAlloc al).AllocLawful ∧ (inRange = true → (env.withAlloc al).InRange)

/-- Run alone from `s`, the program does not run into undefined behaviour, whatever the allocator answers. -/
def Safe (env : Env) (inRange : Bool) {α : Type} (p : Prog α) (s : State) : Prop :=
  ∀ al, AllocOK env inRange al → ∀ k, p.run (env.withAlloc al) s ≠ .ub k

/-- Some actions of a program that runs alone, the allocator answering anything it may. -/
inductive Solo (env : Env) (inRange : Bool) {α : Type} (p : Prog α) (s : State) : Prog α → State → Prop where
  | refl : Solo env inRange p s p s
  | step {p' s' p'' s''} : Solo env inRange p s p' s' → Act env inRange p' s' p'' s'' → Solo env inRange p s p'' s''

/-- Run alone from `s`, the program does not modify or free any byte of the blocks `shared`, whatever the allocator answers. -/
def Spares (env : Env) (inRange : Bool) (shared : List Block) {α : Type} (p : Prog α) (s : State) : Prop :=
  ∀ p' s', Solo env inRange p s p' s' → ∀ a n, Conf.access p' = some (a, n, true) → ∀ b ∈ shared, ∀ x,
    a ≤ x → x < a + n → ¬ (b.base ≤ x ∧ x < b.base + b.size)

/-- The heap is (at least) the disjoint union of parts; `part i` is what thread `i` owns: its live blocks and their contents. -/
structure Conf.Parts {ι : Type} {β : ι → Type} (env : Env) (C : Conf ι β) (part : ι → State) : Prop where
  inv : HeapInv env ⟨C.mem, C.blocks, []⟩
  own : ∀ i, HeapInv env (part i)
  sub : ∀ i, ∀ b ∈ (part i).blocks, b ∈ C.blocks
  apart : ∀ i j, i ≠ j → ∀ b ∈ (part i).blocks, b ∉ (part j).blocks
  bytes : ∀ i, ∀ b ∈ (part i).blocks, ∀ x, b.base ≤ x → x < b.base + b.size → C.mem x = (part i).mem x
  trace : ∀ i, C.trace i = (part i).trace

/-- The same with blocks `shared` that may belong to several parts. -/
structure Conf.Sharing {ι : Type} {β : ι → Type} (env : Env) (C : Conf ι β) (shared : List Block) (part : ι → State) : Prop where
  inv : HeapInv env ⟨C.mem, C.blocks, []⟩
  own : ∀ i, HeapInv env (part i)
  sub : ∀ i, ∀ b ∈ (part i).blocks, b ∈ C.blocks
  apart : ∀ i j, i ≠ j → ∀ b ∈ (part i).blocks, b ∈ (part j).blocks → b ∈ shared
  bytes : ∀ i, ∀ b ∈ (part i).blocks, ∀ x, b.base ≤ x → x < b.base + b.size → C.mem x = (part i).mem x
  trace : ∀ i, C.trace i = (part i).trace

/-- How a program ended. -/
def EndsAs {α : Type} (p : Prog α) : Out α → Prop
  | .ret a _ => p = .ret a
  | .panic k _ => p = .panic k
  | .ub _ => False

end TB

import Verif.TaggedBox

/-!
# Threads

Programs as sequences of atomic actions, and interleavings of any number of them over one heap.  Like `Mem.lean` this is the part of
Rust's semantics that the crate relies on, not code of the repository.  An action is one call of the allocator, one typed read or write
through a raw pointer, or one batch of destructor runs.
-/

set_option autoImplicit false

namespace TB

/-- A program: what it does next, and how it goes on. -/
inductive Prog (α : Type) : Type where
  | ret (a : α)
  | panic (k : PanicKind)
  | ub (k : UBKind)
  | alloc (size align : Nat) (next : Nat → Prog α)
  | dealloc (a size align : Nat) (next : Prog α)
  | read (sh : Shape) (a : Nat) (next : Val → Prog α)
  | write (sh : Shape) (a : Nat) (v : Val) (next : Prog α)
  | log (es : List Event) (next : Prog α)

/-- The fields of the type lie inside it. -/
def Shape.inBounds (sh : Shape) : Bool := sh.fields.all (fun f => decide (f.1 + f.2.size ≤ sh.size))

namespace Prog

variable {α β : Type}

/-- Sequencing. -/
def bind (p : Prog α) (f : α → Prog β) : Prog β :=
  match p with
  | .ret a => f a
  | .panic k => .panic k
  | .ub k => .ub k
  | .alloc size align next => .alloc size align (fun a => (next a).bind f)
  | .dealloc a size align next => .dealloc a size align (next.bind f)
  | .read sh a next => .read sh a (fun v => (next v).bind f)
  | .write sh a v next => .write sh a v (next.bind f)
  | .log es next => .log es (next.bind f)

instance : Monad Prog where
  pure := Prog.ret
  bind := Prog.bind

/-- Run `p`; whatever way it ends (return or unwinding), run the destructors `es`. -/
def cleanup (es : List Event) : Prog α → Prog α
  | .ret a => .log es (.ret a)
  | .panic k => .log es (.panic k)
  | .ub k => .ub k
  | .alloc size align next => .alloc size align (fun a => (next a).cleanup es)
  | .dealloc a size align next => .dealloc a size align (next.cleanup es)
  | .read sh a next => .read sh a (fun v => (next v).cleanup es)
  | .write sh a v next => .write sh a v (next.cleanup es)
  | .log es' next => .log es' (next.cleanup es)

/-- `std::panic::catch_unwind`, together with all events of `p` (after those in `acc`). -/
def observe (acc : List Event) : Prog α → Prog (Except PanicKind α × List Event)
  | .ret a => .ret (.ok a, acc)
  | .panic k => .ret (.error k, acc)
  | .ub k => .ub k
  | .alloc size align next => .alloc size align (fun a =>
      (next a).observe (acc ++ [if a = 0 then .allocNull size align else .alloc ⟨a, size, align⟩]))
  | .dealloc a size align next => .dealloc a size align (next.observe (acc ++ [.dealloc ⟨a, size, align⟩]))
  | .read sh a next => .read sh a (fun v => (next v).observe acc)
  | .write sh a v next => .write sh a v (next.observe acc)
  | .log es next => .log es (next.observe (acc ++ es))

/-- Run alone, with the allocator of `env`. Allocating zero bytes (excluded by the `GlobalAlloc` contract) and types whose fields
lie outside them are undefined behaviour. -/
def run (env : Env) : Prog α → M α
  | .ret a => M.pure a
  | .panic k => M.panic k
  | .ub k => M.ub k
  | .alloc size align next => if size = 0 then M.ub .badPointer else M.bind (allocM env size align) (fun a => (next a).run env)
  | .dealloc a size align next => M.bind (deallocM a size align) (fun _ => next.run env)
  | .read sh a next => if sh.inBounds then M.bind (ptrRead sh a) (fun v => (next v).run env) else M.ub .badPointer
  | .write sh a v next => if sh.inBounds then M.bind (ptrWrite sh a v) (fun _ => next.run env) else M.ub .badPointer
  | .log es next => M.bind (M.log es) (fun _ => next.run env)

end Prog

/-! ## Interleavings -/

/-- What the allocator may answer to a request in a heap with the given live blocks: null, or an aligned block in the address space,
disjoint from all live blocks (the `GlobalAlloc` contract); if `inRange` is set, inside the reserved pointer width. -/
def Answer (env : Env) (inRange : Bool) (blocks : List Block) (size align a : Nat) : Prop :=
  a = 0 ∨ (align ∣ a ∧ a + size ≤ 2 ^ env.ptrBits ∧ (∀ b ∈ blocks, Block.Disjoint ⟨a, size, align⟩ b) ∧
    (inRange = true → a < 2 ^ env.cfg.ptrWidth))

/-- The state after the answer `a` to a request. -/
def answered (s : State) (size align a : Nat) : State :=
  if a = 0 then s.log [.allocNull size align]
  else { mem := overlay s.mem a (List.replicate size none),
         blocks := ⟨a, size, align⟩ :: s.blocks,
         trace := s.trace ++ [.alloc ⟨a, size, align⟩] }

/-- One action. No action is possible when the program has ended, or when its next action is undefined behaviour. -/
inductive Act (env : Env) (inRange : Bool) {α : Type} : Prog α → State → Prog α → State → Prop where
  | alloc {s size align next a} : size ≠ 0 → Answer env inRange s.blocks size align a →
      Act env inRange (.alloc size align next) s (next a) (answered s size align a)
  | dealloc {s s' a size align next} : deallocM a size align s = .ret () s' →
      Act env inRange (.dealloc a size align next) s next s'
  | read {s s' sh a next v} : sh.inBounds = true → ptrRead sh a s = .ret v s' → Act env inRange (.read sh a next) s (next v) s'
  | write {s s' sh a v next} : sh.inBounds = true → ptrWrite sh a v s = .ret () s' →
      Act env inRange (.write sh a v next) s next s'
  | log {s es next} : Act env inRange (.log es next) s next (s.log es)

/-- Threads `i : ι` over one memory; each thread has its own record of events. -/
structure Conf (ι : Type) (β : ι → Type) where
  mem : Nat → MByte
  blocks : List Block
  prog : (i : ι) → Prog (β i)
  trace : ι → List Event

namespace Conf

variable {ι : Type} [DecidableEq ι] {β : ι → Type}

/-- The state as thread `i` finds it. -/
def view (C : Conf ι β) (i : ι) : State := ⟨C.mem, C.blocks, C.trace i⟩

/-- Change a function at one argument. -/
def setAt {γ : ι → Type} (f : (i : ι) → γ i) (i : ι) (x : γ i) : (j : ι) → γ j :=
  fun j => if h : j = i then h ▸ x else f j

/-- Thread `i` has become `p` and left the state `s`. -/
def update (C : Conf ι β) (i : ι) (p : Prog (β i)) (s : State) : Conf ι β where
  mem := s.mem
  blocks := s.blocks
  prog := setAt C.prog i p
  trace := setAt C.trace i s.trace

/-- The scheduler picks any thread and lets it do one action. -/
inductive Reach (env : Env) (inRange : Bool) : Conf ι β → Conf ι β → Prop where
  | refl {C} : Reach env inRange C C
  | step {C C'} (i : ι) {p : Prog (β i)} {s : State} : Reach env inRange C C' → Act env inRange (C'.prog i) (C'.view i) p s →
      Reach env inRange C (C'.update i p s)

/-- Has the program ended? -/
def Ended {α : Type} : Prog α → Prop
  | .ret _ => True
  | .panic _ => True
  | _ => False

/-- Thread `i` has not ended and can do no action: undefined behaviour. -/
def Stuck (env : Env) (inRange : Bool) (C : Conf ι β) (i : ι) : Prop :=
  ¬ Ended (C.prog i) ∧ ∀ p s, ¬ Act env inRange (C.prog i) (C.view i) p s

/-- The bytes the next action of a program accesses (start, length), and whether it modifies or frees them. -/
def access {α : Type} : Prog α → Option (Nat × Nat × Bool)
  | .dealloc a size _ _ => some (a, size, true)
  | .read sh a _ => some (a, sh.size, false)
  | .write sh a _ _ => some (a, sh.size, true)
  | _ => none

/-- Data race: the next actions of two threads access a common byte, and one of them modifies it. -/
def Race (C : Conf ι β) (i j : ι) : Prop :=
  ∃ a n w a' n' w', access (C.prog i) = some (a, n, w) ∧ access (C.prog j) = some (a', n', w') ∧ (w = true ∨ w' = true) ∧
    ∃ x, a ≤ x ∧ x < a + n ∧ a' ≤ x ∧ x < a' + n'

end Conf
end TB

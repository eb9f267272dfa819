import Verif.Spec.History

/-!
# Aliasing: the Stacked Borrows rules

`Verif/Mem.lean` and `Verif/Provenance.lean` do not ask *which* of several pointers to one allocation may be used when.
This file adds the rules that decide that in Rust's experimental semantics, Stacked Borrows: every byte of memory has a stack of *items*, each the
tag of a pointer with what that pointer may still do; making a reference pushes an item, using a pointer requires its item, and uses through
lower items invalidate the higher ones.

The functions of `src/tagged_box.rs` are repeated at this level. A box keeps its pointer in a `u64`; a pointer made from an integer
(`wild`) may use any item whose tag has been exposed.

Not modelled: protectors of function arguments, two-phase borrows, interior mutability (`UnsafeCell`) in payloads, retagging of references stored
inside payloads.
-/

set_option autoImplicit false

namespace TB

/-- What an item still permits. -/
inductive Perm where
  | unique | sharedRW | sharedRO | disabled
deriving DecidableEq, Repr

/-- May be used for reading. -/
def Perm.reads : Perm → Bool
  | .disabled => false
  | _ => true

/-- May be used for writing. -/
def Perm.writes : Perm → Bool
  | .unique => true
  | .sharedRW => true
  | _ => false

/-- An item of a borrow stack. -/
structure Item where
  tag : Nat
  perm : Perm
deriving DecidableEq, Repr

/-- The tag of a pointer; `wild` for a pointer made from an integer. -/
inductive PTag where
  | of (t : Nat)
  | wild
deriving DecidableEq, Repr

/-- Borrow state: the stack of every byte (topmost item first), the next unused tag, the tags whose pointers have been cast to an integer,
and the tags of the pointers stored in memory (by address; used in `BorrowOwned.lean`). -/
structure Borrows where
  stk : Nat → List Item
  next : Nat
  exposed : List Nat
  ptrs : Nat → PTag := fun _ => .wild

/-- A pointer or reference. -/
structure BPtr where
  addr : Nat
  tag : PTag
deriving DecidableEq, Repr

/-- May a pointer with tag `p` use items with tag `t`? -/
def Borrows.grants (β : Borrows) : PTag → Nat → Bool
  | .of t', t => decide (t' = t)
  | .wild, t => decide (t ∈ β.exposed)

/-- A read of one byte: the topmost usable item is used, and `unique` items above it are disabled. -/
def readStack (g : Nat → Bool) : List Item → Option (List Item)
  | [] => none
  | it :: st =>
    if g it.tag && it.perm.reads then some (it :: st)
    else (readStack g st).map fun st' => (if it.perm = .unique then ⟨it.tag, .disabled⟩ else it) :: st'

/-- A write of one byte: the topmost usable item is used, and everything above it is removed. -/
def writeStack (g : Nat → Bool) : List Item → Option (List Item)
  | [] => none
  | it :: st => if g it.tag && it.perm.writes then some (it :: st) else writeStack g st

/-- An access to `n` bytes from `a` on; `none` if one of them has no usable item. -/
def Borrows.access (β : Borrows) (f : List Item → Option (List Item)) (a n : Nat) : Option Borrows :=
  if (List.range n).all (fun i => (f (β.stk (a + i))).isSome) then
    some { β with stk := fun i => if a ≤ i ∧ i < a + n then (f (β.stk i)).getD [] else β.stk i }
  else none

/-- A new tag on top of the stacks of `n` bytes from `a` on. -/
def Borrows.push (β : Borrows) (perm : Perm) (a n : Nat) : Borrows :=
  { β with stk := fun i => if a ≤ i ∧ i < a + n then ⟨β.next, perm⟩ :: β.stk i else β.stk i, next := β.next + 1 }

/-- The stacks of `n` bytes from `a` on replaced by `st`. -/
def Borrows.reset (β : Borrows) (st : List Item) (a n : Nat) : Borrows :=
  { β with stk := fun i => if a ≤ i ∧ i < a + n then st else β.stk i }

/-- Outcomes, as `Out`; `aliasing` is undefined behaviour because no usable item was left. -/
inductive BOut (α : Type) where
  | ret (a : α) (s : State) (β : Borrows)
  | panic (k : PanicKind) (s : State) (β : Borrows)
  | ub (k : UBKind)
  | aliasing

/-- Computations, as `M`. -/
def MB (α : Type) : Type := State → Borrows → BOut α

namespace MB

def pure {α} (a : α) : MB α := fun s β => .ret a s β

def bind {α γ} (m : MB α) (f : α → MB γ) : MB γ := fun s β =>
  match m s β with
  | .ret a s' β' => f a s' β'
  | .panic k s' β' => .panic k s' β'
  | .ub k => .ub k
  | .aliasing => .aliasing

instance : Monad MB where
  pure := MB.pure
  bind := MB.bind

/-- A computation that does not touch the borrow state. -/
def lift {α} (m : M α) : MB α := fun s β =>
  match m s with
  | .ret a s' => .ret a s' β
  | .panic k s' => .panic k s' β
  | .ub k => .ub k

/-- Replace the borrow state; `none` is an aliasing violation. -/
def borrows (f : Borrows → Option Borrows) : MB Unit := fun s β =>
  match f β with
  | some β' => .ret () s β'
  | none => .aliasing

/-- Push a new tag, and return it. -/
def push (perm : Perm) (a n : Nat) : MB Nat := fun s β => .ret β.next s (β.push perm a n)

/-- Set up new memory with a new tag, and return it. -/
def newTag (a n : Nat) : MB Nat := fun s β => .ret β.next s { β.reset [⟨β.next, .sharedRW⟩] a n with next := β.next + 1 }

end MB

/-- `ptr.read()` / a use of `*ptr`. -/
def readB (sh : Shape) (p : BPtr) : MB Val := do
  MB.borrows fun β => β.access (readStack (β.grants p.tag)) p.addr sh.size
  MB.lift (ptrRead sh p.addr)

/-- `ptr.write(v)`. -/
def writeB (sh : Shape) (p : BPtr) (v : Val) : MB Unit := do
  MB.borrows fun β => β.access (writeStack (β.grants p.tag)) p.addr sh.size
  MB.lift (ptrWrite sh p.addr v)

/-- A reference must not dangle. -/
def checkB (sh : Shape) (p : BPtr) : MB Unit :=
  MB.lift fun s => if validPtr s p.addr sh.size sh.align then .ret () s else .ub .badPointer

/-- `&*ptr`: counts as a read through `ptr`; the reference has a new tag that may read. -/
def retagRef (sh : Shape) (p : BPtr) : MB BPtr := do
  checkB sh p
  MB.borrows fun β => β.access (readStack (β.grants p.tag)) p.addr sh.size
  let t ← MB.push .sharedRO p.addr sh.size
  pure ⟨p.addr, .of t⟩

/-- `&mut *ptr`, and taking `ptr` as a `Box`: counts as a write through `ptr`; the result has a new tag that owns the top of the stacks. -/
def retagMut (sh : Shape) (p : BPtr) : MB BPtr := do
  checkB sh p
  MB.borrows fun β => β.access (writeStack (β.grants p.tag)) p.addr sh.size
  let t ← MB.push .unique p.addr sh.size
  pure ⟨p.addr, .of t⟩

/-- `alloc::alloc::alloc(layout)`: new memory, whose stacks hold a new tag for the returned pointer. -/
def allocB (env : Env) (size align : Nat) : MB BPtr := do
  let a ← MB.lift (allocM env size align)
  if a = 0 then pure ⟨0, .wild⟩
  else do
    let t ← MB.newTag a size
    pure ⟨a, .of t⟩

/-- `alloc::alloc::dealloc(ptr, layout)`: counts as a write through `ptr`; nothing may use the memory afterwards. -/
def deallocB (p : BPtr) (size align : Nat) : MB Unit := do
  MB.borrows fun β => β.access (writeStack (β.grants p.tag)) p.addr size
  MB.lift (deallocM p.addr size align)
  MB.borrows fun β => some (β.reset [] p.addr size)

/-- `ptr as u64`: exposes the tag. -/
def exposeB (p : BPtr) : MB (BitVec 64) := fun s β =>
  .ret (BitVec.ofNat 64 p.addr) s
    (match p.tag with
      | .of t => { β with exposed := t :: β.exposed }
      | .wild => β)

/-- `Box<U>` is a unique pointer. -/
structure BBox where
  ptr : BPtr
deriving DecidableEq, Repr

namespace TBox

variable (env : Env)

/-- `new::<U>`. `src/tagged_box.rs:82-104`; casts at `:93` and `:100`, the write at `:94` goes through the allocator's pointer. -/
def newB (sh : Shape) (val : Val) (d : env.cfg.Discr) : MB TBox :=
  if sh.size = 0 then do
    MB.lift (dropVal sh val)
    pure (dangling env sh.align d)
  else do
    let ptr ← allocB env sh.size sh.align
    let a ← exposeB ptr
    if a = 0#64 then do
      MB.lift (dropVal sh val)
      MB.lift (M.panic .nullAlloc)
    else do
      writeB sh ptr val
      let a ← exposeB ptr
      let boxed ← MB.lift (M.ofExcept (TPtr.new env.cfg env.debug a d))
      pure ⟨boxed⟩

/-- `as_ptr`: a cast from the masked word. `src/tagged_box.rs:443-445`, `src/tagged_pointer.rs:107-109` -/
def asPtrB (b : TBox) : BPtr := ⟨b.boxed.asPtr env.cfg env.ptrBits, .wild⟩

/-- `as_mut_ptr`. `src/tagged_box.rs:470-472`, `src/tagged_pointer.rs:115-117` -/
def asMutPtrB (b : TBox) : BPtr := ⟨b.boxed.asMutPtr env.cfg env.ptrBits, .wild⟩

/-- `as_ref::<U>`: `&*self.as_ptr()`. `src/tagged_box.rs:235-237`, `src/tagged_pointer.rs:74-76` -/
def asRefB (sh : Shape) (b : TBox) : MB BPtr := retagRef sh (asPtrB env b)

/-- `as_mut_ref::<U>`: `&mut *self.as_mut_ptr()`. `src/tagged_box.rs:267-269`, `src/tagged_pointer.rs:86-88` -/
def asMutRefB (sh : Shape) (b : TBox) : MB BPtr := retagMut sh (asMutPtrB env b)

/-- `into_inner::<U>`: `as_mut_ptr().read()`. `src/tagged_box.rs:297-300` -/
def intoInnerB (sh : Shape) (b : TBox) : MB Val := readB sh (asMutPtrB env b)

/-- `into_raw::<U>`. `src/tagged_box.rs:324-326` -/
def intoRawB (b : TBox) : BPtr := asMutPtrB env b

/-- `into_box::<U>`: `Box::from_raw(self.into_raw())`; making the box retags the pointer. `src/tagged_box.rs:354-359` -/
def intoBoxB (sh : Shape) (b : TBox) : MB BBox := do
  let p ← retagMut sh (intoRawB env b)
  pure ⟨p⟩

/-- `from_raw::<U>`; the cast is at `:400`. `src/tagged_box.rs:398-403` -/
def fromRawB (raw : BPtr) (d : env.cfg.Discr) : MB TBox := do
  let a ← exposeB raw
  let boxed ← MB.lift (M.ofExcept (TPtr.new env.cfg env.debug a d))
  pure ⟨boxed⟩

end TBox

/-- `*r = v` for a `&mut U`: the old value is dropped, the new one written. -/
def assignB (sh : Shape) (r : BPtr) (v : Val) : MB Unit := do
  let old ← readB sh r
  MB.lift (dropVal sh old)
  writeB sh r v

namespace BBox

/-- `Drop for Box<U>`: the value is dropped in place, then the memory is freed, all through the box's tag. (The drop glue makes a further `&mut` from
the box, which its own tag permits.) Not code of this repository. -/
def drop (sh : Shape) (b : BBox) : MB Unit := do
  let v ← readB sh b.ptr
  MB.lift (dropVal sh v)
  if sh.size = 0 then pure () else deallocB b.ptr sh.size sh.align

/-- Moving the value out of a box. Not code of this repository. -/
def intoValue (sh : Shape) (b : BBox) : MB Val := do
  let v ← readB sh b.ptr
  if sh.size = 0 then pure () else deallocB b.ptr sh.size sh.align
  pure v

end BBox

/-! ## Clients that hold on to references -/

/-- Operations: those of `Op`, and references that stay around. `r` numbers the references. -/
inductive BOp (env : Env) where
  | base (op : Op env)
  /-- `let r = h.as_ref::<U>()` -/
  | borrow (h : Nat) (sh : Shape)
  /-- `let r = h.as_mut_ref::<U>()` -/
  | borrowMut (h : Nat) (sh : Shape)
  /-- `*r` -/
  | get (r : Nat)
  /-- `*r = v` -/
  | set (r : Nat) (v : Val)
  /-- the last use of `r` has passed -/
  | done (r : Nat)

/-- Client state: machine state, borrow state, boxes and references (`none`: consumed, given up). -/
structure BState where
  s : State
  β : Borrows
  handles : List (Option TBox)
  refs : List (Option (BPtr × Shape))

/-- The tables of a client: boxes and references. -/
abbrev Tables := List (Option TBox) × List (Option (BPtr × Shape))

/-- As `stepWith`. -/
def stepWithB {env : Env} {α : Type} (c : BState) (m : MB α) (f : α → Res env × Tables) : Option (Obs env × BState) :=
  match m c.s c.β with
  | .ret a s' β' => some (((f a).1, dropsBetween c.s s'), ⟨s', β', (f a).2.1, (f a).2.2⟩)
  | .panic k s' β' => some ((.panicked k, dropsBetween c.s s'), ⟨s', β', c.handles, c.refs⟩)
  | .ub _ => none
  | .aliasing => none

/-- The box behind a handle. -/
def BState.get (c : BState) (h : Nat) : Option TBox := c.handles[h]?.join

/-- The reference with a number. -/
def BState.ref (c : BState) (r : Nat) : Option (BPtr × Shape) := c.refs[r]?.join

/-- One client step, with the functions above; `none` is undefined behaviour. -/
def stepB (env : Env) (c : BState) : BOp env → Option (Obs env × BState)
  | .base (.new sh v d) =>
      stepWithB c (TBox.newB env sh v d) (fun b => (.handle c.handles.length, c.handles ++ [some b], c.refs))
  | .base (.copy h) => (c.get h).bind fun b =>
      stepWithB c (pure b.copy) (fun b' => (.handle c.handles.length, c.handles ++ [some b'], c.refs))
  | .base (.discr h) => (c.get h).bind fun b =>
      stepWithB c (pure (b.discriminant env)) (fun d => (.discr d, c.handles, c.refs))
  | .base (.ptrEq h h') => (c.get h).bind fun b => (c.get h').bind fun b' =>
      stepWithB c (pure (decide ((b.asPtrB env).addr = (b'.asPtrB env).addr))) (fun e => (.bool e, c.handles, c.refs))
  | .base (.read h sh) => (c.get h).bind fun b =>
      stepWithB c (b.asRefB env sh >>= readB sh) (fun v => (.val v, c.handles, c.refs))
  | .base (.assign h sh v) => (c.get h).bind fun b =>
      stepWithB c (b.asMutRefB env sh >>= fun r => assignB sh r v) (fun _ => (.unit, c.handles, c.refs))
  | .base (.write h sh v) => (c.get h).bind fun b =>
      stepWithB c (writeB sh (b.asMutPtrB env) v) (fun _ => (.unit, c.handles, c.refs))
  | .base (.intoInner h sh) => (c.get h).bind fun b =>
      stepWithB c (b.intoInnerB env sh) (fun v => (.val v, c.handles.set h none, c.refs))
  | .base (.drop h) => (c.get h).bind fun _ => stepWithB c (pure ()) (fun _ => (.unit, c.handles.set h none, c.refs))
  | .base (.rawRoundtrip h) => (c.get h).bind fun b =>
      stepWithB c (TBox.fromRawB env (b.intoRawB env) (b.discriminant env)) (fun b' => (.unit, c.handles.set h (some b'), c.refs))
  | .base (.boxDrop h sh) => (c.get h).bind fun b =>
      stepWithB c (b.intoBoxB env sh >>= BBox.drop sh) (fun _ => (.unit, c.handles.set h none, c.refs))
  | .base (.boxTake h sh) => (c.get h).bind fun b =>
      stepWithB c (b.intoBoxB env sh >>= BBox.intoValue sh) (fun v => (.val v, c.handles.set h none, c.refs))
  | .borrow h sh => (c.get h).bind fun b =>
      stepWithB c (b.asRefB env sh) (fun r => (.handle c.refs.length, c.handles, c.refs ++ [some (r, sh)]))
  | .borrowMut h sh => (c.get h).bind fun b =>
      stepWithB c (b.asMutRefB env sh) (fun r => (.handle c.refs.length, c.handles, c.refs ++ [some (r, sh)]))
  | .get r => (c.ref r).bind fun x => stepWithB c (readB x.2 x.1) (fun v => (.val v, c.handles, c.refs))
  | .set r v => (c.ref r).bind fun x => stepWithB c (assignB x.2 x.1 v) (fun _ => (.unit, c.handles, c.refs))
  | .done r => (c.ref r).bind fun _ => stepWithB c (pure ()) (fun _ => (.unit, c.handles, c.refs.set r none))

/-- An adaptive client. -/
abbrev BClient (env : Env) := List (Obs env) → Option (BOp env)

/-- Run a client for at most `n` steps; `none` is undefined behaviour. -/
def runClientB (env : Env) (p : BClient env) (s : State) (β : Borrows) : Nat → Option (List (Obs env) × BState)
  | 0 => some ([], ⟨s, β, [], []⟩)
  | n + 1 => (runClientB env p s β n).bind fun (os, c) =>
      match p os with
      | none => some (os, c)
      | some op => (stepB env c op).map fun (o, c') => (os ++ [o], c')

end TB

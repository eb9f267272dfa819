import Verif.Spec.History

/-!
# Pointer provenance

`Verif/Mem.lean` treats a pointer as its address. In Rust a pointer also carries a *provenance*: the allocation it may be used
to access. This crate keeps pointers in a `u64`, so the question whether its accesses are allowed depends on the rules for
integer casts (the "exposed provenance" rules of `core::ptr`):

* `ptr as u64` *exposes* the allocation the pointer belongs to and yields the address;
* `addr as *mut T` yields a pointer that may access any allocation that has been exposed before, and no other.

This file repeats the heap operations and the functions of `src/tagged_box.rs` at that level. Allocations have identities that are
never reused, so an address that is handed out again after a `dealloc` is a *different* allocation. Everything that does not
touch memory (`TPtr.new`, `discriminant`, …) is shared with the address-level model.

Not modelled: restrictions on which of several pointers to the same allocation may be used (Stacked / Tree Borrows).
-/

set_option autoImplicit false

namespace TB

/-- What a pointer may access. -/
inductive Prov where
  /-- the allocation with this identity -/
  | of (id : Nat)
  /-- made from an integer: any exposed allocation -/
  | wild
deriving DecidableEq, Repr

/-- A raw pointer. -/
structure Ptr where
  addr : Nat
  prov : Prov
deriving DecidableEq, Repr

/-- Machine state with allocation identities. -/
structure PState where
  mem : Nat → MByte
  /-- the live allocations with their identities -/
  live : List (Nat × Block)
  trace : List Event
  /-- the next unused identity -/
  next : Nat
  /-- identities of the allocations whose address has been exposed -/
  exposed : List Nat

/-- The machine state without identities; the allocator sees only this. -/
def PState.toState (σ : PState) : State := ⟨σ.mem, σ.live.map (·.2), σ.trace⟩

/-- Append events to the trace. -/
def PState.log (σ : PState) (es : List Event) : PState := { σ with trace := σ.trace ++ es }

/-- Outcomes, as `Out`. -/
inductive POut (α : Type) where
  | ret (a : α) (σ : PState)
  | panic (k : PanicKind) (σ : PState)
  | ub (k : UBKind)

/-- Computations, as `M`. -/
def MP (α : Type) : Type := PState → POut α

namespace MP

def pure {α} (a : α) : MP α := fun σ => .ret a σ

def bind {α β} (m : MP α) (f : α → MP β) : MP β := fun σ =>
  match m σ with
  | .ret a σ' => f a σ'
  | .panic k σ' => .panic k σ'
  | .ub k => .ub k

instance : Monad MP where
  pure := MP.pure
  bind := MP.bind

/-- Raise a panic. -/
def panic {α} (k : PanicKind) : MP α := fun σ => .panic k σ

/-- A pure computation that may panic. -/
def ofExcept {α} : Except PanicKind α → MP α
  | .ok a => MP.pure a
  | .error k => MP.panic k

end MP

/-- May pointer `p` be used to access allocation `id`? -/
def PState.grants (σ : PState) (p : Ptr) (id : Nat) : Bool :=
  match p.prov with
  | .of i => decide (i = id)
  | .wild => decide (id ∈ σ.exposed)

/-- Pointer validity for an access: as `validPtr`, but the block must be one the pointer may access. -/
def PState.valid (σ : PState) (p : Ptr) (size align : Nat) : Bool :=
  decide (p.addr ≠ 0) && decide (p.addr % align = 0) &&
    (decide (size = 0) || σ.live.any (fun x => σ.grants p x.1 && decide (x.2.base ≤ p.addr) &&
      decide (p.addr + size ≤ x.2.base + x.2.size)))

/-- `ptr.read()` / a use of `*ptr`. -/
def readQ (sh : Shape) (p : Ptr) : MP Val := fun σ =>
  if σ.valid p sh.size sh.align then
    (if fieldsValid sh (getVal σ.mem p.addr sh) then .ret (getVal σ.mem p.addr sh) σ else .ub .badValue)
  else .ub .badPointer

/-- `ptr.write(v)`. -/
def writeQ (sh : Shape) (p : Ptr) (v : Val) : MP Unit := fun σ =>
  if σ.valid p sh.size sh.align then .ret () { σ with mem := putVal σ.mem p.addr sh v }
  else .ub .badPointer

/-- Drop a value. -/
def dropQ (sh : Shape) (v : Val) : MP Unit := fun σ => .ret () (σ.log (dropEvents sh v))

/-- `alloc::alloc::alloc(layout)`: a new allocation with a new identity, not exposed. -/
def allocQ (env : Env) (size align : Nat) : MP Ptr := fun σ =>
  let a := env.alloc σ.toState size align
  if a = 0 then .ret ⟨0, .wild⟩ (σ.log [.allocNull size align])
  else .ret ⟨a, .of σ.next⟩
    { mem := overlay σ.mem a (List.replicate size none),
      live := (σ.next, ⟨a, size, align⟩) :: σ.live,
      trace := σ.trace ++ [.alloc ⟨a, size, align⟩],
      next := σ.next + 1,
      exposed := σ.exposed }

/-- `alloc::alloc::dealloc(ptr, layout)`: the pointer must be allowed to access the allocation. -/
def deallocQ (p : Ptr) (size align : Nat) : MP Unit := fun σ =>
  if σ.live.any (fun x => σ.grants p x.1 && decide (x.2 = ⟨p.addr, size, align⟩)) then
    .ret () { σ with live := σ.live.eraseP (fun x => σ.grants p x.1 && decide (x.2 = ⟨p.addr, size, align⟩)),
                     trace := σ.trace ++ [.dealloc ⟨p.addr, size, align⟩] }
  else .ub .badFree

/-- `ptr as u64`: exposes the allocation. -/
def exposeQ (p : Ptr) : MP (BitVec 64) := fun σ =>
  .ret (BitVec.ofNat 64 p.addr)
    (match p.prov with
      | .of id => { σ with exposed := id :: σ.exposed }
      | .wild => σ)

/-- `addr as *const T` / `addr as *mut T`. -/
def fromExposed (a : Nat) : Ptr := ⟨a, .wild⟩

/-- `Box<U>` is a unique pointer. -/
structure QBox where
  ptr : Ptr
deriving DecidableEq, Repr

namespace TBox

variable (env : Env)

/-- `new::<U>`. `src/tagged_box.rs:82-104`. The casts are at `:93` (in the `assert!`) and `:100`; the write at `:94` goes through the
pointer the allocator returned. -/
def newQ (sh : Shape) (val : Val) (d : env.cfg.Discr) : MP TBox :=
  if sh.size = 0 then do
    dropQ sh val
    pure (dangling env sh.align d)
  else do
    let ptr ← allocQ env sh.size sh.align
    let a ← exposeQ ptr
    if a = 0#64 then do
      dropQ sh val
      MP.panic .nullAlloc
    else do
      writeQ sh ptr val
      let a ← exposeQ ptr
      let boxed ← MP.ofExcept (TPtr.new env.cfg env.debug a d)
      pure ⟨boxed⟩

/-- `new_unchecked::<U>`. `src/tagged_box.rs:175-197` (a textual copy of `new`); casts at `:186` and `:193`. -/
def newUncheckedQ (sh : Shape) (val : Val) (d : env.cfg.Discr) : MP TBox :=
  if sh.size = 0 then do
    dropQ sh val
    pure (dangling env sh.align d)
  else do
    let ptr ← allocQ env sh.size sh.align
    let a ← exposeQ ptr
    if a = 0#64 then do
      dropQ sh val
      MP.panic .nullAlloc
    else do
      writeQ sh ptr val
      let a ← exposeQ ptr
      let boxed ← MP.ofExcept (TPtr.new env.cfg env.debug a d)
      pure ⟨boxed⟩

/-- `as_ptr`, `as_mut_ptr`: a cast from the masked word. `src/tagged_box.rs:443-445, 470-472`,
`src/tagged_pointer.rs:107-117` -/
def asPtrQ (b : TBox) : Ptr := fromExposed (b.boxed.asPtr env.cfg env.ptrBits)

/-- As `asPtrQ`. `src/tagged_box.rs:470-472`, `src/tagged_pointer.rs:115-117` -/
def asMutPtrQ (b : TBox) : Ptr := fromExposed (b.boxed.asMutPtr env.cfg env.ptrBits)

/-- `as_ref::<U>` followed by a read. `src/tagged_box.rs:235-237`, `src/tagged_pointer.rs:74-76` -/
def asRefQ (sh : Shape) (b : TBox) : MP Val := readQ sh (asPtrQ env b)

/-- `*b.as_mut_ref::<U>() = v`. `src/tagged_box.rs:267-269`, `src/tagged_pointer.rs:86-88` -/
def asMutRefAssignQ (sh : Shape) (b : TBox) (v : Val) : MP TBox := do
  let old ← readQ sh (asMutPtrQ env b)
  dropQ sh old
  writeQ sh (asMutPtrQ env b) v
  pure b

/-- `b.as_mut_ptr::<U>().write(v)`. `src/tagged_box.rs:470-472` -/
def asMutPtrWriteQ (sh : Shape) (b : TBox) (v : Val) : MP TBox := do
  writeQ sh (asMutPtrQ env b) v
  pure b

/-- `into_inner::<U>`. `src/tagged_box.rs:297-300` -/
def intoInnerQ (sh : Shape) (b : TBox) : MP Val := readQ sh (asMutPtrQ env b)

/-- `into_raw::<U>`. `src/tagged_box.rs:324-326` -/
def intoRawQ (b : TBox) : Ptr := asMutPtrQ env b

/-- `into_box::<U>`. `src/tagged_box.rs:354-359` -/
def intoBoxQ (b : TBox) : QBox := ⟨intoRawQ env b⟩

/-- `from_raw::<U>`; the cast is at `:400`. `src/tagged_box.rs:398-403` -/
def fromRawQ (raw : Ptr) (d : env.cfg.Discr) : MP TBox := do
  let a ← exposeQ raw
  let boxed ← MP.ofExcept (TPtr.new env.cfg env.debug a d)
  pure ⟨boxed⟩

end TBox

namespace QBox

/-- `Drop for Box<U>`. Not code of this repository. -/
def drop (sh : Shape) (b : QBox) : MP Unit := do
  let v ← readQ sh b.ptr
  dropQ sh v
  if sh.size = 0 then pure () else deallocQ b.ptr sh.size sh.align

/-- Moving the value out of a box. Not code of this repository. -/
def intoValue (sh : Shape) (b : QBox) : MP Val := do
  let v ← readQ sh b.ptr
  if sh.size = 0 then pure () else deallocQ b.ptr sh.size sh.align
  pure v

/-- `Box::new(v)` when the allocator does not fail: the box keeps the allocator's pointer, and nothing is exposed; a zero-sized value
needs no memory. (When it fails, `Box::new` aborts the process.) Not code of this repository. -/
def new (env : Env) (sh : Shape) (v : Val) : MP QBox :=
  if sh.size = 0 then pure ⟨⟨sh.align, .wild⟩⟩
  else do
    let ptr ← allocQ env sh.size sh.align
    writeQ sh ptr v
    pure ⟨ptr⟩

end QBox

/-! ## Clients -/

/-- Client state, as `CState`. -/
structure QState where
  σ : PState
  handles : List (Option TBox)

/-- As `stepWith`. -/
def stepWithQ {env : Env} {α : Type} (c : QState) (m : MP α) (f : α → Res env × List (Option TBox)) :
    Option (Obs env × QState) :=
  match m c.σ with
  | .ret a σ' => some (((f a).1, dropsBetween c.σ.toState σ'.toState), ⟨σ', (f a).2⟩)
  | .panic k σ' => some ((.panicked k, dropsBetween c.σ.toState σ'.toState), ⟨σ', c.handles⟩)
  | .ub _ => none

/-- The box behind a handle. -/
def QState.get (c : QState) (h : Nat) : Option TBox := c.handles[h]?.join

/-- One client step, as `step`, with the functions above. -/
def stepQ (env : Env) (c : QState) : Op env → Option (Obs env × QState)
  | .new sh v d => stepWithQ c (TBox.newQ env sh v d) (fun b => (.handle c.handles.length, c.handles ++ [some b]))
  | .copy h => (c.get h).bind fun b =>
      stepWithQ c (pure b.copy) (fun b' => (.handle c.handles.length, c.handles ++ [some b']))
  | .discr h => (c.get h).bind fun b => stepWithQ c (pure (b.discriminant env)) (fun d => (.discr d, c.handles))
  | .ptrEq h h' => (c.get h).bind fun b => (c.get h').bind fun b' =>
      stepWithQ c (pure (decide ((b.asPtrQ env).addr = (b'.asPtrQ env).addr))) (fun e => (.bool e, c.handles))
  | .read h sh => (c.get h).bind fun b => stepWithQ c (b.asRefQ env sh) (fun v => (.val v, c.handles))
  | .assign h sh v => (c.get h).bind fun b =>
      stepWithQ c (b.asMutRefAssignQ env sh v) (fun b' => (.unit, c.handles.set h (some b')))
  | .write h sh v => (c.get h).bind fun b =>
      stepWithQ c (b.asMutPtrWriteQ env sh v) (fun b' => (.unit, c.handles.set h (some b')))
  | .intoInner h sh => (c.get h).bind fun b =>
      stepWithQ c (b.intoInnerQ env sh) (fun v => (.val v, c.handles.set h none))
  | .drop h => (c.get h).bind fun _ => stepWithQ c (pure ()) (fun _ => (.unit, c.handles.set h none))
  | .rawRoundtrip h => (c.get h).bind fun b =>
      stepWithQ c (TBox.fromRawQ env (b.intoRawQ env) (b.discriminant env)) (fun b' => (.unit, c.handles.set h (some b')))
  | .boxDrop h sh => (c.get h).bind fun b =>
      stepWithQ c ((b.intoBoxQ env).drop sh) (fun _ => (.unit, c.handles.set h none))
  | .boxTake h sh => (c.get h).bind fun b =>
      stepWithQ c ((b.intoBoxQ env).intoValue sh) (fun v => (.val v, c.handles.set h none))

/-- Run a client for at most `n` steps, as `runClient`; `none` is undefined behaviour. -/
def runClientQ (env : Env) (p : Client env) (σ : PState) : Nat → Option (List (Obs env) × QState)
  | 0 => some ([], ⟨σ, []⟩)
  | n + 1 => (runClientQ env p σ n).bind fun (os, c) =>
      match p os with
      | none => some (os, c)
      | some op => (stepQ env c op).map fun (o, c') => (os ++ [o], c')

end TB

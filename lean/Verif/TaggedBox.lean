import Verif.Mem

/-!
# `TaggedBox`

Models the inherent functions of `src/tagged_box.rs`.
-/

set_option autoImplicit false

namespace TB

/-- `TaggedBox<T> { boxed: TaggedPointer, _type: PhantomData<T> }`, `repr(transparent)`.
`src/tagged_box.rs:15-19`. There is no `Drop` implementation. -/
structure TBox where
  boxed : TPtr
deriving DecidableEq, Repr

/-- `alloc::boxed::Box<U>`, represented by its address. Not code of this repository. -/
structure RBox where
  addr : Nat
deriving DecidableEq, Repr

namespace TBox

variable (env : Env)

/-- `dangling::<U>`; `align` is `align_of::<U>()`. `src/tagged_box.rs:203-208` -/
def dangling (align : Nat) (d : env.cfg.Discr) : TBox := ⟨TPtr.dangling env.cfg align d⟩

/-- `new::<U>`. `src/tagged_box.rs:82-104`.
In the zero-sized branch (`:83-84`) `val` is neither stored nor forgotten, so it is dropped when the function
returns. If the null `assert!` (`:93`) fails, unwinding drops `val`. If the `debug_assert!`s of
`TaggedPointer::new` (`:100`) fail, `val` has already been moved into the block by `ptr.write` (`:94`) and nothing
frees the block. -/
def new (sh : Shape) (val : Val) (d : env.cfg.Discr) : M TBox :=
  if sh.size = 0 then do
    dropVal sh val
    pure (dangling env sh.align d)
  else do
    let ptr ← allocM env sh.size sh.align
    if BitVec.ofNat 64 ptr = 0#64 then do
      dropVal sh val
      M.panic .nullAlloc
    else do
      ptrWrite sh ptr val
      let boxed ← M.ofExcept (TPtr.new env.cfg env.debug (BitVec.ofNat 64 ptr) d)
      pure ⟨boxed⟩

/-- `new_unchecked::<U>`. `src/tagged_box.rs:175-197` (a textual copy of `new`; it calls the *checked*
`TaggedPointer::new`, `:193`). -/
def newUnchecked (sh : Shape) (val : Val) (d : env.cfg.Discr) : M TBox :=
  if sh.size = 0 then do
    dropVal sh val
    pure (dangling env sh.align d)
  else do
    let ptr ← allocM env sh.size sh.align
    if BitVec.ofNat 64 ptr = 0#64 then do
      dropVal sh val
      M.panic .nullAlloc
    else do
      ptrWrite sh ptr val
      let boxed ← M.ofExcept (TPtr.new env.cfg env.debug (BitVec.ofNat 64 ptr) d)
      pure ⟨boxed⟩

/-- `as_ptr`. `src/tagged_box.rs:443-445` -/
def asPtr (b : TBox) : Nat := b.boxed.asPtr env.cfg env.ptrBits

/-- `as_mut_ptr`. `src/tagged_box.rs:470-472` -/
def asMutPtr (b : TBox) : Nat := b.boxed.asMutPtr env.cfg env.ptrBits

/-- `as_ref::<U>` followed by a read of the referenced value. `src/tagged_box.rs:235-237`,
`src/tagged_pointer.rs:74-76` -/
def asRef (sh : Shape) (b : TBox) : M Val := ptrRead sh (b.boxed.asPtr env.cfg env.ptrBits)

/-- `*b.as_mut_ref::<U>() = v`: assignment through the mutable reference drops the old value, then writes.
`src/tagged_box.rs:267-269`, `src/tagged_pointer.rs:86-88`. Takes `&mut self`; returns `self` afterwards. -/
def asMutRefAssign (sh : Shape) (b : TBox) (v : Val) : M TBox := do
  let old ← ptrRead sh (b.boxed.asMutPtr env.cfg env.ptrBits)
  dropVal sh old
  ptrWrite sh (b.boxed.asMutPtr env.cfg env.ptrBits) v
  pure b

/-- `b.as_mut_ptr::<U>().write(v)`: overwrites without dropping. `src/tagged_box.rs:470-472`.
Takes `&mut self`; returns `self` afterwards. -/
def asMutPtrWrite (sh : Shape) (b : TBox) (v : Val) : M TBox := do
  ptrWrite sh (asMutPtr env b) v
  pure b

/-- `into_inner::<U>`: reads the value out; the `ManuallyDrop` changes nothing as there is no drop glue. The block is
not deallocated. `src/tagged_box.rs:297-300` -/
def intoInner (sh : Shape) (b : TBox) : M Val := ptrRead sh (asMutPtr env b)

/-- `into_raw::<U>`. `src/tagged_box.rs:324-326` -/
def intoRaw (b : TBox) : Nat := b.boxed.asMutPtr env.cfg env.ptrBits

/-- `into_box::<U>`: `Box::from_raw(into_raw(tagged))`. `src/tagged_box.rs:354-359` -/
def intoBox (b : TBox) : RBox := ⟨intoRaw env b⟩

/-- `from_raw::<U>`; `raw as u64` zero-extends the address. `src/tagged_box.rs:398-403` -/
def fromRaw (raw : Nat) (d : env.cfg.Discr) : M TBox := do
  let boxed ← M.ofExcept (TPtr.new env.cfg env.debug (BitVec.ofNat 64 raw) d)
  pure ⟨boxed⟩

/-- `discriminant`. `src/tagged_box.rs:419-421` -/
def discriminant (b : TBox) : env.cfg.Discr := b.boxed.discriminant env.cfg

/-- `as_u64` (crate-private). `src/tagged_box.rs:478-480` -/
def asU64 (b : TBox) : BitVec 64 := b.boxed.asU64 env.cfg

/-- What happens when a `TaggedBox` goes out of scope: nothing, there is no `Drop` implementation and the
fields have none. `src/tagged_box.rs:15-19` -/
def dropBox (_b : TBox) : M Unit := pure ()

/-- `Copy`: a bitwise copy. `src/tagged_box.rs:533` -/
def copy (b : TBox) : TBox := b

end TBox

namespace RBox

/-- `*box` as a use of the value. Models `Box`'s dereference; not code of this repository. -/
def deref (sh : Shape) (b : RBox) : M Val := ptrRead sh b.addr

/-- `Drop for Box<U>`: drop the value, then free the block with `Layout::new::<U>()` unless zero-sized.
Not code of this repository. -/
def drop (sh : Shape) (b : RBox) : M Unit := do
  let v ← ptrRead sh b.addr
  dropVal sh v
  if sh.size = 0 then pure () else deallocM b.addr sh.size sh.align

/-- Moving the value out of a box (`*box` by value): free the block, keep the value.
Not code of this repository. -/
def intoValue (sh : Shape) (b : RBox) : M Val := do
  let v ← ptrRead sh b.addr
  if sh.size = 0 then pure () else deallocM b.addr sh.size sh.align
  pure v

end RBox
end TB

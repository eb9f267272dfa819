import Verif.Config

/-!
# `TaggedPointer`

Models `src/tagged_pointer.rs` on exact 64-bit words.
-/

set_option autoImplicit false

namespace TB

/-- Why a panic happened. -/
inductive PanicKind where
  /-- `debug_assert!(discriminant <= MAX_DISCRIMINANT)`, `src/tagged_pointer.rs:30-35` -/
  | discriminant
  /-- `debug_assert!(ptr <= MAX_POINTER_VALUE)`, `src/tagged_pointer.rs:36-43` -/
  | pointer
  /-- `assert!(ptr as u64 != 0)`, `src/tagged_box.rs:93`, `:186` -/
  | nullAlloc
  /-- `panic!` in the wildcard arm of a generated match,
  `src/tagged_box_macro/mod.rs:258`, `:366-374`, `:504-512` -/
  | noVariant
  /-- `.expect("The inner value could not be fetched")`, `src/tagged_box.rs:527-528` -/
  | cloneNone
  /-- a panic raised by user code (a callback, a user `clone`, ...) -/
  | user (code : Nat)
  /-- not a panic: the process was aborted inside user code (`alloc::alloc::handle_alloc_error`, which `Box::new`, `String::clone`, ..
  call when there is no memory) -/
  | abort
deriving DecidableEq, Repr

/-- `TaggedPointer { tagged_ptr: u64 }`. `src/tagged_pointer.rs:10-15`.
The derived `PartialEq`/`Eq` are equality of the field. -/
structure TPtr where
  raw : BitVec 64
deriving DecidableEq, Repr

namespace TPtr

variable (c : Config)

/-- `store_discriminant`. `src/tagged_pointer.rs:130-132` -/
def storeDiscriminant (pointer : BitVec 64) (discriminant : c.Discr) : BitVec 64 :=
  pointer ||| ((discriminant.setWidth 64) <<< c.POINTER_WIDTH)

/-- `fetch_discriminant`: logical shift right, then a narrowing `as Discriminant` cast.
`src/tagged_pointer.rs:138-140` -/
def fetchDiscriminant (pointer : BitVec 64) : c.Discr :=
  (pointer >>> c.POINTER_WIDTH).setWidth c.discrBits

/-- `strip_discriminant`. `src/tagged_pointer.rs:146-148` -/
def stripDiscriminant (pointer : BitVec 64) : BitVec 64 :=
  pointer &&& c.DISCRIMINANT_MASK

/-- `new`. The two checks are `debug_assert!`s, so they exist only when `debug` (the
`debug_assertions` cfg) is on. `src/tagged_pointer.rs:29-48` -/
def new (debug : Bool) (ptr : BitVec 64) (discriminant : c.Discr) : Except PanicKind TPtr :=
  if debug && !(decide (discriminant ≤ c.MAX_DISCRIMINANT)) then .error .discriminant
  else if debug && !(decide (ptr ≤ c.MAX_POINTER_VALUE)) then .error .pointer
  else .ok ⟨storeDiscriminant c ptr discriminant⟩

/-- The setting named in the message of the address check: `features = ["{}bits"]` with `POINTER_WIDTH + 1`.
`src/tagged_pointer.rs:36-43` -/
def advisedSetting : String := toString (c.POINTER_WIDTH + 1) ++ "bits"

/-- `dangling::<T>`; `align` is `core::mem::align_of::<T>()`. No check at all.
`src/tagged_pointer.rs:51-55` -/
def dangling (align : Nat) (discriminant : c.Discr) : TPtr :=
  ⟨storeDiscriminant c (BitVec.ofNat 64 align) discriminant⟩

/-- `discriminant`. `src/tagged_pointer.rs:61-63` -/
def discriminant (p : TPtr) : c.Discr := fetchDiscriminant c p.raw

/-- `as_u64`. `src/tagged_pointer.rs:92-94` -/
def asU64 (p : TPtr) : BitVec 64 := stripDiscriminant c p.raw

/-- `as_raw_u64`. `src/tagged_pointer.rs:103-105` -/
def asRawU64 (p : TPtr) : BitVec 64 := p.raw

/-- `as_ptr`: `strip_discriminant(..) as *const T`, an integer-to-pointer cast which keeps the low
`target_pointer_width` bits. The resulting pointer is represented by its address.
`src/tagged_pointer.rs:109-111`; the same expression is dereferenced by `as_ref` (`:74-76`). -/
def asPtr (ptrBits : Nat) (p : TPtr) : Nat :=
  ((stripDiscriminant c p.raw).setWidth ptrBits).toNat

/-- `as_mut_ptr`. `src/tagged_pointer.rs:115-117`; dereferenced by `as_mut_ref` (`:86-88`). -/
def asMutPtr (ptrBits : Nat) (p : TPtr) : Nat :=
  ((stripDiscriminant c p.raw).setWidth ptrBits).toNat

/-- Derived `PartialOrd`/`Ord`: comparison of the single `u64` field, unsigned.
`src/tagged_pointer.rs:10` -/
def cmp (a b : TPtr) : Ordering := compare a.raw.toNat b.raw.toNat

/-- Derived `Hash`: feeds the single `u64` field to the hasher (`Hasher::write_u64`), here an arbitrary
state transformer. `src/tagged_pointer.rs:10` -/
def hash {H : Type} (writeU64 : BitVec 64 → H → H) (p : TPtr) (h : H) : H := writeU64 p.raw h

end TPtr
end TB

import Verif.Spec.Decl

/-!
# Auto traits and layout of the crate's types

The declarations of the types (`src/tagged_pointer.rs:12-15`, `src/tagged_box.rs:15-19`, `src/tagged_box_macro/mod.rs:740-743` and
`:28-30`), as far as they determine auto traits (`Send`, `Sync`, `Unpin`, `UnwindSafe`, `RefUnwindSafe`) and layout. The crate
contains no `impl` of an auto trait.

Not code of this repository: rustc's rules for auto traits (a type has an auto trait if all its fields have it, unless there is an
implementation, positive or negative, that says otherwise; cycles are accepted) and for `#[repr(transparent)]`.
-/

set_option autoImplicit false

namespace TB.Macro

/-- The auto traits. -/
inductive AutoTr where
  | send | sync | unpin | unwindSafe | refUnwindSafe
deriving DecidableEq

/-- The types that occur. -/
inductive RTy where
  | u64
  | phantom (t : RTy)
  | taggedPointer
  | taggedBox (t : RTy)
  /-- the container of the declaration -/
  | container
  /-- the enum of the declaration -/
  | item
  /-- a payload type, as written in the declaration -/
  | user (t : Ty)

/-- "Type `.2` has the auto trait `.1`." -/
abbrev Oblig := AutoTr × RTy

/-- What rustc knows about payload types: `none` if the type does not have the trait, `some os` if it has it provided that `os` hold
(fields of a structure; bounds of an implementation, e.g. `Vec<T>: Send` if `T: Send`, and `&T: Send` if `T: Sync`). The obligations may
mention the container again. -/
abbrev UserAuto := AutoTr → Ty → Option (List Oblig)

/-- The fields of a type; for payload types, what `ua` says. -/
def needs (decl : List VariantDef) (ua : UserAuto) : Oblig → Option (List Oblig)
  | (_, .u64) => some []
  /- `PhantomData<T>` counts as a `T` -/
  | (a, .phantom t) => some [(a, t)]
  /- `struct TaggedPointer { tagged_ptr: u64 }`, `src/tagged_pointer.rs:12-15` -/
  | (a, .taggedPointer) => some [(a, .u64)]
  /- `struct TaggedBox<T> { boxed: TaggedPointer, _type: PhantomData<T> }`, `src/tagged_box.rs:16-19` -/
  | (a, .taggedBox t) => some [(a, .taggedPointer), (a, .phantom t)]
  /- `struct $struct { value: $crate::TaggedBox<$enum> }`, `mod.rs:741-743` -/
  | (a, .container) => some [(a, .taggedBox .item)]
  /- `enum $enum { $( $finished )* }`, `mod.rs:28-30` -/
  | (a, .item) => some ((decl.flatMap fun d => d.fields.types).map fun t => (a, .user t))
  | (a, .user t) => ua a t

/-- The trait holds: coinductive, that is, some set of obligations contains it and with every obligation also what that needs. -/
def HasAuto (decl : List VariantDef) (ua : UserAuto) (o : Oblig) : Prop :=
  ∃ S : Oblig → Prop, S o ∧ ∀ x, S x → ∃ os, needs decl ua x = some os ∧ ∀ y ∈ os, S y

/-- Size and alignment of a type. -/
structure SA where
  size : Nat
  align : Nat
deriving DecidableEq

/-- `#[repr(transparent)] struct { fields }`: all fields but one must have size 0 and alignment 1 (otherwise rustc rejects the
declaration), and the layout is that of the other one (or that of a field of size 0, if there is no other). -/
def transparent (fields : List SA) : Option SA :=
  match fields.filter fun f => f != ⟨0, 1⟩ with
  | [] => some ⟨0, 1⟩
  | [f] => some f
  | _ => none

/-- `align_of::<u64>()`; it is 4 on some 32-bit targets (32-bit x86). -/
structure Target where
  ptrBits : Nat
  alignU64 : Nat

/-- The targets: 32 or 64 bits, `u64` aligned to 4 or 8. -/
def Target.OK (t : Target) : Prop := (t.ptrBits = 32 ∨ t.ptrBits = 64) ∧ (t.alignU64 = 4 ∨ t.alignU64 = 8)

/-- `size_of::<usize>()` -/
def Target.usizeBytes (t : Target) : Nat := t.ptrBits / 8

/-- `TaggedPointer`, `src/tagged_pointer.rs:12-15` -/
def ptrLayout (t : Target) : Option SA := transparent [⟨8, t.alignU64⟩]

/-- `TaggedBox<T>`, `src/tagged_box.rs:15-19`. The layout of `T` does not enter: `PhantomData` has size 0 and alignment 1. -/
def boxLayout (t : Target) : Option SA := do transparent [← ptrLayout t, ⟨0, 1⟩]

/-- The container, `mod.rs:740-743`. -/
def containerLayout (t : Target) : Option SA := do transparent [← boxLayout t]

end TB.Macro

/-!
# Derived traits of the container and the enum

`tagged_box!` applies the attributes of the declaration to the container struct and to the enum
(`src/tagged_box_macro/mod.rs:739`, `:744` and `:26`); the container's only field is a `TaggedBox<$enum>` (`mod.rs:741-743`).
Whether a `#[derive(..)]` is accepted on the container thus depends on the trait implementations of `TaggedBox`
(`src/tagged_box.rs:483-591`).

Not code of this repository: the standard derive macros (each derived trait must hold of all field types) and rustc's checks of
supertraits and of overlapping implementations.
-/

set_option autoImplicit false

namespace TB.Macro

/-- The traits of the standard library that can be derived. -/
inductive Tr where
  | clone | copy | debug | partialEq | eq | partialOrd | ord | hash | default
deriving DecidableEq

/-- Supertraits. -/
def Tr.supers : Tr → List Tr
  | .copy => [.clone]
  | .eq => [.partialEq]
  | .partialOrd => [.partialEq]
  | .ord => [.eq, .partialOrd]
  | _ => []

/-- A set of traits. -/
abbrev Trs := Tr → Prop

/-- The bounds on `T` of the implementation of a trait for `TaggedBox<T>`; `none`: there is no implementation. -/
def boxBounds : Tr → Option (List Tr)
  /- `src/tagged_box.rs:483-485`: `T: TaggableInner + fmt::Debug + Clone` -/
  | .debug => some [.debug, .clone]
  /- `src/tagged_box.rs:515-517` -/
  | .clone => some [.clone]
  /- `src/tagged_box.rs:533` -/
  | .copy => some [.copy]
  /- `src/tagged_box.rs:535-537` -/
  | .partialEq => some [.partialEq]
  /- `src/tagged_box.rs:553` -/
  | .eq => some [.eq]
  /- `src/tagged_box.rs:555-557` -/
  | .partialOrd => some [.partialOrd]
  /- `src/tagged_box.rs:573-575` -/
  | .ord => some [.ord]
  | .hash => none
  | .default => none

/-- The traits of `TaggedBox<T>`, if `T` has the traits `ts` (and `TaggableInner`). -/
def boxTraits (ts : Trs) : Trs := fun t => ∃ bs, boxBounds t = some bs ∧ ∀ b ∈ bs, ts b

/-- A type with the derived traits `derived`, hand-written implementations of `manual`, and fields all of which have the traits
`fields`, is accepted: no trait is implemented twice, derived traits hold of the fields, supertraits are implemented. -/
structure ImplsOK (derived manual fields : Trs) : Prop where
  once : ∀ t, derived t → ¬ manual t
  fields : ∀ t, derived t → fields t
  supers : ∀ t, derived t ∨ manual t → ∀ u ∈ t.supers, derived u ∨ manual u

/-- The same for an enum. `Default` cannot be derived for it: that takes a `#[default]` attribute on a variant, and the macros accept no
attributes there. -/
structure EnumOK (derived manual payloads : Trs) : Prop extends ImplsOK derived manual payloads where
  noDefault : ¬ derived .default

/-- `tagged_box! { #[derive(derived)] struct Container, enum Item { .. } }`, with hand-written implementations `manual` for the enum
and `manualC` for the container, where all payload types have the traits `payloads`. `mod.rs:732-780` -/
structure MacroOK (derived manual manualC payloads : Trs) : Prop where
  item : EnumOK derived manual payloads
  container : ImplsOK derived manualC (boxTraits fun t => derived t ∨ manual t)

end TB.Macro

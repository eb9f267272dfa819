import Verif.Rust.Headers
import Verif.Macro.Derive
import Verif.Macro.Types

/-!
# Which traits a type has
-/

set_option autoImplicit false

namespace TB.Spec

open TB TB.Rust TB.Macro

/-- One of the implementations gives the type `ty` the trait `tr`, if the traits of its parameter are `holds`. -/
def Has (hs : List Header) (ty tr : String) (holds : String → Prop) : Prop :=
  ∃ h ∈ hs, h.self = ty ∧ h.trait = tr ∧ ∀ b ∈ h.bounds, holds b

/-- The name of a trait in code. -/
def trName : Tr → String
  | .clone => "Clone"
  | .copy => "Copy"
  | .debug => "Debug"
  | .partialEq => "PartialEq"
  | .eq => "Eq"
  | .partialOrd => "PartialOrd"
  | .ord => "Ord"
  | .hash => "Hash"
  | .default => "Default"

/-- An enum with `TaggableInner` and the traits `ts`. -/
def inner (ts : Trs) : String → Prop := fun b => b = "TaggableInner" ∨ ∃ t, trName t = b ∧ ts t

/-- `#[derive(derived)]` on a declaration is accepted: for the enum, and for the container, whose only field is a box with the implementations `hs`. As `MacroOK`
(`Macro/Derive`), with the implementations from the text. -/
structure Accepted (hs : List Header) (derived manual manualC payloads : Trs) : Prop where
  item : EnumOK derived manual payloads
  container : ImplsOK derived manualC fun t => Has hs "TaggedBox" (trName t) (inner fun t => derived t ∨ manual t)

/-- Auto traits: `tr` is the name of one, `T` says whether the parameter `T` has it. Without an implementation of its own a structure has it if its fields have. -/
inductive Auto (ss : List StructInfo) (hs : List Header) (tr : String) (T : Prop) : Rust.RTy → Prop
  | u64 : Auto ss hs tr T (.path [("u64", [])])
  | param : T → Auto ss hs tr T (.path [("T", [])])
  | phantom (t : Rust.RTy) : Auto ss hs tr T t → Auto ss hs tr T (.path [("PhantomData", [t])])
  | struct (st : StructInfo) : st ∈ ss → (∀ h ∈ hs, h.self = st.name → h.trait ≠ tr) → (∀ f ∈ st.fields, Auto ss hs tr T f.2) →
      Auto ss hs tr T (.path [(st.name, st.generics.map fun g => .path [(g, [])])])

/-- Size and alignment. -/
def layoutOf (t : Target) (ss : List StructInfo) : Nat → Rust.RTy → Option SA
  | 0, _ => none
  | n + 1, .path [(x, _)] =>
    if x = "u64" then some ⟨8, t.alignU64⟩
    else if x = "PhantomData" then some ⟨0, 1⟩
    else match ss.find? (·.name == x) with
      | some st => if st.transparent then match st.fields.map (fun f => layoutOf t ss n f.2) with
          | [some a] => TB.Macro.transparent [a]
          | [some a, some b] => TB.Macro.transparent [a, b]
          | _ => none
        else none
      | none => none
  | _ + 1, _ => none

end TB.Spec

import Verif.Macro.Expand
import Verif.Macro.Run

/-!
# The (unused) generators of the tuple tables, and the hand-expanded enum of the manual

`generate_tuple_expansion!` and `generate_tuple_arm_expansion!` (`src/tagged_box_macro/meta_macros.rs:1-66`, `:321-430`) are macros that
would produce `__expand_tuple!` and `__expand_tuple_arm!`; their documented invocations are comments (`:68-79`, `:432-440`).
`src/manually_impl_enum.rs:18-107` shows, as documentation, the code generated for a small enum.
-/

set_option autoImplicit false

namespace TB.Macro

/-- `generate_tuple_expansion! { @inner .. [finished] [match] [access] (field, ident) .. }`: each step appends one arm whose parameters are
`match` followed by the new one, and whose accesses are `access` followed by the new one. `meta_macros.rs:26-44`; the end `:46-65`. -/
def genTupleInner (finished : List ExpandTupleArm) (mtch : List String) (access : List Nat) :
    List (Nat × String) → List ExpandTupleArm
  | [] => finished
  | (field, ident) :: rest =>
    genTupleInner (finished ++ [⟨mtch ++ [ident], access ++ [field]⟩]) (mtch ++ [ident]) (access ++ [field]) rest

/-- `generate_tuple_expansion!`: the arms with at least one type. `meta_macros.rs:5-24` -/
def genTuple (input : List (Nat × String)) : List ExpandTupleArm := genTupleInner [] [] [] input

/-- The documented invocation. `meta_macros.rs:68-79` -/
def genTupleInput : List (Nat × String) :=
  [(0, "a"), (1, "b"), (2, "c"), (3, "d"),
   (4, "e"), (5, "f"), (6, "g"), (7, "h"),
   (8, "i"), (9, "j"), (10, "k"), (11, "l"),
   (12, "m"), (13, "n"), (14, "o"), (15, "p"),
   (16, "q"), (17, "r"), (18, "s"), (19, "t"),
   (20, "u"), (21, "v"), (22, "w"), (23, "x"),
   (24, "y"), (25, "z"), (26, "aa"), (27, "bb"),
   (28, "cc"), (29, "dd"), (30, "ee"), (31, "ff")]

/-- The cast applied to `$counter::$variant`. -/
inductive CastTo where
  | u8
  | infer
deriving DecidableEq, Repr

/-- An arm of `__expand_tuple_arm!` with the two further choices in which generator and checked-in text differ: the cast, and whether the
enum is given explicitly (`TaggedBox::<$enum>::new` or `TaggedBox::new`). -/
structure ArmText where
  arm : ExpandArmArm
  cast : CastTo
  explicitEnum : Bool
deriving DecidableEq, Repr

/-- The checked-in arms: `$crate::TaggedBox::new::<$variant>(.., $counter::$variant as u8)`. `meta_macros.rs:464-911` -/
def checkedInArms : List ArmText := expandTupleArmTable.map (fun a => ⟨a, .u8, false⟩)

/-- `generate_tuple_arm_expansion! { @inner .. }`: `$crate::TaggedBox::<$enum>::new::<$variant>(.., $counter::$variant as _)`.
`meta_macros.rs:370-408` -/
def genArmInner (finished : List ArmText) (mtch access : List String) : List String → List ArmText
  | [] => finished
  | ident :: rest =>
    genArmInner (finished ++ [⟨⟨mtch ++ [ident], access ++ [ident], access ++ [ident]⟩, .infer, true⟩]) (mtch ++ [ident])
      (access ++ [ident]) rest

/-- `generate_tuple_arm_expansion!`: the arms with at least one type. `meta_macros.rs:325-368` -/
def genArms (input : List String) : List ArmText := genArmInner [] [] [] input

/-- The two arms for no types, without and with a comma: `$enum::$variant() => $crate::TaggedBox::<$enum>::dangling::<$enum>(.. as u8)`.
`meta_macros.rs:446-463` -/
def checkedInEmpty : List ArmText := [⟨⟨[], [], []⟩, .u8, true⟩, ⟨⟨[], [], []⟩, .u8, true⟩]

/-- The generator's; the first does not name the enum (`TaggedBox::dangling::<$enum>`). `meta_macros.rs:338-346`, `:356-364` -/
def genEmpty : List ArmText := [⟨⟨[], [], []⟩, .u8, false⟩, ⟨⟨[], [], []⟩, .u8, true⟩]

/-- The documented invocation. `meta_macros.rs:432-440` -/
def genArmsInput : List String :=
  ["a", "b", "c", "d", "e", "f", "g",
   "h", "i", "j", "k", "l", "m", "n",
   "o", "p", "q", "r", "s", "t", "u",
   "v", "w", "x", "y", "z", "aa",
   "bb", "cc", "dd", "ee", "ff"]

/-! ## The manual -/

/-- `EnumCounter::Integer as _`, `EnumCounter::Boolean as _`: casts to `Discriminant`. `manually_impl_enum.rs:31-34` -/
def docInteger (env : Env) : env.cfg.Discr := BitVec.ofNat _ 0
def docBoolean (env : Env) : env.cfg.Discr := BitVec.ofNat _ 1

/-- `Container::into_inner`, and also `Item::from_tagged_box`, whose text is the same. `manually_impl_enum.rs:30-45`, `:66-81`.
The messages of panics are not modelled. -/
def docRead (env : Env) (rc : Rustc) (b : TBox) : M EVal :=
  if b.discriminant env == docInteger env then do
    let vs ← b.intoInner env (rc.leaf (.named "i32")).shape
    pure ⟨"Integer", .tuple [vs[0]?.getD []]⟩
  else if b.discriminant env == docBoolean env then do
    let vs ← b.intoInner env (rc.leaf (.named "bool")).shape
    pure ⟨"Boolean", .tuple [vs[0]?.getD []]⟩
  else M.panic .noVariant

/-- `Item::into_tagged_box`. `manually_impl_enum.rs:54-64` -/
def docInto (env : Env) (rc : Rustc) (e : EVal) : M TBox :=
  if e.variant = "Integer" then
    match e.payload with
    | .tuple [value] => TBox.new env (rc.leaf (.named "i32")).shape [value] (docInteger env)
    | _ => M.panic .noVariant
  else if e.variant = "Boolean" then
    match e.payload with
    | .tuple [value] => TBox.new env (rc.leaf (.named "bool")).shape [value] (docBoolean env)
    | _ => M.panic .noVariant
  else M.panic .noVariant

/-- `Item::ref_from_tagged_box`; `variant` is in a `ManuallyDrop`. `manually_impl_enum.rs:83-105` -/
def docRef (env : Env) (rc : Rustc) {β : Type} (b : TBox) (callback : EVal → M β) : M (Option β) :=
  if b.discriminant env == docInteger env then do
    let vs ← ptrRead (rc.leaf (.named "i32")).shape (b.asPtr env)
    let r ← callback ⟨"Integer", .tuple [vs[0]?.getD []]⟩
    pure (some r)
  else if b.discriminant env == docBoolean env then do
    let vs ← ptrRead (rc.leaf (.named "bool")).shape (b.asPtr env)
    let r ← callback ⟨"Boolean", .tuple [vs[0]?.getD []]⟩
    pure (some r)
  else M.panic .noVariant

end TB.Macro

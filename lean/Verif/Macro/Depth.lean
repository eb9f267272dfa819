import Verif.Macro.Expand

/-!
# Nesting depth of the expansion of `tagged_box!`

rustc numbers macro invocations by depth: an invocation in the source has depth 1, one in the output of an invocation of depth `k` has
depth `k + 1`; a depth greater than the crate's `recursion_limit` (128 unless the user sets it) is an error.

The component macros consume one variant per invocation, each invocation being in the output of the previous one. For every arm this
file records how deep its output nests before the invocation for the rest of the variants, and which other macros it invokes.
-/

set_option autoImplicit false

namespace TB.Macro

/-- What the expansion of one variant contributes to the nesting. -/
structure Step where
  /-- invocations between that for this variant and that for the remaining ones -/
  via : Nat := 0
  /-- depth of other invocations in the output of this step -/
  now : Nat := 0
  /-- depth of invocations that are collected and appear in the output of the last step -/
  late : Nat := 0

/-- Depth of the macros of `std` and of attributes that the generated code uses: an invocation of `panic!` with its arguments, and the
attributes the user writes (such as `#[derive(..)]`). Not code of this repository; arbitrary. -/
structure StdDepth where
  panic : Nat
  attrs : Nat

/-- The same step for every capture. -/
def always (s : Step) : Cap → Except CErr Step := fun _ => .ok s

/-- Four-arm macros whose arms all just go on with the rest: `__make_enum!` (`src/tagged_box_macro/mod.rs:10-23`), `__counter_enum!`
(`:520-533`), `__count_variants!` (`:559-572`). -/
def plainSteps : List (Arm Step) :=
  [(.tuple, always {}), (.record, always {}), (.recordTrailing, always {}), (.unit, always {})]

/-- `__taggable_into_box!`, `src/tagged_box_macro/mod.rs:40-95`: the tuple arm (`:52-54`) goes through `__expand_tuple_arm!`, which
invokes `__taggable_into_box!` again (`meta_macros.rs:445-910`). -/
def intoSteps : List (Arm Step) :=
  [(.single, always {}), (.tuple, always { via := 1 }), (.record, always {}), (.recordTrailing, always {}), (.unit, always {})]

/-- `__derive_from!`, `src/tagged_box_macro/mod.rs:107-149`: the tuple arm emits an `__expand_tuple!` (`:131`) next to the recursive
invocation. -/
def deriveSteps : List (Arm Step) :=
  [(.single, always {}), (.tuple, always { now := 1 }), (.record, always {}), (.recordTrailing, always {}), (.unit, always {})]

/-- `__boxed_into_inner!` (`src/tagged_box_macro/mod.rs:184-252`), `__from_tagged_box!` (`:274-359`), `__ref_from_tagged!` (`:386-497`):
the tuple arms put `__expand_tuple!` into the collected match arms. -/
def readSteps : List (Arm Step) :=
  [(.single, always {}), (.tuple, always { late := 1 }), (.record, always {}), (.recordTrailing, always {}), (.unit, always {})]

/-- Depth of the invocations rooted at the `@inner` invocation for these steps; `late` is the depth of what has been collected for the
last step. -/
def nest (late : Nat) : List Step → Nat
  | [] => 1 + late
  | s :: r => 1 + max s.now (s.via + nest (max late s.late) r)

/-- Depth of the invocations rooted at a `tagged_box!` invocation with these tokens (`src/tagged_box_macro/mod.rs:732-832`): one for
itself, one for the entry arm of each component macro, then the `@inner` arms. The last step of `__count_variants!` contains `stringify!`
(`:575`), those of the reading macros contain `panic!` (`:258`, `:367-372`, `:505-510`), that of `__make_enum!` carries the user's
attributes (`:26`), as does the container (`:739`). -/
def expansionDepth (rc : Rustc) (std : StdDepth) (ts : List Tok) : Except CErr Nat :=
  match runMacro rc plainSteps ts, runMacro rc intoSteps ts, runMacro rc deriveSteps ts, runMacro rc readSteps ts with
  | .ok plain, .ok into, .ok derive, .ok read =>
    .ok (1 + max std.attrs (1 + max (nest std.attrs plain) (max (nest 0 plain) (max (nest (if plain.isEmpty then 0 else 1) plain)
      (max (nest 0 into) (max (nest 0 derive) (nest std.panic read)))))))
  | .error e, _, _, _ => .error e
  | _, .error e, _, _ => .error e
  | _, _, .error e, _ => .error e
  | _, _, _, .error e => .error e

/-- Compilation in a crate with the given `recursion_limit`. -/
def compileWithin (limit : Nat) (std : StdDepth) (rc : Rustc) (cfg : Config) (structName enumName : String) (hasDrop : Bool)
    (ts : List Tok) : Except CErr Program :=
  match expansionDepth rc std ts with
  | .error e => .error e
  | .ok k => if limit < k then .error .recursionLimit else compile rc cfg structName enumName hasDrop ts

end TB.Macro

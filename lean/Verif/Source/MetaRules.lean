import Verif.Mbe.Rules
import Verif.Macro.Tables
import Verif.Source.MetaText

/-!
# The rules of `__expand_tuple!` and `__expand_tuple_arm!`

Both macros of `src/tagged_box_macro/meta_macros.rs` consist of arms that differ only in the number of types. Here an arm is written as a function of the
row of the table in `Macro/Tables.lean`; `metaText_rules` checks, by computation in the kernel, that the result is what the lexer and parser of `Mbe`
make of the file's text.
-/

set_option autoImplicit false

namespace TB.Source

open TB.Mbe TB.Macro

/-- `, $a:ty, $b:ty, ..` -/
def tyParams : List String → List MP
  | [] => []
  | p :: ps => .tok (.punct ",") :: .var p .ty :: tyParams ps

/-- Token lists with commas between them. -/
def commasMB : List (List MB) → List MB
  | [] => []
  | [x] => x
  | x :: y :: r => x ++ .tok (.punct ",") :: commasMB (y :: r)

/-- `$variant:path, $expr:expr` -/
def expandTupleHead : List MP := [.var "variant" .path, .tok (.punct ","), .var "expr" .expr]

/-- An arm of `__expand_tuple!` with types. From seven fields on, the arguments end with a comma. -/
def expandTupleRule (a : ExpandTupleArm) : Rule :=
  (expandTupleHead ++ tyParams a.params,
   [.group .brace [.tok (.ident "let"), .tok (.ident "tuple"), .tok (.punct "="), .var "expr", .tok (.punct ";"), .var "variant",
     .group .paren (commasMB (a.access.map fun i => [.tok (.ident "tuple"), .tok (.punct "."), .tok (.lit (toString i))]) ++
       if 7 ≤ a.access.length then [.tok (.punct ",")] else [])]])

/-- `compile_error!("Only enum tuple variants of up to 32 elements are supported");` -/
def tooMany : List MB :=
  [.tok (.ident "compile_error"), .tok (.punct "!"),
    .group .paren [.tok (.lit "\"Only enum tuple variants of up to 32 elements are supported\"")], .tok (.punct ";")]

/-- `__expand_tuple!`. `src/tagged_box_macro/meta_macros.rs:82-319` -/
def expandTupleRules : List Rule :=
  (expandTupleHead, [.var "variant", .group .paren []]) ::
  (expandTupleHead ++ [.tok (.punct ",")], [.var "variant", .group .paren []]) ::
  (expandTupleTable.map expandTupleRule ++
    [(expandTupleHead ++ [.tok (.punct ","), .rep [.var "others" .ty] (some (.punct ",")) .star], tooMany)])

/-- `$tagged:expr, $enum:ident, $counter:ident, $variant:ident` -/
def expandArmHead : List MP :=
  [.var "tagged" .expr, .tok (.punct ","), .var "enum" .ident, .tok (.punct ","), .var "counter" .ident, .tok (.punct ","), .var "variant" .ident]

/-- `[$($finished:tt)*] [$($rest:tt)*]` -/
def expandArmLists : List MP :=
  [.group .bracket [.rep [.var "finished" .tt] none .star], .group .bracket [.rep [.var "rest" .tt] none .star]]

/-- `$($ty:ty),*` -/
def expandArmTys : List MP := [.rep [.var "ty" .ty] (some (.punct ",")) .star]

/-- `$crate::__taggable_into_box!(@inner $tagged, $enum, $counter [ $( $finished )* <arm> ] $( $rest )*)` -/
def expandArmBody (arm : List MB) : List MB :=
  [.crate, .tok (.punct "::"), .tok (.ident "__taggable_into_box"), .tok (.punct "!"),
    .group .paren [.tok (.punct "@"), .tok (.ident "inner"), .var "tagged", .tok (.punct ","), .var "enum", .tok (.punct ","), .var "counter",
      .group .bracket (.rep [.var "finished"] none :: arm), .rep [.var "rest"] none]]

/-- `$enum::$variant() => $crate::TaggedBox::<$enum>::dangling::<$enum>($counter::$variant as u8),` -/
def expandArmEmpty : List MB :=
  [.var "enum", .tok (.punct "::"), .var "variant", .group .paren [], .tok (.punct "=>"),
    .crate, .tok (.punct "::"), .tok (.ident "TaggedBox"), .tok (.punct "::"), .tok (.punct "<"), .var "enum", .tok (.punct ">"), .tok (.punct "::"),
    .tok (.ident "dangling"), .tok (.punct "::"), .tok (.punct "<"), .var "enum", .tok (.punct ">"),
    .group .paren [.var "counter", .tok (.punct "::"), .var "variant", .tok (.ident "as"), .tok (.ident "u8")], .tok (.punct ",")]

/-- `$enum::$variant(a, ..) => { #[repr(C)] struct $variant($( $ty ),*); $crate::TaggedBox::new::<$variant>($variant(a, ..), $counter::$variant as u8) }` -/
def expandArmFields (binders args : List String) : List MB :=
  [.var "enum", .tok (.punct "::"), .var "variant", .group .paren (commasMB (binders.map fun b => [.tok (.ident b)])), .tok (.punct "=>"),
    .group .brace [.tok (.punct "#"), .group .bracket [.tok (.ident "repr"), .group .paren [.tok (.ident "C")]],
      .tok (.ident "struct"), .var "variant", .group .paren [.rep [.var "ty"] (some (.punct ","))], .tok (.punct ";"),
      .crate, .tok (.punct "::"), .tok (.ident "TaggedBox"), .tok (.punct "::"), .tok (.ident "new"), .tok (.punct "::"), .tok (.punct "<"),
      .var "variant", .tok (.punct ">"),
      .group .paren [.var "variant", .group .paren (commasMB (args.map fun b => [.tok (.ident b)])), .tok (.punct ","),
        .var "counter", .tok (.punct "::"), .var "variant", .tok (.ident "as"), .tok (.ident "u8")]]]

/-- An arm of `__expand_tuple_arm!` with types. -/
def expandArmRule (a : ExpandArmArm) : Rule :=
  (expandArmHead ++ tyParams a.params ++ expandArmLists ++ expandArmTys, expandArmBody (expandArmFields a.binders a.args))

/-- `__expand_tuple_arm!`. `src/tagged_box_macro/meta_macros.rs:443-915` -/
def expandTupleArmRules : List Rule :=
  (expandArmHead ++ expandArmLists ++ expandArmTys, expandArmBody expandArmEmpty) ::
  (expandArmHead ++ [.tok (.punct ",")] ++ expandArmLists ++ expandArmTys, expandArmBody expandArmEmpty) ::
  (expandTupleArmTable.map expandArmRule ++
    [(expandArmHead ++ [.tok (.punct ","), .rep [.var "others" .ty] (some (.punct ",")) .star] ++ expandArmLists, tooMany)])

set_option maxRecDepth 100000 in
theorem metaText_rules : macrosIn metaText ["__expand_tuple", "__expand_tuple_arm"] =
    some [expandTupleRules, expandTupleArmRules] := by
  kernel_rfl

end TB.Source

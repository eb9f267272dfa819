import Verif.Mbe.Rules
import Verif.Source.ModText

/-!
# The rules of the macros of `src/tagged_box_macro/mod.rs`

The rules as data. The definitions are written out (by `scripts/gen_rules.py`) so that proofs can refer to them; `modText_rules` checks, by
computation in the kernel, that they are what the lexer and parser of `Mbe` make of the file's text.
-/

set_option autoImplicit false

namespace TB.Source

open TB.Mbe TB.Macro

/-- `__make_enum!`. `src/tagged_box_macro/mod.rs:5-31` -/
def makeEnumRules : List Rule := [
  ([.var "vis" .vis, .tok (.punct ","), .var "enum" .ident, .group .bracket [.rep [.var "meta" .metaItem] none .star], .rep [.var "rest" .tt] none .star],
   [.crate, .tok (.punct "::"), .tok (.ident "__make_enum"), .tok (.punct "!"), .group .brace [.tok (.punct "@"), .tok (.ident "inner"), .var "vis", .tok (.punct ","), .var "enum", .tok (.punct ","), .rep [.var "meta"] (some (.punct ",")), .group .bracket [], .rep [.var "rest"] none]]),
  ([.tok (.punct "@"), .tok (.ident "inner"), .var "vis" .vis, .tok (.punct ","), .var "enum" .ident, .tok (.punct ","), .rep [.var "meta" .metaItem] (some (.punct ",")) .star, .group .bracket [.rep [.var "finished" .tt] none .star], .var "variant" .ident, .group .paren [.rep [.var "ty" .ty] (some (.punct ",")) .star], .tok (.punct ","), .rep [.var "rest" .tt] none .star],
   [.crate, .tok (.punct "::"), .tok (.ident "__make_enum"), .tok (.punct "!"), .group .brace [.tok (.punct "@"), .tok (.ident "inner"), .var "vis", .tok (.punct ","), .var "enum", .tok (.punct ","), .rep [.var "meta"] (some (.punct ",")), .group .bracket [.rep [.var "finished"] none, .var "variant", .group .paren [.rep [.var "ty"] (some (.punct ","))], .tok (.punct ",")], .rep [.var "rest"] none]]),
  ([.tok (.punct "@"), .tok (.ident "inner"), .var "vis" .vis, .tok (.punct ","), .var "enum" .ident, .tok (.punct ","), .rep [.var "meta" .metaItem] (some (.punct ",")) .star, .group .bracket [.rep [.var "finished" .tt] none .star], .var "variant" .ident, .group .brace [.rep [.var "member" .ident, .tok (.punct ":"), .var "ty" .ty] (some (.punct ",")) .star], .tok (.punct ","), .rep [.var "rest" .tt] none .star],
   [.crate, .tok (.punct "::"), .tok (.ident "__make_enum"), .tok (.punct "!"), .group .brace [.tok (.punct "@"), .tok (.ident "inner"), .var "vis", .tok (.punct ","), .var "enum", .tok (.punct ","), .rep [.var "meta"] (some (.punct ",")), .group .bracket [.rep [.var "finished"] none, .var "variant", .group .brace [.rep [.var "member", .tok (.punct ":"), .var "ty"] (some (.punct ","))], .tok (.punct ",")], .rep [.var "rest"] none]]),
  ([.tok (.punct "@"), .tok (.ident "inner"), .var "vis" .vis, .tok (.punct ","), .var "enum" .ident, .tok (.punct ","), .rep [.var "meta" .metaItem] (some (.punct ",")) .star, .group .bracket [.rep [.var "finished" .tt] none .star], .var "variant" .ident, .group .brace [.rep [.var "member" .ident, .tok (.punct ":"), .var "ty" .ty, .tok (.punct ",")] none .star], .tok (.punct ","), .rep [.var "rest" .tt] none .star],
   [.crate, .tok (.punct "::"), .tok (.ident "__make_enum"), .tok (.punct "!"), .group .brace [.tok (.punct "@"), .tok (.ident "inner"), .var "vis", .tok (.punct ","), .var "enum", .tok (.punct ","), .rep [.var "meta"] (some (.punct ",")), .group .bracket [.rep [.var "finished"] none, .var "variant", .group .brace [.rep [.var "member", .tok (.punct ":"), .var "ty"] (some (.punct ","))], .tok (.punct ",")], .rep [.var "rest"] none]]),
  ([.tok (.punct "@"), .tok (.ident "inner"), .var "vis" .vis, .tok (.punct ","), .var "enum" .ident, .tok (.punct ","), .rep [.var "meta" .metaItem] (some (.punct ",")) .star, .group .bracket [.rep [.var "finished" .tt] none .star], .var "variant" .ident, .tok (.punct ","), .rep [.var "rest" .tt] none .star],
   [.crate, .tok (.punct "::"), .tok (.ident "__make_enum"), .tok (.punct "!"), .group .brace [.tok (.punct "@"), .tok (.ident "inner"), .var "vis", .tok (.punct ","), .var "enum", .tok (.punct ","), .rep [.var "meta"] (some (.punct ",")), .group .bracket [.rep [.var "finished"] none, .var "variant", .tok (.punct ",")], .rep [.var "rest"] none]]),
  ([.tok (.punct "@"), .tok (.ident "inner"), .var "vis" .vis, .tok (.punct ","), .var "enum" .ident, .tok (.punct ","), .rep [.var "meta" .metaItem] (some (.punct ",")) .star, .group .bracket [.rep [.var "finished" .tt] none .star]],
   [.rep [.tok (.punct "#"), .group .bracket [.var "meta"]] none, .var "vis", .tok (.ident "enum"), .var "enum", .group .brace [.rep [.var "finished"] none]])]

/-- `__taggable_into_box!`. `src/tagged_box_macro/mod.rs:35-102` -/
def intoBoxRules : List Rule := [
  ([.var "tagged" .expr, .tok (.punct ","), .var "enum" .ident, .tok (.punct ","), .var "counter" .ident, .tok (.punct ","), .rep [.var "rest" .tt] none .star],
   [.crate, .tok (.punct "::"), .tok (.ident "__taggable_into_box"), .tok (.punct "!"), .group .paren [.tok (.punct "@"), .tok (.ident "inner"), .var "tagged", .tok (.punct ","), .var "enum", .tok (.punct ","), .var "counter", .group .bracket [], .rep [.var "rest"] none]]),
  ([.tok (.punct "@"), .tok (.ident "inner"), .var "tagged" .expr, .tok (.punct ","), .var "enum" .ident, .tok (.punct ","), .var "counter" .ident, .group .bracket [.rep [.var "finished" .tt] none .star], .var "variant" .ident, .group .paren [.var "ty" .ty], .tok (.punct ","), .rep [.var "rest" .tt] none .star],
   [.crate, .tok (.punct "::"), .tok (.ident "__taggable_into_box"), .tok (.punct "!"), .group .paren [.tok (.punct "@"), .tok (.ident "inner"), .var "tagged", .tok (.punct ","), .var "enum", .tok (.punct ","), .var "counter", .group .bracket [.rep [.var "finished"] none, .var "enum", .tok (.punct "::"), .var "variant", .group .paren [.tok (.ident "var")], .tok (.punct "=>"), .group .brace [.crate, .tok (.punct "::"), .tok (.ident "TaggedBox"), .tok (.punct "::"), .tok (.punct "<"), .var "enum", .tok (.punct ">"), .tok (.punct "::"), .tok (.ident "new"), .tok (.punct "::"), .tok (.punct "<"), .var "ty", .tok (.punct ">"), .group .paren [.tok (.ident "var"), .tok (.punct ","), .var "counter", .tok (.punct "::"), .var "variant", .tok (.ident "as"), .tok (.ident "u8")]], .tok (.punct ",")], .rep [.var "rest"] none]]),
  ([.tok (.punct "@"), .tok (.ident "inner"), .var "tagged" .expr, .tok (.punct ","), .var "enum" .ident, .tok (.punct ","), .var "counter" .ident, .group .bracket [.rep [.var "finished" .tt] none .star], .var "variant" .ident, .group .paren [.rep [.var "ty" .ty] (some (.punct ",")) .star], .tok (.punct ","), .rep [.var "rest" .tt] none .star],
   [.crate, .tok (.punct "::"), .tok (.ident "__expand_tuple_arm"), .tok (.punct "!"), .group .paren [.var "tagged", .tok (.punct ","), .var "enum", .tok (.punct ","), .var "counter", .tok (.punct ","), .var "variant", .tok (.punct ","), .rep [.var "ty"] (some (.punct ",")), .group .bracket [.rep [.var "finished"] none], .group .bracket [.rep [.var "rest"] none], .rep [.var "ty"] (some (.punct ","))]]),
  ([.tok (.punct "@"), .tok (.ident "inner"), .var "tagged" .expr, .tok (.punct ","), .var "enum" .ident, .tok (.punct ","), .var "counter" .ident, .group .bracket [.rep [.var "tt" .tt] none .star], .var "variant" .ident, .group .brace [.rep [.var "member" .ident, .tok (.punct ":"), .var "ty" .ty] (some (.punct ",")) .star], .tok (.punct ","), .rep [.var "rest" .tt] none .star],
   [.crate, .tok (.punct "::"), .tok (.ident "__taggable_into_box"), .tok (.punct "!"), .group .paren [.tok (.punct "@"), .tok (.ident "inner"), .var "tagged", .tok (.punct ","), .var "enum", .tok (.punct ","), .var "counter", .group .bracket [.rep [.var "tt"] none, .var "enum", .tok (.punct "::"), .var "variant", .group .brace [.rep [.var "member"] (some (.punct ","))], .tok (.punct "=>"), .group .brace [.tok (.punct "#"), .group .bracket [.tok (.ident "repr"), .group .paren [.tok (.ident "C")]], .tok (.ident "struct"), .var "variant", .group .brace [.rep [.var "member", .tok (.punct ":"), .var "ty"] (some (.punct ","))], .crate, .tok (.punct "::"), .tok (.ident "TaggedBox"), .tok (.punct "::"), .tok (.punct "<"), .var "enum", .tok (.punct ">"), .tok (.punct "::"), .tok (.ident "new"), .tok (.punct "::"), .tok (.punct "<"), .var "variant", .tok (.punct ">"), .group .paren [.var "variant", .group .brace [.rep [.var "member"] (some (.punct ","))], .tok (.punct ","), .var "counter", .tok (.punct "::"), .var "variant", .tok (.ident "as"), .tok (.ident "u8")]]], .rep [.var "rest"] none]]),
  ([.tok (.punct "@"), .tok (.ident "inner"), .var "tagged" .expr, .tok (.punct ","), .var "enum" .ident, .tok (.punct ","), .var "counter" .ident, .group .bracket [.rep [.var "tt" .tt] none .star], .var "variant" .ident, .group .brace [.rep [.var "member" .ident, .tok (.punct ":"), .var "ty" .ty, .tok (.punct ",")] none .star], .tok (.punct ","), .rep [.var "rest" .tt] none .star],
   [.crate, .tok (.punct "::"), .tok (.ident "__taggable_into_box"), .tok (.punct "!"), .group .paren [.tok (.punct "@"), .tok (.ident "inner"), .var "tagged", .tok (.punct ","), .var "enum", .tok (.punct ","), .var "counter", .group .bracket [.rep [.var "tt"] none, .var "enum", .tok (.punct "::"), .var "variant", .group .brace [.rep [.var "member"] (some (.punct ","))], .tok (.punct "=>"), .group .brace [.tok (.punct "#"), .group .bracket [.tok (.ident "repr"), .group .paren [.tok (.ident "C")]], .tok (.ident "struct"), .var "variant", .group .brace [.rep [.var "member", .tok (.punct ":"), .var "ty"] (some (.punct ","))], .crate, .tok (.punct "::"), .tok (.ident "TaggedBox"), .tok (.punct "::"), .tok (.punct "<"), .var "enum", .tok (.punct ">"), .tok (.punct "::"), .tok (.ident "new"), .tok (.punct "::"), .tok (.punct "<"), .var "variant", .tok (.punct ">"), .group .paren [.var "variant", .group .brace [.rep [.var "member"] (some (.punct ","))], .tok (.punct ","), .var "counter", .tok (.punct "::"), .var "variant", .tok (.ident "as"), .tok (.ident "u8")]]], .rep [.var "rest"] none]]),
  ([.tok (.punct "@"), .tok (.ident "inner"), .var "tagged" .expr, .tok (.punct ","), .var "enum" .ident, .tok (.punct ","), .var "counter" .ident, .group .bracket [.rep [.var "finished" .tt] none .star], .var "variant" .ident, .tok (.punct ","), .rep [.var "rest" .tt] none .star],
   [.crate, .tok (.punct "::"), .tok (.ident "__taggable_into_box"), .tok (.punct "!"), .group .paren [.tok (.punct "@"), .tok (.ident "inner"), .var "tagged", .tok (.punct ","), .var "enum", .tok (.punct ","), .var "counter", .group .bracket [.rep [.var "finished"] none, .var "enum", .tok (.punct "::"), .var "variant", .tok (.punct "=>"), .crate, .tok (.punct "::"), .tok (.ident "TaggedBox"), .tok (.punct "::"), .tok (.punct "<"), .var "enum", .tok (.punct ">"), .tok (.punct "::"), .tok (.ident "dangling"), .tok (.punct "::"), .tok (.punct "<"), .var "enum", .tok (.punct ">"), .group .paren [.var "counter", .tok (.punct "::"), .var "variant", .tok (.ident "as"), .tok (.ident "u8")], .tok (.punct ",")], .rep [.var "rest"] none]]),
  ([.tok (.punct "@"), .tok (.ident "inner"), .var "tagged" .expr, .tok (.punct ","), .var "enum" .ident, .tok (.punct ","), .var "counter" .ident, .group .bracket [.rep [.var "finished" .tt] none .star]],
   [.tok (.ident "match"), .var "tagged", .group .brace [.rep [.var "finished"] none]])]

/-- `__derive_from!`. `src/tagged_box_macro/mod.rs:106-156` -/
def deriveFromRules : List Rule := [
  ([.tok (.punct "@"), .tok (.ident "inner"), .var "struct" .ident, .tok (.punct ","), .var "enum" .ident, .tok (.punct ","), .var "variant" .ident, .group .paren [.var "ty" .ty], .tok (.punct ","), .rep [.var "rest" .tt] none .star],
   [.tok (.ident "impl"), .tok (.ident "From"), .tok (.punct "<"), .var "ty", .tok (.punct ">"), .tok (.ident "for"), .var "struct", .group .brace [.tok (.punct "#"), .group .bracket [.tok (.ident "inline")], .tok (.ident "fn"), .tok (.ident "from"), .group .paren [.tok (.ident "val"), .tok (.punct ":"), .var "ty"], .tok (.punct "->"), .tok (.ident "Self"), .group .brace [.tok (.punct "#"), .group .bracket [.tok (.ident "allow"), .group .paren [.tok (.ident "unused_imports")]], .tok (.ident "use"), .crate, .tok (.punct "::"), .tok (.ident "TaggableInner"), .tok (.punct ";"), .tok (.ident "Self"), .group .brace [.tok (.ident "value"), .tok (.punct ":"), .var "enum", .tok (.punct "::"), .var "variant", .group .paren [.tok (.ident "val")], .tok (.punct "."), .tok (.ident "into_tagged_box"), .group .paren [], .tok (.punct ",")]]], .crate, .tok (.punct "::"), .tok (.ident "__derive_from"), .tok (.punct "!"), .group .brace [.tok (.punct "@"), .tok (.ident "inner"), .var "struct", .tok (.punct ","), .var "enum", .tok (.punct ","), .rep [.var "rest"] none]]),
  ([.tok (.punct "@"), .tok (.ident "inner"), .var "struct" .ident, .tok (.punct ","), .var "enum" .ident, .tok (.punct ","), .var "variant" .ident, .group .paren [.rep [.var "ty" .ty] (some (.punct ",")) .star], .tok (.punct ","), .rep [.var "rest" .tt] none .star],
   [.tok (.ident "impl"), .tok (.ident "From"), .tok (.punct "<"), .group .paren [.rep [.var "ty", .tok (.punct ",")] none], .tok (.punct ">"), .tok (.ident "for"), .var "struct", .group .brace [.tok (.punct "#"), .group .bracket [.tok (.ident "inline")], .tok (.ident "fn"), .tok (.ident "from"), .group .paren [.tok (.ident "tuple"), .tok (.punct ":"), .group .paren [.rep [.var "ty", .tok (.punct ",")] none]], .tok (.punct "->"), .tok (.ident "Self"), .group .brace [.tok (.punct "#"), .tok (.punct "!"), .group .bracket [.tok (.ident "allow"), .group .paren [.tok (.ident "unused_imports"), .tok (.punct ","), .tok (.ident "unused_variables")]], .tok (.ident "use"), .crate, .tok (.punct "::"), .tok (.ident "TaggableInner"), .tok (.punct ";"), .tok (.ident "let"), .tok (.ident "variant"), .tok (.punct ":"), .var "enum", .tok (.punct "="), .crate, .tok (.punct "::"), .tok (.ident "__expand_tuple"), .tok (.punct "!"), .group .paren [.var "enum", .tok (.punct "::"), .var "variant", .tok (.punct ","), .tok (.ident "tuple"), .tok (.punct ","), .rep [.var "ty"] (some (.punct ","))], .tok (.punct ";"), .tok (.ident "Self"), .group .brace [.tok (.ident "value"), .tok (.punct ":"), .tok (.ident "variant"), .tok (.punct "."), .tok (.ident "into_tagged_box"), .group .paren [], .tok (.punct ",")]]], .crate, .tok (.punct "::"), .tok (.ident "__derive_from"), .tok (.punct "!"), .group .brace [.tok (.punct "@"), .tok (.ident "inner"), .var "struct", .tok (.punct ","), .var "enum", .tok (.punct ","), .rep [.var "rest"] none]]),
  ([.tok (.punct "@"), .tok (.ident "inner"), .var "struct" .ident, .tok (.punct ","), .var "enum" .ident, .tok (.punct ","), .var "variant" .ident, .group .brace [.rep [.var "ident" .ident, .tok (.punct ":"), .var "ty" .ty] (some (.punct ",")) .star], .tok (.punct ","), .rep [.var "rest" .tt] none .star],
   [.crate, .tok (.punct "::"), .tok (.ident "__derive_from"), .tok (.punct "!"), .group .brace [.tok (.punct "@"), .tok (.ident "inner"), .var "struct", .tok (.punct ","), .var "enum", .tok (.punct ","), .rep [.var "rest"] none]]),
  ([.tok (.punct "@"), .tok (.ident "inner"), .var "struct" .ident, .tok (.punct ","), .var "enum" .ident, .tok (.punct ","), .var "variant" .ident, .group .brace [.rep [.var "ident" .ident, .tok (.punct ":"), .var "ty" .ty, .tok (.punct ",")] none .star], .tok (.punct ","), .rep [.var "rest" .tt] none .star],
   [.crate, .tok (.punct "::"), .tok (.ident "__derive_from"), .tok (.punct "!"), .group .brace [.tok (.punct "@"), .tok (.ident "inner"), .var "struct", .tok (.punct ","), .var "enum", .tok (.punct ","), .rep [.var "rest"] none]]),
  ([.tok (.punct "@"), .tok (.ident "inner"), .var "struct" .ident, .tok (.punct ","), .var "enum" .ident, .tok (.punct ","), .var "variant" .ident, .tok (.punct ","), .rep [.var "rest" .tt] none .star],
   [.crate, .tok (.punct "::"), .tok (.ident "__derive_from"), .tok (.punct "!"), .group .brace [.tok (.punct "@"), .tok (.ident "inner"), .var "struct", .tok (.punct ","), .var "enum", .tok (.punct ","), .rep [.var "rest"] none]]),
  ([.tok (.punct "@"), .tok (.ident "inner"), .var "struct" .ident, .tok (.punct ","), .var "enum" .ident, .tok (.punct ",")],
   []),
  ([.var "struct" .ident, .tok (.punct ","), .var "enum" .ident, .tok (.punct ","), .rep [.var "rest" .tt] none .star],
   [.crate, .tok (.punct "::"), .tok (.ident "__derive_from"), .tok (.punct "!"), .group .brace [.tok (.punct "@"), .tok (.ident "inner"), .var "struct", .tok (.punct ","), .var "enum", .tok (.punct ","), .rep [.var "rest"] none]])]

/-- `__boxed_into_inner!`. `src/tagged_box_macro/mod.rs:183-265` -/
def boxedIntoInnerRules : List Rule := [
  ([.tok (.punct "@"), .tok (.ident "inner"), .var "tagged" .expr, .tok (.punct ","), .var "enum" .ident, .tok (.punct ","), .var "counter" .ident, .tok (.punct ","), .group .bracket [.rep [.var "tt" .tt] none .star], .var "variant" .ident, .group .paren [.var "ty" .ty], .tok (.punct ","), .rep [.var "rest" .tt] none .star],
   [.crate, .tok (.punct "::"), .tok (.ident "__boxed_into_inner"), .tok (.punct "!"), .group .paren [.tok (.punct "@"), .tok (.ident "inner"), .var "tagged", .tok (.punct ","), .var "enum", .tok (.punct ","), .var "counter", .tok (.punct ","), .group .bracket [.rep [.var "tt"] none, .tok (.ident "discrim"), .tok (.ident "if"), .tok (.ident "discrim"), .tok (.punct "=="), .var "counter", .tok (.punct "::"), .var "variant", .tok (.ident "as"), .tok (.ident "u8"), .tok (.punct "=>"), .group .brace [.var "enum", .tok (.punct "::"), .var "variant", .group .paren [.crate, .tok (.punct "::"), .tok (.ident "TaggedBox"), .tok (.punct "::"), .tok (.punct "<"), .var "enum", .tok (.punct ">"), .tok (.punct "::"), .tok (.ident "into_inner"), .tok (.punct "::"), .tok (.punct "<"), .var "ty", .tok (.punct ">"), .group .paren [.var "tagged"]]], .tok (.punct ",")], .rep [.var "rest"] none], .tok (.punct ";")]),
  ([.tok (.punct "@"), .tok (.ident "inner"), .var "tagged" .expr, .tok (.punct ","), .var "enum" .ident, .tok (.punct ","), .var "counter" .ident, .tok (.punct ","), .group .bracket [.rep [.var "tt" .tt] none .star], .var "variant" .ident, .group .paren [.rep [.var "ty" .ty] (some (.punct ",")) .star], .tok (.punct ","), .rep [.var "rest" .tt] none .star],
   [.crate, .tok (.punct "::"), .tok (.ident "__boxed_into_inner"), .tok (.punct "!"), .group .paren [.tok (.punct "@"), .tok (.ident "inner"), .var "tagged", .tok (.punct ","), .var "enum", .tok (.punct ","), .var "counter", .tok (.punct ","), .group .bracket [.rep [.var "tt"] none, .tok (.ident "discrim"), .tok (.ident "if"), .tok (.ident "discrim"), .tok (.punct "=="), .var "counter", .tok (.punct "::"), .var "variant", .tok (.ident "as"), .tok (.ident "u8"), .tok (.punct "=>"), .group .brace [.tok (.punct "#"), .group .bracket [.tok (.ident "allow"), .group .paren [.tok (.ident "dead_code")]], .tok (.punct "#"), .group .bracket [.tok (.ident "repr"), .group .paren [.tok (.ident "C")]], .tok (.ident "struct"), .var "variant", .group .paren [.rep [.var "ty"] (some (.punct ","))], .tok (.punct ";"), .crate, .tok (.punct "::"), .tok (.ident "__expand_tuple"), .tok (.punct "!"), .group .paren [.var "enum", .tok (.punct "::"), .var "variant", .tok (.punct ","), .crate, .tok (.punct "::"), .tok (.ident "TaggedBox"), .tok (.punct "::"), .tok (.punct "<"), .var "enum", .tok (.punct ">"), .tok (.punct "::"), .tok (.ident "into_inner"), .tok (.punct "::"), .tok (.punct "<"), .var "variant", .tok (.punct ">"), .group .paren [.var "tagged"], .tok (.punct ","), .rep [.var "ty"] (some (.punct ","))]], .tok (.punct ",")], .rep [.var "rest"] none], .tok (.punct ";")]),
  ([.tok (.punct "@"), .tok (.ident "inner"), .var "tagged" .expr, .tok (.punct ","), .var "enum" .ident, .tok (.punct ","), .var "counter" .ident, .tok (.punct ","), .group .bracket [.rep [.var "tt" .tt] none .star], .var "variant" .ident, .group .brace [.rep [.var "ident" .ident, .tok (.punct ":"), .var "ty" .ty] (some (.punct ",")) .star], .tok (.punct ","), .rep [.var "rest" .tt] none .star],
   [.crate, .tok (.punct "::"), .tok (.ident "__boxed_into_inner"), .tok (.punct "!"), .group .paren [.tok (.punct "@"), .tok (.ident "inner"), .var "tagged", .tok (.punct ","), .var "enum", .tok (.punct ","), .var "counter", .tok (.punct ","), .group .bracket [.rep [.var "tt"] none, .tok (.ident "discrim"), .tok (.ident "if"), .tok (.ident "discrim"), .tok (.punct "=="), .var "counter", .tok (.punct "::"), .var "variant", .tok (.ident "as"), .tok (.ident "u8"), .tok (.punct "=>"), .group .brace [.tok (.punct "#"), .group .bracket [.tok (.ident "repr"), .group .paren [.tok (.ident "C")]], .tok (.ident "struct"), .var "variant", .group .brace [.rep [.var "ident", .tok (.punct ":"), .var "ty"] (some (.punct ","))], .tok (.ident "let"), .var "variant", .group .brace [.rep [.var "ident"] (some (.punct ","))], .tok (.punct "="), .crate, .tok (.punct "::"), .tok (.ident "TaggedBox"), .tok (.punct "::"), .tok (.punct "<"), .var "enum", .tok (.punct ">"), .tok (.punct "::"), .tok (.ident "into_inner"), .tok (.punct "::"), .tok (.punct "<"), .var "variant", .tok (.punct ">"), .group .paren [.var "tagged"], .tok (.punct ";"), .var "enum", .tok (.punct "::"), .var "variant", .group .brace [.rep [.var "ident"] (some (.punct ","))]], .tok (.punct ",")], .rep [.var "rest"] none], .tok (.punct ";")]),
  ([.tok (.punct "@"), .tok (.ident "inner"), .var "tagged" .expr, .tok (.punct ","), .var "enum" .ident, .tok (.punct ","), .var "counter" .ident, .tok (.punct ","), .group .bracket [.rep [.var "tt" .tt] none .star], .var "variant" .ident, .group .brace [.rep [.var "ident" .ident, .tok (.punct ":"), .var "ty" .ty, .tok (.punct ",")] none .star], .tok (.punct ","), .rep [.var "rest" .tt] none .star],
   [.crate, .tok (.punct "::"), .tok (.ident "__boxed_into_inner"), .tok (.punct "!"), .group .paren [.tok (.punct "@"), .tok (.ident "inner"), .var "tagged", .tok (.punct ","), .var "enum", .tok (.punct ","), .var "counter", .tok (.punct ","), .group .bracket [.rep [.var "tt"] none, .tok (.ident "discrim"), .tok (.ident "if"), .tok (.ident "discrim"), .tok (.punct "=="), .var "counter", .tok (.punct "::"), .var "variant", .tok (.ident "as"), .tok (.ident "u8"), .tok (.punct "=>"), .group .brace [.tok (.punct "#"), .group .bracket [.tok (.ident "repr"), .group .paren [.tok (.ident "C")]], .tok (.ident "struct"), .var "variant", .group .brace [.rep [.var "ident", .tok (.punct ":"), .var "ty"] (some (.punct ","))], .tok (.ident "let"), .var "variant", .group .brace [.rep [.var "ident"] (some (.punct ","))], .tok (.punct "="), .crate, .tok (.punct "::"), .tok (.ident "TaggedBox"), .tok (.punct "::"), .tok (.punct "<"), .var "enum", .tok (.punct ">"), .tok (.punct "::"), .tok (.ident "into_inner"), .tok (.punct "::"), .tok (.punct "<"), .var "variant", .tok (.punct ">"), .group .paren [.var "tagged"], .tok (.punct ";"), .var "enum", .tok (.punct "::"), .var "variant", .group .brace [.rep [.var "ident"] (some (.punct ","))]], .tok (.punct ",")], .rep [.var "rest"] none], .tok (.punct ";")]),
  ([.tok (.punct "@"), .tok (.ident "inner"), .var "tagged" .expr, .tok (.punct ","), .var "enum" .ident, .tok (.punct ","), .var "counter" .ident, .tok (.punct ","), .group .bracket [.rep [.var "tt" .tt] none .star], .var "variant" .ident, .tok (.punct ","), .rep [.var "rest" .tt] none .star],
   [.crate, .tok (.punct "::"), .tok (.ident "__boxed_into_inner"), .tok (.punct "!"), .group .paren [.tok (.punct "@"), .tok (.ident "inner"), .var "tagged", .tok (.punct ","), .var "enum", .tok (.punct ","), .var "counter", .tok (.punct ","), .group .bracket [.rep [.var "tt"] none, .tok (.ident "discrim"), .tok (.ident "if"), .tok (.ident "discrim"), .tok (.punct "=="), .var "counter", .tok (.punct "::"), .var "variant", .tok (.ident "as"), .tok (.ident "u8"), .tok (.punct "=>"), .var "enum", .tok (.punct "::"), .var "variant", .tok (.punct ",")], .rep [.var "rest"] none], .tok (.punct ";")]),
  ([.tok (.punct "@"), .tok (.ident "inner"), .var "tagged" .expr, .tok (.punct ","), .var "enum" .ident, .tok (.punct ","), .var "counter" .ident, .tok (.punct ","), .group .bracket [.rep [.var "tt" .tt] none .star]],
   [.tok (.punct "#"), .group .bracket [.tok (.ident "allow"), .group .paren [.tok (.ident "unused_parens")]], .tok (.ident "match"), .var "tagged", .tok (.punct "."), .tok (.ident "discriminant"), .group .paren [], .group .brace [.rep [.var "tt"] none, .tok (.punct "_"), .tok (.punct "=>"), .tok (.ident "panic"), .tok (.punct "!"), .group .paren [.tok (.lit "\"Attempted to create an enum variant from a discriminant that doesn't exist!\"")], .tok (.punct ",")]]),
  ([.var "tagged" .expr, .tok (.punct ","), .var "enum" .ident, .tok (.punct ","), .var "counter" .ident, .tok (.punct ","), .rep [.var "rest" .tt] none .star],
   [.crate, .tok (.punct "::"), .tok (.ident "__boxed_into_inner"), .tok (.punct "!"), .group .paren [.tok (.punct "@"), .tok (.ident "inner"), .var "tagged", .tok (.punct ","), .var "enum", .tok (.punct ","), .var "counter", .tok (.punct ","), .group .bracket [], .rep [.var "rest"] none]])]

/-- `__from_tagged_box!`. `src/tagged_box_macro/mod.rs:269-377` -/
def fromTaggedBoxRules : List Rule := [
  ([.var "tagged" .expr, .tok (.punct ","), .var "enum" .ident, .tok (.punct ","), .var "counter" .ident, .tok (.punct ","), .var "total_variants" .expr, .tok (.punct ","), .rep [.var "rest" .tt] none .star],
   [.crate, .tok (.punct "::"), .tok (.ident "__from_tagged_box"), .tok (.punct "!"), .group .paren [.tok (.punct "@"), .tok (.ident "inner"), .var "tagged", .tok (.punct ","), .var "enum", .tok (.punct ","), .var "counter", .tok (.punct ","), .var "total_variants", .tok (.punct ","), .group .bracket [], .rep [.var "rest"] none]]),
  ([.tok (.punct "@"), .tok (.ident "inner"), .var "tagged" .expr, .tok (.punct ","), .var "enum" .ident, .tok (.punct ","), .var "counter" .ident, .tok (.punct ","), .var "total_variants" .expr, .tok (.punct ","), .group .bracket [.rep [.var "tt" .tt] none .star], .var "variant" .ident, .group .paren [.var "ty" .ty], .tok (.punct ","), .rep [.var "rest" .tt] none .star],
   [.crate, .tok (.punct "::"), .tok (.ident "__from_tagged_box"), .tok (.punct "!"), .group .paren [.tok (.punct "@"), .tok (.ident "inner"), .var "tagged", .tok (.punct ","), .var "enum", .tok (.punct ","), .var "counter", .tok (.punct ","), .var "total_variants", .tok (.punct ","), .group .bracket [.rep [.var "tt"] none, .tok (.ident "discrim"), .tok (.ident "if"), .tok (.ident "discrim"), .tok (.punct "=="), .var "counter", .tok (.punct "::"), .var "variant", .tok (.ident "as"), .tok (.ident "u8"), .tok (.punct "=>"), .group .brace [.var "enum", .tok (.punct "::"), .var "variant", .group .paren [.crate, .tok (.punct "::"), .tok (.ident "TaggedBox"), .tok (.punct "::"), .tok (.punct "<"), .var "enum", .tok (.punct ">"), .tok (.punct "::"), .tok (.ident "into_inner"), .tok (.punct "::"), .tok (.punct "<"), .var "ty", .tok (.punct ">"), .group .paren [.var "tagged"]]], .tok (.punct ",")], .rep [.var "rest"] none]]),
  ([.tok (.punct "@"), .tok (.ident "inner"), .var "tagged" .expr, .tok (.punct ","), .var "enum" .ident, .tok (.punct ","), .var "counter" .ident, .tok (.punct ","), .var "total_variants" .expr, .tok (.punct ","), .group .bracket [.rep [.var "tt" .tt] none .star], .var "variant" .ident, .group .paren [.rep [.var "ty" .ty] (some (.punct ",")) .star], .tok (.punct ","), .rep [.var "rest" .tt] none .star],
   [.crate, .tok (.punct "::"), .tok (.ident "__from_tagged_box"), .tok (.punct "!"), .group .paren [.tok (.punct "@"), .tok (.ident "inner"), .var "tagged", .tok (.punct ","), .var "enum", .tok (.punct ","), .var "counter", .tok (.punct ","), .var "total_variants", .tok (.punct ","), .group .bracket [.rep [.var "tt"] none, .tok (.ident "discrim"), .tok (.ident "if"), .tok (.ident "discrim"), .tok (.punct "=="), .var "counter", .tok (.punct "::"), .var "variant", .tok (.ident "as"), .tok (.ident "u8"), .tok (.punct "=>"), .group .brace [.crate, .tok (.punct "::"), .tok (.ident "__expand_tuple"), .tok (.punct "!"), .group .paren [.var "enum", .tok (.punct "::"), .var "variant", .tok (.punct ","), .crate, .tok (.punct "::"), .tok (.ident "TaggedBox"), .tok (.punct "::"), .tok (.punct "<"), .var "enum", .tok (.punct ">"), .tok (.punct "::"), .tok (.ident "into_inner"), .tok (.punct "::"), .tok (.punct "<"), .group .paren [.rep [.var "ty"] (some (.punct ","))], .tok (.punct ">"), .group .paren [.var "tagged"], .tok (.punct ","), .rep [.var "ty"] (some (.punct ","))]], .tok (.punct ",")], .rep [.var "rest"] none]]),
  ([.tok (.punct "@"), .tok (.ident "inner"), .var "tagged" .expr, .tok (.punct ","), .var "enum" .ident, .tok (.punct ","), .var "counter" .ident, .tok (.punct ","), .var "total_variants" .expr, .tok (.punct ","), .group .bracket [.rep [.var "tt" .tt] none .star], .var "variant" .ident, .group .brace [.rep [.var "ident" .ident, .tok (.punct ":"), .var "ty" .ty] (some (.punct ",")) .star], .tok (.punct ","), .rep [.var "rest" .tt] none .star],
   [.crate, .tok (.punct "::"), .tok (.ident "__from_tagged_box"), .tok (.punct "!"), .group .paren [.tok (.punct "@"), .tok (.ident "inner"), .var "tagged", .tok (.punct ","), .var "enum", .tok (.punct ","), .var "counter", .tok (.punct ","), .var "total_variants", .tok (.punct ","), .group .bracket [.rep [.var "tt"] none, .tok (.ident "discrim"), .tok (.ident "if"), .tok (.ident "discrim"), .tok (.punct "=="), .var "counter", .tok (.punct "::"), .var "variant", .tok (.ident "as"), .tok (.ident "u8"), .tok (.punct "=>"), .group .brace [.tok (.punct "#"), .group .bracket [.tok (.ident "repr"), .group .paren [.tok (.ident "C")]], .tok (.ident "struct"), .var "variant", .group .brace [.rep [.var "ident", .tok (.punct ":"), .var "ty"] (some (.punct ","))], .tok (.ident "let"), .var "variant", .group .brace [.rep [.var "ident"] (some (.punct ","))], .tok (.punct "="), .crate, .tok (.punct "::"), .tok (.ident "TaggedBox"), .tok (.punct "::"), .tok (.punct "<"), .var "enum", .tok (.punct ">"), .tok (.punct "::"), .tok (.ident "into_inner"), .tok (.punct "::"), .tok (.punct "<"), .var "variant", .tok (.punct ">"), .group .paren [.var "tagged"], .tok (.punct ";"), .var "enum", .tok (.punct "::"), .var "variant", .group .brace [.rep [.var "ident"] (some (.punct ","))]], .tok (.punct ",")], .rep [.var "rest"] none]]),
  ([.tok (.punct "@"), .tok (.ident "inner"), .var "tagged" .expr, .tok (.punct ","), .var "enum" .ident, .tok (.punct ","), .var "counter" .ident, .tok (.punct ","), .var "total_variants" .expr, .tok (.punct ","), .group .bracket [.rep [.var "tt" .tt] none .star], .var "variant" .ident, .group .brace [.rep [.var "ident" .ident, .tok (.punct ":"), .var "ty" .ty, .tok (.punct ",")] none .star], .tok (.punct ","), .rep [.var "rest" .tt] none .star],
   [.crate, .tok (.punct "::"), .tok (.ident "__from_tagged_box"), .tok (.punct "!"), .group .paren [.tok (.punct "@"), .tok (.ident "inner"), .var "tagged", .tok (.punct ","), .var "enum", .tok (.punct ","), .var "counter", .tok (.punct ","), .var "total_variants", .tok (.punct ","), .group .bracket [.rep [.var "tt"] none, .tok (.ident "discrim"), .tok (.ident "if"), .tok (.ident "discrim"), .tok (.punct "=="), .var "counter", .tok (.punct "::"), .var "variant", .tok (.ident "as"), .tok (.ident "u8"), .tok (.punct "=>"), .group .brace [.tok (.punct "#"), .group .bracket [.tok (.ident "repr"), .group .paren [.tok (.ident "C")]], .tok (.ident "struct"), .var "variant", .group .brace [.rep [.var "ident", .tok (.punct ":"), .var "ty"] (some (.punct ","))], .tok (.ident "let"), .var "variant", .group .brace [.rep [.var "ident"] (some (.punct ","))], .tok (.punct "="), .crate, .tok (.punct "::"), .tok (.ident "TaggedBox"), .tok (.punct "::"), .tok (.punct "<"), .var "enum", .tok (.punct ">"), .tok (.punct "::"), .tok (.ident "into_inner"), .tok (.punct "::"), .tok (.punct "<"), .var "variant", .tok (.punct ">"), .group .paren [.var "tagged"], .tok (.punct ";"), .var "enum", .tok (.punct "::"), .var "variant", .group .brace [.rep [.var "ident"] (some (.punct ","))]], .tok (.punct ",")], .rep [.var "rest"] none]]),
  ([.tok (.punct "@"), .tok (.ident "inner"), .var "tagged" .expr, .tok (.punct ","), .var "enum" .ident, .tok (.punct ","), .var "counter" .ident, .tok (.punct ","), .var "total_variants" .expr, .tok (.punct ","), .group .bracket [.rep [.var "tt" .tt] none .star], .var "variant" .ident, .tok (.punct ","), .rep [.var "rest" .tt] none .star],
   [.crate, .tok (.punct "::"), .tok (.ident "__from_tagged_box"), .tok (.punct "!"), .group .paren [.tok (.punct "@"), .tok (.ident "inner"), .var "tagged", .tok (.punct ","), .var "enum", .tok (.punct ","), .var "counter", .tok (.punct ","), .var "total_variants", .tok (.punct ","), .group .bracket [.rep [.var "tt"] none, .tok (.ident "discrim"), .tok (.ident "if"), .tok (.ident "discrim"), .tok (.punct "=="), .var "counter", .tok (.punct "::"), .var "variant", .tok (.ident "as"), .tok (.ident "u8"), .tok (.punct "=>"), .var "enum", .tok (.punct "::"), .var "variant", .tok (.punct ",")], .rep [.var "rest"] none]]),
  ([.tok (.punct "@"), .tok (.ident "inner"), .var "tagged" .expr, .tok (.punct ","), .var "enum" .ident, .tok (.punct ","), .var "counter" .ident, .tok (.punct ","), .var "total_variants" .expr, .tok (.punct ","), .group .bracket [.rep [.var "tt" .tt] none .star]],
   [.tok (.punct "#"), .group .bracket [.tok (.ident "allow"), .group .paren [.tok (.ident "unused_parens")]], .tok (.ident "match"), .var "tagged", .tok (.punct "."), .tok (.ident "discriminant"), .group .paren [], .group .brace [.rep [.var "tt"] none, .tok (.ident "discriminant"), .tok (.punct "=>"), .group .brace [.tok (.punct "#"), .group .bracket [.tok (.ident "allow"), .group .paren [.tok (.ident "non_upper_case_globals")]], .tok (.ident "panic"), .tok (.punct "!"), .group .paren [.tok (.lit "\"The number of variants in `{}` is {}, but a variant by the discriminant of {} was attempted to be created\""), .tok (.punct ","), .tok (.ident "stringify"), .tok (.punct "!"), .group .paren [.var "enum"], .tok (.punct ","), .var "total_variants", .tok (.punct ","), .tok (.ident "discriminant")], .tok (.punct ";")]]])]

/-- `__ref_from_tagged!`. `src/tagged_box_macro/mod.rs:381-515` -/
def refFromTaggedRules : List Rule := [
  ([.var "tagged" .expr, .tok (.punct ","), .var "callback" .expr, .tok (.punct ","), .var "enum" .ident, .tok (.punct ","), .var "counter" .ident, .tok (.punct ","), .var "total_variants" .expr, .tok (.punct ","), .rep [.var "rest" .tt] none .star],
   [.crate, .tok (.punct "::"), .tok (.ident "__ref_from_tagged"), .tok (.punct "!"), .group .paren [.tok (.punct "@"), .tok (.ident "inner"), .var "tagged", .tok (.punct ","), .var "callback", .tok (.punct ","), .var "enum", .tok (.punct ","), .var "counter", .tok (.punct ","), .var "total_variants", .tok (.punct ","), .group .bracket [], .rep [.var "rest"] none]]),
  ([.tok (.punct "@"), .tok (.ident "inner"), .var "tagged" .expr, .tok (.punct ","), .var "callback" .expr, .tok (.punct ","), .var "enum" .ident, .tok (.punct ","), .var "counter" .ident, .tok (.punct ","), .var "total_variants" .expr, .tok (.punct ","), .group .bracket [.rep [.var "tt" .tt] none .star], .var "variant" .ident, .group .paren [.var "ty" .ty], .tok (.punct ","), .rep [.var "rest" .tt] none .star],
   [.crate, .tok (.punct "::"), .tok (.ident "__ref_from_tagged"), .tok (.punct "!"), .group .paren [.tok (.punct "@"), .tok (.ident "inner"), .var "tagged", .tok (.punct ","), .var "callback", .tok (.punct ","), .var "enum", .tok (.punct ","), .var "counter", .tok (.punct ","), .var "total_variants", .tok (.punct ","), .group .bracket [.rep [.var "tt"] none, .tok (.ident "discrim"), .tok (.ident "if"), .tok (.ident "discrim"), .tok (.punct "=="), .var "counter", .tok (.punct "::"), .var "variant", .tok (.ident "as"), .tok (.ident "u8"), .tok (.punct "=>"), .group .brace [.tok (.ident "let"), .tok (.ident "variant"), .tok (.punct ":"), .tok (.ident "core"), .tok (.punct "::"), .tok (.ident "mem"), .tok (.punct "::"), .tok (.ident "ManuallyDrop"), .tok (.punct "<"), .var "enum", .tok (.punct ">"), .tok (.punct "="), .tok (.ident "core"), .tok (.punct "::"), .tok (.ident "mem"), .tok (.punct "::"), .tok (.ident "ManuallyDrop"), .tok (.punct "::"), .tok (.ident "new"), .group .paren [.var "enum", .tok (.punct "::"), .var "variant", .group .paren [.var "tagged", .tok (.punct "."), .tok (.ident "as_ptr"), .tok (.punct "::"), .tok (.punct "<"), .var "ty", .tok (.punct ">"), .group .paren [], .tok (.punct "."), .tok (.ident "read"), .group .paren []]], .tok (.punct ";"), .group .paren [.var "callback"], .group .paren [.tok (.punct "&"), .tok (.ident "variant")], .tok (.punct ";")]], .rep [.var "rest"] none]]),
  ([.tok (.punct "@"), .tok (.ident "inner"), .var "tagged" .expr, .tok (.punct ","), .var "callback" .expr, .tok (.punct ","), .var "enum" .ident, .tok (.punct ","), .var "counter" .ident, .tok (.punct ","), .var "total_variants" .expr, .tok (.punct ","), .group .bracket [.rep [.var "tt" .tt] none .star], .var "variant" .ident, .group .paren [.rep [.var "ty" .ty] (some (.punct ",")) .star], .tok (.punct ","), .rep [.var "rest" .tt] none .star],
   [.crate, .tok (.punct "::"), .tok (.ident "__ref_from_tagged"), .tok (.punct "!"), .group .paren [.tok (.punct "@"), .tok (.ident "inner"), .var "tagged", .tok (.punct ","), .var "callback", .tok (.punct ","), .var "enum", .tok (.punct ","), .var "counter", .tok (.punct ","), .var "total_variants", .tok (.punct ","), .group .bracket [.rep [.var "tt"] none, .tok (.ident "discrim"), .tok (.ident "if"), .tok (.ident "discrim"), .tok (.punct "=="), .var "counter", .tok (.punct "::"), .var "variant", .tok (.ident "as"), .tok (.ident "u8"), .tok (.punct "=>"), .group .brace [.tok (.punct "#"), .group .bracket [.tok (.ident "repr"), .group .paren [.tok (.ident "C")]], .tok (.ident "struct"), .var "variant", .group .paren [.rep [.var "ty"] (some (.punct ","))], .tok (.punct ";"), .tok (.punct "#"), .group .bracket [.tok (.ident "allow"), .group .paren [.tok (.ident "unused_variables")]], .tok (.ident "let"), .tok (.ident "tuple"), .tok (.punct ":"), .var "variant", .tok (.punct "="), .crate, .tok (.punct "::"), .tok (.ident "__expand_tuple"), .tok (.punct "!"), .group .paren [.var "variant", .tok (.punct ","), .var "tagged", .tok (.punct "."), .tok (.ident "as_ptr"), .tok (.punct "::"), .tok (.punct "<"), .var "variant", .tok (.punct ">"), .group .paren [], .tok (.punct "."), .tok (.ident "read"), .group .paren [], .tok (.punct ","), .rep [.var "ty"] (some (.punct ","))], .tok (.punct ";"), .tok (.ident "let"), .tok (.ident "variant"), .tok (.punct ":"), .tok (.ident "core"), .tok (.punct "::"), .tok (.ident "mem"), .tok (.punct "::"), .tok (.ident "ManuallyDrop"), .tok (.punct "<"), .var "enum", .tok (.punct ">"), .tok (.punct "="), .tok (.ident "core"), .tok (.punct "::"), .tok (.ident "mem"), .tok (.punct "::"), .tok (.ident "ManuallyDrop"), .tok (.punct "::"), .tok (.punct "<"), .var "enum", .tok (.punct ">"), .tok (.punct "::"), .tok (.ident "new"), .group .paren [.crate, .tok (.punct "::"), .tok (.ident "__expand_tuple"), .tok (.punct "!"), .group .paren [.var "enum", .tok (.punct "::"), .var "variant", .tok (.punct ","), .tok (.ident "tuple"), .tok (.punct ","), .rep [.var "ty"] (some (.punct ","))]], .tok (.punct ";"), .group .paren [.var "callback"], .group .paren [.tok (.punct "&"), .tok (.punct "*"), .tok (.ident "variant")], .tok (.punct ";")]], .rep [.var "rest"] none]]),
  ([.tok (.punct "@"), .tok (.ident "inner"), .var "tagged" .expr, .tok (.punct ","), .var "callback" .expr, .tok (.punct ","), .var "enum" .ident, .tok (.punct ","), .var "counter" .ident, .tok (.punct ","), .var "total_variants" .expr, .tok (.punct ","), .group .bracket [.rep [.var "tt" .tt] none .star], .var "variant" .ident, .group .brace [.rep [.var "ident" .ident, .tok (.punct ":"), .var "ty" .ty] (some (.punct ",")) .star], .tok (.punct ","), .rep [.var "rest" .tt] none .star],
   [.crate, .tok (.punct "::"), .tok (.ident "__ref_from_tagged"), .tok (.punct "!"), .group .paren [.tok (.punct "@"), .tok (.ident "inner"), .var "tagged", .tok (.punct ","), .var "callback", .tok (.punct ","), .var "enum", .tok (.punct ","), .var "counter", .tok (.punct ","), .var "total_variants", .tok (.punct ","), .group .bracket [.rep [.var "tt"] none, .tok (.ident "discrim"), .tok (.ident "if"), .tok (.ident "discrim"), .tok (.punct "=="), .var "counter", .tok (.punct "::"), .var "variant", .tok (.ident "as"), .tok (.ident "u8"), .tok (.punct "=>"), .group .brace [.tok (.punct "#"), .group .bracket [.tok (.ident "repr"), .group .paren [.tok (.ident "C")]], .tok (.ident "struct"), .var "variant", .group .brace [.rep [.var "ident", .tok (.punct ":"), .var "ty"] (some (.punct ","))], .tok (.ident "let"), .var "variant", .group .brace [.rep [.var "ident"] (some (.punct ","))], .tok (.punct "="), .var "tagged", .tok (.punct "."), .tok (.ident "as_ptr"), .tok (.punct "::"), .tok (.punct "<"), .var "variant", .tok (.punct ">"), .group .paren [], .tok (.punct "."), .tok (.ident "read"), .group .paren [], .tok (.punct ";"), .tok (.ident "let"), .tok (.ident "variant"), .tok (.punct ":"), .tok (.ident "core"), .tok (.punct "::"), .tok (.ident "mem"), .tok (.punct "::"), .tok (.ident "ManuallyDrop"), .tok (.punct "<"), .var "enum", .tok (.punct ">"), .tok (.punct "="), .tok (.ident "core"), .tok (.punct "::"), .tok (.ident "mem"), .tok (.punct "::"), .tok (.ident "ManuallyDrop"), .tok (.punct "::"), .tok (.ident "new"), .group .paren [.var "enum", .tok (.punct "::"), .var "variant", .group .brace [.rep [.var "ident"] (some (.punct ","))]], .tok (.punct ";"), .group .paren [.var "callback"], .group .paren [.tok (.punct "&"), .tok (.punct "*"), .tok (.ident "variant")], .tok (.punct ";")]], .rep [.var "rest"] none]]),
  ([.tok (.punct "@"), .tok (.ident "inner"), .var "tagged" .expr, .tok (.punct ","), .var "callback" .expr, .tok (.punct ","), .var "enum" .ident, .tok (.punct ","), .var "counter" .ident, .tok (.punct ","), .var "total_variants" .expr, .tok (.punct ","), .group .bracket [.rep [.var "tt" .tt] none .star], .var "variant" .ident, .group .brace [.rep [.var "ident" .ident, .tok (.punct ":"), .var "ty" .ty, .tok (.punct ",")] none .star], .tok (.punct ","), .rep [.var "rest" .tt] none .star],
   [.crate, .tok (.punct "::"), .tok (.ident "__ref_from_tagged"), .tok (.punct "!"), .group .paren [.tok (.punct "@"), .tok (.ident "inner"), .var "tagged", .tok (.punct ","), .var "callback", .tok (.punct ","), .var "enum", .tok (.punct ","), .var "counter", .tok (.punct ","), .var "total_variants", .tok (.punct ","), .group .bracket [.rep [.var "tt"] none, .tok (.ident "discrim"), .tok (.ident "if"), .tok (.ident "discrim"), .tok (.punct "=="), .var "counter", .tok (.punct "::"), .var "variant", .tok (.ident "as"), .tok (.ident "u8"), .tok (.punct "=>"), .group .brace [.tok (.punct "#"), .group .bracket [.tok (.ident "repr"), .group .paren [.tok (.ident "C")]], .tok (.ident "struct"), .var "variant", .group .brace [.rep [.var "ident", .tok (.punct ":"), .var "ty"] (some (.punct ","))], .tok (.ident "let"), .var "variant", .group .brace [.rep [.var "ident"] (some (.punct ","))], .tok (.punct "="), .var "tagged", .tok (.punct "."), .tok (.ident "as_ptr"), .tok (.punct "::"), .tok (.punct "<"), .var "variant", .tok (.punct ">"), .group .paren [], .tok (.punct "."), .tok (.ident "read"), .group .paren [], .tok (.punct ";"), .tok (.ident "let"), .tok (.ident "variant"), .tok (.punct ":"), .tok (.ident "core"), .tok (.punct "::"), .tok (.ident "mem"), .tok (.punct "::"), .tok (.ident "ManuallyDrop"), .tok (.punct "<"), .var "enum", .tok (.punct ">"), .tok (.punct "="), .tok (.ident "core"), .tok (.punct "::"), .tok (.ident "mem"), .tok (.punct "::"), .tok (.ident "ManuallyDrop"), .tok (.punct "::"), .tok (.ident "new"), .group .paren [.var "enum", .tok (.punct "::"), .var "variant", .group .brace [.rep [.var "ident"] (some (.punct ","))]], .tok (.punct ";"), .group .paren [.var "callback"], .group .paren [.tok (.punct "&"), .tok (.punct "*"), .tok (.ident "variant")], .tok (.punct ";")]], .rep [.var "rest"] none]]),
  ([.tok (.punct "@"), .tok (.ident "inner"), .var "tagged" .expr, .tok (.punct ","), .var "callback" .expr, .tok (.punct ","), .var "enum" .ident, .tok (.punct ","), .var "counter" .ident, .tok (.punct ","), .var "total_variants" .expr, .tok (.punct ","), .group .bracket [.rep [.var "tt" .tt] none .star], .var "variant" .ident, .tok (.punct ","), .rep [.var "rest" .tt] none .star],
   [.crate, .tok (.punct "::"), .tok (.ident "__ref_from_tagged"), .tok (.punct "!"), .group .paren [.tok (.punct "@"), .tok (.ident "inner"), .var "tagged", .tok (.punct ","), .var "callback", .tok (.punct ","), .var "enum", .tok (.punct ","), .var "counter", .tok (.punct ","), .var "total_variants", .tok (.punct ","), .group .bracket [.rep [.var "tt"] none, .tok (.ident "discrim"), .tok (.ident "if"), .tok (.ident "discrim"), .tok (.punct "=="), .var "counter", .tok (.punct "::"), .var "variant", .tok (.ident "as"), .tok (.ident "u8"), .tok (.punct "=>"), .group .brace [.tok (.ident "let"), .tok (.ident "variant"), .tok (.punct ":"), .var "enum", .tok (.punct "="), .var "enum", .tok (.punct "::"), .var "variant", .tok (.punct ";"), .group .paren [.var "callback"], .group .paren [.tok (.punct "&"), .tok (.ident "variant")], .tok (.punct ";")]], .rep [.var "rest"] none]]),
  ([.tok (.punct "@"), .tok (.ident "inner"), .var "tagged" .expr, .tok (.punct ","), .var "callback" .expr, .tok (.punct ","), .var "enum" .ident, .tok (.punct ","), .var "counter" .ident, .tok (.punct ","), .var "total_variants" .expr, .tok (.punct ","), .group .bracket [.rep [.var "rest" .tt] none .star]],
   [.tok (.punct "#"), .group .bracket [.tok (.ident "allow"), .group .paren [.tok (.ident "unused_parens")]], .tok (.ident "match"), .var "tagged", .tok (.punct "."), .tok (.ident "discriminant"), .group .paren [], .group .brace [.rep [.var "rest"] none, .tok (.ident "discriminant"), .tok (.punct "=>"), .group .brace [.tok (.punct "#"), .group .bracket [.tok (.ident "allow"), .group .paren [.tok (.ident "non_upper_case_globals")]], .tok (.ident "panic"), .tok (.punct "!"), .group .paren [.tok (.lit "\"The number of variants in `{}` is {}, but a variant by the discriminant of {} was attempted to be referenced\""), .tok (.punct ","), .tok (.ident "stringify"), .tok (.punct "!"), .group .paren [.var "enum"], .tok (.punct ","), .var "total_variants", .tok (.punct ","), .tok (.ident "discriminant")], .tok (.punct ";")]]])]

/-- `__counter_enum!`. `src/tagged_box_macro/mod.rs:519-554` -/
def counterEnumRules : List Rule := [
  ([.tok (.punct "@"), .tok (.ident "inner"), .group .bracket [.rep [.var "finished" .tt] none .star], .var "variant" .ident, .group .paren [.rep [.var "ty" .ty] (some (.punct ",")) .star], .tok (.punct ","), .rep [.var "rest" .tt] none .star],
   [.crate, .tok (.punct "::"), .tok (.ident "__counter_enum"), .tok (.punct "!"), .group .paren [.tok (.punct "@"), .tok (.ident "inner"), .group .bracket [.rep [.var "finished"] none, .var "variant", .tok (.punct ",")], .rep [.var "rest"] none]]),
  ([.tok (.punct "@"), .tok (.ident "inner"), .group .bracket [.rep [.var "finished" .tt] none .star], .var "variant" .ident, .group .brace [.rep [.var "member" .ident, .tok (.punct ":"), .var "ty" .ty] (some (.punct ",")) .star], .tok (.punct ","), .rep [.var "rest" .tt] none .star],
   [.crate, .tok (.punct "::"), .tok (.ident "__counter_enum"), .tok (.punct "!"), .group .paren [.tok (.punct "@"), .tok (.ident "inner"), .group .bracket [.rep [.var "finished"] none, .var "variant", .tok (.punct ",")], .rep [.var "rest"] none]]),
  ([.tok (.punct "@"), .tok (.ident "inner"), .group .bracket [.rep [.var "finished" .tt] none .star], .var "variant" .ident, .group .brace [.rep [.var "member" .ident, .tok (.punct ":"), .var "ty" .ty, .tok (.punct ",")] none .star], .tok (.punct ","), .rep [.var "rest" .tt] none .star],
   [.crate, .tok (.punct "::"), .tok (.ident "__counter_enum"), .tok (.punct "!"), .group .paren [.tok (.punct "@"), .tok (.ident "inner"), .group .bracket [.rep [.var "finished"] none, .var "variant", .tok (.punct ",")], .rep [.var "rest"] none]]),
  ([.tok (.punct "@"), .tok (.ident "inner"), .group .bracket [.rep [.var "finished" .tt] none .star], .var "variant" .ident, .tok (.punct ","), .rep [.var "rest" .tt] none .star],
   [.crate, .tok (.punct "::"), .tok (.ident "__counter_enum"), .tok (.punct "!"), .group .paren [.tok (.punct "@"), .tok (.ident "inner"), .group .bracket [.rep [.var "finished"] none, .var "variant", .tok (.punct ",")], .rep [.var "rest"] none]]),
  ([.tok (.punct "@"), .tok (.ident "inner"), .group .bracket [.rep [.var "finished" .tt] none .star]],
   [.tok (.punct "#"), .group .bracket [.tok (.ident "doc"), .group .paren [.tok (.ident "hidden")]], .tok (.punct "#"), .group .bracket [.tok (.ident "allow"), .group .paren [.tok (.ident "non_camel_case_types")]], .tok (.ident "enum"), .tok (.ident "__tagged_box_enum_counter"), .group .brace [.rep [.var "finished"] none]]),
  ([.tok (.punct "@"), .tok (.ident "inner"), .group .bracket [.rep [.var "finished" .tt] none .star], .rep [.var "tt" .tt] none .star],
   [.crate, .tok (.punct "::"), .tok (.ident "__counter_enum"), .tok (.punct "!"), .group .paren [.tok (.punct "@"), .tok (.ident "error"), .tok (.ident "stringify"), .tok (.punct "!"), .group .paren [.rep [.var "tt"] none]]]),
  ([.tok (.punct "@"), .tok (.ident "error"), .var "code" .literal],
   [.tok (.ident "compile_error"), .tok (.punct "!"), .group .paren [.tok (.lit "\"Invalid enum definition: {}\""), .tok (.punct ","), .var "literal"], .tok (.punct ";")]),
  ([.rep [.var "rest" .tt] none .star],
   [.crate, .tok (.punct "::"), .tok (.ident "__counter_enum"), .tok (.punct "!"), .group .paren [.tok (.punct "@"), .tok (.ident "inner"), .group .bracket [], .rep [.var "rest"] none]])]

/-- `__count_variants!`. `src/tagged_box_macro/mod.rs:558-581` -/
def countVariantsRules : List Rule := [
  ([.tok (.punct "@"), .tok (.ident "inner"), .group .bracket [.rep [.var "finished" .tt] none .star], .var "variant" .ident, .group .paren [.rep [.var "ty" .ty] (some (.punct ",")) .star], .tok (.punct ","), .rep [.var "rest" .tt] none .star],
   [.crate, .tok (.punct "::"), .tok (.ident "__count_variants"), .tok (.punct "!"), .group .paren [.tok (.punct "@"), .tok (.ident "inner"), .group .bracket [.rep [.var "finished"] none, .var "variant", .tok (.punct ",")], .rep [.var "rest"] none]]),
  ([.tok (.punct "@"), .tok (.ident "inner"), .group .bracket [.rep [.var "finished" .tt] none .star], .var "variant" .ident, .group .brace [.rep [.var "member" .ident, .tok (.punct ":"), .var "ty" .ty] (some (.punct ",")) .star], .tok (.punct ","), .rep [.var "rest" .tt] none .star],
   [.crate, .tok (.punct "::"), .tok (.ident "__count_variants"), .tok (.punct "!"), .group .paren [.tok (.punct "@"), .tok (.ident "inner"), .group .bracket [.rep [.var "finished"] none, .var "variant", .tok (.punct ",")], .rep [.var "rest"] none]]),
  ([.tok (.punct "@"), .tok (.ident "inner"), .group .bracket [.rep [.var "finished" .tt] none .star], .var "variant" .ident, .group .brace [.rep [.var "member" .ident, .tok (.punct ":"), .var "ty" .ty, .tok (.punct ",")] none .star], .tok (.punct ","), .rep [.var "rest" .tt] none .star],
   [.crate, .tok (.punct "::"), .tok (.ident "__count_variants"), .tok (.punct "!"), .group .paren [.tok (.punct "@"), .tok (.ident "inner"), .group .bracket [.rep [.var "finished"] none, .var "variant", .tok (.punct ",")], .rep [.var "rest"] none]]),
  ([.tok (.punct "@"), .tok (.ident "inner"), .group .bracket [.rep [.var "finished" .tt] none .star], .var "variant" .ident, .tok (.punct ","), .rep [.var "rest" .tt] none .star],
   [.crate, .tok (.punct "::"), .tok (.ident "__count_variants"), .tok (.punct "!"), .group .paren [.tok (.punct "@"), .tok (.ident "inner"), .group .bracket [.rep [.var "finished"] none, .var "variant", .tok (.punct ",")], .rep [.var "rest"] none]]),
  ([.tok (.punct "@"), .tok (.ident "inner"), .group .bracket [.rep [.var "variant" .ident, .tok (.punct ",")] none .star]],
   [.group .bracket [.rep [.tok (.ident "stringify"), .tok (.punct "!"), .group .paren [.var "variant"]] (some (.punct ","))], .tok (.punct "."), .tok (.ident "len"), .group .paren []]),
  ([.rep [.var "rest" .tt] none .star],
   [.crate, .tok (.punct "::"), .tok (.ident "__count_variants"), .tok (.punct "!"), .group .paren [.tok (.punct "@"), .tok (.ident "inner"), .group .bracket [], .rep [.var "rest"] none]])]

/-- `tagged_box!`. `src/tagged_box_macro/mod.rs:732-831` -/
def taggedBoxRules : List Rule := [
  ([.rep [.tok (.punct "#"), .group .bracket [.var "meta" .metaItem]] none .star, .var "struct_vis" .vis, .tok (.ident "struct"), .var "struct" .ident, .tok (.punct ","), .var "enum_vis" .vis, .tok (.ident "enum"), .var "enum" .ident, .group .brace [.rep [.var "variants" .tt] none .plus]],
   [.rep [.tok (.punct "#"), .group .bracket [.var "meta"]] none, .tok (.punct "#"), .group .bracket [.tok (.ident "repr"), .group .paren [.tok (.ident "transparent")]], .var "struct_vis", .tok (.ident "struct"), .var "struct", .group .brace [.tok (.ident "value"), .tok (.punct ":"), .crate, .tok (.punct "::"), .tok (.ident "TaggedBox"), .tok (.punct "<"), .var "enum", .tok (.punct ">"), .tok (.punct ",")], .tok (.ident "impl"), .crate, .tok (.punct "::"), .tok (.ident "TaggableContainer"), .tok (.ident "for"), .var "struct", .group .brace [.tok (.ident "type"), .tok (.ident "Inner"), .tok (.punct "="), .var "enum", .tok (.punct ";"), .tok (.ident "fn"), .tok (.ident "into_inner"), .group .paren [.tok (.ident "self")], .tok (.punct "->"), .var "enum", .group .brace [.crate, .tok (.punct "::"), .tok (.ident "__counter_enum"), .tok (.punct "!"), .group .brace [.rep [.var "variants"] none], .tok (.ident "unsafe"), .group .brace [.crate, .tok (.punct "::"), .tok (.ident "__boxed_into_inner"), .tok (.punct "!"), .group .paren [.tok (.ident "self"), .tok (.punct "."), .tok (.ident "value"), .tok (.punct ","), .var "enum", .tok (.punct ","), .tok (.ident "__tagged_box_enum_counter"), .tok (.punct ","), .rep [.var "variants"] none]]]], .tok (.ident "impl"), .tok (.ident "From"), .tok (.punct "<"), .var "enum", .tok (.punct ">"), .tok (.ident "for"), .var "struct", .group .brace [.tok (.punct "#"), .group .bracket [.tok (.ident "inline")], .tok (.ident "fn"), .tok (.ident "from"), .group .paren [.tok (.ident "variant"), .tok (.punct ":"), .var "enum"], .tok (.punct "->"), .tok (.ident "Self"), .group .brace [.tok (.ident "use"), .crate, .tok (.punct "::"), .tok (.ident "TaggableInner"), .tok (.punct ";"), .tok (.ident "Self"), .group .brace [.tok (.ident "value"), .tok (.punct ":"), .tok (.ident "variant"), .tok (.punct "."), .tok (.ident "into_tagged_box"), .group .paren [], .tok (.punct ",")]]], .crate, .tok (.punct "::"), .tok (.ident "__derive_from"), .tok (.punct "!"), .group .brace [.var "struct", .tok (.punct ","), .var "enum", .tok (.punct ","), .rep [.var "variants"] none], .crate, .tok (.punct "::"), .tok (.ident "__make_enum"), .tok (.punct "!"), .group .brace [.var "enum_vis", .tok (.punct ","), .var "enum", .group .bracket [.rep [.var "meta"] none], .rep [.var "variants"] none], .tok (.ident "impl"), .crate, .tok (.punct "::"), .tok (.ident "TaggableInner"), .tok (.ident "for"), .var "enum", .group .brace [.tok (.ident "fn"), .tok (.ident "into_tagged_box"), .group .paren [.tok (.ident "self")], .tok (.punct "->"), .crate, .tok (.punct "::"), .tok (.ident "TaggedBox"), .tok (.punct "<"), .tok (.ident "Self"), .tok (.punct ">"), .group .brace [.crate, .tok (.punct "::"), .tok (.ident "__counter_enum"), .tok (.punct "!"), .group .brace [.rep [.var "variants"] none], .crate, .tok (.punct "::"), .tok (.ident "__taggable_into_box"), .tok (.punct "!"), .group .paren [.tok (.ident "self"), .tok (.punct ","), .var "enum", .tok (.punct ","), .tok (.ident "__tagged_box_enum_counter"), .tok (.punct ","), .rep [.var "variants"] none]], .tok (.ident "fn"), .tok (.ident "from_tagged_box"), .group .paren [.tok (.ident "tagged"), .tok (.punct ":"), .crate, .tok (.punct "::"), .tok (.ident "TaggedBox"), .tok (.punct "<"), .var "enum", .tok (.punct ">")], .tok (.punct "->"), .tok (.ident "Self"), .group .brace [.tok (.ident "unsafe"), .group .brace [.crate, .tok (.punct "::"), .tok (.ident "__counter_enum"), .tok (.punct "!"), .group .brace [.rep [.var "variants"] none], .tok (.ident "const"), .tok (.ident "__TAGGED_BOX_TOTAL_VARIANTS"), .tok (.punct ":"), .tok (.ident "usize"), .tok (.punct "="), .crate, .tok (.punct "::"), .tok (.ident "__count_variants"), .tok (.punct "!"), .group .paren [.rep [.var "variants"] none], .tok (.punct ";"), .crate, .tok (.punct "::"), .tok (.ident "__from_tagged_box"), .tok (.punct "!"), .group .paren [.tok (.ident "tagged"), .tok (.punct ","), .var "enum", .tok (.punct ","), .tok (.ident "__tagged_box_enum_counter"), .tok (.punct ","), .tok (.ident "__TAGGED_BOX_TOTAL_VARIANTS"), .tok (.punct ","), .rep [.var "variants"] none]]], .tok (.ident "unsafe"), .tok (.ident "fn"), .tok (.ident "ref_from_tagged_box"), .tok (.punct "<"), .tok (.ident "F"), .tok (.punct ">"), .group .paren [.tok (.ident "tagged"), .tok (.punct ":"), .tok (.punct "&"), .crate, .tok (.punct "::"), .tok (.ident "TaggedBox"), .tok (.punct "<"), .var "enum", .tok (.punct ">"), .tok (.punct ","), .tok (.ident "callback"), .tok (.punct ":"), .tok (.ident "F")], .tok (.ident "where"), .tok (.ident "F"), .tok (.punct ":"), .tok (.ident "FnOnce"), .group .paren [.tok (.punct "&"), .var "enum"], .tok (.punct ","), .group .brace [.crate, .tok (.punct "::"), .tok (.ident "__counter_enum"), .tok (.punct "!"), .group .brace [.rep [.var "variants"] none], .tok (.ident "const"), .tok (.ident "__TAGGED_BOX_TOTAL_VARIANTS"), .tok (.punct ":"), .tok (.ident "usize"), .tok (.punct "="), .crate, .tok (.punct "::"), .tok (.ident "__count_variants"), .tok (.punct "!"), .group .paren [.rep [.var "variants"] none], .tok (.punct ";"), .crate, .tok (.punct "::"), .tok (.ident "__ref_from_tagged"), .tok (.punct "!"), .group .paren [.tok (.ident "tagged"), .tok (.punct ","), .tok (.ident "callback"), .tok (.punct ","), .var "enum", .tok (.punct ","), .tok (.ident "__tagged_box_enum_counter"), .tok (.punct ","), .tok (.ident "__TAGGED_BOX_TOTAL_VARIANTS"), .tok (.punct ","), .rep [.var "variants"] none], .tok (.punct ";")]]])]

set_option maxRecDepth 100000 in
theorem modText_rules : macrosIn modText
    ["__make_enum", "__taggable_into_box", "__derive_from", "__boxed_into_inner", "__from_tagged_box", "__ref_from_tagged", "__counter_enum", "__count_variants", "tagged_box"] =
    some [makeEnumRules, intoBoxRules, deriveFromRules, boxedIntoInnerRules, fromTaggedBoxRules, refFromTaggedRules, counterEnumRules, countVariantsRules, taggedBoxRules] := by
  kernel_rfl

end TB.Source

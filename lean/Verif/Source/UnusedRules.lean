import Verif.Mbe.Rules
import Verif.Source.ModText
import Verif.Source.Crate

/-!
# The macros of `src/tagged_box_macro/mod.rs` that nothing invokes

`__generate_const_sizes!` and `__verify_variants!` are exported, but no code of the crate invokes them (the invocations of the first are commented out). The
rules are written out by `scripts/gen_rules.py`, and `unusedText_rules` checks them against the file's text.
-/

set_option autoImplicit false

namespace TB.Source

open TB.Mbe TB.Macro

/-- `__generate_const_sizes!`. `src/tagged_box_macro/mod.rs:160-179` -/
def constSizesRules : List Rule := [
  ([.rep [.var "ty" .ty] (some (.punct ",")) .star],
   [.group .brace [.crate, .tok (.punct "::"), .tok (.ident "__generate_const_sizes"), .tok (.punct "!"), .group .paren [.tok (.punct "@"), .tok (.ident "inner"), .group .bracket [.tok (.lit "0")], .rep [.var "ty", .tok (.punct ",")] none]]]),
  ([.tok (.punct "@"), .tok (.ident "inner"), .group .bracket [.rep [.var "finished" .tt] none .star], .var "ty" .ty, .tok (.punct ","), .rep [.var "rest" .ty, .tok (.punct ",")] none .star],
   [.crate, .tok (.punct "::"), .tok (.ident "__generate_const_sizes"), .tok (.punct "!"), .group .paren [.tok (.punct "@"), .tok (.ident "inner"), .group .bracket [.rep [.var "finished"] none, .tok (.punct "+"), .group .brace [.tok (.ident "const"), .tok (.ident "__NUMBER_VAR_BITS"), .tok (.punct ":"), .tok (.ident "usize"), .tok (.punct "="), .tok (.ident "core"), .tok (.punct "::"), .tok (.ident "mem"), .tok (.punct "::"), .tok (.ident "size_of"), .tok (.punct "::"), .tok (.punct "<"), .var "ty", .tok (.punct ">"), .group .paren [], .tok (.punct "*"), .tok (.lit "8"), .tok (.punct ";"), .tok (.ident "__NUMBER_VAR_BITS")]], .rep [.var "rest", .tok (.punct ",")] none]]),
  ([.tok (.punct "@"), .tok (.ident "inner"), .group .bracket [.rep [.var "finished" .tt] none .star]],
   [.rep [.var "finished"] none])]

/-- `__verify_variants!`. `src/tagged_box_macro/mod.rs:586-593` -/
def verifyVariantsRules : List Rule := [
  ([.var "variant" .ident, .group .paren [.rep [.var "ty" .ty] (some (.punct ",")) .star], .tok (.punct ","), .rep [.var "rest" .tt] none .star],
   [.crate, .tok (.punct "::"), .tok (.ident "__verify_variants"), .tok (.punct "!"), .group .paren [.rep [.var "rest"] none]]),
  ([.var "variant" .ident, .group .paren [.rep [.var "ty" .ty, .tok (.punct ",")] none .star], .tok (.punct ","), .rep [.var "rest" .tt] none .star],
   [.crate, .tok (.punct "::"), .tok (.ident "__verify_variants"), .tok (.punct "!"), .group .paren [.rep [.var "rest"] none]])]

set_option maxRecDepth 100000 in
theorem unusedText_rules : macrosIn modText ["__generate_const_sizes", "__verify_variants"] = some [constSizesRules, verifyVariantsRules] := by
  kernel_rfl

/-- All helper macros the crate exports, used or not. -/
def exportedTable : List (String × List Rule) :=
  crateTable ++ [("__generate_const_sizes", constSizesRules), ("__verify_variants", verifyVariantsRules)]

/-- Look up a macro. -/
def exportedMacros (name : String) : Option (List Rule) := (exportedTable.find? fun p => p.1 == name).map (·.2)

end TB.Source

import Verif.Source.ModRules
import Verif.Source.MetaRules
import Verif.Mbe.Expand

/-! # The macros the crate exports for `tagged_box!` -/

set_option autoImplicit false

namespace TB.Source

open TB.Mbe TB.Macro

/-- The macros that code generated by `tagged_box!` invokes as `$crate::name!`, with their rules. (`modText_rules` and `metaText_rules` say that these are the
rules in the source text.) -/
def crateTable : List (String × List Rule) :=
  [("__make_enum", makeEnumRules), ("__taggable_into_box", intoBoxRules), ("__derive_from", deriveFromRules),
   ("__boxed_into_inner", boxedIntoInnerRules), ("__from_tagged_box", fromTaggedBoxRules), ("__ref_from_tagged", refFromTaggedRules),
   ("__counter_enum", counterEnumRules), ("__count_variants", countVariantsRules), ("tagged_box", taggedBoxRules),
   ("__expand_tuple", expandTupleRules), ("__expand_tuple_arm", expandTupleArmRules)]

/-- Look up a macro. -/
def crateMacros (name : String) : Option (List Rule) := (crateTable.find? fun p => p.1 == name).map (·.2)

end TB.Source

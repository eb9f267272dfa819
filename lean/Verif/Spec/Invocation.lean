import Verif.Source.Decl
import Verif.Source.Crate
import Verif.Spec.RustCode

/-!
# An invocation of `tagged_box!`

What the user writes, as tokens, and what the macro text of the crate makes of it.
-/

set_option autoImplicit false

namespace TB.Source

open TB.Mbe TB.Macro

/-- The tokens form one attribute argument (`derive(Debug)`, `doc = "..", ..`): what `$meta:meta` takes. -/
def IsMeta (m : List TT) : Prop := metaFrag m = .yes (.frag .metaItem m, [])

/-- The tokens form a visibility: nothing, `pub`, or `pub(..)`. -/
def IsVis (v : List TT) : Prop := v = [] ∨ v = [.atom (.ident "pub")] ∨ ∃ g, visArg g = true ∧ v = [.atom (.ident "pub"), g]

/-- ```
#[meta]*
svis struct sn, evis enum en { ts }
``` -/
def invocation (metas : List (List TT)) (svis : List TT) (sn : String) (evis : List TT) (en : String) (ts : List Tok) : List TT :=
  (metas.flatMap fun m => [.atom (.punct "#"), .group .bracket m]) ++ svis ++
    .atom (.ident "struct") :: .atom (.ident sn) :: .atom (.punct ",") :: (evis ++
      [.atom (.ident "enum"), .atom (.ident en), .group .brace (ttsOf ts)])

/-- `tagged_box! { input }` expands to `out`: the rules of `tagged_box!` turn the input into `body`, and expanding all invocations in `body`, with
the rules of the other macros of the crate, results in `out`. -/
def ExpandsTo (rc : Rustc) (input out : List TT) : Prop :=
  ∃ rules body, crateMacros "tagged_box" = some rules ∧ applyRules rc rules input = some body ∧
    Expands rc crateMacros true true body out

end TB.Source

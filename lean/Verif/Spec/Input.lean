import Verif.Spec.Invocation

/-!
# Inputs of `tagged_box!` in general
-/

set_option autoImplicit false

namespace TB.Source

open TB.Mbe TB.Macro

/-- A token, or a group of tokens; not a fragment that another macro has parsed. -/
def TT.written : TT → Bool
  | .frag _ _ => false
  | _ => true

/-- The input consists of tokens, also inside of attributes. -/
def Written (ts : List TT) : Prop := ∀ t ∈ ts, TT.written t = true ∧ ∀ us, t = .group .bracket us → ∀ u ∈ us, TT.written u = true

/-- ```
#[meta]*
svis struct sn, evis enum en { us }
``` -/
def header (metas : List (List TT)) (svis : List TT) (sn : String) (evis : List TT) (en : String) (us : List TT) : List TT :=
  (metas.flatMap fun m => [.atom (.punct "#"), .group .bracket m]) ++ svis ++
    .atom (.ident "struct") :: .atom (.ident sn) :: .atom (.punct ",") :: (evis ++
      [.atom (.ident "enum"), .atom (.ident en), .group .brace us])

end TB.Source

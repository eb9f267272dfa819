import Verif.Mbe.Match

/-! # The user's tokens as macro input -/

set_option autoImplicit false

namespace TB.Mbe

open TB.Macro

/-- A token that is neither identifier, comma, colon nor group (`Macro/Syntax.lean`), as the lexer delivers it (`Mbe/Lex.lean`): numbers and strings are literals, the rest is
punctuation. (Text that is no token of its own, such as `","` or a word, stands for something the macro rules do not look at.) -/
def spell (s : String) : TT :=
  match s.toList with
  | [] => .other s
  | c :: _ =>
    if isDigit c || c == '"' then .atom (.lit s)
    else if s = "," ∨ s = ":" ∨ (isWord c = true ∧ s ≠ "_") then .other s
    else .atom (.punct s)

/-- A token of the user's declaration (`Macro/Syntax.lean`) as a token tree. -/
def ttOf : Tok → TT
  | .ident s => .atom (.ident s)
  | .comma => .atom (.punct ",")
  | .colon => .atom (.punct ":")
  | .group d ts => .group d (ttsOf ts)
  | .other s => spell s
where
  /-- The tokens of the user's declaration. -/
  ttsOf : List Tok → List TT
    | [] => []
    | t :: ts => ttOf t :: ttsOf ts

abbrev ttsOf := ttOf.ttsOf

end TB.Mbe

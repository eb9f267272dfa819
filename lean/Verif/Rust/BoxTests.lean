import Verif.Rust.UserCode

/-!
# The tests of `TaggedBox` that use it directly

`new` and `new_zst` in `mod tests` of `src/tagged_box.rs`. They make boxes and look into them, and are run by the interpreter of `Rust/Client.lean`. They declare types of their
own at the beginning, which are treated as types of other libraries: a shape and bytes.

Simplified: the items at the beginning of a test are left out. `[e; n]` is `[e, .., e]`. A structure without members is written `S {}`, as the language allows.
-/

set_option autoImplicit false

namespace TB.Rust

open TB.Mbe TB.Macro TB.Source

/-- Leave out the types declared at the beginning, with their attributes; collect the names of those that have no body. -/
def skipTypes : Nat → List TT → List String × List TT
  | 0, ts => ([], ts)
  | n + 1, .atom (.punct "#") :: .group .bracket _ :: r => skipTypes n r
  | n + 1, .atom (.ident k) :: .atom (.ident x) :: t :: r =>
    if k = "enum" ∨ k = "struct" then match t with
      | .group .brace _ => skipTypes n r
      | .atom (.punct ";") => (x :: (skipTypes n r).1, (skipTypes n r).2)
      | t => ([], .atom (.ident k) :: .atom (.ident x) :: t :: r)
    else ([], .atom (.ident k) :: .atom (.ident x) :: t :: r)
  | _ + 1, ts => ([], ts)

/-- What is before the first `;`, and what is after it. -/
def splitAtSemi : List TT → Option (List TT × List TT)
  | [] => none
  | .atom (.punct ";") :: r => some ([], r)
  | t :: r => (splitAtSemi r).map fun x => (t :: x.1, x.2)

mutual
/-- `[e; n]` -/
def repeatTT : TT → TT
  | .group d us => match d, splitAtSemi us with
    | .bracket, some (e, [.atom (.lit n)]) => .group .bracket (commaList (.group .paren e) ((decimal 0 n.toList).getD 0))
    | d, _ => .group d (repeatTTs us)
  | t => t
def repeatTTs : List TT → List TT
  | [] => []
  | t :: ts => repeatTT t :: repeatTTs ts
end

mutual
/-- `S` for `S {}` -/
def unitTT (xs : List String) : TT → List TT
  | .group d us => [.group d (unitTTs xs us)]
  | .atom (.ident x) => if x ∈ xs then [.atom (.ident x), .group .brace []] else [.atom (.ident x)]
  | t => [t]
def unitTTs (xs : List String) : List TT → List TT
  | [] => []
  | t :: ts => unitTT xs t ++ unitTTs xs ts
end

/-- The statements of a test that declares types of its own. -/
def boxTest (f : String) (ls : List (List Char)) : Option (List Stmt) := match parseText ls with
  | some ts => match (testMod ts).bind (fnBody f) with
    | some us => pBlock 100 (unitTTs (skipTypes 100 us).1 (repeatTTs (arrayTTs (skipTypes 100 us).2)))
    | none => none
  | none => none

end TB.Rust

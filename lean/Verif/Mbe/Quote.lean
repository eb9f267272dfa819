import Verif.Mbe.Match

/-!
# Notation for Rust code

`rust% "code"` is the list of token trees of the code. Inside of it, `«e»` stands for the tokens of the Lean term `e` (a name, a type, or a list of
token trees), `⟦ .. ⟧` for an expression that is one node of the syntax tree, and `⟨ .. ⟩` for a path that is one.
-/

set_option autoImplicit false

namespace TB.Mbe

open TB.Macro

/-- What can be inserted into Rust code. -/
class ToTT (α : Type) where
  toTT : α → List TT

instance : ToTT String := ⟨fun s => [.atom (.ident s)]⟩
instance : ToTT Ty := ⟨fun t => [.ty t]⟩
instance : ToTT TT := ⟨fun t => [t]⟩
instance : ToTT (List TT) := ⟨fun ts => ts⟩

section
open Lean Elab Term

/-- The text up to the `»` that closes `n` open `«`, and what follows it. -/
partial def spliceEnd : Nat → List Char → List Char → Option (List Char × List Char)
  | _, [], _ => none
  | n, '«' :: cs, acc => spliceEnd (n + 1) cs ('«' :: acc)
  | n, '»' :: cs, acc => if n ≤ 1 then some (acc.reverse, cs) else spliceEnd (n - 1) cs ('»' :: acc)
  | n, c :: cs, acc => spliceEnd n cs (c :: acc)

/-- Cut out the inserted terms. -/
partial def rustSplices : List Char → List Char → List String → Except String (List Char × List String)
  | [], acc, sp => .ok (acc.reverse, sp.reverse)
  | '«' :: cs, acc, sp =>
    match spliceEnd 1 cs [] with
    | none => .error "» missing"
    | some (a, b') => rustSplices b' ((s!" __splice{sp.length} ").toList.reverse ++ acc) (String.ofList a :: sp)
  | '⟦' :: cs, acc, sp => rustSplices cs (" __expr(".toList.reverse ++ acc) sp
  | '⟨' :: cs, acc, sp => rustSplices cs (" __path(".toList.reverse ++ acc) sp
  | '⟧' :: cs, acc, sp => rustSplices cs (')' :: acc) sp
  | '⟩' :: cs, acc, sp => rustSplices cs (')' :: acc) sp
  | c :: cs, acc, sp => rustSplices cs (c :: acc) sp

def quoteDelim : Delim → TermElabM (TSyntax `term)
  | .paren => `(Delim.paren)
  | .brace => `(Delim.brace)
  | .bracket => `(Delim.bracket)

def quoteAtom : Atom → TermElabM (TSyntax `term)
  | .ident s => `(Atom.ident $(quote s))
  | .punct s => `(Atom.punct $(quote s))
  | .lit s => `(Atom.lit $(quote s))

partial def quoteTTs (sp : Array (TSyntax `term)) : List TT → TermElabM (TSyntax `term)
  | [] => `(([] : List TT))
  | .atom (.punct "$") :: .atom (.ident "crate") :: r => do `(TT.crate :: $(← quoteTTs sp r))
  | .atom (.ident "__expr") :: .group .paren ts :: r => do
    `(TT.frag Kind.expr $(← quoteTTs sp ts) :: $(← quoteTTs sp r))
  | .atom (.ident "__path") :: .group .paren ts :: r => do
    `(TT.frag Kind.path $(← quoteTTs sp ts) :: $(← quoteTTs sp r))
  | .atom (.ident s) :: r => do
    if s.startsWith "__splice" then
      match (s.drop 8).toNat? with
      | some n =>
        let some t := sp[n]? | throwError "rust%"
        if r.isEmpty then `(ToTT.toTT $t) else `(ToTT.toTT $t ++ $(← quoteTTs sp r))
      | none => throwError "rust%"
    else `(TT.atom $(← quoteAtom (.ident s)) :: $(← quoteTTs sp r))
  | .atom a :: r => do `(TT.atom $(← quoteAtom a) :: $(← quoteTTs sp r))
  | .group d ts :: r => do `(TT.group $(← quoteDelim d) $(← quoteTTs sp ts) :: $(← quoteTTs sp r))
  | _ :: _ => throwError "rust%"

elab "rust% " s:str : term <= ty => do
  match rustSplices s.getString.toList [] [] with
  | .error e => throwError e
  | .ok (cs, sp) =>
    let some ts := parseText [cs] | throwError "rust%: cannot read the code"
    let sp ← sp.mapM fun t => do
      match Lean.Parser.runParserCategory (← getEnv) `term t with
      | .ok stx => return (⟨stx⟩ : TSyntax `term)
      | .error e => throwError e
    elabTerm (← quoteTTs sp.toArray ts) ty
end

end TB.Mbe

import Lean.Elab.Tactic
import Verif.Macro.Syntax

/-!
# Rust source text as tokens

A lexer for the part of Rust's lexical syntax that the crate's macros use, and the grouping of tokens into token trees. `rustc` does this before
any macro is looked at (Rust reference, "Tokens" and "Macros by example"). Used on the literal source text in `Source/`.

Simplifications: identifiers are ASCII; comments are `//` to the end of the line (doc comments included: in the crate's macro files they stand
only before `macro_rules!` items, never inside a rule); there are no character literals, block comments or raw strings; a lifetime is read as the
two tokens `'` and its name; operators are glued up to two characters; `_` is a punctuation token (as a macro fragment it is no `ident`); a string literal keeps its quotes and
escapes as they are written.
-/

set_option autoImplicit false

namespace TB.Mbe

open TB.Macro

/-- Tokens that are neither delimiters nor results of parsing. -/
inductive Atom where
  | ident (s : String)
  | punct (s : String)
  | lit (s : String)
deriving DecidableEq, Repr

/-- Tokens as the lexer delivers them. -/
inductive Token where
  | atom (a : Atom)
  | op (d : Delim)
  | cl (d : Delim)

/-- The lexer's state: between tokens; in a word, string, comment; after a punctuation character. -/
inductive LexState where
  | none
  | word (rev : List Char)
  | str (rev : List Char)
  | esc (rev : List Char)
  | comment
  | punct (c : Char)

def isDigit (c : Char) : Bool := 48 ≤ c.toNat && c.toNat ≤ 57
def isWord (c : Char) : Bool :=
  isDigit c || (65 ≤ c.toNat && c.toNat ≤ 90) || (97 ≤ c.toNat && c.toNat ≤ 122) || c.toNat == 95
def isSpace (c : Char) : Bool := c.toNat == 32 || c.toNat == 10

/-- A finished word: a number, `_`, or an identifier. -/
def mkWord (rev : List Char) : Token :=
  match rev.reverse with
  | ['_'] => .atom (.punct "_")
  | c :: cs => if isDigit c then .atom (.lit (String.ofList (c :: cs))) else .atom (.ident (String.ofList (c :: cs)))
  | [] => .atom (.ident "")

/-- The two-character operators. -/
def glue (a b : Char) : Bool :=
  [(':', ':'), ('=', '>'), ('-', '>'), ('=', '='), ('&', '&'), ('|', '|'), ('<', '='), ('>', '='), ('!', '='), ('+', '='),
    ('.', '.')].any fun p => p.1 == a && p.2 == b

/-- A character between tokens. -/
def dispatch (c : Char) (k : LexState → List Token → Option (List Token)) (acc : List Token) : Option (List Token) :=
  if isSpace c then k .none acc
  else if isWord c then k (.word [c]) acc
  else if c == '"' then k (.str [c]) acc
  else if c == '(' then k .none (.op .paren :: acc)
  else if c == ')' then k .none (.cl .paren :: acc)
  else if c == '[' then k .none (.op .bracket :: acc)
  else if c == ']' then k .none (.cl .bracket :: acc)
  else if c == '{' then k .none (.op .brace :: acc)
  else if c == '}' then k .none (.cl .brace :: acc)
  else k (.punct c) acc

/-- The lexer. -/
def lex : List Char → LexState → List Token → Option (List Token)
  | [], .none, acc => some acc.reverse
  | [], .comment, acc => some acc.reverse
  | [], .word r, acc => some (mkWord r :: acc).reverse
  | [], .punct c, acc => some (.atom (.punct (String.ofList [c])) :: acc).reverse
  | [], _, _ => none
  | c :: cs, st, acc => match st with
    | .none => dispatch c (lex cs) acc
    | .word r => if isWord c then lex cs (.word (c :: r)) acc else dispatch c (lex cs) (mkWord r :: acc)
    | .str r =>
      if c == '"' then lex cs .none (.atom (.lit (String.ofList (c :: r).reverse)) :: acc)
      else if c == '\\' then lex cs (.esc (c :: r)) acc
      else lex cs (.str (c :: r)) acc
    | .esc r => lex cs (.str (c :: r)) acc
    | .comment => if c.toNat == 10 then lex cs .none acc else lex cs .comment acc
    | .punct p =>
      if p == '/' && c == '/' then lex cs .comment acc
      else if glue p c then lex cs .none (.atom (.punct (String.ofList [p, c])) :: acc)
      else dispatch c (lex cs) (.atom (.punct (String.ofList [p])) :: acc)

/-- The tokens of a text given in pieces, normally line by line (no token goes over the end of a piece: lines inside of a string literal are in one
piece, with their line ends). -/
def lexLines : List (List Char) → Option (List Token)
  | [] => some []
  | l :: ls => match lex l .none [], lexLines ls with
    | some a, some b => some (a ++ b)
    | _, _ => none

/-- Fragment specifiers that occur in the crate's macros. -/
inductive Kind where
  | ident | ty | tt | expr | path | vis | metaItem | literal
deriving DecidableEq, Repr

/-- Token trees, as macros see them. `ty` and `frag` are fragments that have already been parsed: a macro that receives them from another macro
sees one opaque token (Rust reference, "Forwarding a fragment"). `other` is any token of a type in the user's declaration that is no
identifier, `,`, `:` or group. -/
inductive TT where
  | atom (a : Atom)
  /-- `$crate` -/
  | crate
  | other (s : String)
  | group (d : Delim) (ts : List TT)
  | ty (t : Ty)
  | frag (k : Kind) (ts : List TT)

/-- Group tokens by delimiters. -/
def trees : List Token → List (Delim × List TT) → List TT → Option (List TT)
  | [], [], cur => some cur.reverse
  | [], _ :: _, _ => none
  | .atom a :: ts, st, cur => trees ts st (.atom a :: cur)
  | .op d :: ts, st, cur => trees ts ((d, cur) :: st) []
  | .cl d :: ts, (d', prev) :: st, cur => if d = d' then trees ts st (.group d cur.reverse :: prev) else none
  | .cl _ :: _, [], _ => none

/-- The token trees of a text. -/
def parseText (ls : List (List Char)) : Option (List TT) :=
  match lexLines ls with
  | some ts => trees ts [] []
  | none => none

/-! ## Notation -/

/-- `src% "text"`: the list of the characters of a text. -/
elab "src% " s:str : term => return Lean.toExpr s.getString.toList

open Lean Elab Meta Tactic in
/-- Prove an equation by computation in the kernel, without computing it in the elaborator first. -/
elab "kernel_rfl" : tactic => do
  let g ← getMainGoal
  let some (_, lhs, _) := (← g.getType).eq? | throwError "kernel_rfl: not an equation"
  g.assign (← mkEqRefl lhs)

end TB.Mbe

import Verif.Mbe.Lex

/-!
# `macro_rules!` definitions

The rules of a `macro_rules!` item: matchers and transcribers, read from token trees (Rust reference, "Macros by example").

Simplification: the repetition operator `?` is not read (the crate does not use it).
-/

set_option autoImplicit false

namespace TB.Mbe

open TB.Macro

/-- `*` or `+` -/
inductive Rep where
  | star | plus
deriving DecidableEq, Repr

/-- Matchers. -/
inductive MP where
  | tok (a : Atom)
  | group (d : Delim) (ps : List MP)
  /-- `$x:kind` -/
  | var (x : String) (k : Kind)
  /-- `$( .. ) sep op` -/
  | rep (ps : List MP) (sep : Option Atom) (op : Rep)

/-- Transcribers. -/
inductive MB where
  | tok (a : Atom)
  /-- `$crate` -/
  | crate
  /-- `$x` -/
  | var (x : String)
  | group (d : Delim) (bs : List MB)
  /-- `$( .. ) sep op` -/
  | rep (bs : List MB) (sep : Option Atom)

/-- One rule. -/
abbrev Rule := List MP × List MB

def Kind.ofString (s : String) : Option Kind :=
  if s = "ident" then some .ident else if s = "ty" then some .ty else if s = "tt" then some .tt
  else if s = "expr" then some .expr else if s = "path" then some .path else if s = "vis" then some .vis
  else if s = "meta" then some .metaItem else if s = "literal" then some .literal else none

/-- What follows `$( .. )`: separator and operator. -/
def parseRep : List TT → Option (Option Atom × Rep × List TT)
  | .atom (.punct "*") :: r => some (none, .star, r)
  | .atom (.punct "+") :: r => some (none, .plus, r)
  | .atom a :: .atom (.punct "*") :: r => some (some a, .star, r)
  | .atom a :: .atom (.punct "+") :: r => some (some a, .plus, r)
  | _ => none

/-- Read a matcher; `fuel` bounds the number of token trees. -/
def parseMatcher : Nat → List TT → Option (List MP)
  | 0, _ => none
  | _ + 1, [] => some []
  | n + 1, .atom (.punct "$") :: .atom (.ident x) :: .atom (.punct ":") :: .atom (.ident k) :: r =>
    match Kind.ofString k, parseMatcher n r with
    | some k, some ps => some (.var x k :: ps)
    | _, _ => none
  | n + 1, .atom (.punct "$") :: .group .paren ts :: r =>
    match parseMatcher n ts, parseRep r with
    | some body, some (sep, op, r') => match parseMatcher n r' with
      | some ps => some (.rep body sep op :: ps)
      | none => none
    | _, _ => none
  | n + 1, .group d ts :: r =>
    match parseMatcher n ts, parseMatcher n r with
    | some body, some ps => some (.group d body :: ps)
    | _, _ => none
  | n + 1, .atom a :: r => match parseMatcher n r with
    | some ps => some (.tok a :: ps)
    | none => none
  | _ + 1, _ :: _ => none

/-- Read a transcriber. -/
def parseTranscriber : Nat → List TT → Option (List MB)
  | 0, _ => none
  | _ + 1, [] => some []
  | n + 1, .atom (.punct "$") :: .atom (.ident x) :: r =>
    match parseTranscriber n r with
    | some bs => some ((if x = "crate" then .crate else .var x) :: bs)
    | none => none
  | n + 1, .atom (.punct "$") :: .group .paren ts :: r =>
    match parseTranscriber n ts, parseRep r with
    | some body, some (sep, _, r') => match parseTranscriber n r' with
      | some bs => some (.rep body sep :: bs)
      | none => none
    | _, _ => none
  | n + 1, .group d ts :: r =>
    match parseTranscriber n ts, parseTranscriber n r with
    | some body, some bs => some (.group d body :: bs)
    | _, _ => none
  | n + 1, .atom a :: r => match parseTranscriber n r with
    | some bs => some (.tok a :: bs)
    | none => none
  | _ + 1, _ :: _ => none

/-- Bound on the number of token trees in a rule, more than enough for the crate's macros. -/
def ruleFuel : Nat := 2000

/-- The rules inside `macro_rules! name { .. }`. -/
def parseRules : Nat → List TT → Option (List Rule)
  | 0, _ => none
  | _ + 1, [] => some []
  | n + 1, .group _ m :: .atom (.punct "=>") :: .group _ b :: r =>
    match parseMatcher ruleFuel m, parseTranscriber ruleFuel b with
    | some m, some b =>
      match parseRules n (match r with
        | .atom (.punct ";") :: r' => r'
        | r => r) with
      | some rs => some ((m, b) :: rs)
      | none => none
    | _, _ => none
  | _ + 1, _ :: _ => none

/-- The body of `macro_rules! name { .. }` among the items of a file. -/
def findMacro (name : String) : List TT → Option (List TT)
  | [] => none
  | .atom (.ident "macro_rules") :: .atom (.punct "!") :: .atom (.ident x) :: .group .brace ts :: r =>
    if x = name then some ts else findMacro name r
  | _ :: r => findMacro name r

/-- The rules of the macro `name` among the items of a file. -/
def macroRules (ts : List TT) (name : String) : Option (List Rule) :=
  match findMacro name ts with
  | some b => parseRules 100 b
  | none => none

/-- The rules of several macros of a file. -/
def macrosIn (ls : List (List Char)) (names : List String) : Option (List (List Rule)) :=
  match parseText ls with
  | some ts => names.mapM (macroRules ts)
  | none => none

end TB.Mbe

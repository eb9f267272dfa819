import Verif.Mbe.Rules

/-!
# Macro expansion by example

Matching of a macro invocation against the rules of a `macro_rules!` macro, and transcription (Rust reference, "Macros by example"; `rustc`'s
`compiler/rustc_expand/src/mbe`).

`rustc` matches without backtracking and with one token of lookahead. It follows all alternatives (go on with a repetition or leave it) at once and
reports an ambiguity if more than one of them remains and one of these is a fragment. `matchL` decides with the same lookahead and reports
an ambiguity (`.fatal`) whenever both alternatives can begin with the next token; so the two differ only where both begin with the same
literal token, which does not happen in the crate's macros.

Fragments:
* `ty` on the user's tokens is the compiler's parser, the arbitrary `Rustc.parseTy` (see `Macro/Syntax.lean`); on an already parsed type it is that
  type. On any other tokens it is not modelled (`.fatal`).
* `expr`: everything up to the next `,`, `;` or `=>` (these are the only tokens a rule may have after an `expr`). For tokens that are no expression, where
  `rustc` reports a hard error, the model goes on; the crate's macros pass only expressions.
* `path`: a name or `$crate` followed by `::name`s, without generic arguments.
* `meta`: a path, then possibly a delimited group or `= literal`.
* `vis`: `pub`, `pub(crate)`, `pub(self)`, `pub(super)`, `pub(in ..)`, or nothing.
-/

set_option autoImplicit false

namespace TB.Mbe

open TB.Macro

/-! ## Fragments -/

/-- The tokens of the user's declaration, among token trees. -/
def TT.toTok : TT → Option Tok
  | .atom (.ident s) => some (.ident s)
  | .atom (.punct s) => if s = "," then some .comma else if s = ":" then some .colon else some (.other s)
  | .atom (.lit s) => some (.other s)
  | .other s => some (.other s)
  | .group d ts => (toToks ts).map (.group d)
  | .crate => none
  | .ty _ => none
  | .frag _ _ => none
where
  toToks : List TT → Option (List Tok)
    | [] => some []
    | t :: ts => match t.toTok, toToks ts with
      | some a, some as => some (a :: as)
      | _, _ => none

/-- `$x:ty`. The compiler's parser is asked about tokens of the source; before a fragment that was parsed earlier, only whether a type can begin with the
first token. -/
def tyFrag (rc : Rustc) : List TT → MR (TT × List TT)
  | [] => .no
  | .ty t :: r => .yes (.ty t, r)
  | t :: r => match TT.toTok.toToks (t :: r) with
    | none => match t.toTok.map fun a => rc.parseTy [a] with
      | some .noStart => .no
      | _ => .fatal
    | some toks => match rc.parseTy toks with
      | .noStart => .no
      | .fatal => .fatal
      | .ok ty n => .yes (.ty ty, (t :: r).drop (n + 1))

/-- Tokens with which an expression can begin. -/
def exprStart : TT → Bool
  | .atom (.ident _) => true
  | .atom (.lit _) => true
  | .atom (.punct s) => ["-", "*", "&", "&&", "!", "|", "||", "..", "<", "::", "#"].contains s
  | .crate => true
  | .group _ _ => true
  | .frag k _ => k = .expr || k = .path || k = .literal
  | .ty _ => false
  | .other _ => false

/-- Tokens that end an `expr` fragment. -/
def exprEnd : TT → Bool
  | .atom a => a = .punct "," || a = .punct ";" || a = .punct "=>"
  | _ => false

/-- Split before the first token that ends an expression. -/
def exprSpan : List TT → List TT × List TT
  | [] => ([], [])
  | t :: ts => if exprEnd t then ([], t :: ts) else (t :: (exprSpan ts).1, (exprSpan ts).2)

/-- A single forwarded expression is forwarded as it is. -/
def mkExpr : List TT → TT
  | [.frag .expr e] => .frag .expr e
  | es => .frag .expr es

/-- `$x:expr` -/
def exprFrag : List TT → MR (TT × List TT)
  | [] => .no
  | t :: ts => if exprStart t then .yes (mkExpr (exprSpan (t :: ts)).1, (exprSpan (t :: ts)).2) else .no

/-- `::name` any number of times. -/
def pathRest : List TT → List TT × List TT
  | .atom (.punct s) :: .atom (.ident x) :: r =>
    if s = "::" then (.atom (.punct "::") :: .atom (.ident x) :: (pathRest r).1, (pathRest r).2)
    else ([], .atom (.punct s) :: .atom (.ident x) :: r)
  | r => ([], r)

/-- `$x:path` -/
def pathFrag : List TT → MR (TT × List TT)
  | .frag .path p :: r => .yes (.frag .path p, r)
  | .atom (.ident x) :: r => .yes (.frag .path (.atom (.ident x) :: (pathRest r).1), (pathRest r).2)
  | .crate :: r => .yes (.frag .path (.crate :: (pathRest r).1), (pathRest r).2)
  | .atom (.punct s) :: _ => if s = "::" then .fatal else .no
  | _ => .no

/-- What can follow the path in an attribute. -/
def metaRest : List TT → List TT × List TT
  | .group d ts :: r => ([.group d ts], r)
  | .atom (.punct s) :: .atom (.lit l) :: r =>
    if s = "=" then ([.atom (.punct "="), .atom (.lit l)], r) else ([], .atom (.punct s) :: .atom (.lit l) :: r)
  | r => ([], r)

/-- `$x:meta` -/
def metaFrag : List TT → MR (TT × List TT)
  | .frag .metaItem p :: r => .yes (.frag .metaItem p, r)
  | .atom (.ident x) :: r =>
    .yes (.frag .metaItem (.atom (.ident x) :: (pathRest r).1 ++ (metaRest (pathRest r).2).1), (metaRest (pathRest r).2).2)
  | .crate :: r =>
    .yes (.frag .metaItem (.crate :: (pathRest r).1 ++ (metaRest (pathRest r).2).1), (metaRest (pathRest r).2).2)
  | .atom (.punct s) :: _ => if s = "::" then .fatal else .no
  | _ => .no

/-- Tokens at which a visibility, possibly the empty one, can be. -/
def visStart : TT → Bool
  | .atom (.ident _) => true
  | .atom (.punct s) => [",", "!", "*", "&", "&&", "?", "<", "::"].contains s
  | .atom (.lit _) => false
  | .crate => true
  | .group d _ => d ≠ .brace
  | .frag _ _ => true
  | .ty _ => true
  | .other _ => false

/-- `(crate)`, `(self)`, `(super)`, `(in ..)` after `pub` -/
def visArg : TT → Bool
  | .group .paren [.atom (.ident s)] => s = "crate" || s = "self" || s = "super"
  | .group .paren (.atom (.ident s) :: _ :: _) => s = "in"
  | _ => false

/-- `$x:vis` -/
def visFrag : List TT → MR (TT × List TT)
  | [] => .no
  | .frag .vis v :: r => .yes (.frag .vis v, r)
  | .atom (.ident s) :: r =>
    if s = "pub" then
      match r with
      | g :: r' => if visArg g then .yes (.frag .vis [.atom (.ident "pub"), g], r') else .yes (.frag .vis [.atom (.ident "pub")], g :: r')
      | [] => .yes (.frag .vis [.atom (.ident "pub")], [])
    else .yes (.frag .vis [], .atom (.ident s) :: r)
  | t :: r => if visStart t then .yes (.frag .vis [], t :: r) else .no

/-- Parse a fragment at the beginning of the tokens. `.no`: none can begin here. `.fatal`: a hard error. -/
def parseFrag (rc : Rustc) : Kind → List TT → MR (TT × List TT)
  | .ident, .atom (.ident s) :: r => .yes (.atom (.ident s), r)
  | .ident, _ => .no
  | .tt, t :: r => .yes (t, r)
  | .tt, [] => .no
  | .ty, ts => tyFrag rc ts
  | .expr, ts => exprFrag ts
  | .path, ts => pathFrag ts
  | .vis, ts => visFrag ts
  | .metaItem, ts => metaFrag ts
  | .literal, .atom (.lit s) :: r => .yes (.atom (.lit s), r)
  | .literal, .frag .literal l :: r => .yes (.frag .literal l, r)
  | .literal, _ => .no

/-! ## Matching -/

/-- What a metavariable is bound to. -/
inductive Bind where
  | one (t : TT)
  | many (bs : List Bind)

/-- Bindings of the metavariables. -/
abbrev Env := List (String × Bind)

def Env.find (x : String) : Env → Option Bind
  | [] => none
  | (y, b) :: e => if y = x then some b else Env.find x e

mutual
/-- The metavariables of a matcher. -/
def MP.vars : MP → List String
  | .tok _ => []
  | .group _ ps => MP.varsL ps
  | .var x _ => [x]
  | .rep ps _ _ => MP.varsL ps
def MP.varsL : List MP → List String
  | [] => []
  | p :: ps => MP.vars p ++ MP.varsL ps
end

/-- Is the next token this one? -/
def headIs (a : Atom) : List TT → Bool
  | .atom b :: _ => a = b
  | _ => false

/-- Is the next token an opening delimiter? -/
def headOpen (d : Delim) : List TT → Bool
  | .group d' _ :: _ => d = d'
  | _ => false

def _root_.TB.Macro.MR.isNo {α : Type} : MR α → Bool
  | .no => true
  | _ => false

mutual
/-- Can the matcher begin with the next token? `fol` is what comes after it. -/
def MP.starts (rc : Rustc) (fol : List TT → Bool) (ts : List TT) : MP → Bool
  | .tok a => headIs a ts
  | .group d _ => headOpen d ts
  | .var _ k => !(parseFrag rc k ts).isNo
  | .rep ps _ op => MP.startsL rc (fun _ => false) ts ps || (op = .star && fol ts)
def MP.startsL (rc : Rustc) (fol : List TT → Bool) (ts : List TT) : List MP → Bool
  | [] => fol ts
  | p :: ps => MP.starts rc (fun ts => MP.startsL rc fol ts ps) ts p
end

/-- The iterations of a repetition, from one iteration on. `one` matches one iteration, `sB` and `sF` tell whether another iteration or what follows
the repetition can begin with the next token. -/
def repItems (one : List TT → MR (Env × List TT)) (sB sF : List TT → Bool) (sep : Option Atom) :
    Nat → List TT → MR (List Env × List TT)
  | 0, _ => .no
  | n + 1, ts => match one ts with
    | .no => .no
    | .fatal => .fatal
    | .yes (e, ts') => match sep with
      | none =>
        if sB ts' then if sF ts' then .fatal else (repItems one sB sF sep n ts').map fun r => (e :: r.1, r.2)
        else if sF ts' then .yes ([e], ts') else .no
      | some a =>
        if headIs a ts' then
          if sF ts' then .fatal else (repItems one sB sF sep n ts'.tail).map fun r => (e :: r.1, r.2)
        else if sF ts' then .yes ([e], ts') else .no

/-- A repetition. -/
def repMatch (one : List TT → MR (Env × List TT)) (sB sF : List TT → Bool) (sep : Option Atom) (op : Rep) (ts : List TT) :
    MR (List Env × List TT) :=
  if sB ts then if op = .star && sF ts then .fatal else repItems one sB sF sep (ts.length + 1) ts
  else if op = .star && sF ts then .yes ([], ts) else .no

/-- The bindings after a repetition. -/
def collect (xs : List String) (es : List Env) : Env :=
  xs.map fun x => (x, .many (es.map fun e => ((e.find x).getD (.many []))))

/-- Match a list of matchers at the beginning of the tokens; `fol` tells whether what comes after it can begin with the next token. -/
def matchL (rc : Rustc) (fol : List TT → Bool) : List MP → List TT → MR (Env × List TT)
  | [], ts => .yes ([], ts)
  | .tok a :: ps, ts => if headIs a ts then matchL rc fol ps ts.tail else .no
  | .group d qs :: ps, ts => match ts with
    | .group d' us :: r =>
      if d = d' then
        match matchL rc List.isEmpty qs us with
        | .no => .no
        | .fatal => .fatal
        | .yes (e, []) => (matchL rc fol ps r).map fun x => (e ++ x.1, x.2)
        | .yes (_, _ :: _) => .no
      else .no
    | _ => .no
  | .var x k :: ps, ts => match parseFrag rc k ts with
    | .no => .no
    | .fatal => .fatal
    | .yes (t, r) => (matchL rc fol ps r).map fun y => ((x, .one t) :: y.1, y.2)
  | .rep qs sep op :: ps, ts =>
    match repMatch
        (matchL rc (fun us => (match sep with
          | none => MP.startsL rc (fun _ => false) us qs
          | some a => headIs a us) || MP.startsL rc fol us ps) qs)
        (fun us => MP.startsL rc (fun _ => false) us qs) (fun us => MP.startsL rc fol us ps) sep op ts with
    | .no => .no
    | .fatal => .fatal
    | .yes (es, r) => (matchL rc fol ps r).map fun y => (collect (MP.varsL qs) es ++ y.1, y.2)

/-- Match the whole input of an invocation. -/
def matchAll (rc : Rustc) (ps : List MP) (ts : List TT) : MR Env :=
  match matchL rc List.isEmpty ps ts with
  | .no => .no
  | .fatal => .fatal
  | .yes (e, []) => .yes e
  | .yes (_, _ :: _) => .no

/-! ## Transcription -/

mutual
/-- The metavariables of a transcriber. -/
def MB.vars : MB → List String
  | .tok _ => []
  | .crate => []
  | .var x => [x]
  | .group _ bs => MB.varsL bs
  | .rep bs _ => MB.varsL bs
def MB.varsL : List MB → List String
  | [] => []
  | b :: bs => MB.vars b ++ MB.varsL bs
end

/-- The number of iterations of the metavariables that are bound to repetitions. -/
def Env.lens (e : Env) : List String → List Nat
  | [] => []
  | x :: xs => match e.find x with
    | some (.many bs) => bs.length :: e.lens xs
    | _ => e.lens xs

/-- The number of iterations: all these metavariables must have the same number, and there must be one. -/
def Env.iters (e : Env) (xs : List String) : Option Nat :=
  match e.lens xs with
  | [] => none
  | n :: ns => if ns.all (· = n) then some n else none

/-- The bindings in iteration `i`. -/
def Env.at (e : Env) (i : Nat) : Env :=
  e.map fun p => (p.1, match p.2 with
    | .one t => .one t
    | .many bs => (bs[i]?).getD (.many bs))

/-- Put a separator between the iterations. -/
def joinSep (sep : Option Atom) : List (List TT) → List TT
  | [] => []
  | [x] => x
  | x :: y :: r => x ++ (match sep with
    | none => []
    | some a => [.atom a]) ++ joinSep sep (y :: r)

/-- All or nothing. -/
def allSome {α : Type} : List (Option α) → Option (List α)
  | [] => some []
  | none :: _ => none
  | some a :: r => (allSome r).map (a :: ·)

/-- Transcribe. A `$x` that is not bound stands for itself. -/
def transL (e : Env) : List MB → Option (List TT)
  | [] => some []
  | .tok a :: bs => (transL e bs).map (.atom a :: ·)
  | .crate :: bs => (transL e bs).map (.crate :: ·)
  | .var x :: bs => match e.find x with
    | some (.one t) => (transL e bs).map (t :: ·)
    | some (.many _) => none
    | none => (transL e bs).map fun r => .atom (.punct "$") :: .atom (.ident x) :: r
  | .group d cs :: bs => match transL e cs, transL e bs with
    | some a, some b => some (.group d a :: b)
    | _, _ => none
  | .rep cs sep :: bs => match e.iters (MB.varsL cs) with
    | none => none
    | some n => match allSome ((List.range n).map fun i => transL (e.at i) cs), transL e bs with
      | some xs, some b => some (joinSep sep xs ++ b)
      | _, _ => none

/-- Apply a macro to its input: the first rule that matches. `none`: an error. -/
def applyRules (rc : Rustc) : List Rule → List TT → Option (List TT)
  | [], _ => none
  | (m, b) :: rs, ts => match matchAll rc m ts with
    | .yes e => transL e b
    | .fatal => none
    | .no => applyRules rc rs ts

end TB.Mbe

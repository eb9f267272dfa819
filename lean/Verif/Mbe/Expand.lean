import Verif.Mbe.Match

/-!
# Expanding all macro invocations

`Expands rc ms stmts beg ts out`: the tokens `ts`, in which macros `ms` may be invoked, become `out` when all invocations are expanded, outermost first.

An invocation `$crate::m!(..)` stands for statements (or items) or for an expression. It stands for statements if it is where a statement can begin
(first in a group, after `;` or after a group in braces) and its delimiters are braces, or `;` follows, or it is the last thing in what another
macro in statement position produced; otherwise for an expression (`rustc_parse`, `parse_stmt_mac`).
An expression is one node of the syntax tree whatever its tokens are, so it is kept together as one `frag`; a `;` at its end is dropped
(`rustc` accepts it with a warning). The other macros the crate uses (`panic!`, `stringify!`) are left alone; `compile_error!` has no
expansion.
-/

set_option autoImplicit false

namespace TB.Mbe

open TB.Macro

/-- What the tokens begin with. -/
inductive Head where
  | done
  /-- `$crate::m!(args)` -/
  | call (m : String) (d : Delim) (args : List TT) (rest : List TT)
  /-- `compile_error!` -/
  | error
  | group (d : Delim) (ts : List TT) (rest : List TT)
  | plain (t : TT) (rest : List TT)

/-- `:: m ! (args)` after `$crate` -/
def callOf : List TT → Option (String × Delim × List TT × List TT)
  | .atom (.punct a) :: .atom (.ident m) :: .atom (.punct b) :: .group d args :: rest =>
    if a = "::" ∧ b = "!" then some (m, d, args, rest) else none
  | _ => none

def headOf : List TT → Head
  | [] => .done
  | .crate :: r => match callOf r with
    | some (m, d, args, rest) => .call m d args rest
    | none => .plain .crate r
  | .atom (.ident s) :: r => if s = "compile_error" ∧ headIs (.punct "!") r then .error else .plain (.atom (.ident s)) r
  | .group d ts :: r => .group d ts r
  | t :: r => .plain t r

/-- Does an invocation with delimiters `d`, followed by `rest`, stand for statements? `beg`: it is where a statement can begin. -/
def isStmt (stmts beg : Bool) (d : Delim) (rest : List TT) : Bool :=
  beg && (d = .brace || headIs (.punct ";") rest || (stmts && rest.isEmpty))

/-- Can a statement begin after this token? -/
def endsStmt : TT → Bool
  | .atom a => a = .punct ";"
  | .group d _ => d = .brace
  | _ => false

/-- Drop a `;` at the end. -/
def dropSemi : List TT → List TT
  | [] => []
  | [t] => if headIs (.punct ";") [t] then [] else [t]
  | t :: u :: r => t :: dropSemi (u :: r)

/-- `stmts`: the tokens are the rest of what a macro in statement (or item) position produced; `beg`: a statement can begin here. -/
inductive Expands (rc : Rustc) (ms : String → Option (List Rule)) : (stmts beg : Bool) → List TT → List TT → Prop where
  | done {s b : Bool} {ts : List TT} (h : headOf ts = .done) : Expands rc ms s b ts []
  | plain {s b : Bool} {ts rest out : List TT} {t : TT} (h : headOf ts = .plain t rest)
      (hr : Expands rc ms s (endsStmt t) rest out) : Expands rc ms s b ts (t :: out)
  | group {s b : Bool} {ts us rest o out : List TT} {d : Delim} (h : headOf ts = .group d us rest)
      (hg : Expands rc ms false true us o) (hr : Expands rc ms s (decide (d = .brace)) rest out) :
      Expands rc ms s b ts (.group d o :: out)
  | stmts {s b : Bool} {ts args rest body o out : List TT} {m : String} {d : Delim} {rules : List Rule}
      (h : headOf ts = .call m d args rest) (hs : isStmt s b d rest = true) (hm : ms m = some rules)
      (ha : applyRules rc rules args = some body) (hb : Expands rc ms true true body o) (hr : Expands rc ms s true rest out) :
      Expands rc ms s b ts (o ++ out)
  | expr {s b : Bool} {ts args rest body o out : List TT} {m : String} {d : Delim} {rules : List Rule}
      (h : headOf ts = .call m d args rest) (hs : isStmt s b d rest = false) (hm : ms m = some rules)
      (ha : applyRules rc rules args = some body) (hb : Expands rc ms false false (dropSemi body) o)
      (hr : Expands rc ms s false rest out) :
      Expands rc ms s b ts (mkExpr o :: out)

end TB.Mbe

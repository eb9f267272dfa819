import Verif.Rust.Parse
import Verif.Config

/-!
# A small interpreter for build scripts

Runs the `main` of a program that reads environment variables and prints, in the syntax of `Rust/Syntax.lean`. References to strings are the strings. What goes to
stderr (`dbg!`) is not recorded. Anything else is stuck (`none`).
-/

set_option autoImplicit false

namespace TB.Rust

/-- Values. -/
inductive SV where
  | unit
  | str (s : List Char)
  | ok (v : SV)
  | err

/-- The text of a string literal as written. (With escapes: none.) -/
def strLit (s : String) : Option (List Char) := match s.toList with
  | '"' :: r => if r.getLast? = some '"' ∧ '\\' ∉ r then some r.dropLast else none
  | _ => none

/-- `std::env::var` -/
def envValue : EnvVar → SV
  | .ok s => .ok (.str s.toList)
  | _ => .err

/-- `format!`: `{}` stands for the next argument, `{{` and `}}` for braces. -/
def fmtText : List Char → List (List Char) → Option (List Char)
  | [], [] => some []
  | [], _ :: _ => none
  | '{' :: '}' :: r, a :: as => (fmtText r as).map (a ++ ·)
  | '{' :: '{' :: r, as => (fmtText r as).map ('{' :: ·)
  | '}' :: '}' :: r, as => (fmtText r as).map ('}' :: ·)
  | c :: r, as => if c = '{' ∨ c = '}' then none else (fmtText r as).map (c :: ·)

/-- Whether a pattern matches: with which bindings. `none`: the pattern is not supported. -/
def spat : Pat → SV → Option (Option (List (String × SV)))
  | .wild, _ => some (some [])
  | .bind x, v => some (some [(x, v)])
  | .lit s, .str t => (strLit s).map fun u => if u = t then some [] else none
  | .call [("Ok", [])] [.bind x], .ok v => some (some [(x, v)])
  | .call [("Ok", [])] [.bind _], .err => some none
  | _, _ => none

/-- The strings among values. -/
def sstrs : List SV → Option (List (List Char))
  | [] => some []
  | .str s :: r => (sstrs r).map (s :: ·)
  | _ :: _ => none

section
variable (env : List Char → EnvVar)

mutual
/-- Evaluate, in scope `ls`, having printed `out`: the value and what has been printed then. -/
def sev : Nat → List (String × SV) → List Char → Expr → Option (SV × List Char)
  | 0, _, _, _ => none
  | n + 1, ls, out, e => match e with
    | .lit s => (strLit s).map fun t => (.str t, out)
    | .path [(x, [])] => (ls.lookup x).map fun v => (v, out)
    | .ref _ e => sev n ls out e
    | .un .deref e => sev n ls out e
    | .call (.path [("std", []), ("env", []), ("var", [])]) [a] => match sev n ls out a with
      | some (.str x, out) => some (envValue (env x), out)
      | _ => none
    | .mac "dbg" [e] => sev n ls out e
    | .mac "println" (.lit f :: as) => match strLit f, sevs n ls out as with
      | some f, some (vs, out) => match sstrs vs with
        | some ts => (fmtText f ts).map fun t => (.unit, out ++ (t ++ ['\n']))
        | none => none
      | _, _ => none
    | .block ss => sblock n ls out ss
    | .iflet p c t e => match sev n ls out c with
      | some (v, out) => match spat p v with
        | some (some bs) => sev n (bs ++ ls) out t
        | some none => match e with
          | some e => sev n ls out e
          | none => some (.unit, out)
        | none => none
      | none => none
    | .mtch e arms => match sev n ls out e with
      | some (v, out) => sarms n ls out v arms
      | none => none
    | _ => none

/-- The arms of a `match`: the first that matches. -/
def sarms : Nat → List (String × SV) → List Char → SV → List (Pat × Option Expr × Expr) → Option (SV × List Char)
  | 0, _, _, _, _ => none
  | _ + 1, _, _, _, [] => none
  | n + 1, ls, out, v, (p, g, e) :: arms => match spat p v, g with
    | some (some bs), none => sev n (bs ++ ls) out e
    | some none, none => sarms n ls out v arms
    | _, _ => none

/-- Several expressions. -/
def sevs : Nat → List (String × SV) → List Char → List Expr → Option (List SV × List Char)
  | 0, _, _, _ => none
  | _ + 1, _, out, [] => some ([], out)
  | n + 1, ls, out, e :: es => match sev n ls out e with
    | some (v, out) => (sevs n ls out es).map fun r => (v :: r.1, r.2)
    | none => none

/-- A block. -/
def sblock : Nat → List (String × SV) → List Char → List Stmt → Option (SV × List Char)
  | 0, _, _, _ => none
  | _ + 1, _, out, [] => some (.unit, out)
  | n + 1, ls, out, .tail e :: ss => match sev n ls out e, ss with
    | some r, [] => some r
    | some (_, out), ss => sblock n ls out ss
    | none, _ => none
  | n + 1, ls, out, .semi e :: ss => match sev n ls out e with
    | some (_, out) => sblock n ls out ss
    | none => none
  | _ + 1, _, _, _ :: _ => none
end

/-- Run a program with the environment `env`: what it prints. -/
def runMain (is : List Item) : Option (List Char) := match is with
  | [.fn f] => if f.name = "main" ∧ f.params.isEmpty then (sblock env 200 [] [] f.body).map (·.2) else none
  | _ => none

end

end TB.Rust

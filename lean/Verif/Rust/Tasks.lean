import Verif.Rust.Script
import Verif.Build
import Verif.Source.MakeText

/-!
# The tasks of `Makefile.toml`

The scripts of the tasks are Rust programs. Here they are taken out of the text of the file, parsed (by the parser of `Rust/Parse.lean`; the one loop is taken apart first), and run by a small interpreter. What they do to
the outside is set the environment variable and run cargo; both are recorded as operations of `Build.lean`. Anything else is stuck (`none`).
-/

set_option autoImplicit false

namespace TB.Rust.Tasks

open TB.Mbe TB.Source TB.Rust

/-! ## Parsing -/

/-- The lines of the script of a task: after `[tasks.name]`, between `script = ['''` and `''']`. -/
noncomputable def taskLines (name : String) : List (List Char) :=
  (((makeText.dropWhile (· != ("[tasks." ++ name ++ "]").toList)).dropWhile (· != "script = ['''".toList)).drop 1).takeWhile (· != "''']".toList)

/-- `pre for x in xs { body } post` -/
structure Task where
  pre : List Stmt
  x : String
  xs : String
  body : List Stmt
  post : List Stmt

/-- A token other than `for`. -/
def notFor : TT → Bool
  | .atom (.ident k) => k != "for"
  | _ => true

/-- What is between the braces of `main`, which is the last function. -/
def pTask (n : Nat) (ts : List TT) : Option Task := match ts.reverse with
  | .group .brace b :: .group .paren [] :: .atom (.ident "main") :: .atom (.ident "fn") :: _ => match b.dropWhile notFor with
    | .atom (.ident "for") :: .atom (.ident x) :: .atom (.ident "in") :: .atom (.ident xs) :: .group .brace body :: post =>
      match pBlock n (b.takeWhile notFor), pBlock n body, pBlock n post with
      | some pre, some body, some post => some ⟨pre, x, xs, body, post⟩
      | _, _, _ => none
    | _ => none
  | _ => none

/-- The program of a task. -/
noncomputable def makeTask (name : String) : Option Task := match parseText (taskLines name) with
  | some ts => pTask 60 ts
  | none => none

/-! ## Running -/

/-- Values. -/
inductive TV where
  | unit
  | bool (b : Bool)
  | num (n : Nat)
  | str (s : List Char)
  | strs (l : List (List Char))
  /-- a `Command` with its arguments -/
  | cmd (prog : List Char) (args : List (List Char))
  /-- `Ok(v)` -/
  | ok (v : TV)
  /-- `Output`, and `ExitStatus`: whether it is a success -/
  | output (b : Bool)
  | status (b : Bool)

/-- What happened so far, and what was printed. -/
structure TWorld where
  ops : List BuildOp
  out : List Char

inductive TOut (α : Type) where
  | ret (a : α) (ls : List (String × TV)) (w : TWorld)
  | exit (code : Nat) (w : TWorld)
  | stuck

def TOut.bind {α β : Type} (o : TOut α) (f : α → List (String × TV) → TWorld → TOut β) : TOut β := match o with
  | .ret a ls w => f a ls w
  | .exit c w => .exit c w
  | .stuck => .stuck

/-- A number as written. -/
def numLit (s : List Char) : Option Nat := if s ≠ [] ∧ s.all Char.isDigit then some (s.foldl (fun n c => n * 10 + (c.toNat - 48)) 0) else none

def litTV (s : String) : Option TV := match strLit s with
  | some t => some (.str t)
  | none => (numLit s.toList).map .num

def strsOf : List TV → Option (List (List Char))
  | [] => some []
  | .str s :: r => (strsOf r).map (s :: ·)
  | _ :: _ => none

/-- `push`: change the innermost variable of this name. -/
def setTV (x : String) (v : TV) : List (String × TV) → List (String × TV)
  | [] => []
  | (y, u) :: ls => if x = y then (y, v) :: ls else (y, u) :: setTV x v ls

section
variable (show' : Bool → List Char) (pass : List BuildOp → Bool)

/-- `Display` -/
def displayTV : TV → Option (List Char)
  | .str s => some s
  | .num n => some (toString n).toList
  | .status b => some (show' b)
  | _ => none

def displays : List TV → Option (List (List Char))
  | [] => some []
  | v :: vs => match displayTV show' v, displays vs with
    | some t, some ts => some (t :: ts)
    | _, _ => none

/-- Running cargo: `pass` is the outcome of a run that builds the package and runs its tests, after the operations so far. The outcome of the other commands is not looked at by the scripts. -/
def cargoRun (args : List (List Char)) (w : TWorld) : Option (Bool × TWorld) :=
  if args = ["test".toList] ∨ args = ["miri".toList, "test".toList] then some (pass (w.ops ++ [.build]), { w with ops := w.ops ++ [.build] })
  else if args = ["clean".toList] then some (true, { w with ops := w.ops ++ [.clean] })
  else if args = ["miri".toList, "setup".toList] then some (true, w)
  else none

/-- `env::set_var` -/
def setVar (x v : List Char) (w : TWorld) : TWorld := if x = "TAGGED_BOX_RESERVED_WIDTH".toList then { w with ops := w.ops ++ [.setEnv (.ok (String.ofList v))] } else w

/-- Methods of values. -/
def methodTV (v : TV) (m : String) (as : List TV) (ls : List (String × TV)) (w : TWorld) : TOut TV := match v, m, as with
  | .cmd p xs, "arg", [.str a] => .ret (.cmd p (xs ++ [a])) ls w
  | .cmd p xs, "args", [.strs l] => .ret (.cmd p (xs ++ l)) ls w
  | .cmd p xs, "output", [] => if p = "cargo".toList then (match cargoRun pass xs w with
      | some (b, w) => .ret (.ok (.output b)) ls w
      | none => .stuck) else .stuck
  | .cmd p xs, "status", [] => if p = "cargo".toList then (match cargoRun pass xs w with
      | some (b, w) => .ret (.ok (.status b)) ls w
      | none => .stuck) else .stuck
  | .ok v, "unwrap", [] => .ret v ls w
  | .status b, "success", [] => .ret (.bool b) ls w
  | .strs l, "len", [] => .ret (.num l.length) ls w
  | .strs l, "join", [.str sep] => .ret (.str (List.intercalate sep l)) ls w
  | _, _, _ => .stuck

mutual
/-- Evaluate. -/
def tev : Nat → Expr → List (String × TV) → TWorld → TOut TV
  | 0, _, _, _ => .stuck
  | n + 1, e, ls, w => match e with
    | .lit s => match litTV s with
      | some v => .ret v ls w
      | none => .stuck
    | .path [(x, [])] => match ls.lookup x with
      | some v => .ret v ls w
      | none => .stuck
    | .ref _ e => tev n e ls w
    | .array es => (tevs n es ls w).bind fun vs ls w => match strsOf vs with
      | some l => .ret (.strs l) ls w
      | none => .stuck
    | .mac "vec" es => (tevs n es ls w).bind fun vs ls w => match strsOf vs with
      | some l => .ret (.strs l) ls w
      | none => .stuck
    | .mac "println" (.lit f :: as) => (tevs n as ls w).bind fun vs ls w => match strLit f, displays show' vs with
      | some f, some ts => match fmtText f ts with
        | some t => .ret .unit ls { w with out := w.out ++ (t ++ ['\n']) }
        | none => .stuck
      | _, _ => .stuck
    | .call (.path [("Vec", []), ("with_capacity", [])]) [a] => (tev n a ls w).bind fun v ls w => match v with
      | .num _ => .ret (.strs []) ls w
      | _ => .stuck
    | .call (.path [("env", []), ("set_var", [])]) [a, b] => (tev n a ls w).bind fun x ls w => (tev n b ls w).bind fun v ls w => match x, v with
      | .str x, .str v => .ret .unit ls (setVar x v w)
      | _, _ => .stuck
    | .call (.path [("Command", []), ("new", [])]) [a] => (tev n a ls w).bind fun v ls w => match v with
      | .str p => .ret (.cmd p []) ls w
      | _ => .stuck
    | .call (.path [("std", []), ("process", []), ("exit", [])]) [a] => (tev n a ls w).bind fun v _ w => match v with
      | .num c => .exit c w
      | _ => .stuck
    | .method (.path [(x, [])]) "push" [] [a] => (tev n a ls w).bind fun v ls w => match ls.lookup x, v with
      | some (.strs l), .str s => .ret .unit (setTV x (.strs (l ++ [s])) ls) w
      | _, _ => .stuck
    | .method e m [] as => (tev n e ls w).bind fun v ls w => (tevs n as ls w).bind fun vs ls w => methodTV pass v m vs ls w
    | .field e "status" => (tev n e ls w).bind fun v ls w => match v with
      | .output b => .ret (.status b) ls w
      | _ => .stuck
    | .bin .gt a b => (tev n a ls w).bind fun x ls w => (tev n b ls w).bind fun y ls w => match x, y with
      | .num x, .num y => .ret (.bool (decide (y < x))) ls w
      | _, _ => .stuck
    | .ite c t e => (tev n c ls w).bind fun v ls w => match v, e with
      | .bool true, _ => tev n t ls w
      | .bool false, some e => tev n e ls w
      | .bool false, none => .ret .unit ls w
      | _, _ => .stuck
    | .block ss => (tstmts n ss ls w).bind fun _ ls' w => .ret .unit (ls'.drop (ls'.length - ls.length)) w
    | _ => .stuck

/-- From left to right. -/
def tevs : Nat → List Expr → List (String × TV) → TWorld → TOut (List TV)
  | 0, _, _, _ => .stuck
  | _ + 1, [], ls, w => .ret [] ls w
  | n + 1, e :: es, ls, w => (tev n e ls w).bind fun v ls w => (tevs n es ls w).bind fun vs ls w => .ret (v :: vs) ls w

/-- Statements; none has a value. -/
def tstmts : Nat → List Stmt → List (String × TV) → TWorld → TOut Unit
  | 0, _, _, _ => .stuck
  | _ + 1, [], ls, w => .ret () ls w
  | n + 1, s :: ss, ls, w => match s with
    | .letS (.bind x) none e => (tev n e ls w).bind fun v ls w => tstmts n ss ((x, v) :: ls) w
    | .semi e => (tev n e ls w).bind fun _ ls w => tstmts n ss ls w
    | .tail e => (tev n e ls w).bind fun _ ls w => tstmts n ss ls w
    | _ => .stuck
end

/-- The rounds of the loop. -/
def trounds (x : String) (body : List Stmt) : List (List Char) → List (String × TV) → TWorld → TOut Unit
  | [], ls, w => .ret () ls w
  | s :: l, ls, w => (tstmts show' pass 60 body ((x, .str s) :: ls) w).bind fun _ ls' w => trounds x body l (ls'.drop (ls'.length - ls.length)) w

/-- Run a task after the operations `ops`: the exit code, what happened, and what was printed. -/
def runTask (t : Task) (ops : List BuildOp) : Option (Nat × TWorld) :=
  match (tstmts show' pass 60 t.pre [] ⟨ops, []⟩).bind (fun _ ls w => match ls.lookup t.xs with
    | some (.strs l) => (trounds show' pass t.x t.body l ls w).bind fun _ ls w => tstmts show' pass 60 t.post ls w
    | _ => .stuck) with
  | .ret _ _ w => some (0, w)
  | .exit c w => some (c, w)
  | .stuck => none

end

end TB.Rust.Tasks

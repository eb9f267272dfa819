import Verif.Rust.Guide
import Verif.Rust.BoxTests

/-!
# An implementation written by hand

The test `tagged_box` of `src/tagged_box.rs` does not use the macro: it declares a container and an enum and implements the two traits for them by hand. Here these items
are taken out of the test, parsed, and made a program for the interpreter of `Rust/GenEval.lean`; and there is an interpreter for the rest of the test, which makes containers and
looks into them.

That interpreter does not know some of the syntax in these items, for which other syntax is put in first (`spell`):

* a pattern that is a literal is a variable that is compared with the literal;
* `*p` for `p` from `as_ptr`, where a value of a `Copy` type is read, is `p.read()`;
* `unreachable!()` is a `panic!` with its message;
* a literal that is compared with a discriminant, or passed as one, has the type `Discriminant` (`0 as _`).

Then types are inferred as in `Rust/Guide.lean`.
-/

set_option autoImplicit false

namespace TB.Rust

open TB.Mbe TB.Macro TB.Source

/-- What is before the first `let`, and the rest. -/
def splitAtLet : List TT → List TT × List TT
  | .atom (.ident "let") :: r => ([], .atom (.ident "let") :: r)
  | t :: r => (t :: (splitAtLet r).1, (splitAtLet r).2)
  | [] => ([], [])

/-- The items in a test of a file, and its statements. -/
def handTest (f : String) (ls : List (List Char)) : Option (List TT × List Stmt) := match parseText ls with
  | some ts => match (testMod ts).bind (fnBody f) with
    | some us => (pBlock 100 (splitAtLet us).2).map fun ss => ((splitAtLet us).1, ss)
    | none => none
  | none => none

/-! ## The items -/

/-- A literal of type `Discriminant`. -/
def discrLit : Expr → Expr
  | .lit s => .cast (.lit s) .infer
  | e => e

/-- `TaggedBox::new(x, 0)` -/
def newLit : RPath → List Expr → List Expr
  | [("TaggedBox", []), ("new", [])], [x, d] => [x, discrLit d]
  | _, es => es

/-- `0 => e` -/
def litArm : Pat × Option Expr × Expr → Pat × Option Expr × Expr
  | (.lit s, none, e) => (.bind "<scrutinee>", some (.bin .eq (.path [("<scrutinee>", [])]) (discrLit (.lit s))), e)
  | a => a

/-- Expressions. `n` bounds the depth. -/
def spell : Nat → Expr → Expr
  | 0, e => e
  | n + 1, e => match e with
    | .un .deref (.method e "as_ptr" ts []) => .method (.method (spell n e) "as_ptr" ts []) "read" [] []
    | .ref m e => .ref m (spell n e)
    | .call (.path p) args => .call (.path p) (newLit p (args.map (spell n)))
    | .method e m ts args => .method (spell n e) m ts (args.map (spell n))
    | .mac m [] => if m = "unreachable" then .mac "panic" [.lit "\"internal error: entered unreachable code\""] else .mac m []
    | .block ss => .block (ss.map (inferStmt (spell n)))
    | .mtch e arms => .mtch (spell n e) (arms.map fun a => litArm (a.1, a.2.1.map (spell n), spell n a.2.2))
    | e => e

def spellFn (f : GFn) : GFn := { f with fn := { f.fn with body := f.fn.body.map (inferStmt (spell 20)) } }

/-- The program in these tokens: like `plainCrate`, with `spell`. -/
def handCrate {β : Type} (n : Nat) (lib : Crate (Host β)) (rc : Rustc) (callback : EVal → M β) (ts : List TT) : Option (GCrate β) :=
  match pItems n ts with
  | some is => match structName? is, plainEnum? is with
    | some sn, some (en, defs) => some ⟨lib, rc, false, sn, en, defs, ((implFns is).map spellFn).map (Infer.fn ⟨en, defs, discriminantTy lib⟩), callback⟩
    | _, _ => none
  | none => none

/-! ## The statements

Values of the types of fields are opaque bytes, as in `Rust/UserCode.lean`. References are not distinguished from what they refer to, except that what a reference into a box refers to is
read when it is made. -/

/-- Values of variables. -/
inductive HV where
  | prim (p : Prim)
  /-- a discriminant -/
  | discr (n : Nat)
  /-- a value of the type of a field -/
  | val (t : Ty) (x : Bytes)
  | box (b : TBox)
  | cont (b : TBox)
  | item (e : EVal)

/-- What the functions do: those of the crate, those of the items, and the derived `Clone`. -/
structure HandOps where
  /-- `TaggedBox::new::<t>(x, d)` -/
  new : Ty → Bytes → Nat → M TBox
  /-- `b.discriminant()` -/
  discr : TBox → M Nat
  /-- `*b.as_ref::<t>()` -/
  look : Ty → TBox → M Bytes
  /-- `Container { tagged: b }.clone()` -/
  clone : TBox → M TBox
  /-- `Container { tagged: b }.into_inner()` -/
  inner : TBox → M EVal

section
variable (L : Lits) (decl : List VariantDef) (A : HandOps) (sn field en : String)

def hstuck {α : Type} : M α := fun _ => .ub .badValue

def orHStuck {α : Type} : Option α → M α
  | some a => pure a
  | none => hstuck

/-- A type argument. -/
def argOf : RTy → Option Ty
  | .path [(t, [])] => some (.named t)
  | _ => none

/-- Variables and truth values. -/
def hname (l : List (String × HV)) (x : String) : Option HV :=
  if x = "true" then some (.prim (.bool true)) else if x = "false" then some (.prim (.bool false)) else lookup x l

/-- `a == b` -/
def heq : HV → HV → M Bool
  | .discr n, .prim (.num none k) => pure (n == k)
  | .val t x, .prim p => do
    let y ← orHStuck (L.enc t p)
    pure (L.eq t x y)
  | .item e, .item e' => pure (eqItem L decl e e')
  | _, _ => hstuck

/-- Fields. -/
def hfield (f : String) : HV → M HV
  | .cont b => if f = field then pure (.box b) else hstuck
  | _ => hstuck

/-- Structure literals. -/
def hstruct (x f : String) : HV → M HV
  | .box b => if x = sn ∧ f = field then pure (.cont b) else hstuck
  | _ => hstuck

/-- `TaggedBox::new::<t>(a, d)` -/
def hnew (t : Ty) : HV → HV → M HV
  | .prim p, .prim (.num none d) => do
    let x ← orHStuck (L.enc t p)
    let b ← A.new t x d
    pure (.box b)
  | _, _ => hstuck

/-- `Value::V(a)` -/
def hvariant (ty v : String) : HV → M HV
  | .prim p => if ty = en then do
      let e ← orHStuck (tupleItem L decl v [p])
      pure (.item e)
    else hstuck
  | _ => hstuck

/-- Methods. -/
def hmethod (f : String) (ts : List RTy) : HV → M HV
  | .box b => match ts with
    | [] => if f = "discriminant" then do
        let d ← A.discr b
        pure (.discr d)
      else hstuck
    | [t] => if f = "as_ref" then do
        let t ← orHStuck (argOf t)
        let x ← A.look t b
        pure (.val t x)
      else hstuck
    | _ => hstuck
  | .cont b => if f = "clone" then do
      let b ← A.clone b
      pure (.cont b)
    else if f = "into_inner" then do
      let e ← A.inner b
      pure (.item e)
    else hstuck
  | _ => hstuck

/-- Evaluate an expression; `l` are the variables. -/
def hev (l : List (String × HV)) : Nat → Expr → M HV
  | 0, _ => hstuck
  | n + 1, e => match e with
    | .lit s => match numLit s with
      | some (k, t) => pure (.prim (.num t k))
      | none => hstuck
    | .path [(x, [])] => orHStuck (hname l x)
    | .ref _ e => hev l n e
    | .field e f => do
      let v ← hev l n e
      hfield field f v
    | .struct [(x, [])] [(f, e)] => do
      let v ← hev l n e
      hstruct sn field x f v
    | .call (.path [(ty, []), (f, [t])]) [a, d] => if ty = "TaggedBox" ∧ f = "new" then do
        let t ← orHStuck (argOf t)
        let a ← hev l n a
        let d ← hev l n d
        hnew L A t a d
      else hstuck
    | .call (.path [(ty, []), (v, [])]) [a] => do
      let a ← hev l n a
      hvariant L decl en ty v a
    | .method e f ts [] => do
      let v ← hev l n e
      hmethod A f ts v
    | .block [.tail e] => hev l n e
    | _ => hstuck

/-- Statements. -/
def hstmts (l : List (String × HV)) : List Stmt → M Unit
  | [] => pure ()
  | .letS (.bind x) none e :: ss => do
    let v ← hev L decl A sn field en l 20 e
    hstmts ((x, v) :: l) ss
  | .semi (.mac m [a, b]) :: ss => if m = "assert_eq" then do
      let x ← hev L decl A sn field en l 20 a
      let y ← hev L decl A sn field en l 20 b
      let r ← heq L decl x y
      if r then hstmts l ss else M.panic (.user 0)
    else hstuck
  | _ => hstuck

end

end TB.Rust

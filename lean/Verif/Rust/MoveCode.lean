import Verif.Rust.UserCode
import Verif.Rust.HandWritten

/-!
# Code of users that clones containers and changes what is in boxes

An interpreter for the test `clone` of `src/tagged_box.rs:659-695`, as parsed by `Rust/Parse.lean`: containers are made and cloned, boxes are changed through `as_mut_ref`, and
what is in them is compared. Since a box can be changed, it matters who owns it: using a variable moves the box or container that is in it, and the variable cannot be used any more.

What the functions do is a parameter (`MIface`), as in `Rust/UserCode.lean`, whose treatment of literals and of the types of fields is used. A parser for `a *= b` is missing in
`Rust/Parse.lean`; it is `mul_assign(a, b)` here (`mulTTs`).
-/

set_option autoImplicit false

namespace TB.Rust

open TB.Mbe TB.Macro TB.Source

/-! ## The text -/

mutual
/-- In groups. -/
def mulTT : TT → TT
  | .group d us => .group d (mulTTs [] us)
  | t => t

/-- `a *= b` is `mul_assign(a, b)`, for a token `b`; `acc` is what precedes in the statement. -/
def mulTTs (acc : List TT) : List TT → List TT
  | [] => acc.reverse
  | .atom (.punct ";") :: r => acc.reverse ++ .atom (.punct ";") :: mulTTs [] r
  | .atom (.punct "*") :: .atom (.punct "=") :: t :: r => [.atom (.ident "mul_assign"), .group .paren (acc.reverse ++ [.atom (.punct ","), t])] ++ mulTTs [] r
  | t :: r => mulTTs (mulTT t :: acc) r
end

/-- The invocation in a test of a file, and the statements that follow it. -/
def moveTestFn (f : String) (ls : List (List Char)) : Option (List TT × List Stmt) := match parseText ls with
  | some ts => match (testMod ts).bind (fnBody f) with
    | some ts => match splitInvocation ts with
      | some (us, r) => (pBlock 100 (mulTTs [] r)).map fun ss => (us, ss)
      | none => none
    | none => none
  | none => none

/-- The text of a string literal (without escapes). -/
def literalText (t : String) : List Char := t.toList.tail.dropLast

/-! ## What the functions do -/

/-- What the types of the fields contribute: `x.clone()`, and `x.f(p)`, which changes `x` (`none` if it panics). -/
structure Ops where
  clone : Ty → Bytes → Bytes
  update : String → Ty → Bytes → Prim → Option Bytes

/-- `#[derive(Clone)]`, for the fields. -/
def cloneFields (O : Ops) : List Ty → List Bytes → List Bytes
  | t :: ts, x :: xs => O.clone t x :: cloneFields O ts xs
  | _, xs => xs

/-- `#[derive(Clone)]`, for the enum. -/
def cloneItem (O : Ops) (decl : List VariantDef) (e : EVal) : EVal := match lookupDef decl e.variant, e.payload with
  | some (.tuple tys), .tuple xs => ⟨e.variant, .tuple (cloneFields O tys xs)⟩
  | some (.record ms), .record xs => ⟨e.variant, .record ((xs.map (·.1)).zip (cloneFields O (ms.map (·.2)) (xs.map (·.2))))⟩
  | _, _ => e

/-- The functions of the generated code, and those of the crate that the code uses; `B` is what boxes are. -/
structure MIface (m : Type → Type) (B : Type) extends Iface m B where
  /-- `Container { value: b }.clone()` -/
  clone : B → m B
  /-- `b.as_mut_ref::<t>().f(p)`; the box after that -/
  update : Ty → String → Prim → B → m B

section
variable (L : Lits) (decl : List VariantDef) {m : Type → Type} [Monad m] {B : Type} (A : MIface m B) (sn en : String)

/-- What a variable has in it after a use. -/
def afterUse : UV B → UV B
  | .box _ => .unit
  | .cont _ => .unit
  | v => v

/-- Use a variable: boxes and containers are moved. -/
def takeVar (x : String) : List (String × UV B) → Option (UV B × List (String × UV B))
  | [] => none
  | (y, v) :: l => if x = y then some (v, (y, afterUse v) :: l) else match takeVar x l with
    | some (w, l') => some (w, (y, v) :: l')
    | none => none

/-- Put a value in a variable. -/
def setVar (x : String) (v : UV B) : List (String × UV B) → List (String × UV B)
  | [] => []
  | (y, w) :: l => if x = y then (y, v) :: l else (y, w) :: setVar x v l

/-- `a * b`, for literals. -/
def mulUV (a b : String) : Option (UV B) := match numLit a, numLit b with
  | some (n, none), some (k, none) => some (.prim (.num none (n * k)))
  | _, _ => none

/-- `&x` of a variable, where it is compared. -/
def borrowItem (x : String) (l : List (String × UV B)) : Option (UV B) := match lookup x l with
  | some (.item e) => some (.item e)
  | _ => none

/-- The container in a variable. -/
def borrowCont (x : String) (l : List (String × UV B)) : Option B := match lookup x l with
  | some (.cont b) => some b
  | _ => none

/-- The box in a variable. -/
def borrowBox (x : String) (l : List (String × UV B)) : Option B := match lookup x l with
  | some (.box b) => some b
  | _ => none

/-- Calls with one argument. -/
def mcall (ty f : String) : UV B → m (UV B)
  | .prim p => if ty = sn ∧ f = "from" then do
      let r ← orStuck A.toIface (findFrom L decl [p])
      let b ← A.wrapFields r.1 r.2.1 r.2.2
      pure (.cont b)
    else if ty = en then do
      let e ← orStuck A.toIface (tupleItem L decl f [p])
      pure (.item e)
    else if ty = "String" ∧ f = "from" then pure (.prim p)
    else A.stuck _
  | .item e => if ty = sn ∧ f = "from" then do
      let b ← A.wrap e
      pure (.cont b)
    else A.stuck _
  | .box b => if ty = en ∧ f = "from_tagged_box" then do
      let e ← A.read b
      pure (.item e)
    else A.stuck _
  | _ => A.stuck _

/-- Evaluate an expression; `l` are the variables, also returned. -/
def mev : Nat → List (String × UV B) → Expr → m (UV B × List (String × UV B))
  | 0, _, _ => A.stuck _
  | n + 1, l, e => match e with
    | .lit s => pure (litUV s, l)
    | .bin .mul (.lit a) (.lit b) => do
      let v ← orStuck A.toIface (mulUV a b)
      pure (v, l)
    | .path [(x, [])] => orStuck A.toIface (takeVar x l)
    | .ref _ (.path [(x, [])]) => do
      let v ← orStuck A.toIface (borrowItem x l)
      pure (v, l)
    | .ref _ e => mev n l e
    | .call (.path [(ty, []), (f, [])]) [e] => do
      let r ← mev n l e
      let v ← mcall L decl A sn en ty f r.1
      pure (v, r.2)
    | .method (.path [(x, [])]) "clone" [] [] => do
      let b ← orStuck A.toIface (borrowCont x l)
      let b ← A.clone b
      pure (.cont b, l)
    | .method e f [] [] => do
      let r ← mev n l e
      let v ← methodUV A.toIface f r.1
      pure (v, r.2)
    | _ => A.stuck _

/-- `{ x.as_mut_ref::<t>().f(s); }` and `{ mul_assign(*x.as_mut_ref::<t>(), s); }` -/
def updateOf : Stmt → Option (String × Ty × String × String)
  | .tail (.block [.semi (.method (.method (.path [(x, [])]) "as_mut_ref" [.path [(t, [])]] []) f [] [.lit s])]) => some (x, .named t, f, s)
  | .tail (.block [.semi (.call (.path [(f, [])]) [.un .deref (.method (.path [(x, [])]) "as_mut_ref" [.path [(t, [])]] []), .lit s])]) => some (x, .named t, f, s)
  | _ => none

/-- A literal. -/
def litPrim (s : String) : Prim := match numLit s with
  | some (n, t) => .num t n
  | none => .text s

/-- Statements. -/
def mstmts (l : List (String × UV B)) : List Stmt → m Unit
  | [] => pure ()
  | st :: ss => match updateOf st with
    | some (x, t, f, s) => do
      let b ← orStuck A.toIface (borrowBox x l)
      let b ← A.update t f (litPrim s) b
      mstmts (setVar x (.box b) l) ss
    | none => match st with
      | .letS (.bind x) none e => do
        let r ← mev L decl A sn en 20 l e
        mstmts ((x, r.1) :: r.2) ss
      | .semi (.mac f [a, b]) => do
        let x ← mev L decl A sn en 20 l a
        let y ← mev L decl A sn en 20 x.2 b
        let r ← eqUV L decl A.toIface x.1 y.1
        if f = "assert_eq" then if r then mstmts y.2 ss else A.fail _
        else if f = "assert_ne" then if r then A.fail _ else mstmts y.2 ss
        else A.stuck _
      | _ => A.stuck _

end

end TB.Rust

import Verif.Rust.Client
import Verif.Macro.Run

/-!
# Code of users of `tagged_box!`

An interpreter for the code in `tests/tagged_box_macro.rs`, in the test `storage` of `src/tagged_box.rs`, in the quickstart of `src/lib.rs` and in the documentation of `tagged_box!`
(`src/tagged_box_macro/mod.rs:707-724`), as parsed by `Rust/Parse.lean`: values of the declared enum, containers, boxes, closures given to `ref_from_tagged_box`, and
assertions. What the functions of the generated code do is a parameter (`Iface`).

What it does, and what is simplified:

* A literal gets its type from where it is used: the type of the field of a variant. `Container::from(x)` means the first variant whose fields `x` fits (the compiler accepts
  no declaration for which there are several).
* The values of the types of fields are opaque bytes; `Lits` says how literals are represented, and when two values are equal or ordered. `==`, `<` and `>` for the enum are
  what `#[derive(PartialEq, PartialOrd)]` makes of these.
* References are not distinguished from what they refer to. Variables are neither moved nor dropped.
* A number with a fractional part is two literals with a `.` between them, as the lexer of `Mbe/Lex.lean` has it.
* What a failed assertion says is left out. Whatever is not in this part of the language is `stuck`.
-/

set_option autoImplicit false

namespace TB.Rust

open TB.Mbe TB.Macro TB.Source

/-! ## The text -/

/-- What is between the braces of the first `tagged_box! { .. }`, and what follows it. -/
def splitInvocation : List TT → Option (List TT × List TT)
  | .atom (.ident m) :: .atom (.punct b) :: .group .brace us :: r =>
    if m = "tagged_box" ∧ b = "!" then some (us, r) else splitInvocation (.atom (.punct b) :: .group .brace us :: r)
  | _ :: r => splitInvocation r
  | [] => none

/-- The invocation in a file, and the functions that follow it. -/
def userFile (ls : List (List Char)) : Option (List TT × List Fn) := match parseText ls with
  | some ts => match splitInvocation ts with
    | some (us, r) => (pItems 1000 r).map fun is => (us, is.filterMap fun
      | .fn f => some f
      | _ => none)
    | none => none
  | none => none

/-- The invocation in the tests of a file, and the functions that follow it. -/
def userTestsIn (ls : List (List Char)) : Option (List TT × List Fn) := match parseText ls with
  | some ts => match testMod ts with
    | some ts => match splitInvocation ts with
      | some (us, r) => (pItems 1000 r).map fun is => (us, is.filterMap fun
        | .fn f => some f
        | _ => none)
      | none => none
    | none => none
  | none => none

/-- What is between the braces of the function `f`. -/
def fnBody (f : String) : List TT → Option (List TT)
  | .atom (.ident k) :: .atom (.ident x) :: .group .paren ps :: .group .brace us :: r =>
    if k = "fn" ∧ x = f then some us else fnBody f (.atom (.ident x) :: .group .paren ps :: .group .brace us :: r)
  | _ :: r => fnBody f r
  | [] => none

/-- The invocation in a test of a file, and the statements that follow it. -/
def userTestFn (f : String) (ls : List (List Char)) : Option (List TT × List Stmt) := match parseText ls with
  | some ts => match (testMod ts).bind (fnBody f) with
    | some ts => match splitInvocation ts with
      | some (us, r) => (pBlock 100 (arrayTTs r)).map fun ss => (us, ss)
      | none => none
    | none => none
  | none => none

/-- The invocation in an example, and the statements that follow it. -/
def userExample (ls : List (List Char)) : Option (List TT × List Stmt) := match parseText ls with
  | some ts => match splitInvocation ts with
    | some (us, r) => (pBlock 100 (skipDecls 100 r)).map fun ss => (us, ss)
    | none => none
  | none => none

/-- A line of a `//!` comment. -/
def innerDoc : List Char → List Char
  | '/' :: '/' :: '!' :: ' ' :: r => r
  | '/' :: '/' :: '!' :: r => r
  | _ => []

/-- The examples in the `//!` comments. -/
def innerBlocks : List (List Char) → Option (List (List Char)) → List (List (List Char))
  | [], _ => []
  | l :: ls, none => if innerDoc l = src% "```rust" then innerBlocks ls (some []) else innerBlocks ls none
  | l :: ls, some cur => if innerDoc l = src% "```" then cur.reverse :: innerBlocks ls none else innerBlocks ls (some (hiddenLine (innerDoc l) :: cur))

/-- The examples in a text. -/
def fencedBlocks : List (List Char) → Option (List (List Char)) → List (List (List Char))
  | [], _ => []
  | l :: ls, none => if l = src% "```rust" then fencedBlocks ls (some []) else fencedBlocks ls none
  | l :: ls, some cur => if l = src% "```" then cur.reverse :: fencedBlocks ls none else fencedBlocks ls (some (l :: cur))

/-! ## Values -/

/-- Values that are not of the declared types: numbers (with their type, if it is written), numbers with a fractional part, truth values, strings,
arrays and vectors, structures of the user. -/
inductive Prim where
  | num (ty : Option String) (n : Nat)
  | float (whole frac : String)
  | bool (b : Bool)
  | text (s : String)
  | list (vec : Bool) (ps : List Prim)
  | record (name : String) (fs : List (String × Prim))

/-- What the language and other libraries contribute: the representation of literals, equality, order, `T::max_value()`. -/
structure Lits where
  enc : Ty → Prim → Option Bytes
  eq : Ty → Bytes → Bytes → Bool
  cmp : Ty → Bytes → Bytes → Option Ordering
  max : String → Nat

/-- Values of variables; `B` is what boxes are. -/
inductive UV (B : Type) where
  | prim (p : Prim)
  | tup (ps : List Prim)
  | item (e : EVal)
  | box (b : B)
  | cont (b : B)
  | unit

/-- What the generated code does, for the container and the enum it was generated for. -/
structure Iface (m : Type → Type) (B : Type) where
  /-- `Item::into_tagged_box(e)` -/
  into : EVal → m B
  /-- `Item::from_tagged_box(b)` -/
  read : B → m EVal
  /-- `Item::ref_from_tagged_box(&b, f)` -/
  lend : B → (EVal → m Unit) → m Unit
  /-- `Container::from(e)` -/
  wrap : EVal → m B
  /-- `Container::from((x, ..))`, for fields of the given types of a tuple variant -/
  wrapFields : String → List Ty → List Bytes → m B
  /-- `Container { value: b }.into_inner()` -/
  inner : B → m EVal
  /-- a failed assertion -/
  fail : ∀ α : Type, m α
  stuck : ∀ α : Type, m α

section
variable (L : Lits)

/-- Literals as values of types. -/
def encAll : List Ty → List Prim → Option (List Bytes)
  | [], [] => some []
  | t :: ts, p :: ps => match L.enc t p, encAll ts ps with
    | some b, some bs => some (b :: bs)
    | _, _ => none
  | _, _ => none

variable (decl : List VariantDef)

/-- `Item::V(p, ..)` -/
def tupleItem (v : String) (ps : List Prim) : Option EVal := match lookupDef decl v with
  | some (.tuple tys) => (encAll L tys ps).map fun bs => ⟨v, .tuple bs⟩
  | _ => none

/-- The fields of a structure literal, in the order of the declaration. -/
def pickPrims (fs : List (String × Prim)) : List String → Option (List Prim)
  | [] => some []
  | x :: xs => match lookup x fs, pickPrims fs xs with
    | some p, some ps => some (p :: ps)
    | _, _ => none

/-- `Item::V { x: p, .. }` -/
def recordItem (v : String) (fs : List (String × Prim)) : Option EVal := match lookupDef decl v with
  | some (.record ms) => match pickPrims fs (ms.map (·.1)) with
    | some ps => (encAll L (ms.map (·.2)) ps).map fun bs => ⟨v, .record ((ms.map (·.1)).zip bs)⟩
    | none => none
  | _ => none

/-- `Item::V` -/
def unitItem (v : String) : Option EVal := match lookupDef decl v with
  | some .unit => some ⟨v, .unit⟩
  | _ => none

/-- The first variant with fields that `ps` fits. -/
def findFrom : List VariantDef → List Prim → Option (String × List Ty × List Bytes)
  | [], _ => none
  | ⟨v, .tuple tys⟩ :: ds, ps => match encAll L tys ps with
    | some bs => some (v, tys, bs)
    | none => findFrom ds ps
  | _ :: ds, ps => findFrom ds ps

/-- Derived equality of fields. -/
def eqFields : List Ty → List Bytes → List Bytes → Bool
  | t :: ts, x :: xs, y :: ys => L.eq t x y && eqFields ts xs ys
  | _, _, _ => true

/-- `#[derive(PartialEq)]` -/
def eqItem (e e' : EVal) : Bool := e.variant == e'.variant && match lookupDef decl e.variant with
  | some d => match d, e.payload, e'.payload with
    | .tuple tys, .tuple xs, .tuple ys => eqFields L tys xs ys
    | .record ms, .record xs, .record ys => eqFields L (ms.map (·.2)) (xs.map (·.2)) (ys.map (·.2))
    | _, _, _ => true
  | none => false

/-- Derived order of fields. -/
def cmpFields : List Ty → List Bytes → List Bytes → Option Ordering
  | t :: ts, x :: xs, y :: ys => match L.cmp t x y with
    | some .eq => cmpFields ts xs ys
    | o => o
  | _, _, _ => some .eq

/-- The position of a variant. -/
def position (v : String) : List VariantDef → Nat
  | [] => 0
  | d :: ds => if d.name = v then 0 else position v ds + 1

/-- `#[derive(PartialOrd)]` -/
def cmpItem (e e' : EVal) : Option Ordering := match compare (position e.variant decl) (position e'.variant decl) with
  | .eq => match lookupDef decl e.variant with
    | some d => match d, e.payload, e'.payload with
      | .tuple tys, .tuple xs, .tuple ys => cmpFields L tys xs ys
      | .record ms, .record xs, .record ys => cmpFields L (ms.map (·.2)) (xs.map (·.2)) (ys.map (·.2))
      | _, _, _ => some .eq
    | none => none
  | o => some o

/-- All of them literals. -/
def prims {B : Type} : List (UV B) → Option (List Prim)
  | [] => some []
  | .prim p :: vs => (prims vs).map (p :: ·)
  | _ => none

/-! ## Running it -/

variable {m : Type → Type} [Monad m] {B : Type} (A : Iface m B) (sn en : String)

/-- A value, if there is one. -/
def orStuck {α : Type} : Option α → m α
  | some a => pure a
  | none => A.stuck α

/-- Literals and names. -/
def litUV (s : String) : UV B := match numLit s with
  | some (n, t) => .prim (.num t n)
  | none => .prim (.text s)

def nameUV (l : List (String × UV B)) (x : String) : Option (UV B) :=
  if x = "true" then some (.prim (.bool true)) else if x = "false" then some (.prim (.bool false)) else lookup x l

/-- `a == b` -/
def eqUV : UV B → UV B → m Bool
  | .item e, .item e' => pure (eqItem L decl e e')
  | _, _ => A.stuck Bool

/-- `a` compares to `b` as `o` says -/
def cmpUV (o : Ordering) : UV B → UV B → m Bool
  | .item e, .item e' => pure (cmpItem L decl e e' == some o)
  | _, _ => A.stuck Bool

/-- `a < b` and `a > b` -/
def binUV (op : BinOp) (x y : UV B) : m Bool := match op with
  | .lt => cmpUV L decl A .lt x y
  | .gt => cmpUV L decl A .gt x y
  | _ => A.stuck _

/-- Calls of functions and of tuple variants. -/
def callUV (ty f : String) (vs : List (UV B)) : m (UV B) :=
  if ty = sn then
    if f = "from" then match vs with
      | [.item e] => do
        let b ← A.wrap e
        pure (.cont b)
      | [.prim p] => do
        let r ← orStuck A (findFrom L decl [p])
        let b ← A.wrapFields r.1 r.2.1 r.2.2
        pure (.cont b)
      | [.tup (p :: q :: ps)] => do
        let r ← orStuck A (findFrom L decl (p :: q :: ps))
        let b ← A.wrapFields r.1 r.2.1 r.2.2
        pure (.cont b)
      | _ => A.stuck _
    else A.stuck _
  else if ty = en then
    if f = "from_tagged_box" then match vs with
      | [.box b] => do
        let e ← A.read b
        pure (.item e)
      | _ => A.stuck _
    else do
      let ps ← orStuck A (prims vs)
      let e ← orStuck A (tupleItem L decl f ps)
      pure (.item e)
  else if f = "max_value" then match vs with
    | [] => pure (.prim (.num (some ty) (L.max ty)))
    | _ => A.stuck _
  else if ty = "String" ∧ f = "from" then match vs with
    | [.prim (.text s)] => pure (.prim (.text s))
    | _ => A.stuck _
  else A.stuck _

/-- Methods. -/
def methodUV (f : String) : UV B → m (UV B)
  | .item e => if f = "into_tagged_box" then do
      let b ← A.into e
      pure (.box b)
    else A.stuck _
  | .cont b => if f = "into_inner" then do
      let e ← A.inner b
      pure (.item e)
    else A.stuck _
  | _ => A.stuck _

/-- Structure literals. -/
def structUV (p : RPath) (fs : List (String × UV B)) : m (UV B) := match p, fs with
  | [(x, [])], fs => if x = sn then match fs with
      | [(f, .box b)] => if f = "value" then pure (.cont b) else A.stuck _
      | _ => A.stuck _
    else do
      let ps ← orStuck A (prims (fs.map (·.2)))
      pure (.prim (.record x ((fs.map (·.1)).zip ps)))
  | [(x, []), (v, [])], fs => if x = en then do
      let ps ← orStuck A (prims (fs.map (·.2)))
      let e ← orStuck A (recordItem L decl v ((fs.map (·.1)).zip ps))
      pure (.item e)
    else A.stuck _
  | _, _ => A.stuck _

mutual
/-- Evaluate an expression; `l` are the variables. -/
def uev : Nat → List (String × UV B) → Expr → m (UV B)
  | 0, _, _ => A.stuck _
  | n + 1, l, e => match e with
    | .lit s => pure (litUV s)
    | .field (.lit a) b => pure (.prim (.float a b))
    | .path [(x, [])] => orStuck A (nameUV l x)
    | .path [(x, []), (v, [])] => if x = en then do
        let e ← orStuck A (unitItem decl v)
        pure (.item e)
      else A.stuck _
    | .ref _ e => uev n l e
    | .tuple es => do
      let vs ← uevs n l es
      let ps ← orStuck A (prims vs)
      pure (.tup ps)
    | .call (.path [(ty, []), (f, [])]) args => match args with
      | [b, .closure [.bind x] body] => if ty = en ∧ f = "ref_from_tagged_box" then do
          let b ← uev n l b
          match b with
          | .box b => do
            A.lend b fun e => do
              let _ ← uev n ((x, .item e) :: l) body
              pure ()
            pure .unit
          | _ => A.stuck _
        else A.stuck _
      | args => do
        let vs ← uevs n l args
        callUV L decl A sn en ty f vs
    | .method e f _ [] => do
      let v ← uev n l e
      methodUV A f v
    | .struct p fs => do
      let vs ← uevs n l (fs.map (·.2))
      structUV L decl A sn en p ((fs.map (·.1)).zip vs)
    | .array es => do
      let vs ← uevs n l es
      let ps ← orStuck A (prims vs)
      pure (.prim (.list false ps))
    | .mac f es => if f = "vec" then do
        let vs ← uevs n l es
        let ps ← orStuck A (prims vs)
        pure (.prim (.list true ps))
      else match es with
      | [a, b] => do
        let x ← uev n l a
        let y ← uev n l b
        let r ← eqUV L decl A x y
        if f = "assert_eq" then if r then pure .unit else A.fail _
        else if f = "assert_ne" then if r then A.fail _ else pure .unit
        else A.stuck _
      | [.bin op a b] => do
        let x ← uev n l a
        let y ← uev n l b
        let r ← binUV L decl A op x y
        if f = "assert" then if r then pure .unit else A.fail _
        else A.stuck _
      | _ => A.stuck _
    | .block ss => ustmts n l ss
    | _ => A.stuck _

/-- Evaluate expressions from left to right. -/
def uevs : Nat → List (String × UV B) → List Expr → m (List (UV B))
  | 0, _, _ => A.stuck _
  | _ + 1, _, [] => pure []
  | n + 1, l, e :: es => do
    let v ← uev n l e
    let vs ← uevs n l es
    pure (v :: vs)

/-- Statements. -/
def ustmts : Nat → List (String × UV B) → List Stmt → m (UV B)
  | 0, _, _ => A.stuck _
  | _ + 1, _, [] => pure .unit
  | n + 1, l, st :: ss => match st with
    | .letS (.bind x) none e => do
      let v ← uev n l e
      ustmts n ((x, v) :: l) ss
    | .semi e => do
      let _ ← uev n l e
      ustmts n l ss
    | .tail e => do
      let v ← uev n l e
      match ss with
      | [] => pure v
      | ss => ustmts n l ss
    | _ => A.stuck _
end

/-- Run the body of a function. -/
def runUser (ss : List Stmt) : m Unit := do
  let _ ← ustmts L decl A sn en 100 [] ss
  pure ()

end

end TB.Rust

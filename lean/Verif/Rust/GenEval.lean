import Verif.Rust.Crate
import Verif.Macro.Run

/-!
# Running the generated code

An interpreter for the items `tagged_box!` expands to, as parsed by `Rust/Parse.lean`: the enum, the container and their `impl`s. Calls of the crate's own
functions (`$crate::TaggedBox::..`) run that code, by the interpreter of `Rust/Eval.lean`; memory, destructors and undefined behaviour are those of `Mem.lean`.

Values are those of `Rust/Eval.lean`. A value of the enum is `.user (.inl e)`. A value of a field's type is `.obj sh [bytes]`, one of a structure declared inside of a
function, or of a tuple type, `.obj sh fields`.

What it does, and what is simplified:

* The items of a block are known in the whole block. A name in a type, or before `::`, is the innermost such item; otherwise the enum or a built-in type.
  A name that is called is a tuple structure of a block around it if there is one, otherwise a variable. Any other single name is a variable or a constant.
* Hygiene: `callback`, where it is called, is the parameter of that name even if a field of the variant has the same name, that is, the variable that holds the closure.
  The other variables of the generated code are not shadowed by fields where they are used.
* `#[repr(C)]` on a structure selects the layout of C (`reprC`), otherwise the layout is the one the compiler chooses for these fields (`env.tuple`).
* `match` tries its arms in order. Binding fields of an enum value moves the value, unless the enum implements `Drop`; then the fields have to be `Copy`.
* Moving a field out of a variable (`tuple.0`, `self.value`) leaves the other fields, which are dropped with the variable.
* A callback is called at most once; what it returns is kept in its variable. It gets the value of the enum that is behind the reference.
* Types of expressions are not checked (the compiler has done this); whatever is not in this part of the language is `stuck`.
-/

set_option autoImplicit false

namespace TB.Rust

open TB.Mbe TB.Macro

/-- What the type parameter of the interpreter stands for: values of the enum, and what the callback returned. -/
abbrev Host (β : Type) : Type := EVal ⊕ β

/-- A type declared inside of a function. -/
inductive LType where
  | struct (braces : Bool) (attrs : List (List TT)) (fields : List (String × RTy))
  | enum (variants : List String)

/-- The items of the blocks around an expression, innermost first. -/
structure Sc where
  types : List (String × LType)
  consts : List (String × Expr)

/-- The types among the statements of a block. -/
def typeItems : List Stmt → List (String × LType)
  | [] => []
  | .structS braces attrs x fs :: r => (x, .struct braces attrs fs) :: typeItems r
  | .enumS _ x vs :: r => (x, .enum vs) :: typeItems r
  | _ :: r => typeItems r

/-- The constants among the statements of a block. -/
def constItems : List Stmt → List (String × Expr)
  | [] => []
  | .constS x _ e :: r => (x, e) :: constItems r
  | _ :: r => constItems r

/-- Inside of a block. -/
def Sc.enter (sc : Sc) (ss : List Stmt) : Sc := ⟨typeItems ss ++ sc.types, constItems ss ++ sc.consts⟩

/-- A function in an implementation: trait, type, argument of the trait (`From<..>`). -/
structure GFn where
  trait : String
  self : String
  arg : Option Ty
  fn : Fn

/-- The generated items and everything they are compiled with. -/
structure GCrate (β : Type) where
  /-- the crate `tagged_box` -/
  lib : Crate (Host β)
  rc : Rustc
  /-- does the user implement `Drop` for the enum? -/
  hasDrop : Bool
  /-- the container and the enum -/
  sn : String
  en : String
  defs : List VariantDef
  fns : List GFn
  /-- what the closure given to `ref_from_tagged_box` does -/
  callback : EVal → M β

/-! ## Reading the items -/

/-- A type of the user's declaration. -/
def toTy : RTy → Option Ty
  | .user t => some t
  | _ => none

/-- All or nothing. -/
def toTys : List RTy → Option (List Ty)
  | [] => some []
  | t :: ts => match toTy t, toTys ts with
    | some t, some ts => some (t :: ts)
    | _, _ => none

def toMembers : List (String × RTy) → Option (List (String × Ty))
  | [] => some []
  | (x, t) :: ts => match toTy t, toMembers ts with
    | some t, some ts => some ((x, t) :: ts)
    | _, _ => none

/-- The variants in the body of the enum. -/
def pVariants (n : Nat) : List TT → Option (List VariantDef)
  | [] => some []
  | .atom (.ident v) :: .group .paren us :: .atom (.punct c) :: r =>
    if c = "," then match pTys n us with
      | some (ts, []) => match toTys ts, pVariants n r with
        | some tys, some ds => some (⟨v, .tuple tys⟩ :: ds)
        | _, _ => none
      | _ => none
    else none
  | .atom (.ident v) :: .group .brace us :: .atom (.punct c) :: r =>
    if c = "," then match pTyped n us with
      | some fs => match toMembers fs, pVariants n r with
        | some ms, some ds => some (⟨v, .record ms⟩ :: ds)
        | _, _ => none
      | none => none
    else none
  | .atom (.ident v) :: .atom (.punct c) :: r =>
    if c = "," then (pVariants n r).map (⟨v, .unit⟩ :: ·) else none
  | _ => none

/-- The argument of a trait. -/
def argTy : RTy → Option Ty
  | .user t => some t
  | .tuple ts => (toTys ts).map .tuple
  | .path [(x, [])] => some (.named x)
  | _ => none

/-- The last segment of a trait and its argument. -/
def traitKey : RTy → String × Option Ty
  | .path p => match p.getLast? with
    | some (x, [a]) => (x, argTy a)
    | some (x, _) => (x, none)
    | none => ("", none)
  | _ => ("", none)

/-- The functions of the implementations. -/
def implFns : List Item → List GFn
  | [] => []
  | .impl _ _ (some tr) t is :: r => (itemFns is).map (fun f => ⟨(traitKey tr).1, tyName t, (traitKey tr).2, f⟩) ++ implFns r
  | _ :: r => implFns r

/-- The first structure. -/
def structName? : List Item → Option String
  | [] => none
  | .struct _ x _ _ :: _ => some x
  | _ :: r => structName? r

/-- The first enum and its variants. -/
def enum? (n : Nat) : List Item → Option (String × List VariantDef)
  | [] => none
  | .enum _ x us :: _ => (pVariants n us).map fun ds => (x, ds)
  | _ :: r => enum? n r

/-- The program in these tokens. `n` bounds the depth of the parser. -/
def genCrate {β : Type} (n : Nat) (lib : Crate (Host β)) (rc : Rustc) (hasDrop : Bool) (callback : EVal → M β) (ts : List TT) : Option (GCrate β) :=
  match pItems n ts with
  | some is => match structName? is, enum? n is with
    | some sn, some (en, defs) => some ⟨lib, rc, hasDrop, sn, en, defs, implFns is, callback⟩
    | _, _ => none
  | none => none

/-! ## Dropping values of the enum -/

/-- The destructors of fields. -/
def fieldDrops (rc : Rustc) : List Ty → List Bytes → List Event
  | t :: ts, v :: vs => (if (rc.leaf t).needsDrop then [.drop (rc.leaf t).id v] else []) ++ fieldDrops rc ts vs
  | _, _ => []

/-- The types and values of the fields of an enum value. -/
def fieldsOf (defs : List VariantDef) (e : EVal) : List Ty × List Bytes := match lookupDef defs e.variant, e.payload with
  | some (.tuple tys), .tuple vs => (tys, vs)
  | some (.record ms), .record fs => (ms.map (·.2), fs.map (·.2))
  | _, _ => ([], [])

/-- Dropping a value of the enum: the user's `Drop`, then the fields. -/
def hostDrop {β : Type} (rc : Rustc) (hasDrop : Bool) (defs : List VariantDef) : Host β → M Unit
  | .inl e => M.log ((if hasDrop then [.dropEnum e.variant] else []) ++ fieldDrops rc (fieldsOf defs e).1 (fieldsOf defs e).2)
  | .inr _ => pure ()

section
variable {β : Type} (g : GCrate β)

abbrev GV (β : Type) : Type := V (Host β)
abbrev GX (β : Type) : Type → Type := X (Host β)

/-! ## Types -/

/-- The layout of a field's type. -/
def fieldLeaf (t : RTy) : Leaf := match t with
  | .user t => g.rc.leaf t
  | _ => ⟨0, 0, 1, fun _ => false, false⟩

/-- `#[repr(C)]` -/
def isReprC : List TT → Bool
  | [.atom (.ident r), .group .paren [.atom (.ident c)]] => r == "repr" && c == "C"
  | _ => false

/-- The layout of a structure. -/
def layoutOf (attrs : List (List TT)) (fs : List (String × RTy)) : Shape :=
  if attrs.any isReprC then reprC (fs.map fun f => fieldLeaf g f.2) else g.lib.env.tuple (fs.map fun f => fieldLeaf g f.2)

/-- What a type as written stands for. -/
def gty (sc : Sc) : RTy → RT
  | .user t => .opaque (g.rc.leaf t).shape
  | .tuple ts => .opaque (g.lib.env.tuple (ts.map (fieldLeaf g)))
  | .path [(x, [])] => match lookup x sc.types with
    | some (.struct _ attrs fs) => .opaque (layoutOf g attrs fs)
    | some (.enum _) => .unknown
    | none => if x = g.en then .opaque ⟨0, g.lib.env.enumAlign, []⟩ else (primTy x).getD .unknown
  | _ => .unknown

/-! ## Building values -/

/-- The bytes of a value of a field's type. -/
def toBytes : GV β → Option Bytes
  | .obj _ [x] => some x
  | _ => none

/-- All or nothing. -/
def toBytesList : List (GV β) → Option (List Bytes)
  | [] => some []
  | v :: vs => match toBytes v, toBytesList vs with
    | some x, some xs => some (x :: xs)
    | _, _ => none

/-- The fields `names`, in this order. -/
def pickFields (fs : List (String × GV β)) : List String → Option (List Bytes)
  | [] => some []
  | x :: xs => match lookup x fs with
    | some v => match toBytes v, pickFields fs xs with
      | some b, some bs => some (b :: bs)
      | _, _ => none
    | none => none

/-- `En::v(..)` -/
def enumTuple (v : String) (vs : List (GV β)) : GX β (GV β) := match lookupDef g.defs v, toBytesList vs with
  | some (.tuple tys), some bs => if bs.length = tys.length then pure (.user (.inl ⟨v, .tuple bs⟩)) else X.stuck
  | _, _ => X.stuck

/-- `En::v { .. }` -/
def enumRecord (v : String) (fs : List (String × GV β)) : GX β (GV β) := match lookupDef g.defs v with
  | some (.record ms) => match pickFields fs (ms.map (·.1)) with
    | some bs => if fs.length = ms.length then pure (.user (.inl ⟨v, .record ((ms.map (·.1)).zip bs)⟩)) else X.stuck
    | none => X.stuck
  | _ => X.stuck

/-- `S(..)` for a structure in a block. -/
def structTuple (attrs : List (List TT)) (ts : List (String × RTy)) (vs : List (GV β)) : GX β (GV β) := match toBytesList vs with
  | some bs => if bs.length = ts.length then pure (.obj (layoutOf g attrs ts) bs) else X.stuck
  | none => X.stuck

/-- `S { .. }` for a structure in a block. -/
def structRecord (attrs : List (List TT)) (ts : List (String × RTy)) (fs : List (String × GV β)) : GX β (GV β) := match pickFields fs (ts.map (·.1)) with
  | some bs => if fs.length = ts.length then pure (.obj (layoutOf g attrs ts) bs) else X.stuck
  | none => X.stuck

/-! ## Fields -/

/-- The fields of a structure or tuple, by position. -/
def parts : Nat → List (Nat × Leaf) → TB.Val → List (String × GV β)
  | k, f :: fs, x :: xs => (toString k, .obj f.2.shape [x]) :: parts (k + 1) fs xs
  | _, _, _ => []

/-- Name of a structure some of whose fields may have been moved out; the container. -/
def partsName : String := "<parts>"
def containerName : String := "<container>"

/-- Replace a field. -/
def setField (x : String) (v : GV β) : List (String × GV β) → List (String × GV β)
  | [] => []
  | (y, w) :: r => if x = y then (y, v) :: r else (y, w) :: setField x v r

/-- Move a field out of a variable; `.unit` is left in its place. -/
def moveField (x f : String) : GX β (GV β) := fun l s => match lookup x l with
  | some (some (.obj sh vs)) => (match lookup f (parts 0 sh.fields vs) with
    | some w => .ret w (setLocal x (some (.struct partsName (setField f .unit (parts 0 sh.fields vs)))) l) s
    | none => .stuck)
  | some (some (.struct n fs)) => (match lookup f fs with
    | some .unit => .stuck
    | some w => .ret w (setLocal x (some (.struct n (setField f .unit fs))) l) s
    | none => .stuck)
  | _ => .stuck

/-- A field, without moving it. -/
def fieldOf (f : String) : GV β → Option (GV β)
  | .struct _ fs => lookup f fs
  | _ => none

/-! ## Patterns -/

/-- Names in a list of patterns. -/
def patVars : List Pat → Option (List String)
  | [] => some []
  | .bind x :: r => (patVars r).map (x :: ·)
  | _ :: _ => none

/-- A value of a field's type. -/
def fieldV (t : Ty) (x : Bytes) : GV β := .obj (g.rc.leaf t).shape [x]

/-- `S { a: x, .. }`: the variables and what they are bound to. -/
def bindFields (fs : List (String × GV β)) : List (String × Pat) → Option (List (String × GV β))
  | [] => some []
  | (f, .bind x) :: r => match lookup f fs, bindFields fs r with
    | some v, some bs => some ((x, v) :: bs)
    | _, _ => none
  | _ :: _ => none

/-- Does the value match? If it does, what the variables are bound to. -/
def matchPat : Pat → GV β → Option (List (String × GV β))
  | .wild, _ => some []
  | .bind x, v => some [(x, v)]
  | .path [(t, []), (v, [])], .user (.inl e) =>
    if t = g.en ∧ v = e.variant ∧ e.payload = .unit then some [] else none
  | .call [(t, []), (v, [])] ps, .user (.inl ⟨w, .tuple xs⟩) =>
    if t = g.en ∧ v = w then match lookupDef g.defs w, patVars ps with
      | some (.tuple tys), some names => if names.length = xs.length then some (names.zip (List.zipWith (fieldV g) tys xs)) else none
      | _, _ => none
    else none
  | .struct [(t, []), (v, [])] ps, .user (.inl ⟨w, .record xs⟩) =>
    if t = g.en ∧ v = w then match lookupDef g.defs w with
      | some (.record ms) => bindFields (List.zipWith (fun m x => (m.1, fieldV g m.2 x.2)) ms xs) ps
      | _ => none
    else none
  | _, _ => none

/-- Declare variables. -/
def declareList : List (String × GV β) → GX β Unit
  | [] => pure ()
  | (x, v) :: r => do
    X.declare x v
    declareList r

/-- Bind what a pattern has matched in the variable `x` (or in a temporary). -/
def bindAll (x : Option String) (v : GV β) (bs : List (String × GV β)) : GX β Unit := match v, bs with
  | _, [] => pure ()
  | .user (.inl e), bs => match x with
    | some x =>
      if g.hasDrop then
        if (fieldsOf g.defs e).1.all g.rc.isCopy then declareList bs else X.stuck
      else do
        (fun l s => .ret () (setLocal x none l) s)
        declareList bs
    | none => X.stuck
  | v, bs => if v.copies then declareList bs else X.stuck

/-! ## Calls -/

/-- Is this the callback? -/
def isClosure : Option (GV β) → Bool
  | some (.struct "<callback>" []) => true
  | _ => false

/-- The variable `x` that holds the callback: variables of that name that come from the user's tokens are other variables (hygiene) and never hold it. -/
def holdsClosure (x : String) (l : Locals (Host β)) : Bool := l.any fun y => y.1 = x && isClosure y.2

def setClosure (x : String) (v : GV β) : Locals (Host β) → Locals (Host β)
  | [] => []
  | y :: l => if (y.1 = x && isClosure y.2) = true then (y.1, some v) :: l else y :: setClosure x v l

/-- Call what is in a variable: the callback. -/
def callVar (x : String) (vs : List (GV β)) : GX β (GV β) := fun l s => match holdsClosure x l, vs with
  | true, [v] => (match v.peel with
    | .user (.inl e) => (match g.callback e s with
      | .ret r s => .ret .unit (setClosure x (.user (.inr r)) l) s
      | .panic k s => .panic (.kind k) l s
      | .ub k => .ub k)
    | _ => .stuck)
  | _, _ => .stuck

/-- Call a path. -/
def callPath (sc : Sc) (p : RPath) (vs : List (GV β)) : GX β (GV β) := match p with
  | [(x, [])] => match lookup x sc.types with
    | some (.struct false attrs ts) => structTuple g attrs ts vs
    | _ => callVar g x vs
  | [(t, []), (v, [])] => match lookup t sc.types with
    | some _ => X.stuck
    | none => if t = g.en then enumTuple g v vs else X.stuck
  | [(c, []), (t, _), (f, targs)] => if c = "crate" then match findFn t f g.lib.fns with
      | some fn => callFn g.lib evFuel fn t (targs.map (gty g sc)) none vs .unknown
      | none => X.stuck
    else X.stuck
  | [(c, []), _, (t, _), (f, targs)] => match lookup c sc.types with
    | none => if c = "core" then match libFn g.lib (t, f) (targs.map (gty g sc)) vs .unknown with
        | some m => m
        | none => X.stuck
      else X.stuck
    | some _ => X.stuck
  | _ => X.stuck

/-! ## Evaluation -/

section
variable (f : Expr → GX β (GV β))

/-- Evaluate an expression without moving it. -/
def gplace : Expr → GX β (GV β)
  | .path [(x, [])] => readVar x
  | .field (.path [(x, [])]) y => do
    let v ← readVar x
    X.some? (fieldOf y v)
  | .un .deref e => do
    let v ← gplace e
    pure v.peel
  | e => f e

/-- From left to right. -/
def seqE : List Expr → GX β (List (GV β))
  | [] => pure []
  | e :: es => do
    let v ← f e
    let vs ← seqE es
    pure (v :: vs)

def seqF : List (String × Expr) → GX β (List (String × GV β))
  | [] => pure []
  | (x, e) :: es => do
    let v ← f e
    let vs ← seqF es
    pure ((x, v) :: vs)

/-- `let S { a: x, .. } = v;` -/
def letStruct (ts : List (String × RTy)) (ps : List (String × Pat)) (v : GV β) : GX β Unit := match v with
  | .obj sh vs =>
    if vs.length = ts.length then
      match bindFields (List.zipWith (fun t p => (t.1, p.2)) ts (parts 0 sh.fields vs)) ps with
      | some bs => if bs.length = ts.length then declareList bs else X.stuck
      | none => X.stuck
    else X.stuck
  | _ => X.stuck

/-- Statements. -/
def runStmts (sc : Sc) : List Stmt → GX β (GV β)
  | [] => pure .unit
  | s :: ss => match s with
    | .letS (.bind x) _ e => do
      let v ← f e
      X.declare x v
      runStmts sc ss
    | .letS (.struct [(x, [])] ps) _ e => do
      let v ← f e
      match lookup x sc.types with
      | some (.struct _ _ ts) => letStruct ts ps v
      | _ => X.stuck
      runStmts sc ss
    | .letS _ _ _ => X.stuck
    | .semi e => do
      let v ← f e
      dropV g.lib v
      runStmts sc ss
    | .tail e => match ss with
      | [] => f e
      | ss => do
        let v ← f e
        dropV g.lib v
        runStmts sc ss
    | .constS _ _ _ => runStmts sc ss
    | .enumS _ _ _ => runStmts sc ss
    | .structS _ _ _ _ => runStmts sc ss
    | .useS => runStmts sc ss

/-- The arms of a `match` on the value `v`, which is in the variable `x`. -/
def runArms (x : Option String) (v : GV β) : List (Pat × Option Expr × Expr) → GX β (GV β)
  | [] => X.stuck
  | (p, c, e) :: as => match matchPat g p v with
    | none => runArms x v as
    | some bs => match c with
      | none => scope g.lib (do
        bindAll g x v bs
        f e)
      | some c => do
        let r ← if v.copies then scope g.lib (do
            declareList bs
            f c)
          else X.stuck
        match r with
        | .bool true => scope g.lib (do
          bindAll g x v bs
          f e)
        | .bool false => runArms x v as
        | _ => X.stuck

end

/-- A single name. -/
def asVar : Expr → Option String
  | .path [(x, [])] => some x
  | _ => none

/-- The function `name` of the implementation of a trait. -/
def findImpl (tr self : String) (arg : Option Ty) (name : String) : List GFn → Option Fn
  | [] => none
  | f :: r => if f.trait = tr ∧ f.self = self ∧ f.arg.map g.rc.typeId = arg.map g.rc.typeId ∧ f.fn.name = name then some f.fn
    else findImpl tr self arg name r

/-- Run a function of the generated code, given how to evaluate expressions. -/
def runFn (ev : Sc → Expr → GX β (GV β)) (fn : Fn) (self : Option (GV β)) (args : List (GV β)) : GX β (GV β) :=
  inFn g.lib (do
    match fn.self, self with
    | some .value, some v => X.declare "self" v
    | none, none => pure ()
    | _, _ => X.stuck
    declareAll (fn.params.map (·.1)) args
    scope g.lib (runStmts g (ev (Sc.enter ⟨[], []⟩ fn.body)) (Sc.enter ⟨[], []⟩ fn.body) fn.body))

/-- Evaluate an expression. `n` bounds the depth. -/
def gev : Nat → Sc → Expr → GX β (GV β)
  | 0, _, _ => X.stuck
  | n + 1, sc, e => match e with
    | .lit s => pure (litVal s)
    | .path [(x, [])] => fun l s => match lookup x l with
      | some _ => useVar x l s
      | none => match lookup x sc.consts with
        | some e => inFn g.lib (gev n sc e) l s
        | none => .stuck
    | .path [(t, []), (v, [])] => match lookup t sc.types with
      | some (.enum vs) => if v ∈ vs then pure (.lit (vs.idxOf v)) else X.stuck
      | some (.struct _ _ _) => X.stuck
      | none => if t = g.en then match lookupDef g.defs v with
          | some .unit => pure (.user (.inl ⟨v, .unit⟩))
          | _ => X.stuck
        else X.stuck
    | .path _ => X.stuck
    | .ref _ e => do
      let v ← gplace (gev n sc) e
      pure (.refv v)
    | .bin .eq a b => do
      let a ← gev n sc a
      let b ← gev n sc b
      binOpV g.lib .eq a.peel b.peel
    | .cast e t => do
      let v ← gev n sc e
      castV g.lib (gty g sc t) v
    | .call (.path p) args => do
      let vs ← seqE (gev n sc) args
      callPath g sc p vs
    | .method (.array es) m _ _ => if m = "len" then do
        let vs ← seqE (gev n sc) es
        pure (.int .usize (BitVec.ofNat 64 vs.length))
      else X.stuck
    | .method e m targs args => do
      let recv ← gplace (gev n sc) e
      let vs ← seqE (gev n sc) args
      match findFn recv.peel.tyName m g.lib.fns with
      | some fn => callFn g.lib evFuel fn recv.peel.tyName (targs.map (gty g sc)) (some recv.peel) vs .unknown
      | none => match recv with
        | .user _ => match findImpl g "TaggableInner" g.en none m g.fns with
          | some fn => do
            let recv ← match asVar e with
              | some x => useVar x
              | none => pure recv
            runFn g (gev n) fn (some recv) vs
          | none => X.stuck
        | recv => libMethod g.lib recv m vs
    | .field (.path [(x, [])]) y => moveField x y
    | .struct [(x, [])] fs =>
      if x = "Self" then do
        let vs ← seqF (gev n sc) fs
        pure (.struct containerName vs)
      else match lookup x sc.types with
        | some (.struct _ attrs ts) => do
          let vs ← seqF (gev n sc) fs
          structRecord g attrs ts vs
        | _ => X.stuck
    | .struct [(t, []), (v, [])] fs => match lookup t sc.types with
      | some _ => X.stuck
      | none => if t = g.en then do
          let vs ← seqF (gev n sc) fs
          enumRecord g v vs
        else X.stuck
    | .mac m [.path [(x, [])]] => if m = "stringify" then pure (.str x) else X.stuck
    | .mac m (.lit msg :: args) => if m = "panic" then do
        let vs ← seqE (gev n sc) args
        X.panic (.text msg vs)
      else X.stuck
    | .block ss => scope g.lib (runStmts g (gev n (sc.enter ss)) (sc.enter ss) ss)
    | .mtch e arms => do
      let v ← gplace (gev n sc) e
      runArms g (gev n sc) (asVar e) v arms
    | _ => X.stuck

/-- How deep the evaluation may go; more than enough for the generated code. -/
def genFuel : Nat := 40

/-- Call the function `name` of the implementation of the trait `tr` (with argument `arg`) for the type `self`, in the state `s`. -/
def GCrate.call (tr self : String) (arg : Option Ty) (name : String) (recv : Option (GV β)) (args : List (GV β)) (s : State) : XOut (Host β) (GV β) :=
  match findImpl g tr self arg name g.fns with
  | some fn => runFn g (gev g genFuel) fn recv args [] s
  | none => .stuck

/-- `En::ref_from_tagged_box(&tagged, callback)`: what the callback returned, if it was called. -/
def GCrate.lend (tagged : GV β) (s : State) : XOut (Host β) (Option β) :=
  match findImpl g "TaggableInner" g.en none "ref_from_tagged_box" g.fns with
  | some ⟨_, _, _, none, [(x, _), (c, _)], _, body⟩ =>
    match scope g.lib (runStmts g (gev g genFuel (Sc.enter ⟨[], []⟩ body)) (Sc.enter ⟨[], []⟩ body) body)
        [(c, some (.struct "<callback>" [])), (x, some (.refv tagged))] s with
    | .ret _ l s => .ret (match lookup c l with
      | some (some (.user (.inr r))) => some r
      | _ => none) [] s
    | .panic m _ s => .panic m [] s
    | .ub k => .ub k
    | .stuck => .stuck
  | _ => .stuck

end

end TB.Rust

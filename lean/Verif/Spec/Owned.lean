import Verif.Spec.Container

/-!
# Clients whose values own memory

In `Spec/Container` a value is its bytes. Here a value may own heap blocks that its bytes point to (`String`, `Vec`, `Box`): user code
follows the pointers, clones are deep, and destructors have bodies that free what the value owns.

`Ownership X` says which abstract value `x : X` an enum value stands for in a given state, and which blocks it owns. `ostep` is a
safe-code client that holds enum values and containers and moves values between the two; `oplain` is the same client with nothing
but abstract values: no heap, no bytes, no containers.
-/

set_option autoImplicit false

namespace TB.Macro

/-! ## Ownership -/

/-- The blocks `K` are alive in `s'` with the contents they have in `s`. -/
def Keeps (K : List Block) (s s' : State) : Prop :=
  ∀ b ∈ K, b ∈ s'.blocks ∧ ∀ i, b.base ≤ i → i < b.base + b.size → s'.mem i = s.mem i

/-- From `s` to `s'`, nothing alive was touched except, possibly, the blocks `F`. -/
structure ChangesOnly (F : List Block) (s s' : State) : Prop where
  others : ∀ b ∈ s.blocks, b ∉ F → b ∈ s'.blocks ∧ ∀ i, b.base ≤ i → i < b.base + b.size → s'.mem i = s.mem i
  trace : s.trace <+: s'.trace

/-- `own s F e x`: in state `s` the enum value `e` stands for `x`, and it owns the blocks `F`. -/
structure Ownership (X : Type) where
  own : State → List Block → EVal → X → Prop

/-- What is owned is alive, and what a value stands for depends on nothing but the value and the blocks it owns. -/
structure Ownership.Lawful {X : Type} (O : Ownership X) : Prop where
  live : ∀ {s F e x}, O.own s F e x → ∀ b ∈ F, b ∈ s.blocks
  frame : ∀ {s s' F e x}, O.own s F e x → Keeps F s s' → O.own s' F e x

/-! ## User code -/

section User

variable {X : Type}

/-- Code that makes a value (`String::from("..")`), and the value it makes (or the panic it raises). -/
structure MakeFn (X : Type) where
  run : M EVal
  out : Except Nat X

/-- Code that looks at a value (`&self` methods, closures). -/
structure LookFn (X α : Type) where
  run : EVal → M α
  out : X → Except Nat α

/-- Code that looks at two values (`eq`, `partial_cmp`, `cmp`). -/
structure Look2Fn (X α : Type) where
  run : EVal → EVal → M α
  out : X → X → Except Nat α

/-- `clone`. -/
structure CloneFn (X : Type) where
  run : EVal → M EVal
  out : X → Except Nat X

/-- Code that changes a value (`&mut self` methods): its new representation and an answer. -/
structure ModifyFn (X α : Type) where
  run : EVal → M (EVal × α)
  out : X → X × α

/-- Code that takes a value away (`self` methods, `drop`). -/
structure TakeFn (X α : Type) where
  run : EVal → M α
  out : X → Except Nat α

/-- User code ran from `s` and ended with outcome `o` in `s'`: with a result that `good` accepts or the panic announced by `out`,
having touched nothing alive but `F`; unless it ran out of memory, which aborts the process. It executes the destructors it causes
itself (so it leaves no destructor events behind). -/
def Ends {α γ : Type} (env : Env) (F : List Block) (s : State) (o : Out α) (out : Except Nat γ) (good : State → α → γ → Prop) : Prop :=
  ∃ s', HeapInv env s' ∧ s.trace <+: s'.trace ∧
    ((o = .panic .abort s' ∧ NullBetween s s') ∨
     (ChangesOnly F s s' ∧ dtorsBetween s s' = [] ∧
       match out with
       | .ok c => ∃ a, o = .ret a s' ∧ good s' a c
       | .error k => o = .panic (.user k) s'))

variable (env : Env) (rc : Rustc) (decl : List VariantDef) (O : Ownership X)

/-- `e` is a value of the enum that stands for `x` and owns `F`. -/
def OwnsVal (s : State) (F : List Block) (e : EVal) (x : X) : Prop := IsEnumValue rc decl e ∧ O.own s F e x

/-- `e` is a value of the enum that stands for `x`; what it owns is new, i.e. not alive in `s`. -/
def NewVal (s s' : State) (e : EVal) (x : X) : Prop := ∃ F, OwnsVal rc decl O s' F e x ∧ ∀ b ∈ F, b ∉ s.blocks

def MakeFn.OK (f : MakeFn X) : Prop :=
  ∀ s, HeapInv env s → Ends env [] s (f.run s) f.out (fun s' e x => NewVal rc decl O s s' e x)

def LookFn.OK {α : Type} (f : LookFn X α) : Prop :=
  ∀ s F e x, HeapInv env s → OwnsVal rc decl O s F e x → Ends env [] s (f.run e s) (f.out x) (fun _ a c => a = c)

def Look2Fn.OK {α : Type} (f : Look2Fn X α) : Prop :=
  ∀ s F e x F' e' x', HeapInv env s → OwnsVal rc decl O s F e x → OwnsVal rc decl O s F' e' x' →
    Ends env [] s (f.run e e' s) (f.out x x') (fun _ a c => a = c)

def CloneFn.OK (f : CloneFn X) : Prop :=
  ∀ s F e x, HeapInv env s → OwnsVal rc decl O s F e x →
    Ends env [] s (f.run e s) (f.out x) (fun s' e' x' => NewVal rc decl O s s' e' x')

def ModifyFn.OK {α : Type} (f : ModifyFn X α) : Prop :=
  ∀ s F e x, HeapInv env s → OwnsVal rc decl O s F e x →
    Ends env F s (f.run e s) (.ok (f.out x)) (fun s' r x' => r.2 = x'.2 ∧
      ∃ F', OwnsVal rc decl O s' F' r.1 x'.1 ∧ ∀ b ∈ F', b ∈ F ∨ b ∉ s.blocks)

def TakeFn.OK {α : Type} (f : TakeFn X α) : Prop :=
  ∀ s F e x, HeapInv env s → OwnsVal rc decl O s F e x → Ends env F s (f.run e s) (f.out x) (fun _ a c => a = c)

end User

/-! ## Destructor bodies -/

/-- Execute the bodies of the destructors named by the events; `body id v` is the body for field values of type `id`. -/
def runBodies (body : Nat → List MByte → M Unit) : List Event → M Unit
  | [] => pure ()
  | .drop id v :: es => do body id v; runBodies body es
  | _ :: es => runBodies body es

/-- Run crate code, then the bodies of the destructors it called. In the crate's code destructor calls come last (scope ends and
unwinding), so nothing that matters happens between a call and its body. A panic in a destructor is taken as an abort. -/
def withBodies {α : Type} (body : Nat → List MByte → M Unit) (m : M α) : M α := fun s =>
  match m s with
  | .ret a s' =>
    match runBodies body (dtorsBetween s s') s' with
    | .ret _ s'' => .ret a s''
    | .panic _ s'' => .panic .abort s''
    | .ub k => .ub k
  | .panic .abort s' => .panic .abort s'
  | .panic k s' =>
    match runBodies body (dtorsBetween s s') s' with
    | .ret _ s'' => .panic k s''
    | .panic _ s'' => .panic .abort s''
    | .ub k => .ub k
  | .ub k => .ub k

/-- Dropping the fields of a value works, gives up what the value owns and touches nothing else. -/
def DropOK {X : Type} (env : Env) (rc : Rustc) (decl : List VariantDef) (O : Ownership X) (body : Nat → List MByte → M Unit) : Prop :=
  ∀ s F e x, HeapInv env s → OwnsVal rc decl O s F e x →
    ∃ s', runBodies body (fieldDtors rc decl e) s = .ret () s' ∧ HeapInv env s' ∧ ChangesOnly F s s'

/-- Payloads of size zero have no destructors (for those that have, see C23 and C55). -/
def NoZeroSizedDtors (rc : Rustc) (decl : List VariantDef) : Prop :=
  ∀ e, IsEnumValue rc decl e → zeroSized rc decl e = true → fieldDtors rc decl e = []

/-! ## Clients -/

/-- Operations; `h`, `h'` are numbers of values or containers. -/
inductive OOp (X β : Type) where
  /-- a new value -/
  | make (f : MakeFn X)
  /-- `Container::from(value)` -/
  | wrap (h : Nat)
  /-- `container.into_inner()` -/
  | unwrap (h : Nat)
  /-- `clone`, of a value or of a container -/
  | clone (h : Nat) (f : CloneFn X)
  /-- look at a value, or at the value in a container (`ref_from_tagged_box`) -/
  | look (h : Nat) (f : LookFn X β)
  | eq (h h' : Nat) (f : Look2Fn X Bool)
  | partialCmp (h h' : Nat) (f : Look2Fn X (Option Ordering))
  | cmp (h h' : Nat) (f : Look2Fn X Ordering)
  /-- change a value in place (containers have no such operation) -/
  | modify (h : Nat) (f : ModifyFn X β)
  /-- change a value, or the value in a container, through a shared reference (payloads with `Cell`, `RefCell`, ..) -/
  | change (h : Nat) (f : ModifyFn X β)
  /-- give a value away -/
  | take (h : Nat) (f : TakeFn X β)
  /-- drop a container -/
  | drop (h : Nat)

/-- Observations. -/
inductive ORes (β : Type) where
  | handle (h : Nat)
  | unit
  | seen (b : β)
  | bool (b : Bool)
  | pord (o : Option Ordering)
  | ord (o : Ordering)
  | panicked (k : PanicKind)

/-- An adaptive client. -/
abbrev OClient (X β : Type) := List (ORes β) → Option (OOp X β)

/-- The process is gone. -/
def aborted {β : Type} (os : List (ORes β)) : Bool :=
  match os.getLast? with
  | some (.panicked .abort) => true
  | _ => false

/-! ## The real thing -/

/-- A value or a container. -/
inductive OCell where
  | val (e : EVal)
  | box (b : TBox)

structure OState where
  s : State
  cells : List (Option OCell)

section Real

variable {X β : Type} (env : Env) (rc : Rustc) (P : Program) (body : Nat → List MByte → M Unit)

/-- Run a computation and package the outcome. -/
def ostepWith {α : Type} (s : State) (m : M α) (ret : α → ORes β × List (Option OCell)) (unwound : List (Option OCell)) :
    Option (ORes β × OState) :=
  match m s with
  | .ret a s' => some ((ret a).1, ⟨s', (ret a).2⟩)
  | .panic k s' => some (.panicked k, ⟨s', unwound⟩)
  | .ub _ => none

/-- Compare: two containers, through `ref_from_tagged_box`, or two values, directly. -/
def ocompare {α : Type} (c : OState) (h h' : Nat) (boxes : TBox → TBox → M α) (vals : EVal → EVal → M α) (g : α → ORes β) :
    Option (ORes β × OState) :=
  match c.cells[h]?.join, c.cells[h']?.join with
  | some (.box b), some (.box b') => ostepWith c.s (withBodies body (boxes b b')) (fun r => (g r, c.cells)) c.cells
  | some (.val e), some (.val e') => ostepWith c.s (vals e e') (fun r => (g r, c.cells)) c.cells
  | _, _ => none

/-- One client step. `none`: undefined behaviour (or a use of what is not there, which does not compile). Change through a shared
reference: of a value, it is there afterwards; the reference that `ref_from_tagged_box` hands out is to a copy (`ManuallyDrop`,
src/tagged_box_macro/mod.rs 397, 424, 449, 472), so what the closure makes of the copy is forgotten. -/
def ostep (c : OState) : OOp X β → Option (ORes β × OState)
  | .make f => ostepWith c.s f.run (fun e => (.handle c.cells.length, c.cells ++ [some (.val e)])) c.cells
  | .wrap h =>
    match c.cells[h]?.join with
    | some (.val e) => ostepWith c.s (withBodies body (containerFrom env rc P e)) (fun b => (.unit, c.cells.set h (some (.box b))))
        (c.cells.set h none)
    | _ => none
  | .unwrap h =>
    match c.cells[h]?.join with
    | some (.box b) => ostepWith c.s (withBodies body (containerIntoInner env rc P b)) (fun e => (.unit, c.cells.set h (some (.val e))))
        (c.cells.set h none)
    | _ => none
  | .clone h f =>
    match c.cells[h]?.join with
    | some (.box b) => ostepWith c.s (withBodies body (TBox.clone (taggable env rc P) f.run b))
        (fun b' => (.handle c.cells.length, c.cells ++ [some (.box b')])) c.cells
    | some (.val e) => ostepWith c.s (f.run e) (fun e' => (.handle c.cells.length, c.cells ++ [some (.val e')])) c.cells
    | none => none
  | .look h f =>
    match c.cells[h]?.join with
    | some (.box b) => ostepWith c.s (withBodies body ((taggable env rc P).refFrom b f.run))
        (fun r => (match r with | some x => .seen x | none => .unit, c.cells)) c.cells
    | some (.val e) => ostepWith c.s (f.run e) (fun r => (.seen r, c.cells)) c.cells
    | none => none
  | .eq h h' f => ocompare body c h h' (TBox.eq (taggable env rc P) f.run) f.run .bool
  | .partialCmp h h' f => ocompare body c h h' (TBox.partialCmp (taggable env rc P) f.run) f.run .pord
  | .cmp h h' f => ocompare body c h h' (TBox.cmp (taggable env rc P) f.run) f.run .ord
  | .modify h f =>
    match c.cells[h]?.join with
    | some (.val e) => ostepWith c.s (f.run e) (fun r => (.seen r.2, c.cells.set h (some (.val r.1)))) (c.cells.set h none)
    | _ => none
  | .change h f =>
    match c.cells[h]?.join with
    | some (.box b) => ostepWith c.s (withBodies body ((taggable env rc P).refFrom b f.run))
        (fun r => (match r with | some x => .seen x.2 | none => .unit, c.cells)) c.cells
    | some (.val e) => ostepWith c.s (f.run e) (fun r => (.seen r.2, c.cells.set h (some (.val r.1)))) c.cells
    | none => none
  | .take h f =>
    match c.cells[h]?.join with
    | some (.val e) => ostepWith c.s (f.run e) (fun r => (.seen r, c.cells.set h none)) (c.cells.set h none)
    | _ => none
  | .drop h =>
    match c.cells[h]?.join with
    | some (.box b) => ostepWith c.s (withBodies body b.dropBox) (fun _ => (.unit, c.cells.set h none)) (c.cells.set h none)
    | _ => none

/-- Run a client for at most `n` steps, starting with nothing. -/
def runOwned (p : OClient X β) (s : State) : Nat → Option (List (ORes β) × OState)
  | 0 => some ([], ⟨s, []⟩)
  | n + 1 => (runOwned p s n).bind fun (os, c) =>
      if aborted os then some (os, c) else
      match p os with
      | none => some (os, c)
      | some op => (ostep env rc P body c op).map fun (o, c') => (os ++ [o], c')

end Real

/-! ## Abstract values -/

section Plain

variable {X β : Type}

/-- Result of user code; `fail = some .abort` if it ran out of memory. -/
def oplainRes {α : Type} (fail : Option PanicKind) (x : Except Nat α) : Except PanicKind α :=
  if fail = some .abort then .error .abort else
  match x with
  | .ok a => .ok a
  | .error k => .error (.user k)

/-- What is held: `(false, x)` the value `x`, `(true, x)` a container with it, `none` nothing any more. -/
abbrev OPlain (X : Type) := List (Option (Bool × X))

def oplainCompare {α : Type} (fail : Option PanicKind) (hs : OPlain X) (h h' : Nat) (f : X → X → Except Nat α) (g : α → ORes β) :
    Option (ORes β × OPlain X) :=
  match hs[h]?.join, hs[h']?.join with
  | some (k, x), some (k', x') =>
    if k = k' then
      some (match oplainRes fail (f x x') with
        | .ok a => (g a, hs)
        | .error p => (.panicked p, hs))
    else none
  | _, _ => none

/-- One client step on abstract values. Containers are made of values and turned into values without any effect; cloning makes an
equal value of the same kind; dropping makes things disappear. `fail` says what ran out of memory, if anything. -/
def oplain (fail : Option PanicKind) (hs : OPlain X) : OOp X β → Option (ORes β × OPlain X)
  | .make f => some (match oplainRes fail f.out with
      | .ok x => (.handle hs.length, hs ++ [some (false, x)])
      | .error k => (.panicked k, hs))
  | .wrap h =>
    match hs[h]?.join with
    | some (false, x) => some (match fail with
        | none => (.unit, hs.set h (some (true, x)))
        | some k => (.panicked k, hs.set h none))
    | _ => none
  | .unwrap h =>
    match hs[h]?.join with
    | some (true, x) => some (.unit, hs.set h (some (false, x)))
    | _ => none
  | .clone h f =>
    match hs[h]?.join with
    | some (k, x) => some (match oplainRes fail (f.out x) with
        | .error p => (.panicked p, hs)
        | .ok y => match k, fail with
          | true, some p => (.panicked p, hs)
          | k, _ => (.handle hs.length, hs ++ [some (k, y)]))
    | none => none
  | .look h f =>
    match hs[h]?.join with
    | some (_, x) => some (match oplainRes fail (f.out x) with
        | .ok a => (.seen a, hs)
        | .error p => (.panicked p, hs))
    | none => none
  | .eq h h' f => oplainCompare fail hs h h' f.out .bool
  | .partialCmp h h' f => oplainCompare fail hs h h' f.out .pord
  | .cmp h h' f => oplainCompare fail hs h h' f.out .ord
  | .modify h f =>
    match hs[h]?.join with
    | some (false, x) => some (match oplainRes fail (.ok (f.out x)) with
        | .ok (y, a) => (.seen a, hs.set h (some (false, y)))
        | .error p => (.panicked p, hs.set h none))
    | _ => none
  | .change h f =>
    match hs[h]?.join with
    | some (k, x) => some (match oplainRes fail (.ok (f.out x)) with
        | .ok (y, a) => (.seen a, hs.set h (some (k, y)))
        | .error p => (.panicked p, hs))
    | none => none
  | .take h f =>
    match hs[h]?.join with
    | some (false, x) => some (match oplainRes fail (f.out x) with
        | .ok a => (.seen a, hs.set h none)
        | .error p => (.panicked p, hs.set h none))
    | _ => none
  | .drop h =>
    match hs[h]?.join with
    | some (true, _) => some (.unit, hs.set h none)
    | _ => none

/-- Run a client on abstract values, one step for each element of `fails` (newest first). -/
def runAbstract (p : OClient X β) : List (Option PanicKind) → Option (List (ORes β) × OPlain X)
  | [] => some ([], [])
  | fail :: fails => (runAbstract p fails).bind fun (os, hs) =>
      if aborted os then some (os, hs) else
      match p os with
      | none => some (os, hs)
      | some op => (oplain fail hs op).map fun (o, hs') => (os ++ [o], hs')

end Plain

/-- The code leaves the bytes of the value as they are: what changes is in blocks that the value owns. -/
def ModifyFn.InPlace {X α : Type} (f : ModifyFn X α) : Prop := ∀ e s r s', f.run e s = .ret r s' → r.1 = e

/-- The user code of the operation is safe code. -/
def OOp.Safe {X β : Type} (env : Env) (rc : Rustc) (decl : List VariantDef) (O : Ownership X) : OOp X β → Prop
  | .make f => f.OK env rc decl O
  | .clone _ f => f.OK env rc decl O
  | .look _ f => f.OK env rc decl O
  | .eq _ _ f => f.OK env rc decl O
  | .partialCmp _ _ f => f.OK env rc decl O
  | .cmp _ _ f => f.OK env rc decl O
  | .modify _ f => f.OK env rc decl O
  | .change _ f => f.OK env rc decl O
  | .take _ f => f.OK env rc decl O
  | _ => True

/-- Changes through shared references are changes in place. -/
def OOp.InPlace {X β : Type} : OOp X β → Prop
  | .change _ f => f.InPlace
  | _ => True

/-- All operations of the client are safe code. -/
def OClient.Safe {X β : Type} (env : Env) (rc : Rustc) (decl : List VariantDef) (O : Ownership X) (p : OClient X β) : Prop :=
  ∀ os op, p os = some op → op.Safe env rc decl O

/-- .. and what they do through shared references, they do in place. -/
def OClient.OK {X β : Type} (env : Env) (rc : Rustc) (decl : List VariantDef) (O : Ownership X) (p : OClient X β) : Prop :=
  ∀ os op, p os = some op → op.Safe env rc decl O ∧ op.InPlace

/-- What lack of memory can cause: a panic of the crate (null, or in debug builds an address outside the reserved width), or an abort in
user code. -/
def OFailOK (env : Env) (f : Option PanicKind) : Prop := FailOK env f ∨ f = some .abort

end TB.Macro

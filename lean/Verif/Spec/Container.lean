import Verif.Spec.Decl
import Verif.Spec.History

/-!
# Client histories of container operations

`CState`/`cstep`: a safe-code client that keeps numbered containers made by `tagged_box!` and runs the generated functions and the
trait implementations of `TaggedBox` on the byte-level heap; `none` is undefined behaviour (or the use of a container it has
moved away, which the Rust compiler rejects).

`plainStep`: the same client with plain enum values instead of containers. No heap, no bytes, no boxes. What differs between
containers and plain values, namely which destructors run, is a parameter (`Dtors`).

A client is adaptive: its next operation may depend on everything it has observed so far, including destructor runs.
-/

set_option autoImplicit false

namespace TB.Macro

/-! ## User code -/

/-- Is the event a destructor run, of a field or of the enum itself? -/
def Event.isDtor : Event → Bool
  | .drop _ _ => true
  | .dropEnum _ => true
  | _ => false

/-- The destructor events among those appended between two states. -/
def dtorsBetween (s s' : State) : List Event := (s'.trace.drop s.trace.length).filter Event.isDtor

/-- The allocator was asked in vain between two states. -/
def NullBetween (s s' : State) : Prop := ∃ size align, Event.allocNull size align ∈ s'.trace.drop s.trace.length

/-- A user-supplied function (`clone`, `eq`, `cmp`, `fmt`, a closure): the code, what it answers (a panic or a result), and which
destructors it runs. `m` is the kind of code: `M`, or small-step programs in the model of threads. -/
structure UserFn (m : Type → Type) (A α : Type) where
  run : A → m α
  out : A → Except Nat α
  evs : A → List Event

/-- The code does what is said of it, in every state with a well-formed heap; it may allocate, and free what it allocated, but
leaves alone what is alive (it is safe code and owns none of it). -/
def UserFn.OK {A α : Type} (env : Env) (f : UserFn M A α) (x : A) : Prop :=
  ∀ s, HeapInv env s → ∃ s', HeapInv env s' ∧ Extends s s' ∧ dtorsBetween s s' = f.evs x ∧
    f.run x s = match f.out x with
      | .ok a => .ret a s'
      | .error k => .panic (.user k) s'

/-! ## Operations and observations -/

/-- Operations. `h`, `h'` are numbers of containers (or of plain values); `β` is the type of what closures return. -/
inductive COp (m : Type → Type) (β : Type) where
  | from (e : EVal)
  | clone (h : Nat) (f : UserFn m EVal EVal)
  | copy (h : Nat)
  | eq (h h' : Nat) (f : UserFn m (EVal × EVal) Bool)
  | partialCmp (h h' : Nat) (f : UserFn m (EVal × EVal) (Option Ordering))
  | cmp (h h' : Nat) (f : UserFn m (EVal × EVal) Ordering)
  | observe (h : Nat) (f : UserFn m EVal β)
  /-- `write!(out, "{:?}", x)` -/
  | debug (h : Nat) (f : UserFn m (EVal × FmtSpec × String) (String × Bool)) (out : String)
  /-- `write!(out, "{}", x)` -/
  | display (h : Nat) (f : UserFn m (EVal × FmtSpec × String) (String × Bool)) (out : String)
  | intoInner (h : Nat)
  | drop (h : Nat)

/-- Results. -/
inductive CRes (β : Type) where
  | handle (h : Nat)
  | panicked (k : PanicKind)
  | val (e : EVal)
  | bool (b : Bool)
  | pord (o : Option Ordering)
  | ord (o : Ordering)
  | seen (b : β)
  | text (t : String × Bool)
  | unit

/-- An observation: the result and the destructors that ran. -/
abbrev CObs (β : Type) := CRes β × List Event

/-- An adaptive client. -/
abbrev CClient (m : Type → Type) (β : Type) := List (CObs β) → Option (COp m β)

/-! ## The real thing -/

section Real

variable (env : Env) (rc : Rustc) (P : Program) {β : Type}

/-- Run a computation and package the outcome. -/
def cstepWith {α : Type} (c : CState) (m : M α) (f : α → CRes β × List (Option TBox)) : Option (CObs β × CState) :=
  match m c.s with
  | .ret a s' => some (((f a).1, dtorsBetween c.s s'), ⟨s', (f a).2⟩)
  | .panic k s' => some ((.panicked k, dtorsBetween c.s s'), ⟨s', c.handles⟩)
  | .ub _ => none

/-- One client step on containers. (`Clone`, `PartialEq`, .. of the container are derived and call those of its only field.) -/
def cstep (c : CState) : COp M β → Option (CObs β × CState)
  | .from e => cstepWith c (containerFrom env rc P e) (fun b => (.handle c.handles.length, c.handles ++ [some b]))
  | .clone h f => (c.get h).bind fun b =>
      cstepWith c (TBox.clone (taggable env rc P) f.run b) (fun b' => (.handle c.handles.length, c.handles ++ [some b']))
  | .copy h => (c.get h).bind fun b =>
      cstepWith c (pure b.copy) (fun b' => (.handle c.handles.length, c.handles ++ [some b']))
  | .eq h h' f => (c.get h).bind fun b => (c.get h').bind fun b' =>
      cstepWith c (TBox.eq (taggable env rc P) (fun x y => f.run (x, y)) b b') (fun r => (.bool r, c.handles))
  | .partialCmp h h' f => (c.get h).bind fun b => (c.get h').bind fun b' =>
      cstepWith c (TBox.partialCmp (taggable env rc P) (fun x y => f.run (x, y)) b b') (fun r => (.pord r, c.handles))
  | .cmp h h' f => (c.get h).bind fun b => (c.get h').bind fun b' =>
      cstepWith c (TBox.cmp (taggable env rc P) (fun x y => f.run (x, y)) b b') (fun r => (.ord r, c.handles))
  | .observe h f => (c.get h).bind fun b =>
      cstepWith c ((taggable env rc P).refFrom b f.run)
        (fun r => (match r with | some x => .seen x | none => .unit, c.handles))
  | .debug h f out => (c.get h).bind fun b =>
      cstepWith c (TBox.debugFmt (taggable env rc P) (fun e spec o => f.run (e, spec, o)) b {} out)
        (fun r => (.text r, c.handles))
  | .display h f out => (c.get h).bind fun b =>
      cstepWith c (TBox.displayFmt (taggable env rc P) (fun e spec o => f.run (e, spec, o)) b {} out)
        (fun r => (.text r, c.handles))
  | .intoInner h => (c.get h).bind fun b =>
      cstepWith c (containerIntoInner env rc P b) (fun e => (.val e, c.handles.set h none))
  | .drop h => (c.get h).bind fun b => cstepWith c b.dropBox (fun _ => (.unit, c.handles.set h none))

/-- Run a client on containers for at most `n` steps, from the state and the containers in `c₀`. -/
def runContainers (p : CClient M β) (c₀ : CState) : Nat → Option (List (CObs β) × CState)
  | 0 => some ([], c₀)
  | n + 1 => (runContainers p c₀ n).bind fun (os, c) =>
      match p os with
      | none => some (os, c)
      | some op => (cstep env rc P c op).map fun (o, c') => (os ++ [o], c')

end Real

/-! ## Plain values -/

/-- Which destructors run: when a container is made from a value (successfully, or not because of the given panic), when a value is
looked at, when it goes out of scope. -/
structure Dtors where
  made : EVal → Option PanicKind → List Event
  seen : EVal → List Event
  dropped : EVal → List Event

section Plain

variable {m : Type → Type} {β : Type} (D : Dtors)

/-- Result of user code. -/
def plainRes {α : Type} (x : Except Nat α) (f : α → CRes β) : CRes β :=
  match x with
  | .ok a => f a
  | .error k => .panicked (.user k)

/-- Make a container from `e` after events `es`; `fail` says whether memory was to be had. -/
def plainMake (fail : Option PanicKind) (hs : List (Option EVal)) (e : EVal) (es : List Event) :
    CObs β × List (Option EVal) :=
  match fail with
  | none => ((.handle hs.length, es ++ D.made e none), hs ++ [some e])
  | some k => ((.panicked k, es ++ D.made e (some k)), hs)

/-- One client step on plain values. `hs` are the values (`none`: moved away). -/
def plainStep (fail : Option PanicKind) (hs : List (Option EVal)) : COp m β → Option (CObs β × List (Option EVal))
  | .from e => some (plainMake D fail hs e [])
  | .clone h f => hs[h]?.join.map fun e =>
      match f.out e with
      | .ok y => plainMake D fail hs y (f.evs e ++ D.seen e)
      | .error k => ((.panicked (.user k), f.evs e ++ D.seen e), hs)
  | .copy h => hs[h]?.join.map fun e => ((.handle hs.length, []), hs ++ [some e])
  | .eq h h' f => hs[h]?.join.bind fun e => hs[h']?.join.map fun e' =>
      ((plainRes (f.out (e, e')) .bool, f.evs (e, e') ++ D.seen e' ++ D.seen e), hs)
  | .partialCmp h h' f => hs[h]?.join.bind fun e => hs[h']?.join.map fun e' =>
      ((plainRes (f.out (e, e')) .pord, f.evs (e, e') ++ D.seen e' ++ D.seen e), hs)
  | .cmp h h' f => hs[h]?.join.bind fun e => hs[h']?.join.map fun e' =>
      ((plainRes (f.out (e, e')) .ord, f.evs (e, e') ++ D.seen e' ++ D.seen e), hs)
  | .observe h f => hs[h]?.join.map fun e => ((plainRes (f.out e) .seen, f.evs e ++ D.seen e), hs)
  | .debug h f out => hs[h]?.join.map fun e => ((plainRes (f.out (e, {}, out)) .text, f.evs (e, {}, out) ++ D.seen e), hs)
  | .display h f out => hs[h]?.join.map fun e => ((plainRes (f.out (e, {}, out)) .text, f.evs (e, {}, out) ++ D.seen e), hs)
  | .intoInner h => hs[h]?.join.map fun e => ((.val e, []), hs.set h none)
  | .drop h => hs[h]?.join.map fun e => ((.unit, D.dropped e), hs.set h none)

/-- Run a client on plain values, one step for each element of `fails` (newest first), from the values `hs₀`. -/
def runPlain (p : CClient m β) (hs₀ : List (Option EVal)) :
    List (Option PanicKind) → Option (List (CObs β) × List (Option EVal))
  | [] => some ([], hs₀)
  | fail :: fails => (runPlain p hs₀ fails).bind fun (os, hs) =>
      match p os with
      | none => some (os, hs)
      | some op => (plainStep D fail hs op).map fun (o, hs') => (os ++ [o], hs')

end Plain

/-! ## Typing -/

/-- `e` is a value of the declared enum. -/
def IsEnumValue (rc : Rustc) (decl : List VariantDef) (e : EVal) : Prop := ∃ i, IsValue rc decl i e

/-- The operation is well-typed and its user code is safe code. -/
def COp.OK {β : Type} (env : Env) (rc : Rustc) (decl : List VariantDef) : COp M β → Prop
  | .from e => IsEnumValue rc decl e
  | .clone _ f => ∀ x, IsEnumValue rc decl x → f.OK env x ∧ ∀ y, f.out x = .ok y → IsEnumValue rc decl y
  | .eq _ _ f => ∀ x y, IsEnumValue rc decl x → IsEnumValue rc decl y → f.OK env (x, y)
  | .partialCmp _ _ f => ∀ x y, IsEnumValue rc decl x → IsEnumValue rc decl y → f.OK env (x, y)
  | .cmp _ _ f => ∀ x y, IsEnumValue rc decl x → IsEnumValue rc decl y → f.OK env (x, y)
  | .observe _ f => ∀ x, IsEnumValue rc decl x → f.OK env x
  | .debug _ f out => ∀ x, IsEnumValue rc decl x → f.OK env (x, {}, out)
  | .display _ f out => ∀ x, IsEnumValue rc decl x → f.OK env (x, {}, out)
  | _ => True

/-- All operations of the client are. -/
def CClient.OK {β : Type} (env : Env) (rc : Rustc) (decl : List VariantDef) (p : CClient M β) : Prop :=
  ∀ os op, p os = some op → op.OK env rc decl

/-- The panics that lack of memory can cause: the allocator returned null, or (debug builds) an address outside the reserved width. -/
def FailOK (env : Env) (f : Option PanicKind) : Prop :=
  f = none ∨ f = some .nullAlloc ∨ (f = some .pointer ∧ env.debug = true)

/-! ## Destructor policies -/

/-- Destructors of the fields of `e`, in declaration order. -/
def fieldDtors (rc : Rustc) (decl : List VariantDef) (e : EVal) : List Event :=
  match decl.find? (fun d => d.name == e.variant) with
  | some d => (d.fields.types.zip e.payload.vals).filterMap fun (t, v) =>
      if (rc.leaf t).needsDrop then some (.drop (rc.leaf t).id v) else none
  | none => []

/-- Destructor of the enum itself. -/
def enumDtor (hasDrop : Bool) (e : EVal) : List Event := if hasDrop then [.dropEnum e.variant] else []

/-- What Rust does with plain values: moving and looking run nothing; going out of scope (also by unwinding) runs the enum's own
destructor and then those of the fields. -/
def rustDtors (rc : Rustc) (decl : List VariantDef) (hasDrop : Bool) : Dtors where
  made e fail := match fail with
    | none => []
    | some _ => enumDtor hasDrop e ++ fieldDtors rc decl e
  seen _ := []
  dropped e := enumDtor hasDrop e ++ fieldDtors rc decl e

/-- Is the payload of `e` kept as a value of size zero? -/
def zeroSized (rc : Rustc) (decl : List VariantDef) (e : EVal) : Bool :=
  match decl.find? (fun d => d.name == e.variant) with
  | some d => match d.fields.shape rc with
    | some sh => sh.size == 0
    | none => false
  | none => false

/-- What the crate does: making a container runs the enum's destructor (it is copied out of, and then dropped), and those of the fields
if they have size zero or there was no memory; looking at a unit variant runs the enum's destructor; dropping a container runs
nothing. -/
def crateDtors (rc : Rustc) (decl : List VariantDef) (hasDrop : Bool) : Dtors where
  made e fail := (match fail with
    | none => if zeroSized rc decl e then fieldDtors rc decl e else []
    | some .nullAlloc => fieldDtors rc decl e
    | some _ => []) ++ enumDtor hasDrop e
  seen e := if e.payload = .unit then enumDtor hasDrop e else []
  dropped _ := []

end TB.Macro

import Verif.Macro.Run
import Verif.Provenance
import Verif.Spec.Container

/-!
# The generated code on the machine with pointer provenance

The functions of `Macro/Run.lean` and `Traits.lean` that containers use, on the machine of `Provenance.lean`. They differ from the
address-level versions in the functions they call (`newQ`, `intoInnerQ`, a dereference of `asPtrQ`) and nowhere else.
-/

set_option autoImplicit false

namespace TB

/-- As `M.cleanup`. -/
def MP.cleanup {α : Type} (es : List Event) (m : MP α) : MP α := fun σ =>
  match m σ with
  | .ret a σ' => .ret a (σ'.log es)
  | .panic k σ' => .panic k (σ'.log es)
  | .ub k => .ub k

/-! ## States -/

/-- A state of the machine: a well-formed heap, and identities that have been given out by the machine. -/
structure PState.OK (env : Env) (σ : PState) : Prop where
  heap : HeapInv env σ.toState
  ids : ∀ x ∈ σ.live, x.1 < σ.next
  exposed : ∀ i ∈ σ.exposed, i < σ.next

/-- `σ'` is a later state in which everything alive in `σ` is still alive, has the same bytes, and is exposed if it was. -/
structure PExtends (σ σ' : PState) : Prop where
  mem : Extends σ.toState σ'.toState
  live : ∀ x ∈ σ.live, x ∈ σ'.live
  exposed : ∀ i ∈ σ.exposed, i ∈ σ'.exposed

namespace Macro

section Run

variable (env : Env) (rc : Rustc) (P : Program)

/-- One arm of `into_tagged_box`, cf. `IntoArm.run`. -/
def IntoArm.runQ (e : EVal) : IntoArm → Option (MP TBox)
  | .dangling v _ ctr => if e.variant = v then
      some (pure (TBox.dangling env env.enumAlign (asDiscr env (counterU8 P ctr)))) else none
  | .single v binder ty arg ctr => if e.variant = v then
      (match e.payload with
       | .tuple [x] => some (TBox.newQ env (rc.leaf ty).shape [(lookupVar arg [(binder, x)]).getD []]
            (asDiscr env (counterU8 P ctr)))
       | _ => none) else none
  | .tuple v binders tys args ctr => if e.variant = v then
      (match e.payload with
       | .tuple xs => some (TBox.newQ env (structShape rc tys) (byName args (binders.zip xs))
            (asDiscr env (counterU8 P ctr)))
       | _ => none) else none
  | .record v binders decl inits ctr => if e.variant = v then
      (match e.payload with
       | .record fs => some (TBox.newQ env (structShape rc (decl.map (·.2)))
            (byName (decl.map (·.1)) (inits.zip (byName inits (binders.zip (byName binders fs)))))
            (asDiscr env (counterU8 P ctr)))
       | _ => none) else none

/-- Cf. `firstInto`. -/
def firstIntoQ (e : EVal) : List IntoArm → MP TBox
  | [] => MP.panic .noVariant
  | a :: as => match a.runQ env rc P e with
    | some m => m
    | none => firstIntoQ e as

/-- `into_tagged_box(self)`; also `Container::from(e)`. `src/tagged_box_macro/mod.rs:784-790`, `:762-771` -/
def intoTaggedBoxQ (e : EVal) : MP TBox := MP.cleanup (scopeDrop P e.variant) (firstIntoQ env rc P e P.into)

/-- Body of an arm of `into_inner` / `from_tagged_box`, cf. `ReadArm.run`. -/
def ReadArm.runQ (a : ReadArm) (b : TBox) : MP EVal :=
  match a.body with
  | .unit => pure ⟨a.v, .unit⟩
  | .single ty => do
      let vs ← b.intoInnerQ env (rc.leaf ty).shape
      pure ⟨a.v, .tuple [vs[0]?.getD []]⟩
  | .ctuple tys x => match x with
      | .noEval => pure ⟨a.v, .tuple []⟩
      | .access is => do
          let vs ← b.intoInnerQ env (structShape rc tys)
          pure ⟨a.v, .tuple (accessFields is vs)⟩
  | .rtuple tys x => match x with
      | .noEval => pure ⟨a.v, .tuple []⟩
      | .access is => do
          let vs ← b.intoInnerQ env (tupleShape env rc tys)
          pure ⟨a.v, .tuple (accessFields is vs)⟩
  | .record decl binders inits => do
      let vs ← b.intoInnerQ env (structShape rc (decl.map (·.2)))
      let vars := binders.zip (byName binders ((decl.map (·.1)).zip vs))
      pure (buildRecord P a.v (inits.zip (byName inits vars)))

/-- Cf. `firstRead`. `mod.rs:254-260`, `:361-376` -/
def firstReadQ (b : TBox) : List ReadArm → MP EVal
  | [] => MP.panic .noVariant
  | a :: as => if guard env P a.ctr b then a.runQ env rc P b else firstReadQ b as

/-- `TaggableInner::from_tagged_box(tagged)`. `mod.rs:792-809` -/
def fromTaggedBoxQ (b : TBox) : MP EVal := firstReadQ env rc P b P.fromB

/-- `TaggableContainer::into_inner(self)`. `mod.rs:748-759` -/
def containerIntoInnerQ (b : TBox) : MP EVal := firstReadQ env rc P b P.inner

/-- Body of an arm of `ref_from_tagged_box`, cf. `RefArm.build`. -/
def RefArm.buildQ (a : RefArm) (b : TBox) : MP (EVal × List Event) :=
  match a.body with
  | .unit => pure (⟨a.v, .unit⟩, scopeDrop P a.v)
  | .single ty => do
      let vs ← readQ (rc.leaf ty).shape (b.asPtrQ env)
      pure (⟨a.v, .tuple [vs[0]?.getD []]⟩, [])
  | .tuple tys x x' => do
      let tuple ← (match x with
        | .noEval => pure []
        | .access is => do
            let vs ← readQ (structShape rc tys) (b.asPtrQ env)
            pure (accessFields is vs))
      pure (⟨a.v, .tuple (match x' with | .noEval => [] | .access is => accessFields is tuple)⟩, [])
  | .record decl binders inits => do
      let vs ← readQ (structShape rc (decl.map (·.2))) (b.asPtrQ env)
      let vars := binders.zip (byName binders ((decl.map (·.1)).zip vs))
      pure (buildRecord P a.v (inits.zip (byName inits vars)), [])

/-- `ref_from_tagged_box`, cf. `firstRef`. `mod.rs:499-514` -/
def firstRefQ {β : Type} (b : TBox) (f : EVal → MP β) : List RefArm → MP (Option β)
  | [] => MP.panic .noVariant
  | a :: as => if guard env P a.ctr b then do
      let (e, es) ← a.buildQ env rc P b
      MP.cleanup es (do let r ← f e; pure (some r))
    else firstRefQ b f as

/-- `Clone::clone`. `src/tagged_box.rs:519-530` -/
def cloneQ (f : EVal → MP EVal) (b : TBox) : MP TBox := do
  let output ← firstRefQ env rc P b f P.ref
  match output with
  | none => MP.panic .cloneNone
  | some e => intoTaggedBoxQ env rc P e

/-- `PartialEq::eq`, `PartialOrd::partial_cmp`, `Ord::cmp`; `dflt` is the initial value of the captured variable.
`src/tagged_box.rs:539-588` -/
def compareQ {α : Type} (f : EVal × EVal → MP α) (dflt : α) (a b : TBox) : MP α := do
  let r ← firstRefQ env rc P a (fun this => firstRefQ env rc P b (fun other => f (this, other)) P.ref) P.ref
  pure (r.join.getD dflt)

/-- `Debug::fmt`, `Display::fmt`. `src/tagged_box.rs:487-512` -/
def fmtQ (f : EVal × FmtSpec × String → MP (String × Bool)) (b : TBox) (out : String) : MP (String × Bool) := do
  let r ← firstRefQ env rc P b (fun this => f (this, {}, out)) P.ref
  pure (r.getD (out, true))

/-! ## Clients -/

variable {β : Type}

/-- As `cstepWith`. -/
def cstepWithQ {α : Type} (c : QState) (m : MP α) (f : α → CRes β × List (Option TBox)) : Option (CObs β × QState) :=
  match m c.σ with
  | .ret a σ' => some (((f a).1, dtorsBetween c.σ.toState σ'.toState), ⟨σ', (f a).2⟩)
  | .panic k σ' => some ((.panicked k, dtorsBetween c.σ.toState σ'.toState), ⟨σ', c.handles⟩)
  | .ub _ => none

/-- One client step on containers, as `cstep`, with the functions above. -/
def cstepQ (c : QState) : COp MP β → Option (CObs β × QState)
  | .from e => cstepWithQ c (intoTaggedBoxQ env rc P e) (fun b => (.handle c.handles.length, c.handles ++ [some b]))
  | .clone h f => (c.get h).bind fun b =>
      cstepWithQ c (cloneQ env rc P f.run b) (fun b' => (.handle c.handles.length, c.handles ++ [some b']))
  | .copy h => (c.get h).bind fun b =>
      cstepWithQ c (pure b.copy) (fun b' => (.handle c.handles.length, c.handles ++ [some b']))
  | .eq h h' f => (c.get h).bind fun b => (c.get h').bind fun b' =>
      cstepWithQ c (compareQ env rc P f.run false b b') (fun r => (.bool r, c.handles))
  | .partialCmp h h' f => (c.get h).bind fun b => (c.get h').bind fun b' =>
      cstepWithQ c (compareQ env rc P f.run none b b') (fun r => (.pord r, c.handles))
  | .cmp h h' f => (c.get h).bind fun b => (c.get h').bind fun b' =>
      cstepWithQ c (compareQ env rc P f.run .eq b b') (fun r => (.ord r, c.handles))
  | .observe h f => (c.get h).bind fun b =>
      cstepWithQ c (firstRefQ env rc P b f.run P.ref)
        (fun r => (match r with | some x => .seen x | none => .unit, c.handles))
  | .debug h f out => (c.get h).bind fun b => cstepWithQ c (fmtQ env rc P f.run b out) (fun r => (.text r, c.handles))
  | .display h f out => (c.get h).bind fun b => cstepWithQ c (fmtQ env rc P f.run b out) (fun r => (.text r, c.handles))
  | .intoInner h => (c.get h).bind fun b =>
      cstepWithQ c (containerIntoInnerQ env rc P b) (fun e => (.val e, c.handles.set h none))
  | .drop h => (c.get h).bind fun _ => cstepWithQ c (pure ()) (fun _ => (.unit, c.handles.set h none))

/-- Run a client on containers for at most `n` steps, as `runContainers`; `none` is undefined behaviour or the use of a container
that has been moved away. -/
def runContainersQ (p : CClient MP β) (c₀ : QState) : Nat → Option (List (CObs β) × QState)
  | 0 => some ([], c₀)
  | n + 1 => (runContainersQ p c₀ n).bind fun (os, c) =>
      match p os with
      | none => some (os, c)
      | some op => (cstepQ env rc P c op).map fun (o, c') => (os ++ [o], c')

end Run

/-! ## Conditions on the client -/

/-- As `UserFn.OK`: the code does what is said of it, and leaves alone what is alive. It may allocate, expose what it likes, and free
what it allocated. -/
def UserFn.OKQ {A α : Type} (env : Env) (f : UserFn MP A α) (x : A) : Prop :=
  ∀ σ, PState.OK env σ → ∃ σ', PState.OK env σ' ∧ PExtends σ σ' ∧ dtorsBetween σ.toState σ'.toState = f.evs x ∧
    f.run x σ = match f.out x with
      | .ok a => .ret a σ'
      | .error k => .panic (.user k) σ'

/-- As `COp.OK`. -/
def COp.OKQ {β : Type} (env : Env) (rc : Rustc) (decl : List VariantDef) : COp MP β → Prop
  | .from e => IsEnumValue rc decl e
  | .clone _ f => ∀ x, IsEnumValue rc decl x → f.OKQ env x ∧ ∀ y, f.out x = .ok y → IsEnumValue rc decl y
  | .eq _ _ f => ∀ x y, IsEnumValue rc decl x → IsEnumValue rc decl y → f.OKQ env (x, y)
  | .partialCmp _ _ f => ∀ x y, IsEnumValue rc decl x → IsEnumValue rc decl y → f.OKQ env (x, y)
  | .cmp _ _ f => ∀ x y, IsEnumValue rc decl x → IsEnumValue rc decl y → f.OKQ env (x, y)
  | .observe _ f => ∀ x, IsEnumValue rc decl x → f.OKQ env x
  | .debug _ f out => ∀ x, IsEnumValue rc decl x → f.OKQ env (x, {}, out)
  | .display _ f out => ∀ x, IsEnumValue rc decl x → f.OKQ env (x, {}, out)
  | _ => True

/-- All operations of the client are. -/
def CClient.OKQ {β : Type} (env : Env) (rc : Rustc) (decl : List VariantDef) (p : CClient MP β) : Prop :=
  ∀ os op, p os = some op → op.OKQ env rc decl

/-- The code makes no allocation that existed before reachable from an integer. -/
def UserFn.Discreet {A α : Type} (f : UserFn MP A α) : Prop :=
  ∀ x σ, match f.run x σ with
    | .ret _ σ' => σ.next ≤ σ'.next ∧ ∀ i ∈ σ'.exposed, i ∈ σ.exposed ∨ σ.next ≤ i
    | .panic _ σ' => σ.next ≤ σ'.next ∧ ∀ i ∈ σ'.exposed, i ∈ σ.exposed ∨ σ.next ≤ i
    | .ub _ => True

/-- The same for operations. -/
def COp.Discreet {β : Type} : COp MP β → Prop
  | .clone _ f => f.Discreet
  | .eq _ _ f => f.Discreet
  | .partialCmp _ _ f => f.Discreet
  | .cmp _ _ f => f.Discreet
  | .observe _ f => f.Discreet
  | .debug _ f _ => f.Discreet
  | .display _ f _ => f.Discreet
  | _ => True

/-- The same for clients. -/
def CClient.Discreet {β : Type} (p : CClient MP β) : Prop := ∀ os op, p os = some op → op.Discreet

end Macro
end TB

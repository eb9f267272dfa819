import Verif.Macro.Run
import Verif.Spec.Container
import Verif.Threads

/-!
# The crate's code as small-step programs

The functions of `TaggedBox.lean`, `Traits.lean` and `Macro/Run.lean` that containers use, as sequences of atomic actions.
`Lemmas/Prog.lean` proves that running them alone is running the functions they mirror.
-/

set_option autoImplicit false

namespace TB

/-- `TaggedBox::new::<U>`. `src/tagged_box.rs:82-104` -/
def TBox.newP (env : Env) (sh : Shape) (val : Val) (d : env.cfg.Discr) : Prog TBox :=
  if sh.size = 0 then .log (dropEvents sh val) (.ret (TBox.dangling env sh.align d))
  else .alloc sh.size sh.align fun ptr =>
    if BitVec.ofNat 64 ptr = 0#64 then .log (dropEvents sh val) (.panic .nullAlloc)
    else .write sh ptr val (match TPtr.new env.cfg env.debug (BitVec.ofNat 64 ptr) d with
      | .ok boxed => .ret ⟨boxed⟩
      | .error k => .panic k)

/-- `into_inner::<U>`. `src/tagged_box.rs:297-300` -/
def TBox.intoInnerP (env : Env) (sh : Shape) (b : TBox) : Prog Val := .read sh (b.asMutPtr env) .ret

/-- `&*as_ptr::<U>()`. -/
def TBox.derefP (env : Env) (sh : Shape) (b : TBox) : Prog Val := .read sh (b.asPtr env) .ret

namespace Macro

variable (env : Env) (rc : Rustc) (P : Program)

/-- One arm of `into_tagged_box`, cf. `IntoArm.run`. -/
def IntoArm.runP (e : EVal) : IntoArm → Option (Prog TBox)
  | .dangling v _ ctr => if e.variant = v then
      some (.ret (TBox.dangling env env.enumAlign (asDiscr env (counterU8 P ctr)))) else none
  | .single v binder ty arg ctr => if e.variant = v then
      (match e.payload with
       | .tuple [x] => some (TBox.newP env (rc.leaf ty).shape [(lookupVar arg [(binder, x)]).getD []]
            (asDiscr env (counterU8 P ctr)))
       | _ => none) else none
  | .tuple v binders tys args ctr => if e.variant = v then
      (match e.payload with
       | .tuple xs => some (TBox.newP env (structShape rc tys) (byName args (binders.zip xs))
            (asDiscr env (counterU8 P ctr)))
       | _ => none) else none
  | .record v binders decl inits ctr => if e.variant = v then
      (match e.payload with
       | .record fs => some (TBox.newP env (structShape rc (decl.map (·.2)))
            (byName (decl.map (·.1)) (inits.zip (byName inits (binders.zip (byName binders fs)))))
            (asDiscr env (counterU8 P ctr)))
       | _ => none) else none

/-- Cf. `firstInto`. -/
def firstIntoP (e : EVal) : List IntoArm → Prog TBox
  | [] => .panic .noVariant
  | a :: as => match a.runP env rc P e with
    | some m => m
    | none => firstIntoP e as

/-- `into_tagged_box(self)`; also `Container::from(e)`. `src/tagged_box_macro/mod.rs:784-790`, `:762-771` -/
def intoTaggedBoxP (e : EVal) : Prog TBox := Prog.cleanup (scopeDrop P e.variant) (firstIntoP env rc P e P.into)

/-- Body of an arm of `into_inner`, cf. `ReadArm.run`. -/
def ReadArm.runP (a : ReadArm) (b : TBox) : Prog EVal :=
  match a.body with
  | .unit => .ret ⟨a.v, .unit⟩
  | .single ty => (b.intoInnerP env (rc.leaf ty).shape).bind fun vs => .ret ⟨a.v, .tuple [vs[0]?.getD []]⟩
  | .ctuple tys x => match x with
      | .noEval => .ret ⟨a.v, .tuple []⟩
      | .access is => (b.intoInnerP env (structShape rc tys)).bind fun vs => .ret ⟨a.v, .tuple (accessFields is vs)⟩
  | .rtuple tys x => match x with
      | .noEval => .ret ⟨a.v, .tuple []⟩
      | .access is => (b.intoInnerP env (tupleShape env rc tys)).bind fun vs => .ret ⟨a.v, .tuple (accessFields is vs)⟩
  | .record decl binders inits => (b.intoInnerP env (structShape rc (decl.map (·.2)))).bind fun vs =>
      .ret (buildRecord P a.v (inits.zip (byName inits (binders.zip (byName binders ((decl.map (·.1)).zip vs))))))

/-- Cf. `firstRead`. -/
def firstReadP (b : TBox) : List ReadArm → Prog EVal
  | [] => .panic .noVariant
  | a :: as => if guard env P a.ctr b then a.runP env rc P b else firstReadP b as

/-- `TaggableContainer::into_inner(self)`. `mod.rs:748-759` -/
def containerIntoInnerP (b : TBox) : Prog EVal := firstReadP env rc P b P.inner

/-- Body of an arm of `ref_from_tagged_box`, cf. `RefArm.build`. -/
def RefArm.buildP (a : RefArm) (b : TBox) : Prog (EVal × List Event) :=
  match a.body with
  | .unit => .ret (⟨a.v, .unit⟩, scopeDrop P a.v)
  | .single ty => (b.derefP env (rc.leaf ty).shape).bind fun vs => .ret (⟨a.v, .tuple [vs[0]?.getD []]⟩, [])
  | .tuple tys x x' =>
      (match x with
        | .noEval => Prog.ret []
        | .access is => (b.derefP env (structShape rc tys)).bind fun vs => .ret (accessFields is vs)).bind fun tuple =>
      .ret (⟨a.v, .tuple (match x' with | .noEval => [] | .access is => accessFields is tuple)⟩, [])
  | .record decl binders inits => (b.derefP env (structShape rc (decl.map (·.2)))).bind fun vs =>
      .ret (buildRecord P a.v (inits.zip (byName inits (binders.zip (byName binders ((decl.map (·.1)).zip vs))))), [])

/-- `ref_from_tagged_box`, cf. `firstRef`. `mod.rs:499-514` -/
def firstRefP {β : Type} (b : TBox) (f : EVal → Prog β) : List RefArm → Prog (Option β)
  | [] => .panic .noVariant
  | a :: as => if guard env P a.ctr b then
      (a.buildP env rc P b).bind fun x => Prog.cleanup x.2 ((f x.1).bind fun r => .ret (some r))
    else firstRefP b f as

/-- `Clone::clone`. `src/tagged_box.rs:519-530` -/
def cloneP (f : EVal → Prog EVal) (b : TBox) : Prog TBox :=
  (firstRefP env rc P b f P.ref).bind fun output =>
    match output with
    | none => .panic .cloneNone
    | some e => intoTaggedBoxP env rc P e

/-- `PartialEq::eq`, `PartialOrd::partial_cmp`, `Ord::cmp`; `dflt` is the initial value of the captured variable.
`src/tagged_box.rs:539-588` -/
def compareP {α : Type} (f : EVal × EVal → Prog α) (dflt : α) (a b : TBox) : Prog α :=
  (firstRefP env rc P a (fun this => firstRefP env rc P b (fun other => f (this, other)) P.ref) P.ref).bind fun r =>
    .ret (r.join.getD dflt)

/-- `Debug::fmt`, `Display::fmt`. `src/tagged_box.rs:487-512` -/
def fmtP (f : EVal × FmtSpec × String → Prog (String × Bool)) (b : TBox) (out : String) : Prog (String × Bool) :=
  (firstRefP env rc P b (fun this => f (this, {}, out)) P.ref).bind fun r => .ret (r.getD (out, true))

/-! ## Clients -/

/-- User code with small-step programs, run alone under the allocator of `env`. -/
def UserFn.at (env : Env) {A α : Type} (f : UserFn Prog A α) : UserFn M A α := ⟨fun x => (f.run x).run env, f.out, f.evs⟩

/-- The same for operations. -/
def COp.at (env : Env) {β : Type} : COp Prog β → COp M β
  | .from e => .from e
  | .clone h f => .clone h (f.at env)
  | .copy h => .copy h
  | .eq h h' f => .eq h h' (f.at env)
  | .partialCmp h h' f => .partialCmp h h' (f.at env)
  | .cmp h h' f => .cmp h h' (f.at env)
  | .observe h f => .observe h (f.at env)
  | .debug h f out => .debug h (f.at env) out
  | .display h f out => .display h (f.at env) out
  | .intoInner h => .intoInner h
  | .drop h => .drop h

/-- The same for clients. -/
def CClient.at (env : Env) {β : Type} (p : CClient Prog β) : CClient M β := fun os => (p os).map (·.at env)

/-- The containers a thread holds. -/
abbrev Handles := List (Option TBox)

/-- Run a program as one step of a client, cf. `cstepWith`. -/
def stepP {α β : Type} (hs : Handles) (m : Prog α) (f : α → CRes β × Handles) : Prog (CObs β × Handles) :=
  (m.observe []).bind fun x =>
    match x.1 with
    | .ok a => .ret (((f a).1, x.2.filter Event.isDtor), (f a).2)
    | .error k => .ret ((.panicked k, x.2.filter Event.isDtor), hs)

/-- Use a container; to use one that has been moved away is as bad as undefined behaviour. -/
def withHandle {α : Type} (hs : Handles) (h : Nat) (f : TBox → Prog α) : Prog α :=
  match hs[h]?.join with
  | some b => f b
  | none => .ub .badPointer

/-- One client step, cf. `cstep`. -/
def cstepP {β : Type} (hs : Handles) : COp Prog β → Prog (CObs β × Handles)
  | .from e => stepP hs (intoTaggedBoxP env rc P e) (fun b => (.handle hs.length, hs ++ [some b]))
  | .clone h f => withHandle hs h fun b => stepP hs (cloneP env rc P f.run b) (fun b' => (.handle hs.length, hs ++ [some b']))
  | .copy h => withHandle hs h fun b => stepP hs (.ret b.copy) (fun b' => (.handle hs.length, hs ++ [some b']))
  | .eq h h' f => withHandle hs h fun b => withHandle hs h' fun b' =>
      stepP hs (compareP env rc P f.run false b b') (fun r => (.bool r, hs))
  | .partialCmp h h' f => withHandle hs h fun b => withHandle hs h' fun b' =>
      stepP hs (compareP env rc P f.run none b b') (fun r => (.pord r, hs))
  | .cmp h h' f => withHandle hs h fun b => withHandle hs h' fun b' =>
      stepP hs (compareP env rc P f.run .eq b b') (fun r => (.ord r, hs))
  | .observe h f => withHandle hs h fun b =>
      stepP hs (firstRefP env rc P b f.run P.ref) (fun r => (match r with | some x => .seen x | none => .unit, hs))
  | .debug h f out => withHandle hs h fun b => stepP hs (fmtP env rc P f.run b out) (fun r => (.text r, hs))
  | .display h f out => withHandle hs h fun b => stepP hs (fmtP env rc P f.run b out) (fun r => (.text r, hs))
  | .intoInner h => withHandle hs h fun b => stepP hs (containerIntoInnerP env rc P b) (fun e => (.val e, hs.set h none))
  | .drop h => withHandle hs h fun _ => stepP hs (.ret ()) (fun _ => (.unit, hs.set h none))

/-- A client as one program of at most `n` steps that starts with the containers `hs₀` and returns its observations, cf.
`runContainers`. -/
def clientP {β : Type} (p : CClient Prog β) (hs₀ : Handles) : Nat → Prog (List (CObs β) × Handles)
  | 0 => .ret ([], hs₀)
  | n + 1 => (clientP p hs₀ n).bind fun (os, hs) =>
      match p os with
      | none => .ret (os, hs)
      | some op => (cstepP env rc P hs op).bind fun (o, hs') => .ret (os ++ [o], hs')

end Macro
end TB

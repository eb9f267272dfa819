import Verif.Macro.Expand
import Verif.Traits

/-!
# Semantics of the code generated by `tagged_box!`

Interprets the arms emitted by the component macros.  A value of the generated enum is its variant name and the bytes of its
fields (by position or by name).
-/

set_option autoImplicit false

namespace TB.Macro

/-- Representation of a field value. -/
abbrev Bytes := List MByte

/-- Fields of an enum value. -/
inductive Payload where
  | unit
  | tuple (vs : List Bytes)
  | record (fs : List (String × Bytes))
deriving DecidableEq

/-- A value of the generated enum. -/
structure EVal where
  variant : String
  payload : Payload
deriving DecidableEq

section Run

variable (env : Env) (rc : Rustc) (P : Program)

/-- `$counter::ctr as u8`: the position of the variant in the counter enum (`isize`), truncated to 8 bits. -/
def counterU8 (ctr : String) : BitVec 8 := BitVec.ofNat 8 (P.counter.idxOf ctr)

/-- Such a `u8` used as a `Discriminant` (the same type, or the program does not compile). -/
def asDiscr (d : BitVec 8) : env.cfg.Discr := d.setWidth _

/-- Field values in the order of the field list `ms`, looked up by name in the variables `vars`. -/
def byName (ms : List String) (vars : List (String × Bytes)) : List Bytes :=
  ms.map (fun m => (lookupVar m vars).getD [])

/-- `$enum::v { inits }`: fields by name, listed in the enum's declaration order. -/
def buildRecord (v : String) (vars : List (String × Bytes)) : EVal :=
  match lookupDef P.defs v with
  | some (.record ms) => ⟨v, .record ((ms.map (·.1)).map (fun m => (m, (lookupVar m vars).getD [])))⟩
  | _ => ⟨v, .record []⟩

/-- Layouts of the types boxed or read by the generated code. -/
def structShape (tys : List Ty) : Shape := reprC (tys.map rc.leaf)
def tupleShape (tys : List Ty) : Shape := env.tuple (tys.map rc.leaf)

/-- Run one arm of `into_tagged_box`, if its pattern matches. -/
def IntoArm.run (e : EVal) : IntoArm → Option (M TBox)
  | .dangling v _ ctr => if e.variant = v then
      some (pure (TBox.dangling env env.enumAlign (asDiscr env (counterU8 P ctr)))) else none
  | .single v binder ty arg ctr => if e.variant = v then
      (match e.payload with
       | .tuple [x] => some (TBox.new env (rc.leaf ty).shape [(lookupVar arg [(binder, x)]).getD []]
            (asDiscr env (counterU8 P ctr)))
       | _ => none) else none
  | .tuple v binders tys args ctr => if e.variant = v then
      (match e.payload with
       | .tuple xs => some (TBox.new env (structShape rc tys) (byName args (binders.zip xs))
            (asDiscr env (counterU8 P ctr)))
       | _ => none) else none
  | .record v binders decl inits ctr => if e.variant = v then
      (match e.payload with
       | .record fs => some (TBox.new env (structShape rc (decl.map (·.2)))
            (byName (decl.map (·.1)) (inits.zip (byName inits (binders.zip (byName binders fs)))))
            (asDiscr env (counterU8 P ctr)))
       | _ => none) else none

/-- First arm that matches. (rustc has checked exhaustiveness; `none` does not happen for values of the enum.) -/
def firstInto (e : EVal) : List IntoArm → M TBox
  | [] => M.panic .noVariant
  | a :: as => match a.run env rc P e with
    | some m => m
    | none => firstInto e as

/-- If the enum implements `Drop`, a local variable of the enum type that is not moved out runs it at the end of its scope,
also during unwinding. (Its fields are then all `Copy` and have no destructors.) -/
def scopeDrop (v : String) : List Event := if P.hasDrop then [.dropEnum v] else []

/-- `into_tagged_box(self)`. `src/tagged_box_macro/mod.rs:784-790` and the arms. If the enum has no `Drop` implementation, the
fields are moved out of `self`; if it has one, they are `Copy` and copied out, and `self` is dropped when the function ends. -/
def intoTaggedBox (e : EVal) : M TBox :=
  M.cleanup (scopeDrop P e.variant) (firstInto env rc P e P.into)

/-- `discrim == $counter::ctr as u8` -/
def guard (ctr : String) (b : TBox) : Bool := b.discriminant env == asDiscr env (counterU8 P ctr)

/-- `__expand_tuple!`'s field accesses. -/
def accessFields (is : List Nat) (vs : List Bytes) : List Bytes := is.map (fun i => vs[i]?.getD [])

/-- Body of an arm of `into_inner` / `from_tagged_box`. -/
def ReadArm.run (a : ReadArm) (b : TBox) : M EVal :=
  match a.body with
  | .unit => pure ⟨a.v, .unit⟩
  | .single ty => do
      let vs ← b.intoInner env (rc.leaf ty).shape
      pure ⟨a.v, .tuple [vs[0]?.getD []]⟩
  | .ctuple tys x => match x with
      | .noEval => pure ⟨a.v, .tuple []⟩
      | .access is => do
          let vs ← b.intoInner env (structShape rc tys)
          pure ⟨a.v, .tuple (accessFields is vs)⟩
  | .rtuple tys x => match x with
      | .noEval => pure ⟨a.v, .tuple []⟩
      | .access is => do
          let vs ← b.intoInner env (tupleShape env rc tys)
          pure ⟨a.v, .tuple (accessFields is vs)⟩
  | .record decl binders inits => do
      let vs ← b.intoInner env (structShape rc (decl.map (·.2)))
      let vars := binders.zip (byName binders ((decl.map (·.1)).zip vs))
      pure (buildRecord P a.v (inits.zip (byName inits vars)))

/-- First arm whose guard holds, else the panicking wildcard arm. `mod.rs:254-260`, `:361-376` -/
def firstRead (b : TBox) : List ReadArm → M EVal
  | [] => M.panic .noVariant
  | a :: as => if guard env P a.ctr b then a.run env rc P b else firstRead b as

/-- `TaggableInner::from_tagged_box(tagged)`. `mod.rs:792-809` -/
def fromTaggedBox (b : TBox) : M EVal := firstRead env rc P b P.fromB

/-- `TaggableContainer::into_inner(self)`, on the container's only field. `mod.rs:748-759` -/
def containerIntoInner (b : TBox) : M EVal := firstRead env rc P b P.inner

/-- Body of an arm of `ref_from_tagged_box`: what is built, and which destructors of locals run at the end of the arm. -/
def RefArm.build (a : RefArm) (b : TBox) : M (EVal × List Event) :=
  match a.body with
  | .unit => pure (⟨a.v, .unit⟩, scopeDrop P a.v)
  | .single ty => do
      let vs ← ptrRead (rc.leaf ty).shape (b.asPtr env)
      pure (⟨a.v, .tuple [vs[0]?.getD []]⟩, [])
  | .tuple tys x x' => do
      let tuple ← (match x with
        | .noEval => pure []
        | .access is => do
            let vs ← ptrRead (structShape rc tys) (b.asPtr env)
            pure (accessFields is vs))
      pure (⟨a.v, .tuple (match x' with | .noEval => [] | .access is => accessFields is tuple)⟩, [])
  | .record decl binders inits => do
      let vs ← ptrRead (structShape rc (decl.map (·.2))) (b.asPtr env)
      let vars := binders.zip (byName binders ((decl.map (·.1)).zip vs))
      pure (buildRecord P a.v (inits.zip (byName inits vars)), [])

/-- First arm whose guard holds: build the value, call the callback on it, run the destructors of the locals; else panic
without calling the callback. `mod.rs:499-514` -/
def firstRef {β : Type} (b : TBox) (f : EVal → M β) : List RefArm → M (Option β)
  | [] => M.panic .noVariant
  | a :: as => if guard env P a.ctr b then do
      let (e, es) ← a.build env rc P b
      M.cleanup es (do let r ← f e; pure (some r))
    else firstRef b f as

/-- The generated `TaggableInner` implementation. `mod.rs:783-830` -/
def taggable : Taggable EVal where
  intoTaggedBox := intoTaggedBox env rc P
  fromTaggedBox := fromTaggedBox env rc P
  refFrom := fun b f => firstRef env rc P b f P.ref

/-- `Container::from(e)`: `Self { value: variant.into_tagged_box() }`. `mod.rs:762-771` -/
def containerFrom (e : EVal) : M TBox := intoTaggedBox env rc P e

/-- The enum value built by `impl From<payload> for Container`; the payload is the list of its components (a single one for
`From<ty>`). `mod.rs:107-138` -/
def FromImpl.value (f : FromImpl) (payload : List Bytes) : EVal :=
  match f with
  | .single v _ => ⟨v, .tuple [payload[0]?.getD []]⟩
  | .tuple v _ .noEval => ⟨v, .tuple []⟩
  | .tuple v _ (.access is) => ⟨v, .tuple (accessFields is payload)⟩

/-- `Container::from(payload)`. `mod.rs:107-138` -/
def containerFromPayload (f : FromImpl) (payload : List Bytes) : M TBox := intoTaggedBox env rc P (f.value payload)

end Run
end TB.Macro

import Verif.Macro.Run

/-!
# Specification: what an emitted arm is about

For each kind of emitted arm: the variant, the counter name it compares or stores, and the member names and types it assumes for the
payload.
-/

set_option autoImplicit false

namespace TB.Macro

/-- Variant, counter name, and payload members (positional members have no name). -/
structure Sig where
  variant : String
  ctr : String
  members : List (Option String × Ty)

/-- Positional members. -/
def positional (tys : List Ty) : List (Option String × Ty) := tys.map (fun t => (none, t))
/-- Named members. -/
def named (ms : List (String × Ty)) : List (Option String × Ty) := ms.map (fun m => (some m.1, m.2))

/-- Of a declared variant (whose counter name should be its own). -/
def VariantDef.sig (d : VariantDef) : Sig :=
  ⟨d.name, d.name, match d.fields with | .unit => [] | .tuple tys => positional tys | .record ms => named ms⟩

def IntoArm.sig : IntoArm → Sig
  | .dangling v _ ctr => ⟨v, ctr, []⟩
  | .single v _ ty _ ctr => ⟨v, ctr, positional [ty]⟩
  | .tuple v _ tys _ ctr => ⟨v, ctr, positional tys⟩
  | .record v _ decl _ ctr => ⟨v, ctr, named decl⟩

def ReadArm.sig (a : ReadArm) : Sig :=
  ⟨a.v, a.ctr, match a.body with
    | .unit => []
    | .single ty => positional [ty]
    | .ctuple tys _ => positional tys
    | .rtuple tys _ => positional tys
    | .record decl _ _ => named decl⟩

def RefArm.sig (a : RefArm) : Sig :=
  ⟨a.v, a.ctr, match a.body with
    | .unit => []
    | .single ty => positional [ty]
    | .tuple tys _ _ => positional tys
    | .record decl _ _ => named decl⟩

/-- The `From` implementations: of the tuple variants, in order. -/
def FromImpl.sig : FromImpl → Sig
  | .single v ty => ⟨v, v, positional [ty]⟩
  | .tuple v tys _ => ⟨v, v, positional tys⟩

/-- Variants with a `From` implementation. -/
def VariantDef.isTuple (d : VariantDef) : Bool := match d.fields with | .tuple _ => true | _ => false

/-- What the accesses of `__expand_tuple!` yield on the fields `vs` (as in `ReadArm.run`). -/
def unpack (x : TupleExp) (vs : List Bytes) : List Bytes :=
  match x with
  | .noEval => []
  | .access is => accessFields is vs

/-- Field types of the local `#[repr(C)] struct` an arm declares, if it declares one. -/
def IntoArm.structTys : IntoArm → Option (List Ty)
  | .tuple _ _ tys _ _ => some tys
  | .record _ _ d _ _ => some (d.map (·.2))
  | _ => none

def ReadArm.structTys (a : ReadArm) : Option (List Ty) :=
  match a.body with
  | .ctuple tys _ => some tys
  | .record d _ _ => some (d.map (·.2))
  | _ => none

def RefArm.structTys (a : RefArm) : Option (List Ty) :=
  match a.body with
  | .tuple tys _ _ => some tys
  | .record d _ _ => some (d.map (·.2))
  | _ => none

end TB.Macro

import Verif.Spec.History

/-!
# Specification: ownership of the values a client boxes

What a history of box operations moves into boxes, hands back, and destroys.  A value counts through its fields that have destructors:
each stands for one destructor event (type and bytes).
-/

set_option autoImplicit false

namespace TB

variable {env : Env}

/-- The operations a client performed, with what it observed of each, given all its observations. `acc` are earlier ones. -/
def ledger (p : Client env) (acc : List (Obs env)) : List (Obs env) → List (Op env × Obs env)
  | [] => []
  | o :: os => match p acc with
    | some op => (op, o) :: ledger p (acc ++ [o]) os
    | none => ledger p (acc ++ [o]) os

/-- Values the operation moves in. -/
def Op.movedIn : Op env → List Event
  | .new sh v _ => dropEvents sh v
  | .assign _ sh v => dropEvents sh v
  | .write _ sh v => dropEvents sh v
  | _ => []

/-- Values the operation hands to the client, who owns them from then on. (`read` only borrows.) -/
def Op.handedOut : Op env → Res env → List Event
  | .intoInner _ sh, .val v => dropEvents sh v
  | .boxTake _ sh, .val v => dropEvents sh v
  | _, _ => []

/-- How often a value has been moved into boxes, handed back, and destroyed. -/
def timesIn (l : List (Op env × Obs env)) (e : Event) : Nat := (l.map (fun x => x.1.movedIn.count e)).sum
def timesOut (l : List (Op env × Obs env)) (e : Event) : Nat := (l.map (fun x => (x.1.handedOut x.2.1).count e)).sum
def timesDestroyed (l : List (Op env × Obs env)) (e : Event) : Nat := (l.map (fun x => x.2.2.count e)).sum

/-- The client does none of the things that lose a value: let a box go out of scope, overwrite it with a raw pointer, or have `new`
panic over an address outside the reserved width. -/
def NoLeak (p : Client env) (os : List (Obs env)) : Prop :=
  (∀ os h sh v, p os ≠ some (.write h sh v)) ∧ (∀ os h, p os ≠ some (.drop h)) ∧ ∀ o ∈ os, o.1 ≠ .panicked .pointer

end TB

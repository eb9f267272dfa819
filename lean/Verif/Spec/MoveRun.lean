import Verif.Rust.MoveCode
import Verif.Spec.UserRun
import Verif.Spec.HandWritten

/-!
# Code that clones containers and changes boxes, run with the generated code and with plain values
-/

set_option autoImplicit false

namespace TB.Spec

open TB TB.Macro TB.Mbe TB.Rust TB.Source

/-- The only field of a variant is changed. -/
def onlyField : Val → Option Bytes
  | [x] => some x
  | _ => none

noncomputable section

/-- The functions of the program `G` and of the crate, run from the text of the macros and of the crate. `Clone` is derived for the container, whose only field is a box, and for
the enum (`cloneItem`). `as_mut_ref` gives an address; what is there is read, changed, and written. -/
def crateMoves (env : Env) (rc : Rustc) (G : Programs) (sn en : String) (decl : List VariantDef) (O : Ops) (user : User EVal) : MIface M TBox where
  toIface := crateIface env rc G sn en
  clone b := inCrate env { user with taggable := linked G en, clone := fun e => pure (cloneItem O decl e) } toBox fun cr =>
    cr.callTrait "Clone" "TaggedBox" "clone" (some (boxV b)) [] .unknown
  update t f p b := do
    let a ← inCrate env user toAddress fun cr => cr.call "TaggedBox" "as_mut_ref" [.opaque (rc.leaf t).shape] (some (boxV b)) [] .unknown
    let v ← ptrRead (rc.leaf t).shape a
    match onlyField v with
    | some x => match O.update f t x p with
      | some y => do
        ptrWrite (rc.leaf t).shape a [y]
        pure b
      | none => M.panic (.user 0)
    | none => fun _ => .ub .badValue

end

/-- The same named type. -/
def sameName : Ty → Ty → Bool
  | .named a, .named b => a == b
  | _, _ => false

/-- Plain values instead of boxes; `readable` and `storable` as in `plainIface`. A value can be changed at the type of the only field of its variant. -/
def plainMoves (readable storable : EVal → Bool) (decl : List VariantDef) (O : Ops) : MIface (Except Fault) EVal where
  toIface := plainIface readable storable
  clone e := if storable (cloneItem O decl e) then .ok (cloneItem O decl e) else .error .stuck
  update t f p e := match lookupDef decl e.variant, e.payload with
    | some (.tuple [t']), .tuple [x] => if sameName t t' then match O.update f t x p with
        | some y => .ok ⟨e.variant, .tuple [y]⟩
        | none => .error .failed
      else .error .stuck
    | _, _ => .error .stuck

/-- Cloned and changed values are values of the same type. -/
def OpsOK (rc : Rustc) (O : Ops) : Prop :=
  ∀ t x, (rc.leaf t).Has x → (rc.leaf t).Has (O.clone t x) ∧ ∀ f p y, O.update f t x p = some y → (rc.leaf t).Has y

/-- `usize`: a number is multiplied, unless the product is too large; its clone is the same. -/
def Multiplies (L : Lits) (O : Ops) : Prop :=
  ∀ n x, L.enc (.named "usize") (.num none n) = some x → O.clone (.named "usize") x = x ∧
    ∀ k y, L.enc (.named "usize") (.num none (n * k)) = some y → O.update "mul_assign" (.named "usize") x (.num none k) = some y

/-- `String`: a value represents a text; different values may represent the same text, for instance if one is a clone of the other; they are equal if the texts are. No string is a
`usize`. Values have a fixed size here, so there cannot be one for each text: `S` are the texts that can be represented. -/
def Strings (L : Lits) (O : Ops) (S : List Char → Prop) : Prop := ∃ text : Bytes → List Char → Prop,
  (∀ t, L.enc (.named "usize") (.text t) = none ∧ (S (literalText t) → ∃ x, L.enc (.named "String") (.text t) = some x ∧ text x (literalText t))) ∧
  (∀ x u, text x u → text (O.clone (.named "String") x) u ∧
    (∀ t, S (u ++ literalText t) → ∃ y, O.update "push_str" (.named "String") x (.text t) = some y ∧ text y (u ++ literalText t)) ∧
    ∀ y w, text y w → L.eq (.named "String") x y = (u == w))

/-- `let o = Container::from(a); let mut c = o.clone().into_inner().into_tagged_box(); unsafe { *c.as_mut_ref::<usize>() *= b; } let c = Enum::from_tagged_box(c);
let o = o.into_inner();`: the first half of the test `clone`, with other numbers. -/
def changed (a b : String) : List Stmt := [
  .letS (.bind "original_usize") none (.call (.path [("Container", []), ("from", [])]) [.lit a]),
  .letS (.bind "cloned_usize") none (.method (.method (.method (.path [("original_usize", [])]) "clone" [] []) "into_inner" [] []) "into_tagged_box" [] []),
  .tail (.block [.semi (.call (.path [("mul_assign", [])]) [.un .deref (.method (.path [("cloned_usize", [])]) "as_mut_ref" [.path [("usize", [])]] []), .lit b])]),
  .letS (.bind "cloned_usize") none (.call (.path [("Enum", []), ("from_tagged_box", [])]) [.path [("cloned_usize", [])]]),
  .letS (.bind "original_usize") none (.method (.path [("original_usize", [])]) "into_inner" [] [])]

/-- `let original_usize = Container::from(a); let cloned_usize = original_usize.clone().into_inner();` -/
def clonedOnly (a : String) : List Stmt := [
  .letS (.bind "original_usize") none (.call (.path [("Container", []), ("from", [])]) [.lit a]),
  .letS (.bind "cloned_usize") none (.method (.method (.path [("original_usize", [])]) "clone" [] []) "into_inner" [] [])]

/-- `f!(Enum::Usize(c), x);` -/
def checked (f c x : String) : Stmt := .semi (.mac f [.call (.path [("Enum", []), ("Usize", [])]) [.lit c], .path [(x, [])]])

end TB.Spec

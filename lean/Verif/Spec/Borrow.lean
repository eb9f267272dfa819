import Verif.Borrow

/-!
# What a client that holds references may do, and what it sees

The store is the one of `Verif/Spec/History.lean`; a reference is a location, the handle it was borrowed from, and whether it is `&mut`. No tags,
stacks, bytes or addresses occur here.
-/

set_option autoImplicit false

namespace TB

/-- A reference, as the specification sees it. -/
structure SRef where
  /-- the handle it was borrowed from -/
  h : Nat
  loc : Nat
  isMut : Bool

/-- The store and the references handed out (`none`: given up). -/
structure RState (env : Env) where
  a : AState env
  refs : List (Option SRef)

variable {env : Env}

/-- `ρ` is among the live references. -/
def RState.Live (x : RState env) (ρ : SRef) : Prop := some ρ ∈ x.refs

/-- Reference number `r` is live and refers to a location holding `v` of type `sh`. -/
def RState.Refers (x : RState env) (r : Nat) (ρ : SRef) (sh : Shape) (v : Val) : Prop :=
  x.refs[r]? = some (some ρ) ∧ x.a.cells[ρ.loc]? = some ⟨sh, v, true⟩

/-- The documented obligations (`Contract`); for references, what their types enforce: only live ones are used, only `&mut` ones
are written through. -/
def ContractB (x : RState env) : BOp env → Prop
  | .base op => Contract x.a op
  | .borrow h sh => ∃ loc d v, x.a.Typed h loc d sh v
  | .borrowMut h sh => ∃ loc d v, x.a.Typed h loc d sh v
  | .get r => ∃ ρ, x.refs[r]? = some (some ρ)
  | .set r v' => ∃ ρ c, x.refs[r]? = some (some ρ) ∧ ρ.isMut = true ∧ x.a.cells[ρ.loc]? = some c ∧ c.sh.Has v'
  | .done r => ∃ ρ, x.refs[r]? = some (some ρ)

/-- What an operation shows and how it changes the store and the references. -/
def SpecNextB (x : RState env) : BOp env → Obs env → RState env → Prop
  | .base op, o, x' => ∃ a', SpecNext x.a op o a' ∧ x' = ⟨a', x.refs⟩
  | .borrow h sh, o, x' => ∃ loc d v, x.a.Typed h loc d sh v ∧ o = (.handle x.refs.length, []) ∧
      x' = ⟨x.a, x.refs ++ [some ⟨h, loc, false⟩]⟩
  | .borrowMut h sh, o, x' => ∃ loc d v, x.a.Typed h loc d sh v ∧ o = (.handle x.refs.length, []) ∧
      x' = ⟨x.a, x.refs ++ [some ⟨h, loc, true⟩]⟩
  | .get r, o, x' => ∃ ρ sh v, x.Refers r ρ sh v ∧ o = (.val v, []) ∧ x' = x
  | .set r v', o, x' => ∃ ρ sh v, x.Refers r ρ sh v ∧ o = (.unit, dropEvents sh v) ∧
      x' = ⟨⟨x.a.cells.set ρ.loc ⟨sh, v', true⟩, x.a.handles⟩, x.refs⟩
  | .done r, o, x' => o = (.unit, []) ∧ x' = ⟨x.a, x.refs.set r none⟩

/-- The states the specification allows a client to reach, with the observations on the way. -/
inductive BReach (p : BClient env) : List (Obs env) → RState env → Prop
  | start : BReach p [] ⟨⟨[], []⟩, []⟩
  | next {os x op o x'} : BReach p os x → p os = some op → SpecNextB x op o x' → BReach p (os ++ [o]) x'

/-- The documented obligations are kept in every situation the specification allows. -/
def WellBehavedB (p : BClient env) : Prop := ∀ os x op, BReach p os x → p os = some op → ContractB x op

/-! ## The compiler's rule: per handle -/

/-- Handles an operation uses by `&self` (or copies). -/
def BOp.shares : BOp env → List Nat
  | .base (.copy h) => [h]
  | .base (.discr h) => [h]
  | .base (.ptrEq h h') => [h, h']
  | .base (.read h _) => [h]
  | .borrow h _ => [h]
  | _ => []

/-- Handles an operation uses by `&mut self` or by value. -/
def BOp.claims : BOp env → List Nat
  | .base (.assign h _ _) => [h]
  | .base (.write h _ _) => [h]
  | .base (.intoInner h _) => [h]
  | .base (.drop h) => [h]
  | .base (.rawRoundtrip h) => [h]
  | .base (.boxDrop h _) => [h]
  | .base (.boxTake h _) => [h]
  | .borrowMut h _ => [h]
  | _ => []

/-- The borrow checker's view: the lifetime of a reference keeps its *handle* borrowed (`fn as_ref(&self) -> &U`, `fn as_mut_ref(&mut self) -> &mut U`). -/
def Accepted (x : RState env) (op : BOp env) : Prop :=
  (∀ h ∈ op.shares, ∀ ρ, x.Live ρ → ρ.h = h → ρ.isMut = false) ∧ (∀ h ∈ op.claims, ∀ ρ, x.Live ρ → ρ.h ≠ h)

/-- A client the compiler accepts. -/
def BorrowChecked (p : BClient env) : Prop := ∀ os x op, BReach p os x → p os = some op → Accepted x op

/-! ## The rule that is needed: per location -/

/-- Handles whose location an operation reads. -/
def BOp.readsAt : BOp env → List Nat
  | .base (.read h _) => [h]
  | .base (.intoInner h _) => [h]
  | .borrow h _ => [h]
  | _ => []

/-- Handles whose location an operation writes, frees or borrows mutably. -/
def BOp.writesAt : BOp env → List Nat
  | .base (.assign h _ _) => [h]
  | .base (.write h _ _) => [h]
  | .base (.boxDrop h _) => [h]
  | .base (.boxTake h _) => [h]
  | .borrowMut h _ => [h]
  | _ => []

/-- No reading of a location with a live `&mut`, no writing of a location with any live reference, whichever box they came from. -/
def Exclusive (x : RState env) (op : BOp env) : Prop :=
  (∀ h ∈ op.readsAt, ∀ loc d, x.a.At h loc d → ∀ ρ, x.Live ρ → ρ.loc = loc → ρ.isMut = false) ∧
  (∀ h ∈ op.writesAt, ∀ loc d, x.a.At h loc d → ∀ ρ, x.Live ρ → ρ.loc ≠ loc)

/-- `op` breaks that rule with respect to the reference `ρ`. -/
def Breaks (x : RState env) (op : BOp env) (ρ : SRef) : Prop :=
  (ρ.isMut = true ∧ ∃ h ∈ op.readsAt, ∃ d, x.a.At h ρ.loc d) ∨ (∃ h ∈ op.writesAt, ∃ d, x.a.At h ρ.loc d)

/-- Freeing the memory of a box. -/
def freesOf (h : Nat) (sh : Shape) : List (BOp env) := [.base (.boxDrop h sh), .base (.boxTake h sh)]

/-- Using the memory of a box. -/
def usesOf (h : Nat) (sh : Shape) (v' : Val) : List (BOp env) :=
  [.borrow h sh, .borrowMut h sh, .base (.read h sh), .base (.assign h sh v'), .base (.write h sh v'), .base (.intoInner h sh),
    .base (.boxDrop h sh), .base (.boxTake h sh)]

/-- A client that keeps that rule. -/
def ExclusiveClient (p : BClient env) : Prop := ∀ os x op, BReach p os x → p os = some op → Exclusive x op

/-- A client that never copies a box. -/
def NoCopies (p : BClient env) : Prop := ∀ os h, p os ≠ some (.base (.copy h))

/-- A client that never writes or frees the memory of a box after `new`, and takes no `&mut`. -/
def ReadOnly (p : BClient env) : Prop := ∀ os op, p os = some op → op.writesAt = []

end TB

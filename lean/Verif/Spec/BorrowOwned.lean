import Verif.BorrowOwned

/-!
# What a client of containers with boxes in them may do, and what it sees

An enum value is the number of its variant and the value in its box. No tags, stacks, bytes or addresses occur here.
-/

set_option autoImplicit false

namespace TB

/-- Containers, enum values outside containers (`none`: consumed), and the calls of `ref_from_tagged_box` so far: the container, and whether the
closure is still running. -/
structure OState where
  conts : List (Option (Nat × Val))
  vals : List (Option (Nat × Val))
  calls : List (Nat × Bool)

/-- Container `h` holds variant `i` with `v` in its box. -/
def OState.In (x : OState) (h i : Nat) (v : Val) : Prop := x.conts[h]? = some (some (i, v))

/-- Enum value `o` is variant `i` with `v` in its box. -/
def OState.Out (x : OState) (o i : Nat) (v : Val) : Prop := x.vals[o]? = some (some (i, v))

/-- Call `k` is one on container `h` whose closure is running. -/
def OState.Running (x : OState) (k h : Nat) : Prop := x.calls[k]? = some (h, true)

/-- What the types and the borrow checker enforce: `ref_from_tagged_box` borrows its container while the closure runs. -/
def ContractO (Us : List Shape) (x : OState) : WOp → Prop
  | .make i v => ∃ U, Us[i]? = some U ∧ U.Has v
  | .put o => ∃ i v, x.Out o i v
  | .enter h => ∃ i v, x.In h i v
  | .look k => ∃ h, x.Running k h
  | .leave k => ∃ h, x.Running k h
  | .take h => (∃ i v, x.In h i v) ∧ ∀ k, ¬ x.Running k h
  | .drop h => (∃ i v, x.In h i v) ∧ ∀ k, ¬ x.Running k h
  | .get o => ∃ i v, x.Out o i v
  | .set o v' => ∃ i v U, x.Out o i v ∧ Us[i]? = some U ∧ U.Has v'
  | .free o => ∃ i v, x.Out o i v

/-- What an operation shows and how it changes the containers and values. Making a box may abort; making a container may panic: without
memory the value is dropped, with a pointer that is too wide it is leaked. -/
def SpecNextO (env : Env) (Us : List Shape) (x : OState) : WOp → Obs env → OState → Prop
  | .make i v, o, x' => (o = (.handle x.vals.length, []) ∧ x' = { x with vals := x.vals ++ [some (i, v)] }) ∨
      (o = (.panicked .abort, []) ∧ x' = x)
  | .put o, r, x' => ∃ i v U, x.Out o i v ∧ Us[i]? = some U ∧
      ((r = (.handle x.conts.length, []) ∧ x' = { x with conts := x.conts ++ [some (i, v)], vals := x.vals.set o none }) ∨
       (r = (.panicked .nullAlloc, dropEvents U v) ∧ x' = { x with vals := x.vals.set o none }) ∨
       (env.debug = true ∧ r = (.panicked .pointer, []) ∧ x' = { x with vals := x.vals.set o none }))
  | .enter h, r, x' => ∃ i v, x.In h i v ∧ r = (.handle i, []) ∧ x' = { x with calls := x.calls ++ [(h, true)] }
  | .look k, r, x' => ∃ h i v, x.Running k h ∧ x.In h i v ∧ r = (.val v, []) ∧ x' = x
  | .leave k, r, x' => ∃ h, x.Running k h ∧ r = (.unit, []) ∧ x' = { x with calls := x.calls.set k (h, false) }
  | .take h, r, x' => ∃ i v, x.In h i v ∧ r = (.handle i, []) ∧
      x' = { x with conts := x.conts.set h none, vals := x.vals ++ [some (i, v)] }
  | .drop h, r, x' => r = (.unit, []) ∧ x' = { x with conts := x.conts.set h none }
  | .get o, r, x' => ∃ i v, x.Out o i v ∧ r = (.val v, []) ∧ x' = x
  | .set o v', r, x' => ∃ i v U, x.Out o i v ∧ Us[i]? = some U ∧ r = (.unit, dropEvents U v) ∧
      x' = { x with vals := x.vals.set o (some (i, v')) }
  | .free o, r, x' => ∃ i v U, x.Out o i v ∧ Us[i]? = some U ∧ r = (.unit, dropEvents U v) ∧
      x' = { x with vals := x.vals.set o none }

variable {env : Env}

/-- The states the specification allows a client to reach, with the observations on the way. -/
inductive OReach (Us : List Shape) (p : WClient env) : List (Obs env) → OState → Prop
  | start : OReach Us p [] ⟨[], [], []⟩
  | next {os x op o x'} : OReach Us p os x → p os = some op → SpecNextO env Us x op o x' → OReach Us p (os ++ [o]) x'

/-- A client the compiler accepts. -/
def AcceptedO (Us : List Shape) (p : WClient env) : Prop := ∀ os x op, OReach Us p os x → p os = some op → ContractO Us x op

/-- Since call `k`, `ref_from_tagged_box` has not been called again on the same container. -/
def OState.Latest (x : OState) (k : Nat) : Prop :=
  ∀ k' e e', k < k' → x.calls[k]? = some e → x.calls[k']? = some e' → e'.1 ≠ e.1

/-- The rule that is needed: boxes are read only in the closure of the latest call on their container. -/
def LatestOnly (Us : List Shape) (p : WClient env) : Prop :=
  ∀ os x k, OReach Us p os x → p os = some (.look k) → x.Latest k

/-- A client that never calls `ref_from_tagged_box` on a container from inside a closure that runs on that same container. -/
def NeverNested (Us : List Shape) (p : WClient env) : Prop :=
  ∀ os x h, OReach Us p os x → p os = some (.enter h) → ∀ k, ¬ x.Running k h

end TB

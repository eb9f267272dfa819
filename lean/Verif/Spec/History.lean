import Verif.Spec.Box

/-!
# Client histories of `TaggedBox` operations

`CState`/`step`: a client that keeps numbered handles to boxes and runs the modelled operations of
`src/tagged_box.rs` on the real (byte-level) heap; `none` means undefined behaviour (or a use of a handle it does not
have).

`AState`/`Contract`/`SpecNext`: the specification.  An abstract store maps locations to typed values; a handle
is a location and a discriminant.  No addresses, bytes, words or blocks occur in it.

A client is adaptive: its next operation may depend on everything it has observed so far.
-/

set_option autoImplicit false

namespace TB

/-- Operations a client can perform. `h`, `h'` are handle numbers. -/
inductive Op (env : Env) where
  | new (sh : Shape) (v : Val) (d : env.cfg.Discr)
  | copy (h : Nat)
  | discr (h : Nat)
  | ptrEq (h h' : Nat)
  | read (h : Nat) (sh : Shape)
  | assign (h : Nat) (sh : Shape) (v : Val)
  | write (h : Nat) (sh : Shape) (v : Val)
  | intoInner (h : Nat) (sh : Shape)
  | drop (h : Nat)
  | rawRoundtrip (h : Nat)
  | boxDrop (h : Nat) (sh : Shape)
  | boxTake (h : Nat) (sh : Shape)

/-- What the client sees as the result of an operation. -/
inductive Res (env : Env) where
  | handle (h : Nat)
  | panicked (k : PanicKind)
  | val (v : Val)
  | discr (d : env.cfg.Discr)
  | bool (b : Bool)
  | unit

/-- An observation: the result and the destructors that ran. -/
abbrev Obs (env : Env) := Res env × List Event

/-! ## The real thing -/

/-- Client state: the machine state and the handles created so far (`none`: consumed). -/
structure CState where
  s : State
  handles : List (Option TBox)

/-- Is the event a destructor run of a boxed value? -/
def Event.isDrop : Event → Bool
  | .drop _ _ => true
  | _ => false

/-- The destructor events among those appended between two states. -/
def dropsBetween (s s' : State) : List Event :=
  (s'.trace.drop s.trace.length).filter Event.isDrop

/-- Run a computation and package the outcome; `f` turns a result into an observation and new handle table. -/
def stepWith {env : Env} {α : Type} (c : CState) (m : M α) (f : α → Res env × List (Option TBox)) :
    Option (Obs env × CState) :=
  match m c.s with
  | .ret a s' => some (((f a).1, dropsBetween c.s s'), ⟨s', (f a).2⟩)
  | .panic k s' => some ((.panicked k, dropsBetween c.s s'), ⟨s', c.handles⟩)
  | .ub _ => none

/-- The box behind a handle. -/
def CState.get (c : CState) (h : Nat) : Option TBox := c.handles[h]?.join

/-- One client step. -/
def step (env : Env) (c : CState) : Op env → Option (Obs env × CState)
  | .new sh v d => stepWith c (TBox.new env sh v d) (fun b => (.handle c.handles.length, c.handles ++ [some b]))
  | .copy h => (c.get h).bind fun b =>
      stepWith c (pure b.copy) (fun b' => (.handle c.handles.length, c.handles ++ [some b']))
  | .discr h => (c.get h).bind fun b => stepWith c (pure (b.discriminant env)) (fun d => (.discr d, c.handles))
  | .ptrEq h h' => (c.get h).bind fun b => (c.get h').bind fun b' =>
      stepWith c (pure (decide (b.asPtr env = b'.asPtr env))) (fun e => (.bool e, c.handles))
  | .read h sh => (c.get h).bind fun b => stepWith c (b.asRef env sh) (fun v => (.val v, c.handles))
  | .assign h sh v => (c.get h).bind fun b =>
      stepWith c (b.asMutRefAssign env sh v) (fun b' => (.unit, c.handles.set h (some b')))
  | .write h sh v => (c.get h).bind fun b =>
      stepWith c (b.asMutPtrWrite env sh v) (fun b' => (.unit, c.handles.set h (some b')))
  | .intoInner h sh => (c.get h).bind fun b => stepWith c (b.intoInner env sh) (fun v => (.val v, c.handles.set h none))
  | .drop h => (c.get h).bind fun b => stepWith c b.dropBox (fun _ => (.unit, c.handles.set h none))
  | .rawRoundtrip h => (c.get h).bind fun b =>
      stepWith c (TBox.fromRaw env (b.intoRaw env) (b.discriminant env)) (fun b' => (.unit, c.handles.set h (some b')))
  | .boxDrop h sh => (c.get h).bind fun b =>
      stepWith c ((b.intoBox env).drop sh) (fun _ => (.unit, c.handles.set h none))
  | .boxTake h sh => (c.get h).bind fun b =>
      stepWith c ((b.intoBox env).intoValue sh) (fun v => (.val v, c.handles.set h none))

/-- An adaptive client: the next operation as a function of all observations so far; `none` stops. -/
abbrev Client (env : Env) := List (Obs env) → Option (Op env)

/-- Run a client for at most `n` steps from machine state `s`; `none` is undefined behaviour. -/
def runClient (env : Env) (p : Client env) (s : State) : Nat → Option (List (Obs env) × CState)
  | 0 => some ([], ⟨s, []⟩)
  | n + 1 => (runClient env p s n).bind fun (os, c) =>
      match p os with
      | none => some (os, c)
      | some op => (step env c op).map fun (o, c') => (os ++ [o], c')

/-! ## The specification -/

/-- A location of the abstract store. `live` is false once its `Box` has been freed. -/
structure Cell where
  sh : Shape
  val : Val
  live : Bool

/-- The abstract store: locations, and for each handle its location and discriminant (`none`: consumed). -/
structure AState (env : Env) where
  cells : List Cell
  handles : List (Option (Nat × env.cfg.Discr))

/-- Handle `h` exists and refers to location `loc` with tag `d`. -/
def AState.At {env : Env} (a : AState env) (h loc : Nat) (d : env.cfg.Discr) : Prop :=
  a.handles[h]? = some (some (loc, d))

/-- Handle `h` refers to location `loc`, which is live and holds `v` of type `sh`. -/
def AState.Typed {env : Env} (a : AState env) (h loc : Nat) (d : env.cfg.Discr) (sh : Shape) (v : Val) : Prop :=
  a.At h loc d ∧ a.cells[loc]? = some ⟨sh, v, true⟩

/-- The client's obligations, as documented: allowed discriminants, the type that was stored, no use after the memory
has been freed through a `Box`. -/
def Contract {env : Env} (a : AState env) : Op env → Prop
  | .new sh v d => sh.WF ∧ sh.Has v ∧ d ≤ env.cfg.MAX_DISCRIMINANT
  | .copy h => ∃ loc d, a.At h loc d
  | .discr h => ∃ loc d, a.At h loc d
  | .ptrEq h h' => ∃ loc d loc' d' sh sh' v v', a.Typed h loc d sh v ∧ a.Typed h' loc' d' sh' v' ∧
      0 < sh.size ∧ 0 < sh'.size
  | .read h sh => ∃ loc d v, a.Typed h loc d sh v
  | .assign h sh v' => sh.Has v' ∧ ∃ loc d v, a.Typed h loc d sh v
  | .write h sh v' => sh.Has v' ∧ ∃ loc d v, a.Typed h loc d sh v
  | .intoInner h sh => ∃ loc d v, a.Typed h loc d sh v
  | .drop h => ∃ loc d, a.At h loc d
  | .rawRoundtrip h => ∃ loc d, a.At h loc d
  | .boxDrop h sh => ∃ loc d v, a.Typed h loc d sh v
  | .boxTake h sh => ∃ loc d v, a.Typed h loc d sh v

/-- What an operation may show the client and how it changes the store. Deterministic except for `new`, which may
panic because the allocator fails or (debug builds) returns an address outside the reserved width. -/
def SpecNext {env : Env} (a : AState env) : Op env → Obs env → AState env → Prop
  | .new sh v d, o, a' =>
      (o = (.handle a.handles.length, if sh.size = 0 then dropEvents sh v else []) ∧
        a' = ⟨a.cells ++ [⟨sh, v, true⟩], a.handles ++ [some (a.cells.length, d)]⟩) ∨
      (0 < sh.size ∧ o = (.panicked .nullAlloc, dropEvents sh v) ∧ a' = a) ∨
      (0 < sh.size ∧ env.debug = true ∧ o = (.panicked .pointer, []) ∧ a' = ⟨a.cells ++ [⟨sh, v, true⟩], a.handles⟩)
  | .copy h, o, a' => ∃ loc d, a.At h loc d ∧ o = (.handle a.handles.length, []) ∧
      a' = ⟨a.cells, a.handles ++ [some (loc, d)]⟩
  | .discr h, o, a' => ∃ loc d, a.At h loc d ∧ o = (.discr d, []) ∧ a' = a
  | .ptrEq h h', o, a' => ∃ loc d loc' d', a.At h loc d ∧ a.At h' loc' d' ∧ o = (.bool (decide (loc = loc')), []) ∧ a' = a
  | .read h sh, o, a' => ∃ loc d v, a.Typed h loc d sh v ∧ o = (.val v, []) ∧ a' = a
  | .assign h sh v', o, a' => ∃ loc d v, a.Typed h loc d sh v ∧ o = (.unit, dropEvents sh v) ∧
      a' = ⟨a.cells.set loc ⟨sh, v', true⟩, a.handles⟩
  | .write h sh v', o, a' => ∃ loc d v, a.Typed h loc d sh v ∧ o = (.unit, []) ∧
      a' = ⟨a.cells.set loc ⟨sh, v', true⟩, a.handles⟩
  | .intoInner h sh, o, a' => ∃ loc d v, a.Typed h loc d sh v ∧ o = (.val v, []) ∧ a' = ⟨a.cells, a.handles.set h none⟩
  | .drop h, o, a' => o = (.unit, []) ∧ a' = ⟨a.cells, a.handles.set h none⟩
  | .rawRoundtrip _, o, a' => o = (.unit, []) ∧ a' = a
  | .boxDrop h sh, o, a' => ∃ loc d v, a.Typed h loc d sh v ∧ o = (.unit, dropEvents sh v) ∧
      a' = ⟨a.cells.set loc ⟨sh, v, false⟩, a.handles.set h none⟩
  | .boxTake h sh, o, a' => ∃ loc d v, a.Typed h loc d sh v ∧ o = (.val v, []) ∧
      a' = ⟨a.cells.set loc ⟨sh, v, false⟩, a.handles.set h none⟩

/-- The store states the specification allows a client to reach, with the observations on the way. -/
inductive SpecReach {env : Env} (p : Client env) : List (Obs env) → AState env → Prop
  | start : SpecReach p [] ⟨[], []⟩
  | next {os a op o a'} : SpecReach p os a → p os = some op → SpecNext a op o a' → SpecReach p (os ++ [o]) a'

/-- A client that keeps its obligations in every situation the specification allows. -/
def WellBehaved {env : Env} (p : Client env) : Prop :=
  ∀ os a op, SpecReach p os a → p os = some op → Contract a op

/-- Layouts of the allocations the abstract store accounts for: one per live location of non-zero size. -/
def AState.footprint {env : Env} (a : AState env) : List (Nat × Nat) :=
  (a.cells.filter (fun c => c.live && decide (0 < c.sh.size))).map (fun c => (c.sh.size, c.sh.align))

end TB

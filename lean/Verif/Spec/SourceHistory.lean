import Verif.Spec.History
import Verif.Spec.SourceRun

/-!
# Client histories, run from the text

The clients of `Spec/History.lean`, whose operations now call the functions of the crate `cr` as they stand in the text of its source. What the client does itself (read and
write through a reference or a pointer, drop a `Box`) is not code of this repository.
-/

set_option autoImplicit false

namespace TB.Spec

open TB TB.Rust

/-- Client state: the machine state and the boxes created so far (`none`: consumed). -/
structure TState (E : Type) where
  s : State
  handles : List (Option (V E))

variable {E : Type}

/-- The box behind a handle. -/
def TState.get (c : TState E) (h : Nat) : Option (V E) := c.handles[h]?.join

/-- Which panic a message stands for. -/
def kindOf : Msg E → Option PanicKind
  | .text t _ =>
    if t = "assertion failed" then some .nullAlloc
    else if t = "\"Attempted to store a discriminant of {} while the max value is {}\"" then some .discriminant
    else if t = "\"If you are receiving this error, then your hardware uses more than {} bits of a pointer to store addresses. \\\n            It is recommended that you use a different feature for the `tagged-box` crate using `features = [\\\"{}bits\\\"]` or above.\n            \""
    then some .pointer
    else if t = "\"The inner value could not be fetched\"" then some .cloneNone
    else if t = "\"The number of variants in `{}` is {}, but a variant by the discriminant of {} was attempted to be created\"" then some .noVariant
    else if t = "\"The number of variants in `{}` is {}, but a variant by the discriminant of {} was attempted to be referenced\"" then some .noVariant
    else if t = "\"Attempted to create an enum variant from a discriminant that doesn't exist!\"" then some .noVariant
    else none
  | .kind k => some k

variable {env : Env}

/-- What the client sees of a call: `f` goes on with the result and the new state. -/
def called {α : Type} (c : TState E) (o : XOut E α) (f : α → State → Option (Obs env × TState E)) : Option (Obs env × TState E) :=
  match o with
  | .ret a _ s' => f a s'
  | .panic m _ s' => (kindOf m).map fun k => ((.panicked k, dropsBetween c.s s'), ⟨s', c.handles⟩)
  | .ub _ => none
  | .stuck => none

/-- What the client sees of what it does itself. -/
def itself {α : Type} (c : TState E) (o : Out α) (f : α → State → Option (Obs env × TState E)) : Option (Obs env × TState E) :=
  match o with
  | .ret a s' => f a s'
  | .panic k s' => some ((.panicked k, dropsBetween c.s s'), ⟨s', c.handles⟩)
  | .ub _ => none

/-- The result `r`, now with these handles. -/
def shows (c : TState E) (s' : State) (r : Res env) (hs : List (Option (V E))) : Option (Obs env × TState E) := some ((r, dropsBetween c.s s'), ⟨s', hs⟩)

/-- One client step. `T` is the type named in `into_raw` and `from_raw` of `rawRoundtrip`. Values of type `TaggedBox` have no destructor unless the text has one. -/
def textStep (cr : Crate E) (T : Shape) (c : TState E) : Op env → Option (Obs env × TState E)
  | .new sh v d => called c (cr.call "TaggedBox" "new" [.opaque sh] none [.obj sh v, discr env.cfg d.toNat] .unknown c.s) fun b s' =>
      shows c s' (.handle c.handles.length) (c.handles ++ [some b])
  | .copy h => (c.get h).bind fun b => shows c c.s (.handle c.handles.length) (c.handles ++ [some b])
  | .discr h => (c.get h).bind fun b => called c (cr.call "TaggedBox" "discriminant" [] (some b) [] .unknown c.s) fun r s' => match r with
      | .int _ d => shows c s' (.discr (d.setWidth env.cfg.discrBits)) c.handles
      | _ => none
  | .ptrEq h h' => (c.get h).bind fun b => (c.get h').bind fun b' =>
      called c (cr.call "TaggedBox" "as_ptr" [.opaque T] (some b) [] .unknown c.s) fun r s1 =>
        called c (cr.call "TaggedBox" "as_ptr" [.opaque T] (some b') [] .unknown s1) fun r' s' => match r, r' with
          | .ptr _ a, .ptr _ a' => shows c s' (.bool (decide (a = a'))) c.handles
          | _, _ => none
  | .read h sh => (c.get h).bind fun b => called c (cr.call "TaggedBox" "as_ref" [.opaque sh] (some b) [] .unknown c.s) fun r s1 => match r with
      | .ref _ a => itself c (ptrRead sh a s1) fun v s' => shows c s' (.val v) c.handles
      | _ => none
  | .assign h sh v => (c.get h).bind fun b => called c (cr.call "TaggedBox" "as_mut_ref" [.opaque sh] (some b) [] .unknown c.s) fun r s1 => match r with
      | .ref _ a => itself c ((do
          let old ← ptrRead sh a
          dropVal sh old
          ptrWrite sh a v) s1) fun _ s' => shows c s' .unit c.handles
      | _ => none
  | .write h sh v => (c.get h).bind fun b => called c (cr.call "TaggedBox" "as_mut_ptr" [.opaque sh] (some b) [] .unknown c.s) fun r s1 => match r with
      | .ptr _ a => itself c (ptrWrite sh a v s1) fun _ s' => shows c s' .unit c.handles
      | _ => none
  | .intoInner h sh => (c.get h).bind fun b => called c (cr.call "TaggedBox" "into_inner" [.opaque sh] none [b] .unknown c.s) fun r s' => match r with
      | .obj _ v => shows c s' (.val v) (c.handles.set h none)
      | _ => none
  | .drop h => (c.get h).bind fun b => match findTrait "Drop" "TaggedBox" "drop" cr.traitFns with
      | none => shows c c.s .unit (c.handles.set h none)
      | some _ => called c (cr.callTrait "Drop" "TaggedBox" "drop" (some b) [] .unknown c.s) fun _ s' => shows c s' .unit (c.handles.set h none)
  | .rawRoundtrip h => (c.get h).bind fun b =>
      called c (cr.call "TaggedBox" "discriminant" [] (some b) [] .unknown c.s) fun d s1 =>
        called c (cr.call "TaggedBox" "into_raw" [.opaque T] none [b] .unknown s1) fun a s2 =>
          called c (cr.call "TaggedBox" "from_raw" [.opaque T] none [a, d] .unknown s2) fun b' s' => shows c s' .unit (c.handles.set h (some b'))
  | .boxDrop h sh => (c.get h).bind fun b => called c (cr.call "TaggedBox" "into_box" [.opaque sh] none [b] .unknown c.s) fun r s1 => match r with
      | .boxed _ a => itself c ((⟨a⟩ : RBox).drop sh s1) fun _ s' => shows c s' .unit (c.handles.set h none)
      | _ => none
  | .boxTake h sh => (c.get h).bind fun b => called c (cr.call "TaggedBox" "into_box" [.opaque sh] none [b] .unknown c.s) fun r s1 => match r with
      | .boxed _ a => itself c ((⟨a⟩ : RBox).intoValue sh s1) fun v s' => shows c s' (.val v) (c.handles.set h none)
      | _ => none

/-- Run a client for at most `n` steps from machine state `s`; `none` is undefined behaviour (or code the interpreter cannot run). -/
def runText (cr : Crate E) (T : Shape) (p : Client env) (s : State) : Nat → Option (List (Obs env) × TState E)
  | 0 => some ([], ⟨s, []⟩)
  | n + 1 => (runText cr T p s n).bind fun (os, c) =>
      match p os with
      | none => some (os, c)
      | some op => (textStep cr T c op).map fun (o, c') => (os ++ [o], c')

/-- The client boxes only values of types that fit in the address space (Rust has no others). -/
def Sized (p : Client env) : Prop := ∀ os sh v d, p os = some (.new sh v d) → sh.size < 2 ^ 64

end TB.Spec

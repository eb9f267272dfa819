import Verif.TaggedBox

/-!
# `TaggableInner` and the trait implementations of `TaggedBox<T>`

Models `src/taggable.rs` (the trait, as a dictionary of functions) and the trait implementations at the end of
`src/tagged_box.rs`.  User code (`clone`, `eq`, `cmp`, `fmt` of the enum, and the `TaggableInner` implementation itself,
which may be hand-written) is a parameter: an arbitrary computation that may panic and change the state.
-/

set_option autoImplicit false

namespace TB

/-- Run `m`; whatever way it ends (return or unwinding), run the destructors `es` of the local variables. -/
def M.cleanup {α : Type} (es : List Event) (m : M α) : M α := fun s =>
  match m s with
  | .ret a s' => .ret a (s'.log es)
  | .panic k s' => .panic k (s'.log es)
  | .ub k => .ub k

/-- `trait TaggableInner`. `src/taggable.rs:29-52`.
`refFrom` models `ref_from_tagged_box<F: FnOnce(&Self)>`: the closure may be called at most once, and what it stores
into captured variables is modelled by its result of type `β`; `none` means that the closure was not called. -/
structure Taggable (E : Type) where
  /-- `into_tagged_box`, `src/taggable.rs:36` -/
  intoTaggedBox : E → M TBox
  /-- `from_tagged_box`, `src/taggable.rs:41` -/
  fromTaggedBox : TBox → M E
  /-- `ref_from_tagged_box`, `src/taggable.rs:49-51` -/
  refFrom : {β : Type} → TBox → (E → M β) → M (Option β)

/-- Format parameters (`{:>+#08.3?}` etc.), `core::fmt::Formatter`'s options. Not code of this repository. -/
structure FmtSpec where
  fill : Char := ' '
  align : Nat := 3
  width : Option Nat := none
  precision : Option Nat := none
  alternate : Bool := false
  signPlus : Bool := false
  signMinus : Bool := false
  zeroPad : Bool := false
  debugHex : Nat := 0
deriving DecidableEq

/-- A user's `fmt`: given the parameters and the sink's state, returns the new sink state and whether it succeeded.
`σ` is the state of an arbitrary `fmt::Write` sink (it may fail at any point). -/
abbrev UserFmt (E σ : Type) := E → FmtSpec → σ → M (σ × Bool)

namespace TBox

variable {E : Type} (T : Taggable E)

/-- `Clone::clone`. `src/tagged_box.rs:519-530` -/
def clone (cloneE : E → M E) (b : TBox) : M TBox := do
  let output ← T.refFrom b (fun this => cloneE this)
  match output with
  | none => M.panic .cloneNone
  | some e => T.intoTaggedBox e

/-- `PartialEq::eq`; `let mut eq = false`. `src/tagged_box.rs:539-550` -/
def eq (eqE : E → E → M Bool) (a b : TBox) : M Bool := do
  let r ← T.refFrom a (fun this => T.refFrom b (fun other => eqE this other))
  pure (r.join.getD false)

/-- `PartialOrd::partial_cmp`; `let mut cmp = None`. `src/tagged_box.rs:559-570` -/
def partialCmp (cmpE : E → E → M (Option Ordering)) (a b : TBox) : M (Option Ordering) := do
  let r ← T.refFrom a (fun this => T.refFrom b (fun other => cmpE this other))
  pure (r.join.getD none)

/-- `Ord::cmp`; `let mut cmp = cmp::Ordering::Equal`. `src/tagged_box.rs:577-588` -/
def cmp (cmpE : E → E → M Ordering) (a b : TBox) : M Ordering := do
  let r ← T.refFrom a (fun this => T.refFrom b (fun other => cmpE this other))
  pure (r.join.getD .eq)

/-- `Debug::fmt`: `result = write!(f, "{:?}", this)` with `let mut result = Ok(())`. `src/tagged_box.rs:487-496`.
`write!` goes through `Formatter::write_fmt`, which formats its arguments with *their own* (here: default) parameters and
only shares the sink of `f`; the parameters `_spec` of `f` are not used. -/
def debugFmt {σ : Type} (fmtE : UserFmt E σ) (b : TBox) (_spec : FmtSpec) (out : σ) : M (σ × Bool) := do
  let r ← T.refFrom b (fun this => fmtE this {} out)
  pure (r.getD (out, true))

/-- `Display::fmt`: `result = write!(f, "{}", this)`. `src/tagged_box.rs:503-512` -/
def displayFmt {σ : Type} (fmtE : UserFmt E σ) (b : TBox) (_spec : FmtSpec) (out : σ) : M (σ × Bool) := do
  let r ← T.refFrom b (fun this => fmtE this {} out)
  pure (r.getD (out, true))

end TBox

/-- In state `s`, box `b` presents the value `e`: `ref_from_tagged_box` calls its callback exactly once, with `e`, in
state `s`, and returns or unwinds exactly as the callback does, running in addition the destructors `es` afterwards. -/
def Presents {E : Type} (T : Taggable E) (s : State) (b : TBox) (e : E) (es : List Event) : Prop :=
  ∀ (β : Type) (f : E → M β), T.refFrom b f s = (M.cleanup es (do let r ← f e; pure (some r))) s

end TB

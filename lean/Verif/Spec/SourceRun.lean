import Verif.Rust.Crate
import Verif.Rust.Values

/-!
# Running the source text

`sourceCrate env user`: the files `src/discriminant.rs`, `src/tagged_pointer.rs` and `src/tagged_box.rs` (with `impl_fmt!` of `src/lib.rs`), as text, lexed, macro
expanded and parsed; compiled for the settings, build mode and target in `env`, together with the user's code `user`. `Crate.call` runs one of its functions.
-/

set_option autoImplicit false

namespace TB.Spec

open TB TB.Rust

/-- The crate, from its text. -/
noncomputable def sourceCrate {E : Type} (env : Env) (user : User E) : Option (Crate E) := sourceParts.map (·.crate env user)

/-- A number of type `u64`. -/
def u64 {E : Type} (n : Nat) : V E := .int .u64 (BitVec.ofNat 64 n)

/-- A number of type `Discriminant`, which is `u8` or `u16`. -/
def discr {E : Type} (c : Config) (n : Nat) : V E := .int (if c.discrBits = 8 then .u8 else .u16) (BitVec.ofNat 64 n)

/-- The panic messages, as they stand in the text, with what is inserted for `{}`. -/
def tooLarge {E : Type} (c : Config) (d : Nat) : Msg E :=
  .text "\"Attempted to store a discriminant of {} while the max value is {}\"" [discr c d, discr c c.MAX_DISCRIMINANT.toNat]

def tooWide {E : Type} (c : Config) : Msg E :=
  .text "\"If you are receiving this error, then your hardware uses more than {} bits of a pointer to store addresses. \\\n            It is recommended that you use a different feature for the `tagged-box` crate using `features = [\\\"{}bits\\\"]` or above.\n            \""
    [u64 c.ptrWidth, u64 (c.ptrWidth + 1)]

def assertFailed {E : Type} : Msg E := .text "assertion failed" []

def notFetched {E : Type} : Msg E := .text "\"The inner value could not be fetched\"" []

/-- The accessors of `TaggedBox`, run from their text on the box `b` in the state `s`: they give back the discriminant `d` and the one address `a`, where the
value `v` of the type `sh` is; moved out, the value is `v`. None of them changes anything. -/
structure GivesBack {E : Type} (cr : Crate E) (s : State) (b : V E) (sh : Shape) (v : Val) (d : Nat) (a : Nat) : Prop where
  there : ptrRead sh a s = .ret v s
  discriminant : ∀ exp, cr.call "TaggedBox" "discriminant" [] (some b) [] exp s = .ret (discr cr.env.cfg d) [] s
  as_ptr : ∀ exp, cr.call "TaggedBox" "as_ptr" [.opaque sh] (some b) [] exp s = .ret (.ptr (.opaque sh) a) [] s
  as_mut_ptr : ∀ exp, cr.call "TaggedBox" "as_mut_ptr" [.opaque sh] (some b) [] exp s = .ret (.ptr (.opaque sh) a) [] s
  as_ref : ∀ exp, cr.call "TaggedBox" "as_ref" [.opaque sh] (some b) [] exp s = .ret (.ref (.opaque sh) a) [] s
  as_mut_ref : ∀ exp, cr.call "TaggedBox" "as_mut_ref" [.opaque sh] (some b) [] exp s = .ret (.ref (.opaque sh) a) [] s
  into_inner : ∀ exp, cr.call "TaggedBox" "into_inner" [.opaque sh] none [b] exp s = .ret (.obj sh v) [] s
  into_raw : ∀ exp, cr.call "TaggedBox" "into_raw" [.opaque sh] none [b] exp s = .ret (.ptr (.opaque sh) a) [] s
  into_box : ∀ exp, cr.call "TaggedBox" "into_box" [.opaque sh] none [b] exp s = .ret (.boxed (.opaque sh) a) [] s

/-- `ref_from_tagged_box` cannot look at what the closure keeps for itself: what it gives back is a function of it. (In Rust the closure's captured
variables are invisible to the callee.) -/
def Natural {E : Type} (T : Taggable E) : Prop :=
  ∀ (β γ : Type) (g : β → γ) (b : TBox) (f : E → M β) (s : State),
    T.refFrom b (fun e => do
      let x ← f e
      pure (g x)) s = (do
        let r ← T.refFrom b f
        pure (r.map g)) s

/-- A user's formatting function as one that appends to what has been written. -/
def appendFmt {E : Type} (f : E → FmtSpec → M (List Char × Bool)) : UserFmt E (List Char) := fun e spec out => do
  let r ← f e spec
  pure (out ++ r.1, r.2)

/-- What a user's formatting function does, as an outcome of the crate's. -/
def printed {E : Type} : Out (List Char × Bool) → XOut E (V E × List Char)
  | .ret r s => .ret (resV r.2, r.1) [] s
  | .panic k s => .panic (.kind k) [] s
  | .ub k => .ub k

end TB.Spec

import Verif.Rust.Eval

/-! # The model's values and outcomes as values and outcomes of the interpreter -/

set_option autoImplicit false

namespace TB.Rust

open TB

variable {E : Type}

/-- The integer type `Discriminant`. -/
def discrTy (c : Config) : ITy := if c.discrBits = 8 then .u8 else .u16

/-- A discriminant as a value. -/
def dV {env : Env} (d : env.cfg.Discr) : V E := .int (discrTy env.cfg) (d.setWidth 64)

/-- A `TaggedPointer` as a value. -/
def ptrV (p : TPtr) : V E := .struct "TaggedPointer" [("tagged_ptr", .int .u64 p.raw)]

/-- The message of the second check in `TaggedPointer::new`, as written. `src/tagged_pointer.rs:38-40` -/
def newPtrMsg : String := "\"If you are receiving this error, then your hardware uses more than {} bits of a pointer to store addresses. \\\n            It is recommended that you use a different feature for the `tagged-box` crate using `features = [\\\"{}bits\\\"]` or above.\n            \""

/-- The words of the panics of `TaggedPointer::new` and `TaggedBox::new`. -/
def panicMsg {env : Env} (d : env.cfg.Discr) : PanicKind → Msg E
  | .discriminant => .text "\"Attempted to store a discriminant of {} while the max value is {}\"" [dV d, dV env.cfg.MAX_DISCRIMINANT]
  | .pointer => .text newPtrMsg [.int .u64 (BitVec.ofNat 64 env.cfg.ptrWidth), .int .u64 (BitVec.ofNat 64 (env.cfg.ptrWidth + 1))]
  | .nullAlloc => .text "assertion failed" []
  | k => .kind k

/-- What the model says, as an outcome of the interpreter. -/
def XOut.of {α : Type} (f : α → V E) (msg : PanicKind → Msg E) (l : Locals E) : Out α → XOut E (V E)
  | .ret a s => .ret (f a) l s
  | .panic k s => .panic (msg k) l s
  | .ub k => .ub k

end TB.Rust

import Verif.DemoMacro
import Verif.Traits

/-!
# The repository's integration tests, run in the model

`tests/tagged_box_macro.rs`, at the default width on a 64-bit target, with and without debug assertions. These are executions on
literals: they check the model against what the tests of the repository say, and are no proofs of properties. All assertions hold if
tuples are laid out like `#[repr(C)]` structures. With the layout rustc chooses for `(usize, usize, f32, usize)` the test
`inner_from_tagged_box` fails, see `from_many_rustc`.
-/

set_option autoImplicit false

namespace TB.Replay

open TB.Macro

/-- A compiler that knows the types of the test file. -/
def rcT : Rustc :=
  { rcDemo with
    leaf := fun t => match t with
      | .named "usize" => u64L
      | .named "f32" => intLeaf 7 4
      | t => rcDemo.leaf t }

/-- ```
SingleTuple(usize),
ManyTuple(usize, usize, f32, usize),
Unit,
Orphan { int: u32, boolean: bool, },
``` `tests/tagged_box_macro.rs:3-14` -/
def toksT : List Tok :=
  [.ident "SingleTuple", .group .paren [.ident "usize"], .comma,
   .ident "ManyTuple", .group .paren [.ident "usize", .comma, .ident "usize", .comma, .ident "f32", .comma, .ident "usize"], .comma,
   .ident "Unit", .comma,
   .ident "Orphan", .group .brace [.ident "int", .colon, .ident "u32", .comma, .ident "boolean", .colon, .ident "bool", .comma], .comma]

def declT : List VariantDef :=
  [⟨"SingleTuple", .tuple [.named "usize"]⟩,
   ⟨"ManyTuple", .tuple [.named "usize", .named "usize", .named "f32", .named "usize"]⟩,
   ⟨"Unit", .unit⟩, ⟨"Orphan", .record [("int", .named "u32"), ("boolean", .named "bool")]⟩]

def progT : Program := programOf "Container" "Item" false declT

/-- The test file compiles. -/
theorem compiled (b : Bool) : Compiled rcT (env60 b).cfg "Container" "Item" false toksT declT progT :=
  ⟨.cons (.tuple (.one ⟨by simp, 0, rfl, rfl⟩))
    (.cons (.tuple (.cons ⟨by simp, 0, rfl, rfl⟩ (.cons ⟨by simp, 0, rfl, rfl⟩ (.cons ⟨by simp, 0, rfl, rfl⟩ (.one ⟨by simp, 0, rfl, rfl⟩)))))
      (.cons .unit (.cons (.record (.cons ⟨_, rfl, by simp, 0, rfl, rfl⟩ (.oneTrailing ⟨_, rfl, by simp, 0, rfl, rfl⟩))) .nil))), by rfl⟩

/-- The bytes of `n`, little-endian. -/
def le (k n : Nat) : Bytes := (List.range k).map fun i => some (BitVec.ofNat 8 (n / 256 ^ i))

def single (n : Nat) : EVal := ⟨"SingleTuple", .tuple [le 8 n]⟩
/-- `f` is the bit pattern of the `f32`. -/
def many (a b f c : Nat) : EVal := ⟨"ManyTuple", .tuple [le 8 a, le 8 b, le 4 f, le 8 c]⟩
def unit : EVal := ⟨"Unit", .unit⟩
def orphan (n : Nat) (b : Bool) : EVal := ⟨"Orphan", .record [("int", le 4 n), ("boolean", le 1 b.toNat)]⟩

/-- `usize::max_value()` -/
def usizeMax : Nat := 2 ^ 64 - 1

/-- Bit patterns of `50.100005` and `500.100005`. -/
def f50 : Nat := 0x42486667
def f500 : Nat := 0x43FA0CCD

/-- A run that returns the given value. -/
def returns {α : Type} [DecidableEq α] (m : M α) (a : α) : Bool :=
  match m state0 with
  | .ret x _ => decide (x = a)
  | _ => false

/-- `container.into_inner()` after `Container::from(payload)`, with the implementation number `n`. -/
def fromInner (debug : Bool) (n : Nat) (payload : List Bytes) : M EVal := do
  let c ← containerFromPayload (env60 debug) rcT progT (progT.froms[n]?.getD (.single "" (.tuple []))) payload
  containerIntoInner (env60 debug) rcT progT c

/-- `container_into_inner`, `tests/tagged_box_macro.rs:16-26` -/
example (debug : Bool) :
    returns (fromInner debug 0 [le 8 usizeMax]) (single usizeMax) = true ∧
    returns (fromInner debug 1 [le 8 100, le 8 200, le 4 f50, le 8 300]) (many 100 200 f50 300) = true := by
  cases debug <;> decide +kernel

/-- `Container { value: e.into_tagged_box() }.into_inner()` -/
def intoInner (debug : Bool) (e : EVal) : M EVal := do
  let b ← intoTaggedBox (env60 debug) rcT progT e
  containerIntoInner (env60 debug) rcT progT b

/-- `inner_into_tagged_box`, `tests/tagged_box_macro.rs:28-65` -/
example (debug : Bool) :
    returns (intoInner debug (single usizeMax)) (single usizeMax) = true ∧
    returns (intoInner debug (many 100 200 f50 300)) (many 100 200 f50 300) = true ∧
    returns (intoInner debug unit) unit = true ∧
    returns (intoInner debug (orphan 10 false)) (orphan 10 false) = true := by
  cases debug <;> decide +kernel

/-- `Item::from_tagged_box(e.into_tagged_box())` -/
def roundtrip (env : Env) (e : EVal) : M EVal := do
  let b ← intoTaggedBox env rcT progT e
  fromTaggedBox env rcT progT b

/-- `inner_from_tagged_box`, `tests/tagged_box_macro.rs:67-100`, with tuples like `#[repr(C)]`. -/
example (debug : Bool) :
    returns (roundtrip (env60 debug) (single usizeMax)) (single usizeMax) = true ∧
    returns (roundtrip (env60 debug) (many 12200 23300 f500 34400)) (many 12200 23300 f500 34400) = true ∧
    returns (roundtrip (env60 debug) unit) unit = true ∧
    returns (roundtrip (env60 debug) (orphan 10000 true)) (orphan 10000 true) = true := by
  cases debug <;> decide +kernel

/-- The default environment with rustc's tuple layout. -/
def envR (debug : Bool) : Env := demoEnv cfg60 debug byAlign

theorem envR_ok (debug : Bool) : (envR debug).OK :=
  demoEnv_ok cfg60_mem debug fun ls h => ⟨byAlign_wf h, byAlign_fields ls⟩

/-- In `(usize, usize, f32, usize)` rustc places the `f32` last; in the `#[repr(C)]` structure it is third. -/
example : (byAlign [u64L, u64L, intLeaf 7 4, u64L]).fields.map (·.1) = [0, 8, 24, 16] ∧
    (reprC [u64L, u64L, intLeaf 7 4, u64L]).fields.map (·.1) = [0, 8, 16, 24] := by decide +kernel

/-- With that layout the second assertion of `inner_from_tagged_box` (`tests/tagged_box_macro.rs:74-79`) is undefined behaviour: the
last `usize` is read from the four bytes of the `f32` and four bytes of padding. (A case of `C30_refuted`.) -/
theorem from_many_rustc (debug : Bool) :
    (envR debug).OK ∧ roundtrip (envR debug) (many 12200 23300 f500 34400) state0 = .ub .badValue :=
  ⟨envR_ok debug, by cases debug <;> rfl⟩

/-- The value that `Item::ref_from_tagged_box(&e.into_tagged_box(), ..)` hands to the callback. -/
def seen (debug : Bool) (e : EVal) : M (Option EVal) := do
  let b ← intoTaggedBox (env60 debug) rcT progT e
  (taggable (env60 debug) rcT progT).refFrom b (fun x => pure x)

/-- `inner_ref_from_tagged_box`, `tests/tagged_box_macro.rs:102-155` -/
example (debug : Bool) :
    let all := [single usizeMax, many 1200 233 f500 34, unit, orphan 0 false]
    all.Nodup ∧ ∀ e ∈ all, returns (seen debug e) (some e) = true := by
  cases debug <;> decide +kernel

/-- `wrapped_refs_from_tagged_box`, `tests/tagged_box_macro.rs:157-173`: both values seen in the nested callbacks, then both boxes taken
apart. -/
def wrapped (debug : Bool) : M (Option (Option (EVal × EVal)) × EVal × EVal) := do
  let big ← intoTaggedBox (env60 debug) rcT progT (single 10000)
  let small ← intoTaggedBox (env60 debug) rcT progT (single 100)
  let T := taggable (env60 debug) rcT progT
  let r ← T.refFrom big fun b => T.refFrom small fun s => pure (b, s)
  let x ← fromTaggedBox (env60 debug) rcT progT big
  let y ← fromTaggedBox (env60 debug) rcT progT small
  pure (r, x, y)

example (debug : Bool) :
    returns (wrapped debug) (some (some (single 10000, single 100)), single 10000, single 100) = true := by
  cases debug <;> decide +kernel

end TB.Replay

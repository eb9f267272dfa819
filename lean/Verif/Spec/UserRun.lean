import Verif.Rust.UserCode
import Verif.Spec.ContainerRun

/-!
# Code of users, run with the generated code and with plain values
-/

set_option autoImplicit false

namespace TB.Spec

open TB TB.Macro TB.Mbe TB.Rust TB.Source

noncomputable section

/-- The functions of the program `G` (`Programs`, `Spec/ContainerRun.lean`), run from the text of the macros and of the crate. -/
def crateIface (env : Env) (rc : Rustc) (G : Programs) (sn en : String) : Iface M TBox where
  into := (linked G en).intoTaggedBox
  read := (linked G en).fromTaggedBox
  lend b f := fun s => outcome (fun _ => some ()) ((G Unit f).lend (boxV b) s)
  wrap e := fun s => outcome toCont ((someProgram G).call "From" sn (some (.named en)) "from" none [enumV e] s)
  wrapFields _ tys vs := fun s => match (Fields.tuple tys).fromTy with
    | some ty => outcome toCont ((someProgram G).call "From" sn (some ty) "from" none [payloadV env rc tys vs] s)
    | none => .ub .badValue
  inner b := fun s => outcome toEnum ((someProgram G).call "TaggableContainer" sn none "into_inner" (some (contV b)) [] s)
  fail _ := M.panic (.user 0)
  stuck _ := fun _ => .ub .badValue

end

/-- Why plain code ends early: a failed assertion, or something that is not in the language or has no type. -/
inductive Fault where
  | failed
  | stuck

/-- Plain values instead of boxes. `readable`: the values that may be read by `from_tagged_box` (see C30); `storable`: the values that may be stored (see C34). -/
def plainIface (readable storable : EVal → Bool) : Iface (Except Fault) EVal where
  into e := if storable e then .ok e else .error .stuck
  read e := if readable e then .ok e else .error .stuck
  lend e f := f e
  wrap e := if storable e then .ok e else .error .stuck
  wrapFields v _ vs := if storable ⟨v, .tuple vs⟩ then .ok ⟨v, .tuple vs⟩ else .error .stuck
  inner e := .ok e
  fail _ := .error .failed
  stuck _ := .error .stuck

/-- Literals are values of the types they are used at. -/
def LitsOK (rc : Rustc) (L : Lits) : Prop := ∀ t p b, L.enc t p = some b → (rc.leaf t).Has b

/-- Numbers of an integer type: every number that the type has is represented, with and without the type as a suffix, and equality and order are those of the numbers. -/
def Integers (L : Lits) (t : String) (max : Nat) : Prop :=
  ∃ rep : Nat → Bytes, ∀ n ≤ max, L.enc (.named t) (.num none n) = some (rep n) ∧ L.enc (.named t) (.num (some t) n) = some (rep n) ∧
    ∀ k ≤ max, L.eq (.named t) (rep n) (rep k) = (n == k) ∧ L.cmp (.named t) (rep n) (rep k) = some (compare n k)

/-- What the tests and examples use of the language and of the standard library: integers of the types `usize` (of at least 16 bits), `u32` and `i32`; literals of the types `f32`,
`bool` and `String`, equal to themselves; a string is neither a number nor a truth value. -/
structure Usual (L : Lits) : Prop where
  usize : Integers L "usize" (L.max "usize") ∧ 65535 ≤ L.max "usize"
  u32 : Integers L "u32" (2 ^ 32 - 1)
  i32 : Integers L "i32" (2 ^ 31 - 1)
  f32 : ∃ rep : String → String → Bytes, ∀ a b, L.enc (.named "f32") (.float a b) = some (rep a b) ∧ L.eq (.named "f32") (rep a b) (rep a b) = true
  bool : ∃ rep : Bool → Bytes, ∀ b, L.enc (.named "bool") (.bool b) = some (rep b) ∧ L.eq (.named "bool") (rep b) (rep b) = true
  string : ∃ rep : String → Bytes, ∀ t, L.enc (.named "String") (.text t) = some (rep t) ∧ L.eq (.named "String") (rep t) (rep t) = true
  typed : ∀ t, L.enc (.named "i32") (.text t) = none ∧ L.enc (.named "bool") (.text t) = none

/-- The values of the variant are laid out by `into_tagged_box` as `from_tagged_box` expects (C30): for variants with at least two unnamed fields, the compiler lays out
the tuple of the fields as C does. -/
def LaidOut (env : Env) (rc : Rustc) (decl : List VariantDef) (e : EVal) : Prop :=
  ∀ d ∈ decl, d.name = e.variant → ∀ tys, d.fields = .tuple tys → 2 ≤ tys.length → env.tuple (tys.map rc.leaf) = reprC (tys.map rc.leaf)

/-- The number of the variant fits the discriminant. -/
def Fits (env : Env) (decl : List VariantDef) (e : EVal) : Prop := ∀ (i : Nat) d, decl[i]? = some d → d.name = e.variant → i < 2 ^ env.cfg.DISCRIMINANT_BITS

/-- What the test `storage` uses as well: the type `u8`; the suffix of `10.0f32`; arrays and vectors of `u8`; the structure `CustomStruct` declared in the test, equal to itself; and
that a literal of one kind is not one of another. -/
structure UsualStorage (L : Lits) : Prop where
  usize : 100000 ≤ L.max "usize"
  u8 : Integers L "u8" 255
  suffix : ∀ a b, b.toList.all isDigit = true → L.enc (.named "f32") (.float a (b ++ "f32")) = L.enc (.named "f32") (.float a b)
  array : ∃ rep : List Nat → Bytes, ∀ ns : List Nat, ns.length = 8 → (∀ n ∈ ns, n ≤ 255) →
    L.enc (.named "[u8; 8]") (.list false (ns.map (.num none))) = some (rep ns) ∧ L.eq (.named "[u8; 8]") (rep ns) (rep ns) = true
  vector : ∃ rep : List Nat → Bytes, ∀ ns : List Nat, (∀ n ∈ ns, n ≤ 255) →
    L.enc (.app "Vec" [.named "u8"]) (.list true (ns.map (.num none))) = some (rep ns) ∧ L.eq (.app "Vec" [.named "u8"]) (rep ns) (rep ns) = true
  custom : ∃ rep : Nat → Bool → Bytes, ∀ n ≤ L.max "usize", ∀ b,
    L.enc (.named "CustomStruct") (.record "CustomStruct" [("int", .num none n), ("boolean", .bool b)]) = some (rep n b) ∧
    L.eq (.named "CustomStruct") (rep n b) (rep n b) = true
  onlyF32 : ∀ p b, L.enc (.named "f32") p = some b → ∃ x y, p = .float x y
  onlyI32 : ∀ p b, L.enc (.named "i32") p = some b → ∃ t n, p = .num t n ∧ (t = none ∨ t = some "i32")
  onlyU8 : ∀ p b, L.enc (.named "u8") p = some b → ∃ t n, p = .num t n ∧ (t = none ∨ t = some "u8")
  onlyBool : ∀ p b, L.enc (.named "bool") p = some b → ∃ x, p = .bool x
  onlyArray : ∀ p b, L.enc (.named "[u8; 8]") p = some b → ∃ ps, p = .list false ps
  onlyVector : ∀ p b, L.enc (.app "Vec" [.named "u8"]) p = some b → ∃ ps, p = .list true ps

/-- The run `o` of some code from the state `s`, compared with the run of the same code with plain values: both finish, or an assertion fails in both; or the allocator failed.
(Nothing is said if the plain code is not well-typed.) -/
def AsPlain (s : State) (o : Out Unit) : Except Fault Unit → Prop
  | .ok _ => (∃ s', o = .ret () s') ∨ ∃ k s', o = .panic k s' ∧ NullBetween s s'
  | .error .failed => (∃ s', o = .panic (.user 0) s') ∨ ∃ k s', o = .panic k s' ∧ NullBetween s s'
  | .error .stuck => True

end TB.Spec

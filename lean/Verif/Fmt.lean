import Verif.Traits

/-!
# Formatting of `TaggedPointer` and `TaggedBox`

Models the formatting implementations at `src/tagged_pointer.rs:151-168`, `src/tagged_box.rs:591` and `src/lib.rs:176-214`
(`impl_fmt!`). They delegate to `core::fmt`; the parts of `core::fmt` used (integers in a radix, `Formatter::pad_integral`, raw
pointers, `debug_struct`) are modelled here as text functions. The sink is taken not to fail. Text is a list of characters.
-/

set_option autoImplicit false

namespace TB

/-! ## Parts of `core::fmt` (not code of the repository) -/

/-- Digits of `n` in base `b`, most significant first, at least one. -/
def radix (b : Nat) (n : Nat) : List Nat :=
  if _h : n < b ∨ b < 2 then [n] else radix b (n / b) ++ [n % b]
termination_by n
decreasing_by
  have h1 : 2 ≤ b := by omega
  have h2 : 0 < n := by omega
  exact Nat.div_lt_self h2 h1

/-- The character of a digit. -/
def digitChar (upper : Bool) (d : Nat) : Char :=
  if d < 10 then Char.ofNat ('0'.toNat + d)
  else if upper then Char.ofNat ('A'.toNat + (d - 10)) else Char.ofNat ('a'.toNat + (d - 10))

/-- The digits of `n` as text. -/
def digits (b : Nat) (upper : Bool) (n : Nat) : List Char := (radix b n).map (digitChar upper)

/-- Alignment of `FmtSpec`: 0 left, 1 right, 2 centre, otherwise unspecified (right, for numbers). Returns the fill before and after. -/
def padSplit (align pad : Nat) : Nat × Nat :=
  if align = 0 then (0, pad) else if align = 2 then (pad / 2, (pad + 1) / 2) else (pad, 0)

/-- `Formatter::pad_integral(true, prefix, digits)`. -/
def padIntegral (spec : FmtSpec) (pfx ds : List Char) : List Char :=
  let sign : List Char := if spec.signPlus then ['+'] else []
  let pre : List Char := if spec.alternate then pfx else []
  let w := sign.length + pre.length + ds.length
  match spec.width with
  | none => sign ++ pre ++ ds
  | some m =>
    if m ≤ w then sign ++ pre ++ ds
    else if spec.zeroPad then sign ++ pre ++ List.replicate (m - w) '0' ++ ds
    else List.replicate (padSplit spec.align (m - w)).1 spec.fill ++ (sign ++ pre ++ ds) ++
      List.replicate (padSplit spec.align (m - w)).2 spec.fill

/-- The integer formatting traits. -/
inductive IntFmt where
  | lowerHex
  | upperHex
  | octal
  | binary
deriving DecidableEq

def IntFmt.base : IntFmt → Nat
  | .lowerHex => 16
  | .upperHex => 16
  | .octal => 8
  | .binary => 2

def IntFmt.pfx : IntFmt → List Char
  | .lowerHex => ['0', 'x']
  | .upperHex => ['0', 'x']
  | .octal => ['0', 'o']
  | .binary => ['0', 'b']

def IntFmt.upper : IntFmt → Bool
  | .upperHex => true
  | _ => false

/-- `fmt::LowerHex::fmt(&n, f)` and so on. -/
def fmtInt (t : IntFmt) (spec : FmtSpec) (n : Nat) : List Char := padIntegral spec t.pfx (digits t.base t.upper n)

/-- `fmt::Display::fmt(&n, f)` for unsigned `n`. -/
def fmtDec (spec : FmtSpec) (n : Nat) : List Char := padIntegral spec [] (digits 10 false n)

/-- `fmt::Debug::fmt(&n, f)` for unsigned `n`: `{:x?}` and `{:X?}` select hexadecimal. -/
def fmtDebugInt (spec : FmtSpec) (n : Nat) : List Char :=
  if spec.debugHex = 1 then fmtInt .lowerHex spec n else if spec.debugHex = 2 then fmtInt .upperHex spec n else fmtDec spec n

/-- `fmt::Pointer::fmt` of a raw pointer with address `addr`; also its `Debug`. -/
def fmtPtr (ptrBits : Nat) (spec : FmtSpec) (addr : Nat) : List Char :=
  fmtInt .lowerHex
    { spec with
      alternate := true
      zeroPad := spec.zeroPad || spec.alternate
      width := if spec.alternate then some (spec.width.getD (ptrBits / 4 + 2)) else spec.width } addr

/-- `PadAdapter`: four spaces at the beginning of every line. -/
def indent : Bool → List Char → List Char
  | _, [] => []
  | onNewline, c :: cs => (if onNewline then [' ', ' ', ' ', ' '] else []) ++ c :: indent (c == '\n') cs

/-- `f.debug_struct(name).field(n1, v1)...finish()`, at least one field; the values are given as already formatted. -/
def debugStruct (spec : FmtSpec) (name : List Char) (fields : List (List Char × List Char)) : List Char :=
  if spec.alternate then
    name ++ " {\n".toList ++ (fields.map (fun f => indent true (f.1 ++ ": ".toList ++ f.2 ++ ",\n".toList))).flatten ++ ['}']
  else
    name ++ " { ".toList ++ (List.intercalate ", ".toList (fields.map (fun f => f.1 ++ ": ".toList ++ f.2))) ++ " }".toList

/-- What a structure with the single field `field` has for `#[derive(Debug)]`: `f.debug_struct(name).field(field, v).finish()`, where `v` gives
the text that the field's `Debug` writes and whether it succeeds. If it does not, nothing more is written. With `{:#?}` what is written for
the field goes through a `PadAdapter`. -/
def derivedDebug (name field : List Char) (v : FmtSpec → M (List Char × Bool)) (spec : FmtSpec) : M (List Char × Bool) := do
  let r ← v spec
  if spec.alternate then
    pure (name ++ " {\n".toList ++ indent true (field ++ ": ".toList ++ r.1 ++ (if r.2 then ",\n".toList else [])) ++
      (if r.2 then ['}'] else []), r.2)
  else
    pure (name ++ " { ".toList ++ field ++ ": ".toList ++ r.1 ++ (if r.2 then " }".toList else []), r.2)

/-! ## The crate's implementations -/

namespace TPtr

variable (c : Config)

/-- `impl_fmt!(TaggedPointer => LowerHex, UpperHex, Binary, Octal)`: `fmt::$fmt::fmt(&self.as_u64(), f)`.
`src/tagged_pointer.rs:168`, `src/lib.rs:177-185` -/
def fmtNum (t : IntFmt) (spec : FmtSpec) (p : TPtr) : List Char := TB.fmtInt t spec (p.asU64 c).toNat

/-- `impl fmt::Pointer`: `fmt::Pointer::fmt(&self.as_ptr::<()>(), f)`. `src/tagged_pointer.rs:162-166` -/
def fmtPointer (ptrBits : Nat) (spec : FmtSpec) (p : TPtr) : List Char := fmtPtr ptrBits spec (p.asPtr c ptrBits)

/-- `impl fmt::Debug`. `src/tagged_pointer.rs:152-160`. The raw word is cast to a pointer and so truncated to the native width. -/
def fmtDebug (ptrBits : Nat) (spec : FmtSpec) (p : TPtr) : List Char :=
  debugStruct spec "TaggedPointer".toList
    [("raw".toList, fmtPtr ptrBits spec (p.asRawU64.setWidth ptrBits).toNat),
     ("ptr".toList, fmtPtr ptrBits spec (p.asPtr c ptrBits)),
     ("discriminant".toList, fmtDebugInt spec (p.discriminant c).toNat)]

end TPtr

/-- `impl_fmt!(impl[T: TaggableInner] TaggedBox<T> => LowerHex, UpperHex, Binary, Octal)`: `fmt::$fmt::fmt(&self.as_u64(), f)`.
`src/tagged_box.rs:591`, `src/lib.rs:188-196` -/
def TBox.fmtNum (env : Env) (t : IntFmt) (spec : FmtSpec) (b : TBox) : List Char := fmtInt t spec (b.asU64 env).toNat

/-- `#[derive(Debug)] struct $struct { value: $crate::TaggedBox<$enum> }` formatted with `Debug`; `fmtE` is the enum's `Debug`, which
writes a text and succeeds or not. `src/tagged_box_macro/mod.rs:739-743`, `src/tagged_box.rs:487-496` -/
def containerDebug {E : Type} (T : Taggable E) (name : List Char) (fmtE : E → FmtSpec → M (List Char × Bool)) (b : TBox) (spec : FmtSpec) :
    M (List Char × Bool) :=
  derivedDebug name "value".toList
    (fun sp => TBox.debugFmt T (fun e sp' out => do let r ← fmtE e sp'; pure (out ++ r.1, r.2)) b sp []) spec

end TB

import Verif.Traits

/-!
# What a printed number means

A reader for numbers, independent of how they are printed.
-/

set_option autoImplicit false

namespace TB

/-- The value of a digit character. -/
def charVal (c : Char) : Option Nat :=
  if '0' ≤ c ∧ c ≤ '9' then some (c.toNat - '0'.toNat)
  else if 'a' ≤ c ∧ c ≤ 'f' then some (c.toNat - 'a'.toNat + 10)
  else if 'A' ≤ c ∧ c ≤ 'F' then some (c.toNat - 'A'.toNat + 10)
  else none

/-- Read digits in base `b`, having read `acc` already. -/
def readFrom (b : Nat) : Nat → List Char → Option Nat
  | acc, [] => some acc
  | acc, c :: cs =>
    match charVal c with
    | some v => if v < b then readFrom b (acc * b + v) cs else none
    | none => none

/-- `text` is the number `n` in base `b` under the format parameters `spec`: a sign if asked for, the prefix `pfx` if `alt`,
digits that read as `n` (letters in upper case if `upper`, in lower case otherwise; no leading zeros except by zero padding), and nothing else but fill characters around them; fill only if a width is given and zero padding is not
in force; and the text is as long as the width demands, no longer than necessary. `zero` is whether padding is with zeros. -/
def Denotes (spec : FmtSpec) (alt zero : Bool) (width : Option Nat) (pfx : List Char) (b : Nat) (upper : Bool)
    (text : List Char) (n : Nat) : Prop :=
  ∃ (i j z : Nat) (ds : List Char),
    text = List.replicate i spec.fill ++
      ((if spec.signPlus then ['+'] else []) ++ (if alt then pfx else []) ++ (List.replicate z '0' ++ ds)) ++
      List.replicate j spec.fill ∧
    readFrom b 0 ds = some n ∧ ds ≠ [] ∧ (ds.head? = some '0' → n = 0 ∧ ds = ['0']) ∧
    (∀ c ∈ ds, if upper then ¬('a' ≤ c ∧ c ≤ 'f') else ¬('A' ≤ c ∧ c ≤ 'F')) ∧
    (width = none ∨ zero = true → i = 0 ∧ j = 0) ∧
    (zero = false → z = 0) ∧
    (i + j + z = 0 ∨ width = some text.length) ∧
    (∀ m, width = some m → m ≤ text.length)

end TB

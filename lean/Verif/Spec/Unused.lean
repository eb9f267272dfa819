import Verif.Source.UnusedRules
import Verif.Mbe.Expand
import Verif.Mbe.Quote
import Verif.Rust.Eval

/-!
# Invoking a helper macro of the crate directly

`tagged_box::name!(args)`, where an expression is expected, and what the sum that `__generate_const_sizes!` stands for is worth.
-/

set_option autoImplicit false

namespace TB.Source

open TB.Mbe TB.Macro

/-- `$crate::name!(args)`, where an expression is expected, expands to `out`. -/
def HelperExpands (rc : Rustc) (name : String) (args out : List TT) : Prop :=
  Expands rc exportedMacros false false (rust% "$crate::«name»!(«args»)") out

/-- `$crate::name!(args)`, where items or statements are expected, expands to `out`. -/
def HelperItems (rc : Rustc) (name : String) (args out : List TT) : Prop :=
  Expands rc exportedMacros true true (rust% "$crate::«name»!(«args»)") out

/-- No type begins with `@`. -/
def NoAtType (rc : Rustc) : Prop := ∀ ts, rc.parseTy (.other "@" :: ts) = .noStart

/-- Types separated by commas, as another macro passes them on. -/
def typeArgs : List Ty → List TT
  | [] => []
  | [t] => [.ty t]
  | t :: u :: r => .ty t :: .atom (.punct ",") :: typeArgs (u :: r)

/-- `{ const N: usize = core::mem::size_of::<T>() * 8; N }` is worth eight times the size of `T`. -/
def bitsOf (size : Ty → Nat) : List TT → Option Nat
  | [.atom (.ident "const"), .atom (.ident n), .atom (.punct ":"), .atom (.ident "usize"), .atom (.punct "="), .atom (.ident "core"),
      .atom (.punct "::"), .atom (.ident "mem"), .atom (.punct "::"), .atom (.ident "size_of"), .atom (.punct "::"), .atom (.punct "<"), .ty t,
      .atom (.punct ">"), .group .paren [], .atom (.punct "*"), .atom (.lit k), .atom (.punct ";"), .atom (.ident m)] =>
    if n = m then (TB.Rust.decimal 0 k.toList).map (size t * ·) else none
  | _ => none

/-- `+ { .. } + { .. } ..` -/
def addBits (size : Ty → Nat) : Nat → List TT → Option Nat
  | a, [] => some a
  | a, .atom (.punct "+") :: .group .brace b :: r => (bitsOf size b).bind fun n => addBits size (a + n) r
  | _, _ => none

/-- The value of an expression: a number to which blocks are added, possibly in a block. -/
def sumValue (size : Ty → Nat) : List TT → Option Nat
  | [.frag .expr [.group .brace [.frag .expr (.atom (.lit k) :: r)]]] => (TB.Rust.decimal 0 k.toList).bind fun n => addBits size n r
  | _ => none

/-- The arguments of the `n`-th of the invocations of `__counter_enum!` that follow from one another. -/
def nested (rc : Rustc) : Nat → List TT → Option (List TT)
  | 0, args => some args
  | n + 1, args => ((exportedMacros "__counter_enum").bind fun rules => applyRules rc rules args).bind fun body =>
    match headOf body with
    | .call "__counter_enum" _ a [] => nested rc n a
    | _ => none

/-- The tokens do not begin with a variant: they begin with a sign, a literal or a group, or with a name that is not followed by anything, or followed by
a sign other than a comma (`A = 1`). -/
inductive NotVariant : List TT → Prop where
  | sign (p : String) (r : List TT) : NotVariant (.atom (.punct p) :: r)
  | lit (p : String) (r : List TT) : NotVariant (.atom (.lit p) :: r)
  | group (d : Delim) (us r : List TT) : NotVariant (.group d us :: r)
  | last (x : String) : NotVariant [.atom (.ident x)]
  | other (x p : String) (r : List TT) (h : p ≠ ",") : NotVariant (.atom (.ident x) :: .atom (.punct p) :: r)

end TB.Source

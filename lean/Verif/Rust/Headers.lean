import Verif.Rust.Crate

/-!
# Which traits the types of the crate implement

Read from the text of `src/tagged_pointer.rs` and `src/tagged_box.rs`: the attributes `#[derive(..)]` and `#[repr(transparent)]` of structures, and the first lines
of `impl` blocks with the bounds on their parameter (`<T: A + B>` and `where T: A + B`). `impl_fmt!` of `src/lib.rs` is expanded.

What a standard derive macro generates is not code of this repository: field by field, in the order of the declaration.
-/

set_option autoImplicit false

namespace TB.Rust

open TB.Mbe TB.Source

/-- The first line of an `impl` block: trait, type, bounds on the parameter of the type. -/
structure Header where
  trait : String
  self : String
  bounds : List String
deriving DecidableEq

/-- A structure. -/
structure StructInfo where
  name : String
  generics : List String
  fields : List (String × RTy)
  derives : List String
  transparent : Bool

/-- `A + b::B<..>`, up to a comma or `>` -/
def boundNames : Nat → Option String → List TT → List String
  | _, cur, [] => cur.toList
  | d, cur, .atom (.punct s) :: r =>
    if s = "<" then boundNames (d + 1) cur r
    else if s = ">" then match d with
      | 0 => cur.toList
      | d + 1 => boundNames d cur r
    else if d = 0 ∧ s = "," then cur.toList
    else if d = 0 ∧ s = "+" then cur.toList ++ boundNames 0 none r
    else boundNames d cur r
  | 0, _, .atom (.ident x) :: r => boundNames 0 (some x) r
  | d, cur, .group .brace _ :: _ => cur.toList
  | d, cur, _ :: r => boundNames d cur r

/-- All bounds on a parameter, up to the braces. -/
def boundsOn (g : String) : List TT → List String
  | .group .brace _ :: _ => []
  | .atom (.ident x) :: .atom (.punct s) :: r => if x = g ∧ s = ":" then boundNames 0 none r ++ boundsOn g r else boundsOn g (.atom (.punct s) :: r)
  | _ :: r => boundsOn g r
  | [] => []

/-- What comes after `impl`, if it is the implementation of a trait. -/
def implHeader (ts : List TT) : Option Header :=
  match optGenerics ts with
  | none => none
  | some (gs, r) => match pTy 1000 r with
    | none => none
    | some (t, r) => match eatK "for" r with
      | none => none
      | some r => (pTy 1000 r).map fun x => ⟨tyName t, tyName x.1, gs.flatMap fun g => boundsOn g ts⟩

/-- The headers among tokens, outside of groups. -/
def headers : List TT → List Header
  | [] => []
  | .atom (.ident x) :: r => if x = "impl" then (implHeader r).toList ++ headers r else headers r
  | _ :: r => headers r

def identNames (ts : List TT) : List String := ts.filterMap fun
  | .atom (.ident x) => some x
  | _ => none

/-- The arguments of the attributes with a name. -/
def attrArgs (name : String) (attrs : List (List TT)) : List String := attrs.flatMap fun
  | [.atom (.ident d), .group .paren us] => if d = name then identNames us else []
  | _ => []

def structInfos (is : List Item) : List StructInfo := is.filterMap fun
  | .struct attrs x gs fs => some ⟨x, gs, fs, attrArgs "derive" attrs, "transparent" ∈ attrArgs "repr" attrs⟩
  | _ => none

/-- The implementations that derives generate; parameters get the derived trait as a bound. -/
def StructInfo.headers (st : StructInfo) : List Header := st.derives.map fun d => ⟨d, st.name, st.generics.map fun _ => d⟩

/-- The structures and implementations in a text. -/
def readImpls (ms : Option (List (String × List Rule))) (ls : List (List Char)) : Option (List StructInfo × List Header) :=
  match ms, parseText ls with
  | some ms, some ts => match expandItems ms 10000 ts with
    | some ts => (pItems 1000 ts).map fun is => (structInfos is, (structInfos is).flatMap StructInfo.headers ++ headers ts)
    | none => none
  | _, _ => none

/-- Those of the crate: structures and trait implementations. -/
noncomputable def crateImpls : Option (List StructInfo × List Header) :=
  match readImpls (macrosOf libText ["impl_fmt"]) pointerText, readImpls (macrosOf libText ["impl_fmt"]) boxText with
  | some p, some b => some (p.1 ++ b.1, p.2 ++ b.2)
  | _, _ => none

/-! ## Derived functions -/

section
variable {E : Type}

/-- The fields of a value, in the order of the declaration. -/
def fieldVals : List (String × RTy) → V E → Option (List (V E))
  | [], _ => some []
  | f :: fs, .struct n vs => match lookup f.1 vs, fieldVals fs (.struct n vs) with
    | some v, some r => some (v :: r)
    | _, _ => none
  | _, _ => none

/-- `==` of integers -/
def intEq : V E → V E → Option Bool
  | .int t v, .int t' w => if t = t' then some (v == w) else none
  | _, _ => none

/-- `cmp` of (unsigned) integers -/
def intCmp : V E → V E → Option Ordering
  | .int t v, .int t' w => if t = t' then some (compare v.toNat w.toNat) else none
  | _, _ => none

/-- What `hash` of an integer gives the hasher: the type and the value. -/
def intHash : V E → Option (ITy × BitVec 64)
  | .int t v => some (t, v)
  | _ => none

def eqList : List (V E) → List (V E) → Option Bool
  | [], [] => some true
  | x :: xs, y :: ys => match intEq x y, eqList xs ys with
    | some a, some b => some (a && b)
    | _, _ => none
  | _, _ => none

def cmpList : List (V E) → List (V E) → Option Ordering
  | [], [] => some .eq
  | x :: xs, y :: ys => match intCmp x y, cmpList xs ys with
    | some a, some b => some (a.then b)
    | _, _ => none
  | _, _ => none

def hashList : List (V E) → Option (List (ITy × BitVec 64))
  | [] => some []
  | x :: xs => match intHash x, hashList xs with
    | some a, some b => some (a :: b)
    | _, _ => none

/-- `#[derive(PartialEq)]` -/
def StructInfo.eq (st : StructInfo) (x y : V E) : Option Bool :=
  if "PartialEq" ∈ st.derives then match fieldVals st.fields x, fieldVals st.fields y with
    | some a, some b => eqList a b
    | _, _ => none
  else none

/-- `#[derive(PartialOrd)]`: the inner `none` is that of `partial_cmp`, which does not occur for integers. -/
def StructInfo.partialCmp (st : StructInfo) (x y : V E) : Option (Option Ordering) :=
  if "PartialOrd" ∈ st.derives then match fieldVals st.fields x, fieldVals st.fields y with
    | some a, some b => (cmpList a b).map some
    | _, _ => none
  else none

/-- `#[derive(Ord)]` -/
def StructInfo.cmp (st : StructInfo) (x y : V E) : Option Ordering :=
  if "Ord" ∈ st.derives then match fieldVals st.fields x, fieldVals st.fields y with
    | some a, some b => cmpList a b
    | _, _ => none
  else none

/-- `#[derive(Hash)]`: what the hasher gets. -/
def StructInfo.hash (st : StructInfo) (x : V E) : Option (List (ITy × BitVec 64)) :=
  if "Hash" ∈ st.derives then match fieldVals st.fields x with
    | some a => hashList a
    | none => none
  else none

end

end TB.Rust

import Verif.Layout

/-!
# Token trees and the patterns of the `tagged_box!` component macros

`macro_rules!` matching is first-match over the arms; a failing fragment parse (`$ty:ty` on something that starts like a
type but is none) is fatal.  The seven component macros consume the variants one by one with the same five patterns,
`Pat`; which arms each macro has, in which order, and what it emits is in `Expand.lean`.
-/

set_option autoImplicit false

namespace TB.Macro

/-- Delimiters of a token group. -/
inductive Delim where
  | paren | brace | bracket
deriving DecidableEq

/-- Token trees (`$tt:tt`). -/
inductive Tok where
  | ident (s : String)
  | comma
  | colon
  | group (d : Delim) (ts : List Tok)
  | other (s : String)

/-- Types as written: a name, a generic application, a tuple. (Paths, references etc. can be encoded as `app`.) -/
inductive Ty where
  | named (s : String)
  | app (head : String) (args : List Ty)
  | tuple (ts : List Ty)

mutual
/-- Does the type, as written, mention the identifier? -/
def Ty.mentions (x : String) : Ty → Bool
  | .named s => s == x
  | .app h args => h == x || Ty.mentionsList x args
  | .tuple ts => Ty.mentionsList x ts
/-- Does one of the types mention the identifier? -/
def Ty.mentionsList (x : String) : List Ty → Bool
  | [] => false
  | t :: ts => Ty.mentions x t || Ty.mentionsList x ts
end

/-- Result of the `ty` fragment parser on a token list: no type can start here; a type starts here but is malformed (a hard
error); or a type was parsed, consuming `extra + 1` tokens. -/
inductive TyParse where
  | noStart
  | fatal
  | ok (ty : Ty) (extra : Nat)

/-- What the Rust compiler contributes: the parser for the `ty` fragment, and for each type its layout and validity,
its identity (after resolving aliases), and whether it is `Copy`. Further the keywords of the edition, and `shadowed`: the names (of types,
traits, modules) that at the place of the invocation mean something else than without any declarations, for example because there is a
`mod core`. All arbitrary. -/
structure Rustc where
  parseTy : List Tok → TyParse
  leaf : Ty → Leaf
  typeId : Ty → Nat
  isCopy : Ty → Bool
  isKeyword : String → Bool := fun _ => false
  shadowed : List String := []

/-- What Rust guarantees about types. -/
structure Rustc.OK (rc : Rustc) : Prop where
  leaf_wf : ∀ t, (rc.leaf t).WF
  copy_no_drop : ∀ t, rc.isCopy t = true → (rc.leaf t).needsDrop = false

/-- Result of trying one macro arm. -/
inductive MR (α : Type) where
  | no
  | fatal
  | yes (a : α)

def MR.map {α β : Type} (f : α → β) : MR α → MR β
  | .no => .no
  | .fatal => .fatal
  | .yes a => .yes (f a)

/-- `$ty:ty` -/
def oneTy (rc : Rustc) : List Tok → MR (Ty × List Tok)
  | [] => .no
  | t :: ts => match rc.parseTy (t :: ts) with
    | .noStart => .no
    | .fatal => .fatal
    | .ok ty n => .yes (ty, (t :: ts).drop (n + 1))

/-- `$($ty:ty),+` up to the end of the group; `fuel` bounds the number of types. -/
def tysSep (rc : Rustc) : Nat → List Tok → MR (List Ty)
  | 0, _ => .no
  | fuel + 1, ts => match oneTy rc ts with
    | .no => .no
    | .fatal => .fatal
    | .yes (ty, []) => .yes [ty]
    | .yes (ty, .comma :: rest) => (tysSep rc fuel rest).map (ty :: ·)
    | .yes (_, _ :: _) => .no

/-- `$member:ident: $ty:ty` -/
def oneField (rc : Rustc) : List Tok → MR ((String × Ty) × List Tok)
  | .ident m :: .colon :: ts => (oneTy rc ts).map fun (ty, rest) => ((m, ty), rest)
  | _ => .no

/-- `$($member:ident: $ty:ty),+` up to the end of the group. -/
def recSep (rc : Rustc) : Nat → List Tok → MR (List (String × Ty))
  | 0, _ => .no
  | fuel + 1, ts => match oneField rc ts with
    | .no => .no
    | .fatal => .fatal
    | .yes (f, []) => .yes [f]
    | .yes (f, .comma :: rest) => (recSep rc fuel rest).map (f :: ·)
    | .yes (_, _ :: _) => .no

/-- `$($member:ident: $ty:ty,)*` up to the end of the group. -/
def recTrail (rc : Rustc) : Nat → List Tok → MR (List (String × Ty))
  | _, [] => .yes []
  | 0, _ :: _ => .no
  | fuel + 1, t :: ts => match oneField rc (t :: ts) with
    | .no => .no
    | .fatal => .fatal
    | .yes (f, .comma :: rest) => (recTrail rc fuel rest).map (f :: ·)
    | .yes (_, _) => .no

/-- The five variant patterns. -/
inductive Pat where
  /-- `$variant:ident($ty:ty), $($rest:tt)*` -/
  | single
  /-- `$variant:ident($($ty:ty),*), $($rest:tt)*` -/
  | tuple
  /-- `$variant:ident { $($member:ident: $ty:ty),* }, $($rest:tt)*` -/
  | record
  /-- `$variant:ident { $($member:ident: $ty:ty,)* }, $($rest:tt)*` -/
  | recordTrailing
  /-- `$variant:ident, $($rest:tt)*` -/
  | unit
deriving DecidableEq

/-- What a pattern captures, besides `$rest`. -/
inductive Cap where
  | single (v : String) (ty : Ty)
  | tuple (v : String) (tys : List Ty)
  | record (v : String) (ms : List (String × Ty))
  | unit (v : String)

/-- Try one pattern. -/
def Pat.tryMatch (rc : Rustc) : Pat → List Tok → MR (Cap × List Tok)
  | .single, .ident v :: .group .paren inner :: .comma :: rest => match oneTy rc inner with
    | .no => .no
    | .fatal => .fatal
    | .yes (ty, []) => .yes (.single v ty, rest)
    | .yes (_, _ :: _) => .no
  | .tuple, .ident v :: .group .paren inner :: .comma :: rest => match inner with
    | [] => .yes (.tuple v [], rest)
    | t :: ts => (tysSep rc (t :: ts).length (t :: ts)).map fun tys => (.tuple v tys, rest)
  | .record, .ident v :: .group .brace inner :: .comma :: rest => match inner with
    | [] => .yes (.record v [], rest)
    | t :: ts => (recSep rc (t :: ts).length (t :: ts)).map fun ms => (.record v ms, rest)
  | .recordTrailing, .ident v :: .group .brace inner :: .comma :: rest =>
    (recTrail rc inner.length inner).map fun ms => (.record v ms, rest)
  | .unit, .ident v :: .comma :: rest => .yes (.unit v, rest)
  | _, _ => .no

/-- Compile-time errors. -/
inductive CErr where
  | noRules          -- no arm of a component macro matches (including fatal fragment errors)
  | tooManyFields    -- `compile_error!` of `__expand_tuple`
  | keyword          -- a keyword is used as a name
  | duplicateName    -- a variant or member is declared twice (E0428, E0124)
  | coherence        -- two `From` implementations for the same type (E0119)
  | scopeError       -- a name in the generated code means something else than intended
  | typeError        -- ill-typed generated code
  | recursionLimit   -- macro invocations are nested deeper than the crate's `recursion_limit`
deriving DecidableEq, Repr

/-- One arm of a component macro: its pattern and what it emits. -/
abbrev Arm (α : Type) := Pat × (Cap → Except CErr α)

/-- First-match over the arms. -/
def firstMatch {α : Type} (rc : Rustc) : List (Arm α) → List Tok → MR (Except CErr α × List Tok)
  | [], _ => .no
  | (p, emit) :: arms, ts => match p.tryMatch rc ts with
    | .yes (c, rest) => .yes (emit c, rest)
    | .fatal => .fatal
    | .no => firstMatch rc arms ts

/-- The recursion of a component macro over the variants: emit for the first variant, recurse on `$rest`, stop when no tokens
are left (the arm without a variant pattern). `fuel` bounds the number of variants. -/
def munch {α : Type} (rc : Rustc) (arms : List (Arm α)) : Nat → List Tok → Except CErr (List α)
  | _, [] => .ok []
  | 0, _ :: _ => .error .noRules
  | fuel + 1, t :: ts => match firstMatch rc arms (t :: ts) with
    | .yes (.ok a, rest) => match munch rc arms fuel rest with
      | .ok as => .ok (a :: as)
      | .error e => .error e
    | .yes (.error e, _) => .error e
    | .fatal => .error .noRules
    | .no => .error .noRules

/-- Run a component macro on the variants' tokens. -/
def runMacro {α : Type} (rc : Rustc) (arms : List (Arm α)) (ts : List Tok) : Except CErr (List α) :=
  munch rc arms ts.length ts

end TB.Macro

import Verif.Rust.GenEval
import Verif.Source.GuideText

/-!
# The guide in the documentation, as a program

`src/manually_impl_enum.rs` is one documentation comment: a declaration, the code that is said to be generated from it, and explanations. Here the code is taken out of the
comment, parsed, and made a program for the interpreter of `Rust/GenEval.lean`.

That interpreter does not infer types. What the compiler infers in this code is put in first (`Infer`):

* names that are imported (`TaggedBox`, `ManuallyDrop`) and `Self` in an `impl` of the enum are replaced by what they stand for;
* in `En::V(TaggedBox::into_inner(..))` the type argument is the type of the field of `V`;
* in `TaggedBox::new(x, ..)`, where `x` is bound by the pattern `En::V(x)`, it is the type of the field as well;
* `as _` is a cast to the type `Discriminant` of the crate (the result is compared with a discriminant, or passed as one);
* the message of `panic!()` is `explicit panic`.
-/

set_option autoImplicit false

namespace TB.Rust

open TB.Mbe TB.Macro TB.Source

/-- A line of a `//!` comment. -/
def docLine : List Char → List Char
  | '/' :: '/' :: '!' :: ' ' :: r => r
  | '/' :: '/' :: '!' :: r => r
  | _ => []

/-- rustdoc: a line of an example that begins with `# ` is compiled, but not shown. -/
def unhide : List Char → List Char
  | '#' :: ' ' :: r => r
  | ['#'] => []
  | l => l

/-- The examples in a `//!` comment: what is between "```rust" and "```". -/
def codeBlocks : List (List Char) → Option (List (List Char)) → List (List (List Char))
  | [], _ => []
  | l :: ls, none => if docLine l = src% "```rust" then codeBlocks ls (some []) else codeBlocks ls none
  | l :: ls, some cur => if docLine l = src% "```" then cur.reverse :: codeBlocks ls none else codeBlocks ls (some (unhide (docLine l) :: cur))

/-- The tokens of an example. -/
noncomputable def example? (i : Nat) : Option (List TT) := match (codeBlocks guideText none)[i]? with
  | some ls => parseText ls
  | none => none

/-- The argument of the first `tagged_box! { .. }`. -/
def macroInput : List TT → Option (List TT)
  | .atom (.ident m) :: .atom (.punct b) :: .group .brace us :: r => if m = "tagged_box" ∧ b = "!" then some us else
    macroInput (.atom (.punct b) :: .group .brace us :: r)
  | _ :: r => macroInput r
  | [] => none

/-! ## Inference -/

/-- What inference knows: the enum, its variants, and the type `Discriminant`. -/
structure Infer where
  en : String
  defs : List VariantDef
  discr : RTy

variable (r : Infer)

/-- What a path stands for. -/
def Infer.path : RPath → RPath
  | ("Self", []) :: p => (r.en, []) :: p
  | ("TaggedBox", as) :: p => ("crate", []) :: ("TaggedBox", as) :: p
  | ("ManuallyDrop", as) :: p => ("core", []) :: ("mem", []) :: ("ManuallyDrop", as) :: p
  | p => p

/-- A type argument: a type the user has named. -/
def userTy : RTy → RTy
  | .path [(x, [])] => .user (.named x)
  | t => t

/-- The types of the fields, if the path is a tuple variant. -/
def Infer.fieldTypes : RPath → List Ty
  | [(t, []), (v, [])] => if t = r.en then match lookupDef r.defs v with
      | some (.tuple tys) => tys
      | _ => []
    else []
  | _ => []

/-- Patterns: names, and the types of the variables. -/
def Infer.pat : Pat → Pat
  | .path p => .path (r.path p)
  | .call p ps => .call (r.path p) ps
  | p => p

def Infer.vars : Pat → List (String × Ty)
  | .call p ps => (List.zipWith (fun q t => match q with
      | .bind x => [(x, t)]
      | _ => []) ps (r.fieldTypes (r.path p))).flatten
  | _ => []

/-- `TaggedBox::into_inner(e)` where a value of type `t` is expected. -/
def expect (t : Ty) : Expr → Expr
  | .call (.path [("crate", []), ("TaggedBox", as), ("into_inner", [])]) args => .call (.path [("crate", []), ("TaggedBox", as), ("into_inner", [.user t])]) args
  | e => e

/-- The arguments of a call, given what the function expects. -/
def expectAll : List Ty → List Expr → List Expr
  | t :: ts, e :: es => expect t e :: expectAll ts es
  | _, es => es

/-- `TaggedBox::new(x, ..)` -/
def newAt (vars : List (String × Ty)) : RPath → List Expr → RPath
  | [("crate", []), ("TaggedBox", as), ("new", [])], .path [(x, [])] :: _ => match lookup x vars with
    | some t => [("crate", []), ("TaggedBox", as), ("new", [.user t])]
    | none => [("crate", []), ("TaggedBox", as), ("new", [])]
  | p, _ => p

/-- Statements, given how to treat expressions. -/
def inferStmt (f : Expr → Expr) : Stmt → Stmt
  | .letS p t e => .letS p t (f e)
  | .semi e => .semi (f e)
  | .tail e => .tail (f e)
  | s => s

/-- Expressions. `n` bounds the depth. -/
def Infer.expr (r : Infer) : Nat → List (String × Ty) → Expr → Expr
  | 0, _, e => e
  | n + 1, vars, e => match e with
    | .path p => .path (r.path p)
    | .ref m e => .ref m (Infer.expr r n vars e)
    | .bin op a b => .bin op (Infer.expr r n vars a) (Infer.expr r n vars b)
    | .cast e .infer => .cast (Infer.expr r n vars e) r.discr
    | .cast e t => .cast (Infer.expr r n vars e) t
    | .call (.path p) args =>
      .call (.path (newAt vars (r.path p) (args.map (Infer.expr r n vars)))) (expectAll (r.fieldTypes (r.path p)) (args.map (Infer.expr r n vars)))
    | .method e m ts args => .method (Infer.expr r n vars e) m (ts.map userTy) (args.map (Infer.expr r n vars))
    | .field e x => .field (Infer.expr r n vars e) x
    | .mac m [] => if m = "panic" then .mac "panic" [.lit "\"explicit panic\""] else .mac m []
    | .block ss => .block (ss.map (inferStmt (Infer.expr r n vars)))
    | .mtch e arms => .mtch (Infer.expr r n vars e) (arms.map fun a =>
        (r.pat a.1, a.2.1.map (Infer.expr r n (r.vars a.1 ++ vars)), Infer.expr r n (r.vars a.1 ++ vars) a.2.2))
    | e => e

/-- Functions. -/
def Infer.fn (f : GFn) : GFn := { f with fn := { f.fn with body := f.fn.body.map (inferStmt (r.expr 20 [])) } }

/-! ## The program -/

/-- The variants of an enum all of whose fields have types that are single names. -/
def plainVariants : List TT → Option (List VariantDef)
  | [] => some []
  | .atom (.ident v) :: .group .paren [.atom (.ident t)] :: .atom (.punct c) :: r =>
    if c = "," then (plainVariants r).map (⟨v, .tuple [.named t]⟩ :: ·) else none
  | _ => none

def plainEnum? : List Item → Option (String × List VariantDef)
  | [] => none
  | .enum _ x us :: _ => (plainVariants us).map fun ds => (x, ds)
  | _ :: r => plainEnum? r

/-- The type `Discriminant` of the crate. -/
def discriminantTy {E : Type} (lib : Crate E) : RTy := match lookup "Discriminant" lib.types with
  | some (.user (.named s)) => .path [(s, [])]
  | _ => .infer

/-- The program in these tokens: like `genCrate`, with inference. -/
def plainCrate {β : Type} (n : Nat) (lib : Crate (Host β)) (rc : Rustc) (hasDrop : Bool) (callback : EVal → M β) (ts : List TT) : Option (GCrate β) :=
  match pItems n ts with
  | some is => match structName? is, plainEnum? is with
    | some sn, some (en, defs) => some ⟨lib, rc, hasDrop, sn, en, defs, (implFns is).map (Infer.fn ⟨en, defs, discriminantTy lib⟩), callback⟩
    | _, _ => none
  | none => none

end TB.Rust

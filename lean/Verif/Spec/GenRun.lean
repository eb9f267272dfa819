import Verif.Rust.GenEval
import Verif.Spec.SourceRun
import Verif.Spec.Invocation
import Verif.Spec.Decl

/-!
# Running what `tagged_box!` expands to

`IsProgram .. g`: `g` is the program one gets by expanding the invocation with the macro rules in the text of the crate, parsing the tokens, and compiling them together
with the crate, parsed from its own text. `GCrate.call` and `GCrate.lend` run the functions of `g` (`Rust/GenEval.lean`).
-/

set_option autoImplicit false

namespace TB.Spec

open TB TB.Macro TB.Mbe TB.Rust TB.Source

/-- Words of the language that cannot be names. -/
def words : List String :=
  ["mut", "ref", "as", "if", "unsafe", "match", "use", "const", "enum", "struct", "let", "self", "pub", "else", "fn", "extern", "trait", "mod",
    "type", "impl", "Self"]

/-- A declaration the compiler accepts: the tokens `ts` between the braces declare the variants `decl`. -/
structure Declared (env : Env) (rc : Rustc) (sn en : String) (hd : Bool) (ts : List Tok) (decl : List VariantDef) : Prop where
  target : env.OK
  rustc : rc.OK
  keywords : ∀ x ∈ words, rc.isKeyword x = true
  tokens : DeclSyntax rc ts decl
  accepted : WellFormed rc env.cfg sn en hd decl
  /-- no variant is larger than the address space -/
  sizes : ∀ d ∈ decl, ∀ sh, d.fields.shape rc = some sh → sh.size < 2 ^ 64

/-- `g` is the program written by
```
tagged_box! {
  #[metas]
  svis struct sn, evis enum en { ts }
}
```
with the crate compiled for `env`. `user` is the rest of the user's code, `cb` the closure the user gives to `ref_from_tagged_box`. -/
def IsProgram {β : Type} (env : Env) (rc : Rustc) (user : User (Host β)) (metas : List (List TT)) (svis : List TT) (sn : String) (evis : List TT) (en : String) (hd : Bool)
    (ts : List Tok) (cb : EVal → M β) (g : GCrate β) : Prop :=
  user.drop = hostDrop rc hd g.defs ∧
  ∃ out cr, ExpandsTo rc (invocation metas svis sn evis en ts) out ∧ sourceCrate env user = some cr ∧
    ∃ depth, ∀ n ≥ depth, genCrate n cr rc hd cb out = some g

/-- A value of the enum. -/
def enumV {β : Type} (e : EVal) : GV β := .user (.inl e)

/-- A container around a box. -/
def contV {β : Type} (b : TBox) : GV β := .struct containerName [("value", boxV b)]

/-- The argument of `From<..>`: one field, or the tuple of the fields. -/
def payloadV {β : Type} (env : Env) (rc : Rustc) (tys : List Ty) (vs : TB.Val) : GV β := match tys with
  | [t] => .obj (rc.leaf t).shape vs
  | tys => .obj (env.tuple (tys.map rc.leaf)) vs

/-- The messages for a discriminant no variant has, with what is inserted: the name of the enum, the number of its variants, the discriminant. -/
def noVariantToCreate {β : Type} (c : Config) (en : String) (n d : Nat) : Msg (Host β) :=
  .text "\"The number of variants in `{}` is {}, but a variant by the discriminant of {} was attempted to be created\""
    [.str en, .int .usize (BitVec.ofNat 64 n), discr c d]
def noVariantToLend {β : Type} (c : Config) (en : String) (n d : Nat) : Msg (Host β) :=
  .text "\"The number of variants in `{}` is {}, but a variant by the discriminant of {} was attempted to be referenced\""
    [.str en, .int .usize (BitVec.ofNat 64 n), discr c d]
def noVariantInside {β : Type} : Msg (Host β) :=
  .text "\"Attempted to create an enum variant from a discriminant that doesn't exist!\"" []

/-- What the closure did, followed by the destructors `es`. -/
def lent {β : Type} (es : List Event) : Out β → XOut (Host β) (Option β)
  | .ret r s => .ret (some r) [] (s.log es)
  | .panic k s => .panic (.kind k) [] (s.log es)
  | .ub k => .ub k

end TB.Spec

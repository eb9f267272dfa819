import Verif.Macro.Run
import Verif.Spec.Box

/-!
# Specification: declarations and their values

The grammar of a `tagged_box!` body, when a declaration is well-formed Rust, and what the values of the declared enum are.
Independent of how the component macros work.
-/

set_option autoImplicit false

namespace TB.Macro

/-! ## Grammar -/

/-- `ts` starts with the type `t`, and `rest` follows. -/
def OneTy (rc : Rustc) (ts : List Tok) (t : Ty) (rest : List Tok) : Prop :=
  ts ≠ [] ∧ ∃ n, rc.parseTy ts = .ok t n ∧ rest = ts.drop (n + 1)

/-- `T, .., T` (at least one, no trailing comma). -/
inductive TyList (rc : Rustc) : List Tok → List Ty → Prop where
  | one {ts t} : OneTy rc ts t [] → TyList rc ts [t]
  | cons {ts t rest tys} : OneTy rc ts t (.comma :: rest) → TyList rc rest tys → TyList rc ts (t :: tys)

/-- `ts` starts with the field `m: T`, and `rest` follows. -/
def OneField (rc : Rustc) (ts : List Tok) (f : String × Ty) (rest : List Tok) : Prop :=
  ∃ ts', ts = .ident f.1 :: .colon :: ts' ∧ OneTy rc ts' f.2 rest

/-- `m: T, .., m: T` (at least one, trailing comma allowed). -/
inductive RecList (rc : Rustc) : List Tok → List (String × Ty) → Prop where
  | one {ts f} : OneField rc ts f [] → RecList rc ts [f]
  | oneTrailing {ts f} : OneField rc ts f [.comma] → RecList rc ts [f]
  | cons {ts f rest fs} : OneField rc ts f (.comma :: rest) → RecList rc rest fs → RecList rc ts (f :: fs)

/-- One variant with the comma after it; `rest` follows. -/
inductive VariantSyntax (rc : Rustc) : List Tok → VariantDef → List Tok → Prop where
  | unit {v rest} : VariantSyntax rc (.ident v :: .comma :: rest) ⟨v, .unit⟩ rest
  | tuple0 {v rest} : VariantSyntax rc (.ident v :: .group .paren [] :: .comma :: rest) ⟨v, .tuple []⟩ rest
  | tuple {v inner tys rest} : TyList rc inner tys →
      VariantSyntax rc (.ident v :: .group .paren inner :: .comma :: rest) ⟨v, .tuple tys⟩ rest
  | record0 {v rest} : VariantSyntax rc (.ident v :: .group .brace [] :: .comma :: rest) ⟨v, .record []⟩ rest
  | record {v inner ms rest} : RecList rc inner ms →
      VariantSyntax rc (.ident v :: .group .brace inner :: .comma :: rest) ⟨v, .record ms⟩ rest

/-- A sequence of variants, each followed by a comma. -/
inductive DeclSyntax (rc : Rustc) : List Tok → List VariantDef → Prop where
  | nil : DeclSyntax rc [] []
  | cons {ts d rest ds} : VariantSyntax rc ts d rest → DeclSyntax rc rest ds → DeclSyntax rc ts (d :: ds)

/-! ## Well-formedness -/

/-- Field types of a variant. -/
def Fields.types : Fields → List Ty
  | .unit => []
  | .tuple tys => tys
  | .record ms => ms.map (·.2)

/-- Variants stored through a structure of the variant's name: all but unit variants and tuple variants with one field. -/
def Fields.multi : Fields → Bool
  | .unit => false
  | .tuple [_] => false
  | .tuple _ => true
  | .record _ => true

/-- The payload type from which a container can be made directly: `T` for `V(T)`, `(T, ..)` for other tuple variants. -/
def Fields.fromTy : Fields → Option Ty
  | .unit => none
  | .tuple [t] => some t
  | .tuple ts => some (.tuple ts)
  | .record _ => none

/-- The identifier occurs in the type, as written. -/
inductive Occurs (x : String) : Ty → Prop where
  | named : Occurs x (.named x)
  | head {args : List Ty} : Occurs x (.app x args)
  | arg {h : String} {args : List Ty} {t : Ty} : t ∈ args → Occurs x t → Occurs x (.app h args)
  | comp {ts : List Ty} {t : Ty} : t ∈ ts → Occurs x t → Occurs x (.tuple ts)

/-- Variables that hold the fields of a tuple variant. -/
def fieldVars : List String :=
  ["a", "b", "c", "d", "e", "f", "g", "h", "i", "j", "k", "l", "m", "n", "o", "p", "q", "r", "s", "t", "u", "v", "w", "x", "y", "z",
   "aa", "bb", "cc", "dd", "ee", "ff"]

/-- Names that a variant with these fields cannot have. -/
def Fields.reserved (enumName : String) : Fields → List String
  | .unit => []
  | .tuple [] => [enumName, "core", "callback", "tuple", "variant"]
  | .tuple [_] => []
  | .tuple tys => [enumName, "core", "__tagged_box_enum_counter", "u8", "tagged", "callback", "tuple", "variant"] ++
      fieldVars.take tys.length
  | .record _ => [enumName, "core", "__tagged_box_enum_counter", "u8"]

/-- The name has its usual meaning at the place of the invocation, also after the two types have been declared. -/
def UsualName (rc : Rustc) (structName enumName x : String) : Prop := x ≠ structName ∧ x ≠ enumName ∧ x ∉ rc.shadowed

/-- A declaration that rustc accepts. -/
structure WellFormed (rc : Rustc) (cfg : Config) (structName enumName : String) (hasDrop : Bool) (decl : List VariantDef) :
    Prop where
  /-- at least one variant -/
  nonempty : decl ≠ []
  /-- tuple variants have at most 32 fields -/
  arity : ∀ d ∈ decl, ∀ tys, d.fields = .tuple tys → tys.length ≤ 32
  /-- variant names are distinct -/
  names : (decl.map (·.name)).Nodup
  /-- member names are distinct -/
  members : ∀ d ∈ decl, ∀ ms, d.fields = .record ms → (ms.map (·.1)).Nodup
  /-- payload types are distinct, and different from the container and the enum -/
  froms : (rc.typeId (.named structName) :: rc.typeId (.named enumName) ::
    (decl.filterMap (·.fields.fromTy)).map rc.typeId).Nodup
  /-- keywords are not names -/
  idents : rc.isKeyword structName = false ∧ rc.isKeyword enumName = false ∧
    ∀ d ∈ decl, rc.isKeyword d.name = false ∧ ∀ ms, d.fields = .record ms → ∀ m ∈ ms, rc.isKeyword m.1 = false
  /-- names from the prelude have their usual meaning -/
  prelude : ∀ x ∈ ["u8", "usize", "From", "FnOnce"], UsualName rc structName enumName x
  /-- so does `core`, if a variant has fields or could have -/
  core : (∃ d ∈ decl, d.fields ≠ .unit) → UsualName rc structName enumName "core"
  /-- names the enum cannot have -/
  enumOK : enumName ≠ "F" ∧ enumName ≠ "__tagged_box_enum_counter" ∧
    ((∃ d ∈ decl, d.fields.fromTy ≠ none) → enumName ≠ "TaggableInner")
  /-- names the variants cannot have -/
  reserved : ∀ d ∈ decl, d.name ∉ d.fields.reserved enumName
  /-- a multi-field variant does not mention a type of its own name -/
  capture : ∀ d ∈ decl, d.fields.multi = true → ∀ t ∈ d.fields.types, ¬ Occurs d.name t
  /-- no field mentions `Self`, or a type with the name of a type parameter or of the counter enum -/
  hidden : ∀ d ∈ decl, ∀ t ∈ d.fields.types,
    ¬ Occurs "Self" t ∧ ¬ Occurs "F" t ∧ ¬ Occurs "__tagged_box_enum_counter" t
  /-- `Discriminant` is `u8` -/
  u8 : cfg.discrBits = 8
  /-- if the enum implements `Drop`, all fields are `Copy` -/
  copy : hasDrop = true → ∀ d ∈ decl, ∀ t ∈ d.fields.types, rc.isCopy t = true

/-! ## Values -/

/-- `vs` are values of the types `tys`, one by one. -/
def HasTypes (rc : Rustc) : List Ty → List Bytes → Prop
  | [], [] => True
  | t :: ts, v :: vs => (rc.leaf t).Has v ∧ HasTypes rc ts vs
  | _, _ => False

/-- A payload for the given fields. -/
def HasFields (rc : Rustc) : Fields → Payload → Prop
  | .unit, .unit => True
  | .tuple tys, .tuple vs => HasTypes rc tys vs
  | .record ms, .record fs => fs.map (·.1) = ms.map (·.1) ∧ HasTypes rc (ms.map (·.2)) (fs.map (·.2))
  | _, _ => False

/-- `e` is a value of the `i`-th variant of the declared enum. -/
def IsValue (rc : Rustc) (decl : List VariantDef) (i : Nat) (e : EVal) : Prop :=
  ∃ d, decl[i]? = some d ∧ e.variant = d.name ∧ HasFields rc d.fields e.payload

/-! ## Compiled declarations and stored values -/

/-- `tagged_box!` with these tokens compiles; `decl` is what the tokens declare and `P` the generated code. -/
structure Compiled (rc : Rustc) (cfg : Config) (structName enumName : String) (hasDrop : Bool) (ts : List Tok)
    (decl : List VariantDef) (P : Program) : Prop where
  syn : DeclSyntax rc ts decl
  compiles : compile rc cfg structName enumName hasDrop ts = .ok P

/-- What a variant keeps on the heap: nothing for unit variants and empty tuple variants, the field itself for a tuple variant
with one field, otherwise a `repr(C)` structure of the fields. -/
def Fields.shape (rc : Rustc) : Fields → Option Shape
  | .unit => none
  | .tuple [] => none
  | .tuple [t] => some (rc.leaf t).shape
  | .tuple (t :: t' :: ts) => some (reprC ((t :: t' :: ts).map rc.leaf))
  | .record ms => some (reprC (ms.map (fun m => rc.leaf m.2)))

/-- Field values in declaration order. -/
def Payload.vals : Payload → Val
  | .unit => []
  | .tuple vs => vs
  | .record fs => fs.map (·.2)

/-- In state `s`, box `b` represents the value `e` of the `i`-th variant: its discriminant is `i` and it holds the fields. -/
def Stores (env : Env) (rc : Rustc) (decl : List VariantDef) (s : State) (b : TBox) (i : Nat) (e : EVal) : Prop :=
  IsValue rc decl i e ∧ (b.discriminant env).toNat = i ∧
    ∀ d, decl[i]? = some d → ∀ sh, d.fields.shape rc = some sh → Holds env s b sh e.payload.vals (b.discriminant env)

end TB.Macro

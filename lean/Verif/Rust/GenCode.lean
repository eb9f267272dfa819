import Verif.Rust.Parse
import Verif.Spec.Generated

/-!
# The syntax trees of the generated code

What `Rust/Parse.lean` makes of the code in `Spec/Generated.lean`, one definition per definition there. (That it does is proved in `Lemmas/PsArms.lean` and
`Lemmas/PsItems.lean`; nothing is assumed about this file.)
-/

set_option autoImplicit false

namespace TB.Rust.Gen

open TB.Mbe TB.Macro TB.Spec TB.Rust

def ctr : String := "__tagged_box_enum_counter"
def total : String := "__TAGGED_BOX_TOTAL_VARIANTS"

def one (x : String) : RPath := [(x, [])]
def two (x y : String) : RPath := [(x, []), (y, [])]
def varE (x : String) : Expr := .path (one x)
def varT (x : String) : RTy := .path (one x)

/-- `__tagged_box_enum_counter::V as u8` -/
def discE (v : String) : Expr := .cast (.path (two ctr v)) (varT "u8")

/-- `$crate::TaggedBox::<En>::f::<t>` -/
def boxFn (en f : String) (t : RTy) : Expr := .path [("crate", []), ("TaggedBox", [varT en]), (f, [t])]

/-- `$crate::TaggedBox<t>` -/
def boxT (t : RTy) : RTy := .path [("crate", []), ("TaggedBox", [t])]

/-- `#[x(y)]` -/
def attr1 (x y : String) : List TT := [.atom (.ident x), .group .paren [.atom (.ident y)]]

def tupleS (attrs : List (List TT)) (v : String) (tys : List Ty) : Stmt := .structS false attrs v (positional (tys.map .user))
def recordS (attrs : List (List TT)) (v : String) (ms : List (String × Ty)) : Stmt := .structS true attrs v (ms.map fun m => (m.1, .user m.2))

/-- `V { a, b }` -/
def recordE (p : RPath) (xs : List String) : Expr := .struct p (xs.map fun x => (x, varE x))
def recordP (p : RPath) (xs : List String) : Pat := .struct p (xs.map fun x => (x, .bind x))

def rebuildE (p : RPath) (e : Expr) (n : Nat) : Expr :=
  if n = 0 then .call (.path p) []
  else .block [.letS (.bind "tuple") none e, .tail (.call (.path p) ((List.range n).map fun i => .field (varE "tuple") (toString i)))]

def boxArm (en : String) (d : VariantDef) : Pat × Option Expr × Expr :=
  match d.fields with
  | .unit => (.path (two en d.name), none, .call (boxFn en "dangling" (varT en)) [discE d.name])
  | .tuple [] => (.call (two en d.name) [], none, .call (boxFn en "dangling" (varT en)) [discE d.name])
  | .tuple [t] => (.call (two en d.name) [.bind "var"], none,
      .block [.tail (.call (boxFn en "new" (.user t)) [varE "var", discE d.name])])
  | .tuple tys => (.call (two en d.name) ((letters.take tys.length).map .bind), none,
      .block [tupleS [attr1 "repr" "C"] d.name tys,
        .tail (.call (.path [("crate", []), ("TaggedBox", []), ("new", [varT d.name])])
          [.call (varE d.name) ((letters.take tys.length).map varE), discE d.name])])
  | .record ms => (recordP (two en d.name) (ms.map (·.1)), none,
      .block [recordS [attr1 "repr" "C"] d.name ms,
        .tail (.call (boxFn en "new" (varT d.name)) [recordE (one d.name) (ms.map (·.1)), discE d.name])])

/-- `discrim if discrim == .. =>` -/
def guarded (v : String) (e : Expr) : Pat × Option Expr × Expr :=
  (.bind "discrim", some (.bin .eq (varE "discrim") (discE v)), e)

def unboxArm (c : Bool) (en : String) (tg : Expr) (d : VariantDef) : Pat × Option Expr × Expr :=
  guarded d.name (match d.fields with
  | .unit => .path (two en d.name)
  | .tuple [t] => .block [.tail (.call (.path (two en d.name)) [.call (boxFn en "into_inner" (.user t)) [tg]])]
  | .tuple tys =>
    if c then .block [tupleS [attr1 "allow" "dead_code", attr1 "repr" "C"] d.name tys,
      .tail (rebuildE (two en d.name) (.call (boxFn en "into_inner" (varT d.name)) [tg]) tys.length)]
    else .block [.tail (rebuildE (two en d.name) (.call (boxFn en "into_inner" (.tuple (tys.map .user))) [tg]) tys.length)]
  | .record ms => .block [recordS [attr1 "repr" "C"] d.name ms,
      .letS (recordP (one d.name) (ms.map (·.1))) none (.call (boxFn en "into_inner" (varT d.name)) [tg]),
      .tail (recordE (two en d.name) (ms.map (·.1)))])

/-- `tagged.as_ptr::<t>().read()` -/
def readE (t : RTy) : Expr := .method (.method (varE "tagged") "as_ptr" [t] []) "read" [] []

/-- `core::mem::ManuallyDrop<t>` -/
def mdT (t : RTy) : RTy := .path [("core", []), ("mem", []), ("ManuallyDrop", [t])]

/-- `let variant: core::mem::ManuallyDrop<En> = core::mem::ManuallyDrop::new(e)` -/
def letMd (en : String) (targs : List RTy) (e : Expr) : Stmt :=
  .letS (.bind "variant") (some (mdT (varT en)))
    (.call (.path [("core", []), ("mem", []), ("ManuallyDrop", targs), ("new", [])]) [e])

/-- `(callback)(e);` -/
def callS (e : Expr) : Stmt := .semi (.call (varE "callback") [e])

def lendArm (en : String) (d : VariantDef) : Pat × Option Expr × Expr :=
  guarded d.name (match d.fields with
  | .unit => .block [.letS (.bind "variant") (some (varT en)) (.path (two en d.name)), callS (.ref false (varE "variant"))]
  | .tuple [t] => .block [letMd en [] (.call (.path (two en d.name)) [readE (.user t)]), callS (.ref false (varE "variant"))]
  | .tuple tys => .block [tupleS [attr1 "repr" "C"] d.name tys,
      .letS (.bind "tuple") (some (varT d.name)) (rebuildE (one d.name) (readE (varT d.name)) tys.length),
      letMd en [varT en] (rebuildE (two en d.name) (varE "tuple") tys.length),
      callS (.ref false (.un .deref (varE "variant")))]
  | .record ms => .block [recordS [attr1 "repr" "C"] d.name ms,
      .letS (recordP (one d.name) (ms.map (·.1))) none (readE (varT d.name)),
      letMd en [] (recordE (two en d.name) (ms.map (·.1))),
      callS (.ref false (.un .deref (varE "variant")))])

def useTaggable : Stmt := .useS

/-- `Self { value: e }` -/
def selfE (e : Expr) : Expr := .struct (one "Self") [("value", e)]

def fromFn (en : String) (d : VariantDef) : Option (RTy × Fn) :=
  match d.fields with
  | .tuple [t] => some (.user t, ⟨[[.atom (.ident "inline")]], "from", [], none, [("val", .user t)], some (varT "Self"),
      [.useS, .tail (selfE (.method (.call (.path (two en d.name)) [varE "val"]) "into_tagged_box" [] []))]⟩)
  | .tuple tys => some (.tuple (tys.map .user),
      ⟨[[.atom (.ident "inline")]], "from", [], none, [("tuple", .tuple (tys.map .user))], some (varT "Self"),
      [.useS, .letS (.bind "variant") (some (varT en)) (rebuildE (two en d.name) (varE "tuple") tys.length),
        .tail (selfE (.method (varE "variant") "into_tagged_box" [] []))]⟩)
  | _ => none

/-- `From<t>` -/
def fromT (t : RTy) : RTy := .path [("From", [t])]

def fromImpl (sn en : String) (d : VariantDef) : List Item :=
  match fromFn en d with
  | some (t, f) => [.impl [] [] (some (fromT t)) (varT sn) [.fn f]]
  | none => []

/-- The private enum that numbers the variants. -/
def numbering (decl : List VariantDef) : Stmt :=
  .enumS [attr1 "doc" "hidden", attr1 "allow" "non_camel_case_types"] ctr (decl.map (·.name))

/-- `const __TAGGED_BOX_TOTAL_VARIANTS: usize = [stringify!(A), ..].len();` -/
def count (decl : List VariantDef) : Stmt :=
  .constS total (varT "usize") (.method (.array (decl.map fun d => .mac "stringify" [varE d.name])) "len" [] [])

/-- The last arm of `from_tagged_box` and `ref_from_tagged_box`. -/
def noArm (en msg : String) : Pat × Option Expr × Expr :=
  (.bind "discriminant", none, .block [.semi (.mac "panic" [.lit msg, .mac "stringify" [varE en], varE total, varE "discriminant"])])

def createMsg : String :=
  "\"The number of variants in `{}` is {}, but a variant by the discriminant of {} was attempted to be created\""
def referenceMsg : String :=
  "\"The number of variants in `{}` is {}, but a variant by the discriminant of {} was attempted to be referenced\""
def innerMsg : String := "\"Attempted to create an enum variant from a discriminant that doesn't exist!\""

def selfValue : Expr := .field (varE "self") "value"

def intoInnerFn (en : String) (decl : List VariantDef) : Fn :=
  ⟨[], "into_inner", [], some .value, [], some (varT en),
    [numbering decl, .tail (.block [.tail (.mtch (.method selfValue "discriminant" [] [])
      (decl.map (unboxArm true en selfValue) ++ [(.wild, none, .mac "panic" [.lit innerMsg])]))])]⟩

def fromEnumFn (en : String) : Fn :=
  ⟨[[.atom (.ident "inline")]], "from", [], none, [("variant", varT en)], some (varT "Self"),
    [.useS, .tail (selfE (.method (varE "variant") "into_tagged_box" [] []))]⟩

def intoBoxFn (en : String) (decl : List VariantDef) : Fn :=
  ⟨[], "into_tagged_box", [], some .value, [], some (boxT (varT "Self")),
    [numbering decl, .tail (.mtch (varE "self") (decl.map (boxArm en)))]⟩

def fromBoxFn (en : String) (decl : List VariantDef) : Fn :=
  ⟨[], "from_tagged_box", [], none, [("tagged", boxT (varT en))], some (varT "Self"),
    [.tail (.block [numbering decl, count decl,
      .tail (.mtch (.method (varE "tagged") "discriminant" [] []) (decl.map (unboxArm false en (varE "tagged")) ++ [noArm en createMsg]))])]⟩

def refFn (en : String) (decl : List VariantDef) : Fn :=
  ⟨[], "ref_from_tagged_box", ["F"], none, [("tagged", .ref false (boxT (varT en))), ("callback", varT "F")], none,
    [numbering decl, count decl,
      .semi (.mtch (.method (varE "tagged") "discriminant" [] []) (decl.map (lendArm en) ++ [noArm en referenceMsg]))]⟩

def containerT : RTy := .path [("crate", []), ("TaggableContainer", [])]
def innerT : RTy := .path [("crate", []), ("TaggableInner", [])]

/-- All items. -/
def items (metas : List (List TT)) (sn en : String) (decl : List VariantDef) : List Item :=
  [.struct (metas.map (fun m => [TT.frag .metaItem m]) ++ [attr1 "repr" "transparent"]) sn [] [("value", boxT (varT en))],
    .impl [] [] (some containerT) (varT sn) [.type [] "Inner" (varT en), .fn (intoInnerFn en decl)],
    .impl [] [] (some (fromT (varT en))) (varT sn) [.fn (fromEnumFn en)]] ++
  decl.flatMap (fromImpl sn en) ++
  [.enum (metas.map fun m => [TT.frag .metaItem m]) en (decl.flatMap VariantDef.rust),
    .impl [] [] (some innerT) (varT en) [.fn (intoBoxFn en decl), .fn (fromBoxFn en decl), .fn (refFn en decl)]]

end TB.Rust.Gen

import Verif.Config
import Verif.Macro.Tables

/-!
# Expansion of `tagged_box!`

The component macros of `src/tagged_box_macro/mod.rs`, each as its list of arms in source order together with what every
arm emits (`GENERATED CODE` is kept as small syntax trees), and `compile`: the whole `tagged_box!` invocation followed by the
checks rustc makes on the generated items (duplicate names, coherence, scoping, types, exhaustiveness).

Names of local variables in `macro_rules!` are hygienic, names of items and type parameters are not (an identifier in a pattern or expression is first
looked up as a variable, and the items of a block come before the variables outside of it). Which names the generated code therefore cannot
share with the user is computed by `Program.scopeOK`.

Simplifications: the user has no constants, statics, unit or tuple structures with the name of a variable of the generated code; `#[..]` attributes and visibilities are not represented; use-after-move checks are
not modelled. The crate's `recursion_limit` is in `Depth.lean`.
-/

set_option autoImplicit false

namespace TB.Macro

/-! ## Generated code -/

/-- Fields of an enum variant. -/
inductive Fields where
  | unit
  | tuple (tys : List Ty)
  | record (ms : List (String × Ty))

/-- A variant of the generated enum. -/
structure VariantDef where
  name : String
  fields : Fields

/-- An arm of the `match self` in `into_tagged_box`. `ctr` is the name `X` in `$counter::X as u8`. -/
inductive IntoArm where
  /-- `$enum::v => TaggedBox::<$enum>::dangling::<$enum>($counter::ctr as u8)`; with `call`, the pattern is `$enum::v()` -/
  | dangling (v : String) (call : Bool) (ctr : String)
  /-- `$enum::v(binder) => TaggedBox::<$enum>::new::<ty>(arg, $counter::ctr as u8)` -/
  | single (v binder : String) (ty : Ty) (arg ctr : String)
  /-- `$enum::v(binders) => { #[repr(C)] struct v(tys); TaggedBox::new::<v>(v(args), $counter::ctr as u8) }` -/
  | tuple (v : String) (binders : List String) (tys : List Ty) (args : List String) (ctr : String)
  /-- `$enum::v { binders } => { #[repr(C)] struct v { decl } TaggedBox::<$enum>::new::<v>(v { inits }, $counter::ctr as u8) }` -/
  | record (v : String) (binders : List String) (decl : List (String × Ty)) (inits : List String) (ctr : String)

/-- What the body of a reading arm (`into_inner`, `from_tagged_box`) does. -/
inductive ReadBody where
  /-- `$enum::v` -/
  | unit
  /-- `$enum::v(TaggedBox::into_inner::<ty>(tagged))` -/
  | single (ty : Ty)
  /-- `#[repr(C)] struct v(tys);  __expand_tuple!($enum::v, TaggedBox::into_inner::<v>(tagged), tys)` -/
  | ctuple (tys : List Ty) (x : TupleExp)
  /-- `__expand_tuple!($enum::v, TaggedBox::into_inner::<(tys)>(tagged), tys)` -/
  | rtuple (tys : List Ty) (x : TupleExp)
  /-- `#[repr(C)] struct v { decl }  let v { binders } = TaggedBox::into_inner::<v>(tagged);  $enum::v { inits }` -/
  | record (decl : List (String × Ty)) (binders inits : List String)

/-- `discrim if discrim == $counter::ctr as u8 => body`, where the body builds variant `v`. -/
structure ReadArm where
  ctr : String
  v : String
  body : ReadBody

/-- What the body of an arm of `ref_from_tagged_box` does before calling the callback. -/
inductive RefBody where
  /-- `let variant: $enum = $enum::v;` (not wrapped in `ManuallyDrop`) -/
  | unit
  /-- `let variant = ManuallyDrop::new($enum::v(tagged.as_ptr::<ty>().read()));` -/
  | single (ty : Ty)
  /-- `#[repr(C)] struct v(tys);  let tuple: v = __expand_tuple!(v, tagged.as_ptr::<v>().read(), tys);
  let variant = ManuallyDrop::new(__expand_tuple!($enum::v, tuple, tys));` -/
  | tuple (tys : List Ty) (x x' : TupleExp)
  /-- `#[repr(C)] struct v { decl }  let v { binders } = tagged.as_ptr::<v>().read();
  let variant = ManuallyDrop::new($enum::v { inits });` -/
  | record (decl : List (String × Ty)) (binders inits : List String)

/-- `discrim if discrim == $counter::ctr as u8 => { body; (callback)(&variant); }`, the body building variant `v`. -/
structure RefArm where
  ctr : String
  v : String
  body : RefBody

/-- `impl From<..> for $struct`. -/
inductive FromImpl where
  /-- `impl From<ty>`: `$enum::v(val).into_tagged_box()` -/
  | single (v : String) (ty : Ty)
  /-- `impl From<(tys,)>`: `__expand_tuple!($enum::v, tuple, tys).into_tagged_box()` -/
  | tuple (v : String) (tys : List Ty) (x : TupleExp)

/-! ## The component macros -/

/-- `__make_enum!`. `src/tagged_box_macro/mod.rs:5-31` -/
def makeEnumArms : List (Arm VariantDef) := [
  -- :10-12
  (.tuple, fun | .tuple v tys => .ok ⟨v, .tuple tys⟩ | _ => .error .noRules),
  -- :14-16
  (.record, fun | .record v ms => .ok ⟨v, .record ms⟩ | _ => .error .noRules),
  -- :17-19
  (.recordTrailing, fun | .record v ms => .ok ⟨v, .record ms⟩ | _ => .error .noRules),
  -- :21-23
  (.unit, fun | .unit v => .ok ⟨v, .unit⟩ | _ => .error .noRules)]

/-- `__taggable_into_box!`. `src/tagged_box_macro/mod.rs:35-102` -/
def intoBoxArms : List (Arm IntoArm) := [
  -- :40-50
  (.single, fun | .single v ty => .ok (.single v "var" ty "var" v) | _ => .error .noRules),
  -- :52-54, through `__expand_tuple_arm!`
  (.tuple, fun
    | .tuple v tys => match expandTupleArm tys with
      | .ok .dangling => .ok (.dangling v true v)
      | .ok (.pack binders args) => .ok (.tuple v binders tys args v)
      | .error e => .error e
    | _ => .error .noRules),
  -- :56-70
  (.record, fun | .record v ms => .ok (.record v (ms.map (·.1)) ms (ms.map (·.1)) v) | _ => .error .noRules),
  -- :71-85
  (.recordTrailing, fun | .record v ms => .ok (.record v (ms.map (·.1)) ms (ms.map (·.1)) v) | _ => .error .noRules),
  -- :87-95
  (.unit, fun | .unit v => .ok (.dangling v false v) | _ => .error .noRules)]

/-- `__derive_from!`. `src/tagged_box_macro/mod.rs:106-156`. Struct and unit variants emit nothing. -/
def deriveFromArms : List (Arm (Option FromImpl)) := [
  -- :107-121
  (.single, fun | .single v ty => .ok (some (.single v ty)) | _ => .error .noRules),
  -- :123-138
  (.tuple, fun
    | .tuple v tys => match expandTuple tys with
      | .ok x => .ok (some (.tuple v tys x))
      | .error e => .error e
    | _ => .error .noRules),
  -- :140-142
  (.record, fun | .record _ _ => .ok none | _ => .error .noRules),
  -- :143-145
  (.recordTrailing, fun | .record _ _ => .ok none | _ => .error .noRules),
  -- :147-149
  (.unit, fun | .unit _ => .ok none | _ => .error .noRules)]

/-- `__boxed_into_inner!`. `src/tagged_box_macro/mod.rs:183-265` -/
def boxedIntoInnerArms : List (Arm ReadArm) := [
  -- :184-197
  (.single, fun | .single v ty => .ok ⟨v, v, .single ty⟩ | _ => .error .noRules),
  -- :199-216
  (.tuple, fun
    | .tuple v tys => match expandTuple tys with
      | .ok x => .ok ⟨v, v, .ctuple tys x⟩
      | .error e => .error e
    | _ => .error .noRules),
  -- :218-231
  (.record, fun | .record v ms => .ok ⟨v, v, .record ms (ms.map (·.1)) (ms.map (·.1))⟩ | _ => .error .noRules),
  -- :232-245
  (.recordTrailing, fun | .record v ms => .ok ⟨v, v, .record ms (ms.map (·.1)) (ms.map (·.1))⟩ | _ => .error .noRules),
  -- :247-252
  (.unit, fun | .unit v => .ok ⟨v, v, .unit⟩ | _ => .error .noRules)]

/-- `__from_tagged_box!`. `src/tagged_box_macro/mod.rs:269-377` -/
def fromTaggedBoxArms : List (Arm ReadArm) := [
  -- :274-288
  (.single, fun | .single v ty => .ok ⟨v, v, .single ty⟩ | _ => .error .noRules),
  -- :290-304; note the Rust tuple type `($( $ty ),*)` at :300
  (.tuple, fun
    | .tuple v tys => match expandTuple tys with
      | .ok x => .ok ⟨v, v, .rtuple tys x⟩
      | .error e => .error e
    | _ => .error .noRules),
  -- :306-325
  (.record, fun | .record v ms => .ok ⟨v, v, .record ms (ms.map (·.1)) (ms.map (·.1))⟩ | _ => .error .noRules),
  -- :326-345
  (.recordTrailing, fun | .record v ms => .ok ⟨v, v, .record ms (ms.map (·.1)) (ms.map (·.1))⟩ | _ => .error .noRules),
  -- :347-359
  (.unit, fun | .unit v => .ok ⟨v, v, .unit⟩ | _ => .error .noRules)]

/-- `__ref_from_tagged!`. `src/tagged_box_macro/mod.rs:381-515` -/
def refFromTaggedArms : List (Arm RefArm) := [
  -- :386-402
  (.single, fun | .single v ty => .ok ⟨v, v, .single ty⟩ | _ => .error .noRules),
  -- :404-431
  (.tuple, fun
    | .tuple v tys => match expandTuple tys, expandTuple tys with
      | .ok x, .ok x' => .ok ⟨v, v, .tuple tys x x'⟩
      | .error e, _ => .error e
      | _, .error e => .error e
    | _ => .error .noRules),
  -- :433-455
  (.record, fun | .record v ms => .ok ⟨v, v, .record ms (ms.map (·.1)) (ms.map (·.1))⟩ | _ => .error .noRules),
  -- :456-478
  (.recordTrailing, fun | .record v ms => .ok ⟨v, v, .record ms (ms.map (·.1)) (ms.map (·.1))⟩ | _ => .error .noRules),
  -- :480-497
  (.unit, fun | .unit v => .ok ⟨v, v, .unit⟩ | _ => .error .noRules)]

/-- `__counter_enum!`: the variants of `enum __tagged_box_enum_counter`. `src/tagged_box_macro/mod.rs:519-554`.
Input on which no arm matches goes to the arm at `:543-545`, which ends in an error as well. -/
def counterEnumArms : List (Arm String) := [
  -- :520-522
  (.tuple, fun | .tuple v _ => .ok v | _ => .error .noRules),
  -- :524-526
  (.record, fun | .record v _ => .ok v | _ => .error .noRules),
  -- :527-529
  (.recordTrailing, fun | .record v _ => .ok v | _ => .error .noRules),
  -- :531-533
  (.unit, fun | .unit v => .ok v | _ => .error .noRules)]

/-- `__count_variants!`: the elements of the array whose `len()` is taken. `src/tagged_box_macro/mod.rs:558-581` -/
def countVariantsArms : List (Arm String) := [
  -- :559-561
  (.tuple, fun | .tuple v _ => .ok v | _ => .error .noRules),
  -- :563-565
  (.record, fun | .record v _ => .ok v | _ => .error .noRules),
  -- :566-568
  (.recordTrailing, fun | .record v _ => .ok v | _ => .error .noRules),
  -- :570-572
  (.unit, fun | .unit v => .ok v | _ => .error .noRules)]

/-! ## The whole expansion and rustc's checks on it -/

/-- The items generated by one `tagged_box!` invocation. -/
structure Program where
  /-- `struct $struct`, `enum $enum` -/
  structName : String
  enumName : String
  /-- does the user implement `Drop` for the enum? -/
  hasDrop : Bool
  defs : List VariantDef
  counter : List String
  /-- `__TAGGED_BOX_TOTAL_VARIANTS` -/
  total : Nat
  into : List IntoArm
  inner : List ReadArm
  fromB : List ReadArm
  ref : List RefArm
  froms : List FromImpl

/-- The definition of a variant. -/
def lookupDef (defs : List VariantDef) (v : String) : Option Fields := (defs.find? (·.name == v)).map (·.fields)

/-- The value or type of a variable. -/
def lookupVar {α : Type} (x : String) : List (String × α) → Option α
  | [] => none
  | (y, a) :: r => if y = x then some a else lookupVar x r

section Check

variable (rc : Rustc) (P : Program)

/-- Two type expressions denote the same type. -/
def sameTy (t t' : Ty) : Bool := rc.typeId t == rc.typeId t'

/-- Variables `xs` used as all fields, by name, of a record with fields `ms`: each field given exactly once, with its type. -/
def coversRecord (xs : List String) (ty : String → Option Ty) (ms : List (String × Ty)) : Bool :=
  decide (xs.Nodup) && xs.length == ms.length &&
    ms.all (fun m => xs.contains m.1 && (match ty m.1 with | some t => sameTy rc t m.2 | none => false))

/-- Arguments `as` given to a constructor with field types `tys`. -/
def argsOK : List (Option Ty) → List Ty → Bool
  | [], [] => true
  | some t :: r, t' :: r' => sameTy rc t t' && argsOK r r'
  | _, _ => false

/-- `__expand_tuple!(path, e, tys)` where the fields of `e` have types `src` and the constructor `path` takes types `dst`. -/
def expOK (x : TupleExp) (src dst : List Ty) : Bool :=
  match x with
  | .noEval => dst.isEmpty
  | .access is => argsOK rc (is.map (src[·]?)) dst

/-- Does the arm's pattern and body type-check? -/
def IntoArm.ok : IntoArm → Bool
  | .dangling v call ctr => P.counter.contains ctr &&
      (match lookupDef P.defs v with
       | some .unit => !call
       | some (.tuple []) => call
       | _ => false)
  | .single v binder ty arg ctr => P.counter.contains ctr && arg == binder &&
      (match lookupDef P.defs v with
       | some (.tuple [t]) => sameTy rc t ty && (!P.hasDrop || rc.isCopy t)
       | _ => false)
  | .tuple v binders tys args ctr => P.counter.contains ctr && decide binders.Nodup &&
      (match lookupDef P.defs v with
       | some (.tuple ts) => ts.length == binders.length && (!P.hasDrop || ts.all rc.isCopy) &&
           argsOK rc (args.map (fun a => lookupVar a (binders.zip ts))) tys
       | _ => false)
  | .record v binders decl inits ctr => P.counter.contains ctr &&
      decide ((decl.map (·.1)).Nodup) &&
      (match lookupDef P.defs v with
       | some (.record ms) => (!P.hasDrop || ms.all (fun m => rc.isCopy m.2)) &&
           coversRecord rc binders (lookupVar · ms) ms &&
           coversRecord rc inits (fun x => if binders.contains x then lookupVar x ms else none) decl
       | _ => false)

/-- Does the match in `into_tagged_box` have an arm for variant `v`? -/
def IntoArm.covers (v : String) : IntoArm → Bool
  | .dangling w _ _ => w == v
  | .single w _ _ _ _ => w == v
  | .tuple w _ _ _ _ => w == v
  | .record w _ _ _ _ => w == v

/-- The record reading code: `struct v { decl }  let v { binders } = ..;  $enum::v { inits }`. -/
def recordOK (v : String) (decl : List (String × Ty)) (binders inits : List String) : Bool :=
  decide ((decl.map (·.1)).Nodup) &&
    coversRecord rc binders (lookupVar · decl) decl &&
    (match lookupDef P.defs v with
     | some (.record ms) => coversRecord rc inits (fun x => if binders.contains x then lookupVar x decl else none) ms
     | _ => false)

def ReadArm.ok (a : ReadArm) : Bool := P.counter.contains a.ctr &&
  match a.body with
  | .unit => (match lookupDef P.defs a.v with | some .unit => true | _ => false)
  | .single ty => (match lookupDef P.defs a.v with | some (.tuple [t]) => sameTy rc ty t | _ => false)
  | .ctuple tys x => (match lookupDef P.defs a.v with | some (.tuple ts) => expOK rc x tys ts | _ => false)
  | .rtuple tys x => (match lookupDef P.defs a.v with | some (.tuple ts) => expOK rc x tys ts | _ => false)
  | .record decl binders inits => recordOK rc P a.v decl binders inits

def RefArm.ok (a : RefArm) : Bool := P.counter.contains a.ctr &&
  match a.body with
  | .unit => (match lookupDef P.defs a.v with | some .unit => true | _ => false)
  | .single ty => (match lookupDef P.defs a.v with | some (.tuple [t]) => sameTy rc ty t | _ => false)
  | .tuple tys x x' => expOK rc x tys tys &&
      (match lookupDef P.defs a.v with | some (.tuple ts) => expOK rc x' tys ts | _ => false)
  | .record decl binders inits => recordOK rc P a.v decl binders inits

def FromImpl.ok : FromImpl → Bool
  | .single v ty => (match lookupDef P.defs v with | some (.tuple [t]) => sameTy rc ty t | _ => false)
  | .tuple v tys x => (match lookupDef P.defs v with | some (.tuple ts) => expOK rc x tys ts | _ => false)

/-- The type `X` of `impl From<X> for $struct`. -/
def FromImpl.srcTy : FromImpl → Ty
  | .single _ ty => ty
  | .tuple _ tys _ => .tuple tys

/-- The types `X` for which `$struct: From<X>`: itself (`impl<T> From<T> for T` in `core`), the enum (`mod.rs:762-771`), and the
payloads. -/
def Program.fromTypes : List Nat :=
  rc.typeId (.named P.structName) :: rc.typeId (.named P.enumName) :: P.froms.map (fun f => rc.typeId f.srcTy)

/-- Names are not keywords (`$variant:ident` matches them). -/
def Program.identsOK : Bool :=
  !rc.isKeyword P.structName && !rc.isKeyword P.enumName &&
    P.defs.all (fun d => !rc.isKeyword d.name &&
      (match d.fields with | .record ms => ms.all (fun m => !rc.isKeyword m.1) | _ => true))

/-- No variant and no member is declared twice. -/
def Program.namesOK : Bool :=
  decide ((P.defs.map (·.name)).Nodup) && decide (P.counter.Nodup) &&
    P.defs.all (fun d => match d.fields with | .record ms => decide ((ms.map (·.1)).Nodup) | _ => true)

/-- Types and exhaustiveness. All guards and discriminant arguments have type `u8` while `TaggedBox::discriminant`
returns and `new`/`dangling` take `Discriminant`. -/
def Program.typesOK (cfg : Config) : Bool :=
  cfg.discrBits == 8 && P.into.all (IntoArm.ok rc P) && P.defs.all (fun d => P.into.any (IntoArm.covers d.name)) &&
    P.inner.all (ReadArm.ok rc P) && P.fromB.all (ReadArm.ok rc P) && P.ref.all (RefArm.ok rc P) &&
    P.froms.all (FromImpl.ok rc P)

/-! ### Names

The expression `$counter::v` etc. in an arm that declares a local `struct v` is resolved with that structure in scope. `struct v { .. }` is
a type, `struct v(..)` a type and a function. -/

/-- `mod.rs:537` -/
def counterName : String := "__tagged_box_enum_counter"

/-- No type mentions one of the names. -/
def clear (names : List String) (tys : List Ty) : Bool := tys.all (fun t => names.all (fun x => !t.mentions x))

/-- An arm that declares a local `struct v` with field types `tys` and in the same block uses the names `used` for something else: `v` must not be one of
them, and no field type may mention `v` or `Self` (both would denote the local structure). -/
def localOK (used : List String) (v : String) (tys : List Ty) : Bool := !used.contains v && clear [v, "Self"] tys

/-- Arms of `into_tagged_box`, whose body contains the counter enum; `mod.rs:40-95`, `meta_macros.rs:445-`. The variables of a tuple arm are those of the pattern, outside of
the block. -/
def IntoArm.scopeOK : IntoArm → Bool
  | .dangling _ _ _ => true
  | .single _ _ ty _ _ => clear [counterName] [ty]
  | .tuple v _ tys args _ => clear [counterName] tys && localOK (counterName :: "u8" :: args) v tys
  | .record v _ decl _ _ => clear [counterName] (decl.map (·.2)) && localOK [P.enumName, counterName, "u8"] v (decl.map (·.2))

/-- The variable that `__expand_tuple!` declares. -/
def TupleExp.vars : TupleExp → List String
  | .noEval => []
  | .access _ => ["tuple"]

/-- Arms of `into_inner` and `from_tagged_box`, `mod.rs:184-252`, `:274-359`; `hidden` are the names with another meaning in that function. -/
def ReadArm.scopeOK (hidden : List String) (a : ReadArm) : Bool :=
  match a.body with
  | .unit => true
  | .single ty => clear hidden [ty]
  | .ctuple tys x => clear hidden tys && localOK (P.enumName :: x.vars) a.v tys
  | .rtuple tys _ => clear hidden tys
  | .record decl _ _ => clear hidden (decl.map (·.2)) && localOK [P.enumName] a.v (decl.map (·.2))

/-- Arms of `ref_from_tagged_box<F>`, `mod.rs:386-497`; `tagged` and `callback` are its parameters. -/
def RefArm.scopeOK (a : RefArm) : Bool :=
  match a.body with
  | .unit => true
  | .single ty => clear [counterName, "F"] [ty]
  | .tuple tys x _ => clear [counterName, "F"] tys &&
      localOK ([P.enumName, "core", "callback", "tuple", "variant"] ++ match x with | .noEval => [] | .access _ => ["tagged"]) a.v tys
  | .record decl _ _ => clear [counterName, "F"] (decl.map (·.2)) && localOK [P.enumName, "core"] a.v (decl.map (·.2))

/-- Does the arm use `core::mem::ManuallyDrop`? -/
def RefArm.usesCore (a : RefArm) : Bool := match a.body with | .unit => false | _ => true

/-- `impl From<..> for $struct`. The body, which contains `use $crate::TaggableInner`, does not mention the types. -/
def FromImpl.scopeOK : FromImpl → Bool
  | .single _ ty => clear ["Self"] [ty]
  | .tuple _ tys _ => clear ["Self"] tys

/-- The name has its usual meaning where the macro is used. -/
def usual (x : String) : Bool := !(P.structName :: P.enumName :: rc.shadowed).contains x

/-- Every name in the generated code means what it should.
`u8` is used in all guards, `usize` in the type of `__TAGGED_BOX_TOTAL_VARIANTS`, `From` and `FnOnce` in the implementations, `core` where a
variant has fields. The name of the enum is used inside of `ref_from_tagged_box<F>`, next to the counter enum, and next to `use $crate::TaggableInner` (`mod.rs:112`,
`:128`). In `into_inner` and `from` `Self` is the container (`mod.rs:745`, `:108`, `:124`). -/
def Program.scopeOK : Bool :=
  ["u8", "usize", "From", "FnOnce"].all (usual rc P) && (!P.ref.any RefArm.usesCore || usual rc P "core") &&
    !["F", counterName].contains P.enumName && (P.froms.isEmpty || P.enumName != "TaggableInner") &&
    P.into.all (IntoArm.scopeOK P) && P.inner.all (ReadArm.scopeOK P ["Self", counterName]) &&
    P.fromB.all (ReadArm.scopeOK P [counterName]) && P.ref.all (RefArm.scopeOK P) && P.froms.all FromImpl.scopeOK

end Check

/-- The expansion without rustc's checks. `tagged_box!`, `src/tagged_box_macro/mod.rs:732-832`; the pattern
`$($variants:tt)+` needs at least one token. The four `__counter_enum!` invocations (`:749`, `:785`, `:797`, `:816`) are the same
function on the same tokens. -/
def expand (rc : Rustc) (structName enumName : String) (hasDrop : Bool) (ts : List Tok) : Except CErr Program :=
  match ts with
  | [] => .error .noRules
  | _ :: _ =>
    match runMacro rc makeEnumArms ts, runMacro rc counterEnumArms ts, runMacro rc countVariantsArms ts,
        runMacro rc intoBoxArms ts, runMacro rc boxedIntoInnerArms ts, runMacro rc fromTaggedBoxArms ts,
        runMacro rc refFromTaggedArms ts, runMacro rc deriveFromArms ts with
    | .ok defs, .ok counter, .ok counted, .ok into, .ok inner, .ok fromB, .ok ref, .ok froms =>
      .ok { structName, enumName, hasDrop, defs, counter, total := counted.length, into, inner, fromB, ref,
            froms := froms.filterMap id }
    | .error e, _, _, _, _, _, _, _ => .error e
    | _, .error e, _, _, _, _, _, _ => .error e
    | _, _, .error e, _, _, _, _, _ => .error e
    | _, _, _, .error e, _, _, _, _ => .error e
    | _, _, _, _, .error e, _, _, _ => .error e
    | _, _, _, _, _, .error e, _, _ => .error e
    | _, _, _, _, _, _, .error e, _ => .error e
    | _, _, _, _, _, _, _, .error e => .error e

/-- Expansion and rustc's checks. -/
def compile (rc : Rustc) (cfg : Config) (structName enumName : String) (hasDrop : Bool) (ts : List Tok) :
    Except CErr Program :=
  match expand rc structName enumName hasDrop ts with
  | .error e => .error e
  | .ok P =>
    if !P.identsOK rc then .error .keyword
    else if !P.namesOK then .error .duplicateName
    else if !P.scopeOK rc then .error .scopeError
    else if !decide ((P.fromTypes rc).Nodup) then .error .coherence
    else if !P.typesOK rc cfg then .error .typeError
    else .ok P

end TB.Macro

import Verif.Mbe.Quote
import Verif.Macro.Expand

/-!
# The generated items as Rust code

`Program` (`Macro/Expand.lean`) keeps the code generated by `tagged_box!` as small syntax trees. Here is the Rust code each of them stands for. This
file does not refer to the macros; that the macros of the crate produce exactly this code is property C78.
-/

set_option autoImplicit false

namespace TB.Macro

open TB.Mbe

/-- `x, y, z` -/
def commas : List (List TT) → List TT
  | [] => []
  | [x] => x
  | x :: y :: r => x ++ .atom (.punct ",") :: commas (y :: r)

/-- `a, b` -/
def nameList (xs : List String) : List TT := commas (xs.map fun x => rust% "«x»")
/-- `A, B` -/
def tyList (tys : List Ty) : List TT := commas (tys.map fun t => rust% "«t»")
/-- `A, B,` -/
def tyListTrailing (tys : List Ty) : List TT := tys.flatMap fun t => rust% "«t»,"
/-- `a: A, b: B` -/
def fieldList (ms : List (String × Ty)) : List TT := commas (ms.map fun m => rust% "«m.1»: «m.2»")
/-- `A, B,` -/
def variantList (vs : List String) : List TT := vs.flatMap fun v => rust% "«v»,"
/-- `tuple.0, tuple.1`; from seven fields on the source has a comma at the end. -/
def accessList (is : List Nat) : List TT :=
  commas (is.map fun i => rust% "tuple.«TT.atom (.lit (toString i))»") ++ if 7 ≤ is.length then rust% "," else []

/-- `__expand_tuple!(path, e, types)` -/
def TupleExp.rust (path e : List TT) : TupleExp → List TT
  | .noEval => rust% "⟦⟨«path»⟩()⟧"
  | .access is => rust% "⟦{ let tuple = ⟦«e»⟧; ⟨«path»⟩(«accessList is») }⟧"

/-- A variant of the enum. -/
def VariantDef.rust (d : VariantDef) : List TT :=
  match d.fields with
  | .unit => rust% "«d.name»,"
  | .tuple tys => rust% "«d.name»(«tyList tys»),"
  | .record ms => rust% "«d.name» { «fieldList ms» },"

/-- An arm of `into_tagged_box`. -/
def IntoArm.rust (en : String) : IntoArm → List TT
  | .dangling v false c =>
    rust% "«en»::«v» => $crate::TaggedBox::<«en»>::dangling::<«en»>(__tagged_box_enum_counter::«c» as u8),"
  | .dangling v true c =>
    rust% "«en»::«v»() => $crate::TaggedBox::<«en»>::dangling::<«en»>(__tagged_box_enum_counter::«c» as u8),"
  | .single v x ty a c =>
    rust% "«en»::«v»(«x») => {
      $crate::TaggedBox::<«en»>::new::<«ty»>(«a», __tagged_box_enum_counter::«c» as u8)
    },"
  | .tuple v xs tys as c =>
    rust% "«en»::«v»(«nameList xs») => {
      #[repr(C)]
      struct «v»(«tyList tys»);
      $crate::TaggedBox::new::<«v»>(«v»(«nameList as»), __tagged_box_enum_counter::«c» as u8)
    }"
  | .record v xs ms is c =>
    rust% "«en»::«v» { «nameList xs» } => {
      #[repr(C)]
      struct «v» { «fieldList ms» }
      $crate::TaggedBox::<«en»>::new::<«v»>(«v» { «nameList is» }, __tagged_box_enum_counter::«c» as u8)
    }"

/-- An arm of `into_inner` (`tg` is `self.value`) or `from_tagged_box` (`tg` is `tagged`). -/
def ReadArm.rust (en : String) (tg : List TT) (a : ReadArm) : List TT :=
  let guard : List TT := rust% "discrim if discrim == __tagged_box_enum_counter::«a.ctr» as u8 =>"
  match a.body with
  | .unit => rust% "«guard» «en»::«a.v»,"
  | .single ty => rust% "«guard» { «en»::«a.v»($crate::TaggedBox::<«en»>::into_inner::<«ty»>(⟦«tg»⟧)) },"
  | .ctuple tys x =>
    rust% "«guard» {
      #[allow(dead_code)]
      #[repr(C)]
      struct «a.v»(«tyList tys»);
      «x.rust (rust% \"«en»::«a.v»\") (rust% \"$crate::TaggedBox::<«en»>::into_inner::<«a.v»>(⟦«tg»⟧)\")»
    },"
  | .rtuple tys x =>
    rust% "«guard» {
      «x.rust (rust% \"«en»::«a.v»\") (rust% \"$crate::TaggedBox::<«en»>::into_inner::<(«tyList tys»)>(⟦«tg»⟧)\")»
    },"
  | .record ms xs is =>
    rust% "«guard» {
      #[repr(C)]
      struct «a.v» { «fieldList ms» }
      let «a.v» { «nameList xs» } = $crate::TaggedBox::<«en»>::into_inner::<«a.v»>(⟦«tg»⟧);
      «en»::«a.v» { «nameList is» }
    },"

/-- An arm of `ref_from_tagged_box`. -/
def RefArm.rust (en : String) (a : RefArm) : List TT :=
  let guard : List TT := rust% "discrim if discrim == __tagged_box_enum_counter::«a.ctr» as u8 =>"
  match a.body with
  | .unit => rust% "«guard» { let variant: «en» = «en»::«a.v»; (⟦callback⟧)(&variant); }"
  | .single ty =>
    rust% "«guard» {
      let variant: core::mem::ManuallyDrop<«en»> = core::mem::ManuallyDrop::new(«en»::«a.v»(⟦tagged⟧.as_ptr::<«ty»>().read()));
      (⟦callback⟧)(&variant);
    }"
  | .tuple tys x x' =>
    rust% "«guard» {
      #[repr(C)]
      struct «a.v»(«tyList tys»);
      #[allow(unused_variables)]
      let tuple: «a.v» = «x.rust (rust% \"«a.v»\") (rust% \"⟦tagged⟧.as_ptr::<«a.v»>().read()\")»;
      let variant: core::mem::ManuallyDrop<«en»> =
        core::mem::ManuallyDrop::<«en»>::new(«x'.rust (rust% \"«en»::«a.v»\") (rust% \"tuple\")»);
      (⟦callback⟧)(&*variant);
    }"
  | .record ms xs is =>
    rust% "«guard» {
      #[repr(C)]
      struct «a.v» { «fieldList ms» }
      let «a.v» { «nameList xs» } = ⟦tagged⟧.as_ptr::<«a.v»>().read();
      let variant: core::mem::ManuallyDrop<«en»> = core::mem::ManuallyDrop::new(«en»::«a.v» { «nameList is» });
      (⟦callback⟧)(&*variant);
    }"

/-- The `From` implementations for fields. -/
def FromImpl.rust (sn en : String) : FromImpl → List TT
  | .single v ty =>
    rust% "impl From<«ty»> for «sn» {
      #[inline]
      fn from(val: «ty») -> Self {
        #[allow(unused_imports)]
        use $crate::TaggableInner;
        Self { value: «en»::«v»(val).into_tagged_box(), }
      }
    }"
  | .tuple v tys x =>
    rust% "impl From<(«tyListTrailing tys»)> for «sn» {
      #[inline]
      fn from(tuple: («tyListTrailing tys»)) -> Self {
        #![allow(unused_imports, unused_variables)]
        use $crate::TaggableInner;
        let variant: «en» = «x.rust (rust% \"«en»::«v»\") (rust% \"tuple\")»;
        Self { value: variant.into_tagged_box(), }
      }
    }"

/-- The private enum that numbers the variants. -/
def counterRust (vs : List String) : List TT :=
  rust% "#[doc(hidden)] #[allow(non_camel_case_types)] enum __tagged_box_enum_counter { «variantList vs» }"

/-- `[stringify!(A), stringify!(B)].len()` -/
def totalRust (vs : List String) : List TT := rust% "⟦[«commas (vs.map fun v => rust% \"stringify!(«v»)\")»].len()⟧"

/-- The attributes. -/
def attrs (metas : List (List TT)) : List TT :=
  metas.flatMap fun m => rust% "#[«TT.frag .metaItem m»]"

/-- All items. `metas`, `svis`, `evis`: the attributes and visibilities the user gave; `counted`: the names counted in
`__TAGGED_BOX_TOTAL_VARIANTS`. -/
def Program.rust (P : Program) (metas : List (List TT)) (svis evis : List TT) (counted : List String) : List TT :=
  rust% "
  «attrs metas»
  #[repr(transparent)]
  «TT.frag .vis svis» struct «P.structName» {
    value: $crate::TaggedBox<«P.enumName»>,
  }

  impl $crate::TaggableContainer for «P.structName» {
    type Inner = «P.enumName»;

    fn into_inner(self) -> «P.enumName» {
      «counterRust P.counter»
      unsafe {
        ⟦#[allow(unused_parens)]
        match ⟦self.value⟧.discriminant() {
          «P.inner.flatMap (ReadArm.rust P.enumName (rust% \"self.value\"))»
          _ => panic!(\"Attempted to create an enum variant from a discriminant that doesn't exist!\"),
        }⟧
      }
    }
  }

  impl From<«P.enumName»> for «P.structName» {
    #[inline]
    fn from(variant: «P.enumName») -> Self {
      use $crate::TaggableInner;
      Self { value: variant.into_tagged_box(), }
    }
  }

  «P.froms.flatMap (FromImpl.rust P.structName P.enumName)»

  «attrs metas»
  «TT.frag .vis evis» enum «P.enumName» { «P.defs.flatMap VariantDef.rust» }

  impl $crate::TaggableInner for «P.enumName» {
    fn into_tagged_box(self) -> $crate::TaggedBox<Self> {
      «counterRust P.counter»
      ⟦match ⟦self⟧ { «P.into.flatMap (IntoArm.rust P.enumName)» }⟧
    }

    fn from_tagged_box(tagged: $crate::TaggedBox<«P.enumName»>) -> Self {
      unsafe {
        «counterRust P.counter»
        const __TAGGED_BOX_TOTAL_VARIANTS: usize = «totalRust counted»;
        ⟦#[allow(unused_parens)]
        match ⟦tagged⟧.discriminant() {
          «P.fromB.flatMap (ReadArm.rust P.enumName (rust% \"tagged\"))»
          discriminant => {
            #[allow(non_upper_case_globals)]
            panic!(
              \"The number of variants in `{}` is {}, but a variant by the discriminant of {} was attempted to be created\",
              stringify!(«P.enumName»),
              ⟦__TAGGED_BOX_TOTAL_VARIANTS⟧,
              discriminant
            );
          }
        }⟧
      }
    }

    unsafe fn ref_from_tagged_box<F>(tagged: &$crate::TaggedBox<«P.enumName»>, callback: F)
    where
      F: FnOnce(&«P.enumName»),
    {
      «counterRust P.counter»
      const __TAGGED_BOX_TOTAL_VARIANTS: usize = «totalRust counted»;
      #[allow(unused_parens)]
      match ⟦tagged⟧.discriminant() {
        «P.ref.flatMap (RefArm.rust P.enumName)»
        discriminant => {
          #[allow(non_upper_case_globals)]
          panic!(
            \"The number of variants in `{}` is {}, but a variant by the discriminant of {} was attempted to be referenced\",
            stringify!(«P.enumName»),
            ⟦__TAGGED_BOX_TOTAL_VARIANTS⟧,
            discriminant
          );
        }
      };
    }
  }"

end TB.Macro

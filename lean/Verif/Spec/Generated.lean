import Verif.Spec.RustCode

/-!
# The code a declaration stands for

Rust code written out directly from the variants the user declared: one definition per place where a variant appears. This file mentions neither the
macros nor the model of their output; it says what a reader of the declaration can rely on finding in the expansion. (`⟦..⟧` marks an expression the
compiler treats as one operand, `⟨..⟩` a path.)
-/

set_option autoImplicit false

namespace TB.Spec

open TB.Mbe TB.Macro

/-- Names for up to 32 fields. -/
def letters : List String :=
  ["a", "b", "c", "d", "e", "f", "g", "h", "i", "j", "k", "l", "m", "n", "o", "p", "q", "r", "s", "t", "u", "v", "w", "x",
   "y", "z", "aa", "bb", "cc", "dd", "ee", "ff"]

/-- `path(tuple.0, tuple.1, ..)` where `tuple` is the value of `e`; `path()` without evaluating `e` if there are no fields. -/
def rebuild (path e : List TT) (n : Nat) : List TT :=
  if n = 0 then rust% "⟦⟨«path»⟩()⟧" else rust% "⟦{ let tuple = ⟦«e»⟧; ⟨«path»⟩(«accessList (List.range n)») }⟧"

/-- The discriminant of a variant. -/
def disc (d : VariantDef) : List TT := rust% "__tagged_box_enum_counter::«d.name» as u8"

/-- The arm that boxes a variant. -/
def boxArm (en : String) (d : VariantDef) : List TT :=
  let v := d.name
  match d.fields with
  | .unit => rust% "«en»::«v» => $crate::TaggedBox::<«en»>::dangling::<«en»>(«disc d»),"
  | .tuple [] => rust% "«en»::«v»() => $crate::TaggedBox::<«en»>::dangling::<«en»>(«disc d»),"
  | .tuple [t] => rust% "«en»::«v»(var) => { $crate::TaggedBox::<«en»>::new::<«t»>(var, «disc d») },"
  | .tuple tys =>
    rust% "«en»::«v»(«nameList (letters.take tys.length)») => {
      #[repr(C)]
      struct «v»(«tyList tys»);
      $crate::TaggedBox::new::<«v»>(«v»(«nameList (letters.take tys.length)»), «disc d»)
    }"
  | .record ms =>
    rust% "«en»::«v» { «nameList (ms.map (·.1))» } => {
      #[repr(C)]
      struct «v» { «fieldList ms» }
      $crate::TaggedBox::<«en»>::new::<«v»>(«v» { «nameList (ms.map (·.1))» }, «disc d»)
    }"

/-- The arm that takes a variant out of the box `tg`. A tuple of fields is read as `struct V(A, B)` with the layout of C by `into_inner` (`c`), and as
`(A, B)` by `from_tagged_box`. -/
def unboxArm (c : Bool) (en : String) (tg : List TT) (d : VariantDef) : List TT :=
  let v := d.name
  let guard : List TT := rust% "discrim if discrim == «disc d» =>"
  match d.fields with
  | .unit => rust% "«guard» «en»::«v»,"
  | .tuple [t] => rust% "«guard» { «en»::«v»($crate::TaggedBox::<«en»>::into_inner::<«t»>(⟦«tg»⟧)) },"
  | .tuple tys =>
    if c then
      rust% "«guard» {
        #[allow(dead_code)]
        #[repr(C)]
        struct «v»(«tyList tys»);
        «rebuild (rust% \"«en»::«v»\") (rust% \"$crate::TaggedBox::<«en»>::into_inner::<«v»>(⟦«tg»⟧)\") tys.length»
      },"
    else
      rust% "«guard» {
        «rebuild (rust% \"«en»::«v»\") (rust% \"$crate::TaggedBox::<«en»>::into_inner::<(«tyList tys»)>(⟦«tg»⟧)\") tys.length»
      },"
  | .record ms =>
    rust% "«guard» {
      #[repr(C)]
      struct «v» { «fieldList ms» }
      let «v» { «nameList (ms.map (·.1))» } = $crate::TaggedBox::<«en»>::into_inner::<«v»>(⟦«tg»⟧);
      «en»::«v» { «nameList (ms.map (·.1))» }
    },"

/-- The arm that shows a variant to the callback. -/
def lendArm (en : String) (d : VariantDef) : List TT :=
  let v := d.name
  let guard : List TT := rust% "discrim if discrim == «disc d» =>"
  match d.fields with
  | .unit => rust% "«guard» { let variant: «en» = «en»::«v»; (⟦callback⟧)(&variant); }"
  | .tuple [t] =>
    rust% "«guard» {
      let variant: core::mem::ManuallyDrop<«en»> = core::mem::ManuallyDrop::new(«en»::«v»(⟦tagged⟧.as_ptr::<«t»>().read()));
      (⟦callback⟧)(&variant);
    }"
  | .tuple tys =>
    rust% "«guard» {
      #[repr(C)]
      struct «v»(«tyList tys»);
      #[allow(unused_variables)]
      let tuple: «v» = «rebuild (rust% \"«v»\") (rust% \"⟦tagged⟧.as_ptr::<«v»>().read()\") tys.length»;
      let variant: core::mem::ManuallyDrop<«en»> =
        core::mem::ManuallyDrop::<«en»>::new(«rebuild (rust% \"«en»::«v»\") (rust% \"tuple\") tys.length»);
      (⟦callback⟧)(&*variant);
    }"
  | .record ms =>
    rust% "«guard» {
      #[repr(C)]
      struct «v» { «fieldList ms» }
      let «v» { «nameList (ms.map (·.1))» } = ⟦tagged⟧.as_ptr::<«v»>().read();
      let variant: core::mem::ManuallyDrop<«en»> = core::mem::ManuallyDrop::new(«en»::«v» { «nameList (ms.map (·.1))» });
      (⟦callback⟧)(&*variant);
    }"

/-- The implementation of `From` for the fields of a tuple variant. -/
def fromImpl (sn en : String) (d : VariantDef) : List TT :=
  let v := d.name
  match d.fields with
  | .tuple [t] =>
    rust% "impl From<«t»> for «sn» {
      #[inline]
      fn from(val: «t») -> Self {
        #[allow(unused_imports)]
        use $crate::TaggableInner;
        Self { value: «en»::«v»(val).into_tagged_box(), }
      }
    }"
  | .tuple tys =>
    rust% "impl From<(«tyListTrailing tys»)> for «sn» {
      #[inline]
      fn from(tuple: («tyListTrailing tys»)) -> Self {
        #![allow(unused_imports, unused_variables)]
        use $crate::TaggableInner;
        let variant: «en» = «rebuild (rust% \"«en»::«v»\") (rust% \"tuple\") tys.length»;
        Self { value: variant.into_tagged_box(), }
      }
    }"
  | _ => []

/-- The private enum that numbers the variants in the order of the declaration. -/
def numbering (decl : List VariantDef) : List TT :=
  rust% "#[doc(hidden)] #[allow(non_camel_case_types)] enum __tagged_box_enum_counter { «variantList (decl.map (·.name))» }"

/-- All items for the declaration. -/
def generated (metas : List (List TT)) (svis : List TT) (sn : String) (evis : List TT) (en : String) (decl : List VariantDef) : List TT :=
  let count : List TT := rust% "⟦[«commas (decl.map fun d => rust% \"stringify!(«d.name»)\")»].len()⟧"
  rust% "
  «attrs metas»
  #[repr(transparent)]
  «TT.frag .vis svis» struct «sn» {
    value: $crate::TaggedBox<«en»>,
  }

  impl $crate::TaggableContainer for «sn» {
    type Inner = «en»;

    fn into_inner(self) -> «en» {
      «numbering decl»
      unsafe {
        ⟦#[allow(unused_parens)]
        match ⟦self.value⟧.discriminant() {
          «decl.flatMap (unboxArm true en (rust% \"self.value\"))»
          _ => panic!(\"Attempted to create an enum variant from a discriminant that doesn't exist!\"),
        }⟧
      }
    }
  }

  impl From<«en»> for «sn» {
    #[inline]
    fn from(variant: «en») -> Self {
      use $crate::TaggableInner;
      Self { value: variant.into_tagged_box(), }
    }
  }

  «decl.flatMap (fromImpl sn en)»

  «attrs metas»
  «TT.frag .vis evis» enum «en» { «decl.flatMap VariantDef.rust» }

  impl $crate::TaggableInner for «en» {
    fn into_tagged_box(self) -> $crate::TaggedBox<Self> {
      «numbering decl»
      ⟦match ⟦self⟧ { «decl.flatMap (boxArm en)» }⟧
    }

    fn from_tagged_box(tagged: $crate::TaggedBox<«en»>) -> Self {
      unsafe {
        «numbering decl»
        const __TAGGED_BOX_TOTAL_VARIANTS: usize = «count»;
        ⟦#[allow(unused_parens)]
        match ⟦tagged⟧.discriminant() {
          «decl.flatMap (unboxArm false en (rust% \"tagged\"))»
          discriminant => {
            #[allow(non_upper_case_globals)]
            panic!(
              \"The number of variants in `{}` is {}, but a variant by the discriminant of {} was attempted to be created\",
              stringify!(«en»),
              ⟦__TAGGED_BOX_TOTAL_VARIANTS⟧,
              discriminant
            );
          }
        }⟧
      }
    }

    unsafe fn ref_from_tagged_box<F>(tagged: &$crate::TaggedBox<«en»>, callback: F)
    where
      F: FnOnce(&«en»),
    {
      «numbering decl»
      const __TAGGED_BOX_TOTAL_VARIANTS: usize = «count»;
      #[allow(unused_parens)]
      match ⟦tagged⟧.discriminant() {
        «decl.flatMap (lendArm en)»
        discriminant => {
          #[allow(non_upper_case_globals)]
          panic!(
            \"The number of variants in `{}` is {}, but a variant by the discriminant of {} was attempted to be referenced\",
            stringify!(«en»),
            ⟦__TAGGED_BOX_TOTAL_VARIANTS⟧,
            discriminant
          );
        }
      };
    }
  }"

end TB.Spec

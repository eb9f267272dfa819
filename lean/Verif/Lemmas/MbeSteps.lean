import Verif.Lemmas.MbeRun
import Verif.Lemmas.MbeHead
import Verif.Lemmas.MacroExpand
import Verif.Source.Crate

/-! # One step of each component macro (no property theorems here) -/

set_option autoImplicit false

namespace TB.Source

open TB.Mbe TB.Macro

variable {rc : Rustc}

/-! ## The invocations -/

/-- `__make_enum!`, at the `@inner` rules. -/
def makeEnumIn (v : List TT) (en : String) (metas : List (List TT)) (acc ts : List TT) : List TT :=
  .atom (.punct "@") :: .atom (.ident "inner") :: .frag .vis v :: .atom (.punct ",") :: .atom (.ident en) :: .atom (.punct ",") ::
    (commaTTs (metas.map metaTT) ++ .group .bracket acc :: ts)

/-- `__counter_enum!` and `__count_variants!`, at the `@inner` rules. -/
def counterIn (acc ts : List TT) : List TT := rust% "@inner [«acc»] «ts»"

/-- `__taggable_into_box!`, at the `@inner` rules. -/
def intoBoxIn (tg : List TT) (en : String) (acc ts : List TT) : List TT :=
  rust% "@inner ⟦«tg»⟧, «en», __tagged_box_enum_counter [«acc»] «ts»"

/-- `__derive_from!`, at the `@inner` rules. -/
def deriveIn (sn en : String) (ts : List TT) : List TT := rust% "@inner «sn», «en», «ts»"

/-- `__boxed_into_inner!`, at the `@inner` rules. -/
def innerIn (tg : List TT) (en : String) (acc ts : List TT) : List TT :=
  rust% "@inner ⟦«tg»⟧, «en», __tagged_box_enum_counter, [«acc»] «ts»"

/-- `__from_tagged_box!`, at the `@inner` rules. -/
def fromIn (tg : List TT) (en : String) (tot : List TT) (acc ts : List TT) : List TT :=
  rust% "@inner ⟦«tg»⟧, «en», __tagged_box_enum_counter, ⟦«tot»⟧, [«acc»] «ts»"

/-- `__ref_from_tagged!`, at the `@inner` rules. -/
def refIn (tg cb : List TT) (en : String) (tot : List TT) (acc ts : List TT) : List TT :=
  rust% "@inner ⟦«tg»⟧, ⟦«cb»⟧, «en», __tagged_box_enum_counter, ⟦«tot»⟧, [«acc»] «ts»"

/-- `$crate::__expand_tuple!(path, e, types)` -/
def tupleCall (path e : List TT) (tys : List Ty) : List TT := rust% "$crate::__expand_tuple!(«path», «e», «tyList tys»)"

/-! ## What the macros emit for a variant, before `__expand_tuple!` is expanded -/

/-- `discrim if discrim == __tagged_box_enum_counter::V as u8 =>` -/
def guardSrc (v : String) : List TT := rust% "discrim if discrim == __tagged_box_enum_counter::«v» as u8 =>"

/-- Arm of `into_inner`. -/
def innerSrc (en : String) (tg : List TT) (d : VariantDef) : List TT :=
  match d.fields with
  | .tuple [t] => (readArmOf true ⟨d.name, .tuple [t]⟩).rust en tg
  | .tuple tys =>
    rust% "«guardSrc d.name» {
      #[allow(dead_code)]
      #[repr(C)]
      struct «d.name»(«tyList tys»);
      «tupleCall (rust% \"«en»::«d.name»\") (rust% \"$crate::TaggedBox::<«en»>::into_inner::<«d.name»>(⟦«tg»⟧)\") tys»
    },"
  | f => (readArmOf true ⟨d.name, f⟩).rust en tg

/-- Arm of `from_tagged_box`. -/
def fromSrc (en : String) (tg : List TT) (d : VariantDef) : List TT :=
  match d.fields with
  | .tuple [t] => (readArmOf false ⟨d.name, .tuple [t]⟩).rust en tg
  | .tuple tys =>
    rust% "«guardSrc d.name» {
      «tupleCall (rust% \"«en»::«d.name»\") (rust% \"$crate::TaggedBox::<«en»>::into_inner::<(«tyList tys»)>(⟦«tg»⟧)\") tys»
    },"
  | f => (readArmOf false ⟨d.name, f⟩).rust en tg

/-- Arm of `ref_from_tagged_box`. -/
def refSrc (en : String) (d : VariantDef) : List TT :=
  match d.fields with
  | .tuple [t] => (refArmOf ⟨d.name, .tuple [t]⟩).rust en
  | .tuple tys =>
    rust% "«guardSrc d.name» {
      #[repr(C)]
      struct «d.name»(«tyList tys»);
      #[allow(unused_variables)]
      let tuple: «d.name» = «tupleCall (rust% \"«d.name»\") (rust% \"⟦tagged⟧.as_ptr::<«d.name»>().read()\") tys»;
      let variant: core::mem::ManuallyDrop<«en»> =
        core::mem::ManuallyDrop::<«en»>::new(«tupleCall (rust% \"«en»::«d.name»\") (rust% \"tuple\") tys»);
      (⟦callback⟧)(&*variant);
    }"
  | f => (refArmOf ⟨d.name, f⟩).rust en

/-- `From` implementation. -/
def deriveSrc (sn en : String) (d : VariantDef) : List TT :=
  match d.fields with
  | .tuple [t] => (FromImpl.single d.name t).rust sn en
  | .tuple tys =>
    rust% "impl From<(«tyListTrailing tys»)> for «sn» {
      #[inline]
      fn from(tuple: («tyListTrailing tys»)) -> Self {
        #![allow(unused_imports, unused_variables)]
        use $crate::TaggableInner;
        let variant: «en» = «tupleCall (rust% \"«en»::«d.name»\") (rust% \"tuple\") tys»;
        Self { value: variant.into_tagged_box(), }
      }
    }"
  | _ => []

/-! ## `__make_enum!` -/

theorem makeEnum_step (v : List TT) (en : String) (metas : List (List TT)) (acc : List TT) {ts rest : List Tok} {d : VariantDef}
    (h : VariantSyntax rc ts d rest) :
    applyRules rc makeEnumRules (makeEnumIn v en metas acc (ttsOf ts)) =
      some (call "__make_enum" .brace (makeEnumIn v en metas (acc ++ d.rust) (ttsOf rest))) := by
  rcases variant_cases h with ⟨x, rfl, rfl⟩ | ⟨x, inner, tys, rfl, h1, rfl⟩ | ⟨x, inner, ms, rfl, h1, rfl⟩ | ⟨x, inner, ms, rfl, h1, h2, rfl⟩
  · simp [makeEnumRules, makeEnumIn, mbe, VariantDef.rust]
  · simp [makeEnumRules, makeEnumIn, mbe, VariantDef.rust, h1]
  · simp [makeEnumRules, makeEnumIn, mbe, VariantDef.rust, h1]
  · simp [makeEnumRules, makeEnumIn, mbe, VariantDef.rust, h1, h2]

/-! ## `__counter_enum!`, `__count_variants!` -/

theorem counter_step (acc : List TT) {ts rest : List Tok} {d : VariantDef} (h : VariantSyntax rc ts d rest) :
    applyRules rc counterEnumRules (counterIn acc (ttsOf ts)) =
      some (call "__counter_enum" .paren (counterIn (acc ++ variantList [d.name]) (ttsOf rest))) := by
  rcases variant_cases h with ⟨x, rfl, rfl⟩ | ⟨x, inner, tys, rfl, h1, rfl⟩ | ⟨x, inner, ms, rfl, h1, rfl⟩ | ⟨x, inner, ms, rfl, h1, h2, rfl⟩
  · simp [counterEnumRules, counterIn, mbe, variantList]
  · simp [counterEnumRules, counterIn, mbe, variantList, h1]
  · simp [counterEnumRules, counterIn, mbe, variantList, h1]
  · simp [counterEnumRules, counterIn, mbe, variantList, h1, h2]

theorem count_step (acc : List TT) {ts rest : List Tok} {d : VariantDef} (h : VariantSyntax rc ts d rest) :
    applyRules rc countVariantsRules (counterIn acc (ttsOf ts)) =
      some (call "__count_variants" .paren (counterIn (acc ++ variantList [d.name]) (ttsOf rest))) := by
  rcases variant_cases h with ⟨x, rfl, rfl⟩ | ⟨x, inner, tys, rfl, h1, rfl⟩ | ⟨x, inner, ms, rfl, h1, rfl⟩ | ⟨x, inner, ms, rfl, h1, h2, rfl⟩
  · simp [countVariantsRules, counterIn, mbe, variantList]
  · simp [countVariantsRules, counterIn, mbe, variantList, h1]
  · simp [countVariantsRules, counterIn, mbe, variantList, h1]
  · simp [countVariantsRules, counterIn, mbe, variantList, h1, h2]

/-! ## `__boxed_into_inner!` -/

theorem inner_step (tg : List TT) (en : String) (acc : List TT) {ts rest : List Tok} {d : VariantDef} (h : VariantSyntax rc ts d rest) :
    applyRules rc boxedIntoInnerRules (innerIn tg en acc (ttsOf ts)) =
      some (call "__boxed_into_inner" .paren (innerIn tg en (acc ++ innerSrc en tg d) (ttsOf rest)) ++ [.atom (.punct ";")]) := by
  rcases variant_cases h with ⟨x, rfl, rfl⟩ | ⟨x, inner, tys, rfl, h1, rfl⟩ | ⟨x, inner, ms, rfl, h1, rfl⟩ | ⟨x, inner, ms, rfl, h1, h2, rfl⟩
  · simp [boxedIntoInnerRules, innerIn, mbe, innerSrc, readArmOf, ReadArm.rust]
  · rcases tys_cases h1 with ⟨t, rfl, h2⟩ | ⟨h2, h3⟩ | ⟨t, y, ys, h2, h3⟩
    · simp [boxedIntoInnerRules, innerIn, mbe, innerSrc, readArmOf, ReadArm.rust, h1, h2]
    · simp [boxedIntoInnerRules, innerIn, mbe, innerSrc, readArmOf, ReadArm.rust, h1, h2, h3, tupleCall, guardSrc]
    · simp [boxedIntoInnerRules, innerIn, mbe, innerSrc, readArmOf, ReadArm.rust, h1, h2, h3, tupleCall, guardSrc]
  · simp [boxedIntoInnerRules, innerIn, mbe, innerSrc, readArmOf, ReadArm.rust, h1]
  · simp [boxedIntoInnerRules, innerIn, mbe, innerSrc, readArmOf, ReadArm.rust, h1, h2]

/-! ## `__from_tagged_box!` -/

theorem from_step (tg : List TT) (en : String) (tot acc : List TT) {ts rest : List Tok} {d : VariantDef} (h : VariantSyntax rc ts d rest) :
    applyRules rc fromTaggedBoxRules (fromIn tg en tot acc (ttsOf ts)) =
      some (call "__from_tagged_box" .paren (fromIn tg en tot (acc ++ fromSrc en tg d) (ttsOf rest))) := by
  rcases variant_cases h with ⟨x, rfl, rfl⟩ | ⟨x, inner, tys, rfl, h1, rfl⟩ | ⟨x, inner, ms, rfl, h1, rfl⟩ | ⟨x, inner, ms, rfl, h1, h2, rfl⟩
  · simp [fromTaggedBoxRules, mbe, fromIn, fromSrc, readArmOf, ReadArm.rust, tupleCall, guardSrc]
  · rcases tys_cases h1 with ⟨t, rfl, h2⟩ | ⟨h2, h3⟩ | ⟨t, y, ys, h2, h3⟩
    · simp [fromTaggedBoxRules, mbe, fromIn, fromSrc, readArmOf, ReadArm.rust, tupleCall, guardSrc, h1, h2]
    · simp [fromTaggedBoxRules, mbe, fromIn, fromSrc, readArmOf, ReadArm.rust, tupleCall, guardSrc, h1, h2, h3]
    · simp [fromTaggedBoxRules, mbe, fromIn, fromSrc, readArmOf, ReadArm.rust, tupleCall, guardSrc, h1, h2, h3]
  · simp [fromTaggedBoxRules, mbe, fromIn, fromSrc, readArmOf, ReadArm.rust, tupleCall, guardSrc, h1]
  · simp [fromTaggedBoxRules, mbe, fromIn, fromSrc, readArmOf, ReadArm.rust, tupleCall, guardSrc, h1, h2]

/-! ## `__ref_from_tagged!` -/

theorem ref_step (en : String) (tot acc : List TT) {ts rest : List Tok} {d : VariantDef} (h : VariantSyntax rc ts d rest) :
    applyRules rc refFromTaggedRules (refIn (rust% "tagged") (rust% "callback") en tot acc (ttsOf ts)) =
      some (call "__ref_from_tagged" .paren (refIn (rust% "tagged") (rust% "callback") en tot (acc ++ refSrc en d) (ttsOf rest))) := by
  rcases variant_cases h with ⟨x, rfl, rfl⟩ | ⟨x, inner, tys, rfl, h1, rfl⟩ | ⟨x, inner, ms, rfl, h1, rfl⟩ | ⟨x, inner, ms, rfl, h1, h2, rfl⟩
  · simp [refFromTaggedRules, mbe, refIn, refSrc, refArmOf, RefArm.rust, tupleCall, guardSrc]
  · rcases tys_cases h1 with ⟨t, rfl, h2⟩ | ⟨h2, h3⟩ | ⟨t, y, ys, h2, h3⟩
    · simp [refFromTaggedRules, mbe, refIn, refSrc, refArmOf, RefArm.rust, tupleCall, guardSrc, h1, h2]
    · simp [refFromTaggedRules, mbe, refIn, refSrc, refArmOf, RefArm.rust, tupleCall, guardSrc, h1, h2, h3]
    · simp [refFromTaggedRules, mbe, refIn, refSrc, refArmOf, RefArm.rust, tupleCall, guardSrc, h1, h2, h3]
  · simp [refFromTaggedRules, mbe, refIn, refSrc, refArmOf, RefArm.rust, tupleCall, guardSrc, h1]
  · simp [refFromTaggedRules, mbe, refIn, refSrc, refArmOf, RefArm.rust, tupleCall, guardSrc, h1, h2]

/-! ## `__derive_from!` -/

theorem derive_step (sn en : String) {ts rest : List Tok} {d : VariantDef} (h : VariantSyntax rc ts d rest) :
    applyRules rc deriveFromRules (deriveIn sn en (ttsOf ts)) =
      some (deriveSrc sn en d ++ call "__derive_from" .brace (deriveIn sn en (ttsOf rest))) := by
  rcases variant_cases h with ⟨x, rfl, rfl⟩ | ⟨x, inner, tys, rfl, h1, rfl⟩ | ⟨x, inner, ms, rfl, h1, rfl⟩ | ⟨x, inner, ms, rfl, h1, h2, rfl⟩
  · simp [deriveFromRules, mbe, deriveIn, deriveSrc, FromImpl.rust, tyListTrailing, tupleCall, List.flatMap_map]
  · rcases tys_cases h1 with ⟨t, rfl, h2⟩ | ⟨h2, h3⟩ | ⟨t, y, ys, h2, h3⟩
    · simp [deriveFromRules, mbe, deriveIn, deriveSrc, FromImpl.rust, tyListTrailing, tupleCall, List.flatMap_map, h1, h2]
    · simp [deriveFromRules, mbe, deriveIn, deriveSrc, FromImpl.rust, tyListTrailing, tupleCall, List.flatMap_map, h1, h2, h3]
    · simp [deriveFromRules, mbe, deriveIn, deriveSrc, FromImpl.rust, tyListTrailing, tupleCall, List.flatMap_map, h1, h2, h3]
  · simp [deriveFromRules, mbe, deriveIn, deriveSrc, FromImpl.rust, tyListTrailing, tupleCall, List.flatMap_map, h1]
  · simp [deriveFromRules, mbe, deriveIn, deriveSrc, FromImpl.rust, tyListTrailing, tupleCall, List.flatMap_map, h1, h2]

/-! ## `__taggable_into_box!` -/

/-- `__expand_tuple_arm!` as `__taggable_into_box!` invokes it. -/
def armCall (tg : List TT) (en v : String) (tys : List Ty) (acc ts : List TT) : List TT :=
  rust% "⟦«tg»⟧, «en», __tagged_box_enum_counter, «v», «tyList tys» [«acc»] [«ts»] «tyList tys»"

/-- What `__taggable_into_box!` does with a variant. -/
def intoNext (tg : List TT) (en : String) (acc : List TT) (d : VariantDef) (ts : List TT) : List TT :=
  match d.fields with
  | .tuple [t] => call "__taggable_into_box" .paren (intoBoxIn tg en (acc ++ (intoArmOf ⟨d.name, .tuple [t]⟩).rust en) ts)
  | .tuple tys => call "__expand_tuple_arm" .paren (armCall tg en d.name tys acc ts)
  | f => call "__taggable_into_box" .paren (intoBoxIn tg en (acc ++ (intoArmOf ⟨d.name, f⟩).rust en) ts)

theorem into_step (tg : List TT) (en : String) (acc : List TT) {ts rest : List Tok} {d : VariantDef} (h : VariantSyntax rc ts d rest) :
    applyRules rc intoBoxRules (intoBoxIn tg en acc (ttsOf ts)) =
      some (intoNext tg en acc d (ttsOf rest)) := by
  rcases variant_cases h with ⟨x, rfl, rfl⟩ | ⟨x, inner, tys, rfl, h1, rfl⟩ | ⟨x, inner, ms, rfl, h1, rfl⟩ | ⟨x, inner, ms, rfl, h1, h2, rfl⟩
  · simp [intoBoxRules, mbe, intoBoxIn, intoNext, intoArmOf, IntoArm.rust, armCall]
  · rcases tys_cases h1 with ⟨t, rfl, h2⟩ | ⟨h2, h3⟩ | ⟨t, y, ys, h2, h3⟩
    · simp [intoBoxRules, mbe, intoBoxIn, intoNext, intoArmOf, IntoArm.rust, armCall, h1, h2]
    · simp [intoBoxRules, mbe, intoBoxIn, intoNext, intoArmOf, IntoArm.rust, armCall, h1, h2, h3]
    · simp [intoBoxRules, mbe, intoBoxIn, intoNext, intoArmOf, IntoArm.rust, armCall, h1, h2, h3]
  · simp [intoBoxRules, mbe, intoBoxIn, intoNext, intoArmOf, IntoArm.rust, armCall, h1]
  · simp [intoBoxRules, mbe, intoBoxIn, intoNext, intoArmOf, IntoArm.rust, armCall, h1, h2]

/-! ## The first step -/

/-- A declaration begins with a name, so no `@inner` rule matches it. -/
theorem decl_head {ts rest : List Tok} {d : VariantDef} (h : VariantSyntax rc ts d rest) : ∃ us, ts = .ident d.name :: us := by
  rcases variant_cases h with ⟨x, rfl, rfl⟩ | ⟨x, inner, tys, rfl, h1, rfl⟩ | ⟨x, inner, ms, rfl, h1, rfl⟩ | ⟨x, inner, ms, rfl, h1, h2, rfl⟩ <;>
    exact ⟨_, rfl⟩

theorem makeEnum_start (v : List TT) (en : String) (metas : List (List TT)) (ts : List TT) :
    applyRules rc makeEnumRules (.frag .vis v :: .atom (.punct ",") :: .atom (.ident en) :: .group .bracket (metas.map metaTT) :: ts) =
      some (call "__make_enum" .brace (makeEnumIn v en metas [] ts)) := by
  simp [makeEnumRules, mbe, makeEnumIn]

theorem counter_start {ts : List Tok} (x : String) (h : ∃ us, ts = .ident x :: us) :
    applyRules rc counterEnumRules (ttsOf ts) = some (call "__counter_enum" .paren (counterIn [] (ttsOf ts))) := by
  obtain ⟨us, rfl⟩ := h
  simp [counterEnumRules, mbe, counterIn]

theorem count_start {ts : List Tok} (x : String) (h : ∃ us, ts = .ident x :: us) :
    applyRules rc countVariantsRules (ttsOf ts) = some (call "__count_variants" .paren (counterIn [] (ttsOf ts))) := by
  obtain ⟨us, rfl⟩ := h
  simp [countVariantsRules, mbe, counterIn]

theorem inner_start (en : String) (ts : List TT) :
    applyRules rc boxedIntoInnerRules (rust% "self.value, «en», __tagged_box_enum_counter, «ts»") =
      some (call "__boxed_into_inner" .paren (innerIn (rust% "self.value") en [] ts)) := by
  simp [boxedIntoInnerRules, mbe, innerIn]

theorem from_start (en : String) (ts : List TT) :
    applyRules rc fromTaggedBoxRules
        (rust% "tagged, «en», __tagged_box_enum_counter, __TAGGED_BOX_TOTAL_VARIANTS, «ts»") =
      some (call "__from_tagged_box" .paren (fromIn (rust% "tagged") en (rust% "__TAGGED_BOX_TOTAL_VARIANTS") [] ts)) := by
  simp [fromTaggedBoxRules, mbe, fromIn]

theorem ref_start (en : String) (ts : List TT) :
    applyRules rc refFromTaggedRules
        (rust% "tagged, callback, «en», __tagged_box_enum_counter, __TAGGED_BOX_TOTAL_VARIANTS, «ts»") =
      some (call "__ref_from_tagged" .paren
        (refIn (rust% "tagged") (rust% "callback") en (rust% "__TAGGED_BOX_TOTAL_VARIANTS") [] ts)) := by
  simp [refFromTaggedRules, mbe, refIn]

theorem into_start (en : String) (ts : List TT) :
    applyRules rc intoBoxRules (rust% "self, «en», __tagged_box_enum_counter, «ts»") =
      some (call "__taggable_into_box" .paren (intoBoxIn (rust% "self") en [] ts)) := by
  simp [intoBoxRules, mbe, intoBoxIn]

theorem derive_start (sn en : String) {ts : List TT} (x : String) (h : ∃ us, ts = .atom (.ident x) :: us) :
    applyRules rc deriveFromRules (rust% "«sn», «en», «ts»") = some (call "__derive_from" .brace (deriveIn sn en ts)) := by
  obtain ⟨us, rfl⟩ := h
  simp [deriveFromRules, mbe, deriveIn]

/-! ## The last step -/

theorem makeEnum_end (v : List TT) (en : String) (metas : List (List TT)) (acc : List TT) :
    applyRules rc makeEnumRules (makeEnumIn v en metas acc []) =
      some (rust% "«attrs metas» «TT.frag .vis v» enum «en» { «acc» }") := by
  simp [makeEnumRules, mbe, makeEnumIn, attrs, metaTT, List.flatMap_map]

theorem counter_end (acc : List TT) :
    applyRules rc counterEnumRules (counterIn acc []) =
      some (rust% "#[doc(hidden)] #[allow(non_camel_case_types)] enum __tagged_box_enum_counter { «acc» }") := by
  simp [counterEnumRules, mbe, counterIn]

theorem count_end (vs : List String) :
    applyRules rc countVariantsRules (counterIn (variantList vs) []) =
      some (rust% "[«commas (vs.map fun v => rust% \"stringify!(«v»)\")»].len()") := by
  simp [countVariantsRules, mbe, counterIn, matchL_names]

theorem inner_end (tg : List TT) (en : String) (acc : List TT) :
    applyRules rc boxedIntoInnerRules (innerIn tg en acc []) =
      some (rust% "#[allow(unused_parens)]
        match ⟦«tg»⟧.discriminant() {
          «acc»
          _ => panic!(\"Attempted to create an enum variant from a discriminant that doesn't exist!\"),
        }") := by
  simp [boxedIntoInnerRules, mbe, innerIn]

/-- The last arm of `from_tagged_box` and `ref_from_tagged_box`. -/
def lastArm (msg en : String) (tot : List TT) : List TT :=
  rust% "discriminant => {
    #[allow(non_upper_case_globals)]
    panic!(«TT.atom (.lit msg)», stringify!(«en»), ⟦«tot»⟧, discriminant);
  }"

/-- The message of the panic in `from_tagged_box`. -/
def msgCreated : String := "\"The number of variants in `{}` is {}, but a variant by the discriminant of {} was attempted to be created\""
/-- The message of the panic in `ref_from_tagged_box`. -/
def msgReferenced : String := "\"The number of variants in `{}` is {}, but a variant by the discriminant of {} was attempted to be referenced\""

theorem from_end (tg : List TT) (en : String) (tot acc : List TT) :
    applyRules rc fromTaggedBoxRules (fromIn tg en tot acc []) =
      some (rust% "#[allow(unused_parens)] match ⟦«tg»⟧.discriminant() { «acc» «lastArm msgCreated en tot» }") := by
  simp [fromTaggedBoxRules, mbe, fromIn, lastArm, msgCreated]

theorem ref_end (tg cb : List TT) (en : String) (tot acc : List TT) :
    applyRules rc refFromTaggedRules (refIn tg cb en tot acc []) =
      some (rust% "#[allow(unused_parens)] match ⟦«tg»⟧.discriminant() { «acc» «lastArm msgReferenced en tot» }") := by
  simp [refFromTaggedRules, mbe, refIn, lastArm, msgReferenced]

theorem into_end (tg : List TT) (en : String) (acc : List TT) :
    applyRules rc intoBoxRules (intoBoxIn tg en acc []) = some (rust% "match ⟦«tg»⟧ { «acc» }") := by
  simp [intoBoxRules, mbe, intoBoxIn]

theorem derive_end (sn en : String) : applyRules rc deriveFromRules (deriveIn sn en []) = some [] := by
  simp [deriveFromRules, mbe, deriveIn]

/-! ## `__make_enum!` accepts nothing else -/

theorem parseRecSep_no_cases (inner : List Tok) (h : ∀ ms, parseRec rc inner ≠ .yes ms) :
    parseRecSep rc inner = .fatal ∨ (parseRecSep rc inner = .no ∧ ∀ ms, recTrail rc inner.length inner ≠ .yes ms) := by
  cases inner with
  | nil => exact absurd rfl (h [])
  | cons t ts =>
    simp only [parseRec] at h
    simp only [parseRecSep]
    cases hs : recSep rc (t :: ts).length (t :: ts) with
    | yes m => rw [hs] at h; exact absurd rfl (h m)
    | fatal => exact .inl rfl
    | no => rw [hs] at h; exact .inr ⟨rfl, h⟩

theorem makeEnum_none (v : List TT) (en : String) (metas : List (List TT)) (acc : List TT) {ts : List Tok} (hne : ts ≠ [])
    (h : ∀ d rest, ¬ VariantSyntax rc ts d rest) :
    applyRules rc makeEnumRules (makeEnumIn v en metas acc (ttsOf ts)) = none := by
  have h' : ∀ p, parseVariant rc ts ≠ .yes p := fun p e => h p.1 p.2 (parseVariant_yes.1 e)
  clear h
  match ts, hne with
  | .ident x :: .group .paren inner :: .comma :: rest, _ =>
    simp only [parseVariant] at h'
    cases h1 : parseTys rc inner with
    | yes tys => rw [h1] at h'; exact absurd rfl (h' _)
    | no => simp [makeEnumRules, makeEnumIn, mbe, h1]
    | fatal => simp [makeEnumRules, makeEnumIn, mbe, h1]
  | .ident x :: .group .brace inner :: .comma :: rest, _ =>
    simp only [parseVariant] at h'
    rcases parseRecSep_no_cases (rc := rc) inner (fun ms e => by rw [e] at h'; exact absurd rfl (h' _)) with h1 | ⟨h1, h2⟩
    · simp [makeEnumRules, makeEnumIn, mbe, h1]
    · cases h3 : recTrail rc inner.length inner with
      | yes ms => exact absurd h3 (h2 ms)
      | no => simp [makeEnumRules, makeEnumIn, mbe, h1, h3]
      | fatal => simp [makeEnumRules, makeEnumIn, mbe, h1, h3]
  | .ident x :: .comma :: rest, _ => exact absurd rfl (h' _)
  | .ident x :: [], _ => simp [makeEnumRules, makeEnumIn, mbe]
  | .ident x :: .ident y :: rest, _ => simp [makeEnumRules, makeEnumIn, mbe]
  | .ident x :: .colon :: rest, _ => simp [makeEnumRules, makeEnumIn, mbe]
  | .ident x :: .other y :: rest, _ =>
    rcases spell_cases y with hy | hy | ⟨hy, hy1, _⟩ <;> simp [makeEnumRules, makeEnumIn, mbe, hy, Ne.symm, *]
  | .ident x :: .group .bracket inner :: rest, _ => simp [makeEnumRules, makeEnumIn, mbe]
  | .ident x :: .group .paren inner :: [], _ =>
    cases h1 : parseTys rc inner <;> simp [makeEnumRules, makeEnumIn, mbe, h1]
  | .ident x :: .group .paren inner :: .ident y :: rest, _ =>
    cases h1 : parseTys rc inner <;> simp [makeEnumRules, makeEnumIn, mbe, h1]
  | .ident x :: .group .paren inner :: .colon :: rest, _ =>
    cases h1 : parseTys rc inner <;> simp [makeEnumRules, makeEnumIn, mbe, h1]
  | .ident x :: .group .paren inner :: .other y :: rest, _ =>
    rcases spell_cases y with hy | hy | ⟨hy, hy1, _⟩ <;> cases h1 : parseTys rc inner <;> simp [makeEnumRules, makeEnumIn, mbe, h1, hy, Ne.symm, *]
  | .ident x :: .group .paren inner :: .group d us :: rest, _ =>
    cases h1 : parseTys rc inner <;> simp [makeEnumRules, makeEnumIn, mbe, h1]
  | .ident x :: .group .brace inner :: [], _ =>
    cases h1 : parseRecSep rc inner <;> cases h3 : recTrail rc inner.length inner <;> simp [makeEnumRules, makeEnumIn, mbe, h1, h3]
  | .ident x :: .group .brace inner :: .ident y :: rest, _ =>
    cases h1 : parseRecSep rc inner <;> cases h3 : recTrail rc inner.length inner <;> simp [makeEnumRules, makeEnumIn, mbe, h1, h3]
  | .ident x :: .group .brace inner :: .colon :: rest, _ =>
    cases h1 : parseRecSep rc inner <;> cases h3 : recTrail rc inner.length inner <;> simp [makeEnumRules, makeEnumIn, mbe, h1, h3]
  | .ident x :: .group .brace inner :: .other y :: rest, _ =>
    rcases spell_cases y with hy | hy | ⟨hy, hy1, _⟩ <;> cases h1 : parseRecSep rc inner <;> cases h3 : recTrail rc inner.length inner <;> simp [makeEnumRules, makeEnumIn, mbe, h1, h3, hy, Ne.symm, *]
  | .ident x :: .group .brace inner :: .group d us :: rest, _ =>
    cases h1 : parseRecSep rc inner <;> cases h3 : recTrail rc inner.length inner <;> simp [makeEnumRules, makeEnumIn, mbe, h1, h3]
  | .comma :: rest, _ => simp [makeEnumRules, makeEnumIn, mbe]
  | .colon :: rest, _ => simp [makeEnumRules, makeEnumIn, mbe]
  | .other x :: rest, _ => simp [makeEnumRules, makeEnumIn, mbe]
  | .group d us :: rest, _ => simp [makeEnumRules, makeEnumIn, mbe]

end TB.Source

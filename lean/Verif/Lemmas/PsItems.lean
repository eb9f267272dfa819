import Verif.Lemmas.PsArms

/-! # Parsing the items of the generated code (helper lemmas; no property theorems here) -/

set_option autoImplicit false
set_option maxRecDepth 4000

namespace TB.Rust

open TB.Mbe TB.Macro

/-! ## Arms -/

theorem armsRest_flatMap {α : Type} (f : α → List TT) (hf : ∀ a, ∃ x r, f a = .atom (.ident x) :: r ∧ IsName x) (tail : List TT) (ht : ArmsRest tail)
    (as : List α) : ArmsRest (as.flatMap f ++ tail) := by
  cases as with
  | nil => exact ht
  | cons a as =>
    obtain ⟨x, r, h, hx⟩ := hf a
    rw [List.flatMap_cons, h]
    exact .ident x _ hx

theorem arms_list {α : Type} (arm : α → List TT) (gen : α → Pat × Option Expr × Expr) (R : List TT → Prop) (w m K : Nat) (hw : w ≤ m) (P : α → Prop)
    (h : ∀ d m rest, P d → w ≤ m → R rest → pArms (m + K + 1) (arm d ++ rest) = (pArms (m + K) rest).map (gen d :: ·)) (tail : List TT)
    (hR : ∀ ds : List α, R (ds.flatMap arm ++ tail)) : ∀ ds : List α, (∀ d ∈ ds, P d) →
    pArms (m + ds.length + K) (ds.flatMap arm ++ tail) = (pArms (m + K) tail).map (ds.map gen ++ ·)
  | [], _ => by simp
  | d :: ds, hP => by
    have ih := arms_list arm gen R w m K hw P h tail hR ds (fun x hx => hP x (List.mem_cons_of_mem _ hx))
    have e : m + (d :: ds).length + K = m + ds.length + K + 1 := by simp; omega
    rw [e, List.flatMap_cons, List.append_assoc, h d (m + ds.length) _ (hP d (by simp)) (by omega) (hR ds), ih]
    cases pArms (m + K) tail <;> simp

/-- The names of a declaration are names. -/
class DNames (en : String) (decl : List VariantDef) : Prop where
  enum : IsName en
  variants : ∀ d ∈ decl, VNames d

section
variable (en : String) (decl : List VariantDef) [hD : DNames en decl] (m : Nat) (hm : ∀ d ∈ decl, width d.fields + decl.length ≤ m)
  (hl : decl.length ≤ m)
include hm hl

theorem boxArms_parse (k : Nat) (hk : 200 ≤ k) : pArms (m + k) (decl.flatMap (Spec.boxArm en)) = some (decl.map (Gen.boxArm en)) := by
  have := hD.enum
  have h := arms_list (Spec.boxArm en) (Gen.boxArm en) ArmsRest (m - decl.length) (m + k - 60 - decl.length) 60 (by omega)
    (fun d => d ∈ decl) (fun d m' rest hd hm' hr => by
      have := hD.variants d hd
      exact boxArm_parse en d m' (by have := hm d hd; omega) rest hr) [] (armsRest_flatMap _ (by
      intro d
      unfold Spec.boxArm
      simp only
      split <;> exact ⟨en, _, rfl, inferInstance⟩) _ .nil) decl (fun d hd => hd)
  rw [show m + k - 60 - decl.length + decl.length + 60 = m + k by omega,
    show m + k - 60 - decl.length + 60 = (m + k - 60 - decl.length + 59) + 1 by omega] at h
  simpa [pArms_nil] using h

theorem unboxArms_parse (k : Nat) (hk : 200 ≤ k) (c : Bool) (tg : List TT) (tgE : Expr) (htg : ∀ k, 20 ≤ k → pExpr k false 1 tg = some (tgE, []))
    (tail : List TT) (as : List (Pat × Option Expr × Expr)) (ht : ∀ k, 50 ≤ k → pArms k tail = some as) :
    pArms (m + k) (decl.flatMap (Spec.unboxArm c en tg) ++ tail) = some (decl.map (Gen.unboxArm c en tgE) ++ as) := by
  have := hD.enum
  have h := arms_list (Spec.unboxArm c en tg) (Gen.unboxArm c en tgE) (fun _ => True) (m - decl.length) (m + k - 150 - decl.length) 150 (by omega)
    (fun d => d ∈ decl) (fun d m' rest hd hm' _ => by
      have := hD.variants d hd
      exact unboxArm_parse en d m' (by have := hm d hd; omega) rest c tg tgE (fun k hk => htg _ (by omega))) tail (by simp) decl (fun d hd => hd)
  rw [show m + k - 150 - decl.length + decl.length + 150 = m + k by omega, ht _ (by omega)] at h
  simpa using h

theorem lendArms_parse (k : Nat) (hk : 200 ≤ k)
    (tail : List TT) (as : List (Pat × Option Expr × Expr)) (hr : ArmsRest tail) (ht : ∀ k, 50 ≤ k → pArms k tail = some as) :
    pArms (m + k) (decl.flatMap (Spec.lendArm en) ++ tail) = some (decl.map (Gen.lendArm en) ++ as) := by
  have := hD.enum
  have h := arms_list (Spec.lendArm en) (Gen.lendArm en) ArmsRest (m - decl.length) (m + k - 180 - decl.length) 180 (by omega)
    (fun d => d ∈ decl) (fun d m' rest hd hm' hr => by
      have := hD.variants d hd
      exact lendArm_parse en d m' (by have := hm d hd; omega) rest hr) tail (armsRest_flatMap _ (by
      intro d
      unfold Spec.lendArm
      simp only
      split <;> exact ⟨"discrim", _, rfl, inferInstance⟩) _ hr) decl (fun d hd => hd)
  rw [show m + k - 180 - decl.length + decl.length + 180 = m + k by omega, ht _ (by omega)] at h
  simpa using h

end

/-! ## One step of the parser of items -/

section
variable (n : Nat) (x : String) (r us a : List TT) (attrs : List (List TT))

/-- An item, after its attributes, visibility and qualifiers, and those after it. -/
def pItem (n : Nat) (attrs : List (List TT)) (ts : List TT) : Option (List Item) := match ts with
  | [] => some []
  | .atom (.ident k) :: r =>
    if k = "fn" then
      match pFn n attrs r with
      | none => none
      | some (f, r) => (pItems n r).map (.fn f :: ·)
    else if k = "use" ∨ k = "extern" then (pItems n (skipSemi r)).map (.other k :: ·)
    else if k = "trait" then
      match toBrace r with
      | none => none
      | some (_, r) => (pItems n r).map (.other k :: ·)
    else if k = "mod" then
      match r with
      | .atom (.ident x) :: .group .brace us :: r =>
        if attrs.any (fun a => match a with
          | [.atom (.ident c), .group .paren [.atom (.ident t)]] => c == "cfg" && t == "test"
          | _ => false) then (pItems n r).map (.other "tests" :: ·)
        else match pItems n us with
          | none => none
          | some is => (pItems n r).map (.mod attrs x is :: ·)
      | r => (pItems n (skipSemi r)).map (.other k :: ·)
    else if k = "struct" then
      match r with
      | .atom (.ident x) :: r => match optGenerics r with
        | some (gs, .group .brace us :: r) => match pTyped n us with
          | none => none
          | some fs => (pItems n r).map (.struct attrs x gs fs :: ·)
        | _ => none
      | _ => none
    else if k = "enum" then
      match r with
      | .atom (.ident x) :: .group .brace us :: r => (pItems n r).map (.enum attrs x us :: ·)
      | _ => none
    else if k = "const" then
      match r with
      | .atom (.ident x) :: r => match eatP ":" r with
        | none => none
        | some r => match pTy n r with
          | none => none
          | some (t, r) => match eatP "=" r with
            | none => none
            | some r => match pExpr n false 1 r with
              | none => none
              | some (e, r) => match eatP ";" r with
                | none => none
                | some r => (pItems n r).map (.const attrs x t e :: ·)
      | _ => none
    else if k = "type" then
      match r with
      | .atom (.ident x) :: r => match eatP "=" r with
        | none => none
        | some r => match pTy n r with
          | none => none
          | some (t, r) => match eatP ";" r with
            | none => none
            | some r => (pItems n r).map (.type attrs x t :: ·)
      | _ => none
    else if k = "impl" then
      match optGenerics r with
      | none => none
      | some (gs, r) => match pTy n r with
        | none => none
        | some (t, r) =>
          match (match eatK "for" r with
            | none => some (none, t, r)
            | some r => (pTy n r).map fun x => (some t, x.1, x.2)) with
          | none => none
          | some (tr, t, r) => match toBrace r with
            | none => none
            | some (us, r) => match pItems n us with
              | none => none
              | some is => (pItems n r).map (.impl attrs gs tr t is :: ·)
    else if k = "macro_rules" then
      match toBrace r with
      | none => none
      | some (_, r) => (pItems n r).map (.other k :: ·)
    else
      match eatP "!" r with
      | some (.group _ us :: r) =>
        (pItems n (match eatP ";" r with
          | some r => r
          | none => r)).map (.mac k us :: ·)
      | _ => none
  | _ => none

@[ps] theorem pItems_s (ts : List TT) : pItems (n + 1) ts = pItem n (pAttrs ts).1 (eatQual (eatVis (pAttrs ts).2)) := rfl
@[ps] theorem pItem_nil : pItem n attrs [] = some [] := rfl
@[ps] theorem pItem_fn : pItem n attrs (.atom (.ident "fn") :: r) = match pFn n attrs r with
    | none => none
    | some (f, r) => (pItems n r).map (.fn f :: ·) := rfl
@[ps] theorem pItem_struct : pItem n attrs (.atom (.ident "struct") :: .atom (.ident x) :: r) = match optGenerics r with
    | some (gs, .group .brace us :: r) => match pTyped n us with
      | none => none
      | some fs => (pItems n r).map (.struct attrs x gs fs :: ·)
    | _ => none := rfl
@[ps] theorem pItem_enum : pItem n attrs (.atom (.ident "enum") :: .atom (.ident x) :: .group .brace us :: r) =
    (pItems n r).map (.enum attrs x us :: ·) := rfl
@[ps] theorem pItem_type : pItem n attrs (.atom (.ident "type") :: .atom (.ident x) :: .atom (.punct "=") :: r) = match pTy n r with
    | none => none
    | some (t, r) => match eatP ";" r with
      | none => none
      | some r => (pItems n r).map (.type attrs x t :: ·) := rfl
@[ps] theorem pItem_impl : pItem n attrs (.atom (.ident "impl") :: r) =
      match optGenerics r with
      | none => none
      | some (gs, r) => match pTy n r with
        | none => none
        | some (t, r) =>
          match (match eatK "for" r with
            | none => some (none, t, r)
            | some r => (pTy n r).map fun x => (some t, x.1, x.2)) with
          | none => none
          | some (tr, t, r) => match toBrace r with
            | none => none
            | some (us, r) => match pItems n us with
              | none => none
              | some is => (pItems n r).map (.impl attrs gs tr t is :: ·) := rfl

@[ps] theorem eatQual_nil : eatQual [] = [] := rfl
@[ps] theorem eatQual_struct : eatQual (.atom (.ident "struct") :: r) = .atom (.ident "struct") :: r := rfl
@[ps] theorem eatQual_enum : eatQual (.atom (.ident "enum") :: r) = .atom (.ident "enum") :: r := rfl
@[ps] theorem eatQual_impl : eatQual (.atom (.ident "impl") :: r) = .atom (.ident "impl") :: r := rfl
@[ps] theorem eatQual_type : eatQual (.atom (.ident "type") :: r) = .atom (.ident "type") :: r := rfl
@[ps] theorem eatQual_fn : eatQual (.atom (.ident "fn") :: r) = .atom (.ident "fn") :: r := rfl
@[ps] theorem eatQual_unsafe : eatQual (.atom (.ident "unsafe") :: .atom (.ident "fn") :: r) = .atom (.ident "fn") :: r := rfl

@[ps] theorem optGenerics_ident : optGenerics (.atom (.ident x) :: r) = some ([], .atom (.ident x) :: r) := rfl
@[ps] theorem optGenerics_crate : optGenerics (.crate :: r) = some ([], .crate :: r) := rfl
@[ps] theorem optGenerics_group (d : Delim) : optGenerics (.group d us :: r) = some ([], .group d us :: r) := rfl
@[ps] theorem optGenerics_F : optGenerics (.atom (.punct "<") :: .atom (.ident x) :: .atom (.punct ">") :: r) = some ([x], r) := rfl

@[ps] theorem toBrace_brace : toBrace (.group .brace us :: r) = some (us, r) := rfl
@[ps] theorem toBrace_paren : toBrace (.group .paren us :: r) = toBrace r := rfl
@[ps] theorem toBrace_atom (t : Atom) : toBrace (.atom t :: r) = toBrace r := rfl

@[ps] theorem eatSelf_nil : eatSelf [] = (none, []) := rfl
@[ps] theorem eatSelf_self : eatSelf [.atom (.ident "self")] = (some .value, []) := rfl
@[ps] theorem eatSelf_tagged : eatSelf (.atom (.ident "tagged") :: r) = (none, .atom (.ident "tagged") :: r) := rfl
@[ps] theorem eatSelf_tuple : eatSelf (.atom (.ident "tuple") :: r) = (none, .atom (.ident "tuple") :: r) := rfl
@[ps] theorem eatSelf_val : eatSelf (.atom (.ident "val") :: r) = (none, .atom (.ident "val") :: r) := rfl
@[ps] theorem eatSelf_variant : eatSelf (.atom (.ident "variant") :: r) = (none, .atom (.ident "variant") :: r) := rfl

@[ps] theorem pFn_s : pFn n attrs (.atom (.ident x) :: r) = match optGenerics r with
    | some (gs, .group .paren us :: r) =>
      match eatSelf us with
      | (self, us) => match pTyped n us with
        | none => none
        | some ps =>
          match (match eatP "->" r with
            | some r => (pTy n r).map fun x => (some x.1, x.2)
            | none => some (none, r)) with
          | none => none
          | some (ret, r) => match toBrace r with
            | none => none
            | some (us, r) => (pBlock n us).map fun ss => (⟨attrs, x, gs, self, ps, ret, ss⟩, r)
    | _ => none := rfl

@[ps] theorem pTyped_nil : pTyped (n + 1) [] = some [] := rfl
@[ps] theorem pTyped_ident [IsName x] : pTyped (n + 1) (.atom (.ident x) :: .atom (.punct ":") :: r) = match pTy n r with
    | none => none
    | some (t, r) => (pTyped n (match eatP "," r with
      | some r => r
      | none => r)).map ((x, t) :: ·) := by
  rw [pTyped]
  simp only [ps, if_false, if_true]
  rfl

@[ps] theorem pAttrs_metas (metas : List (List TT)) : pAttrs (TB.Macro.attrs metas ++ r) =
    (metas.map (fun m => [TT.frag .metaItem m]) ++ (pAttrs r).1, (pAttrs r).2) := by
  induction metas with
  | nil => rfl
  | cons m ms ih =>
    simp only [TB.Macro.attrs, List.flatMap_cons, ps] at ih ⊢
    simp [ih]

@[ps] theorem eatVis_frag : eatVis (.frag .vis us :: r) = r := rfl
end

instance : IsName "value" := ⟨by decide⟩

/-! ## The functions -/

theorem numbering_parse (decl : List VariantDef) (n : Nat) (rest : List TT) : pBlock (n + 1) (Spec.numbering decl ++ rest) =
    (pBlock n rest).map (Gen.numbering decl :: ·) := by
  simp [Spec.numbering, Gen.numbering, ps, variantNames_list]

attribute [ps] Gen.selfE Gen.boxT Gen.fromT Gen.containerT Gen.innerT Gen.total

theorem noArm_parse (en msg : String) [IsName en] (k : Nat) (hk : 50 ≤ k) : pArms k (rust% "discriminant => {
            #[allow(non_upper_case_globals)]
            panic!(
              «TT.atom (.lit msg)»,
              stringify!(«en»),
              ⟦__TAGGED_BOX_TOTAL_VARIANTS⟧,
              discriminant
            );
          }") = some [Gen.noArm en msg] := by
  obtain ⟨k, rfl⟩ : ∃ j, k = j + 50 := ⟨k - 50, by omega⟩
  rw [pArms_cons]
  simp [ps, Gen.noArm]

section
variable (en : String) (decl : List VariantDef) [hD : DNames en decl] (m : Nat) (hm : ∀ d ∈ decl, width d.fields + decl.length ≤ m)
  (hl : decl.length ≤ m)
include hm hl

theorem intoInner_parse (k : Nat) (hk : 300 ≤ k) : pBlock (m + k) (rust% "«Spec.numbering decl»
      unsafe {
        ⟦#[allow(unused_parens)]
        match ⟦self.value⟧.discriminant() {
          «decl.flatMap (Spec.unboxArm true en (rust% \"self.value\"))»
          _ => panic!(\"Attempted to create an enum variant from a discriminant that doesn't exist!\"),
        }⟧
      }") = some (Gen.intoInnerFn en decl).body := by
  obtain ⟨k, rfl⟩ : ∃ j, k = j + 300 := ⟨k - 300, by omega⟩
  have := hD.enum
  have h : ∀ j, 200 ≤ j → _ := fun j hj => unboxArms_parse en decl m hm hl (k + j) (by omega) true (rust% "self.value") Gen.selfValue (fun k hk => by
    obtain ⟨k, rfl⟩ : ∃ j, k = j + 20 := ⟨k - 20, by omega⟩
    simp [ps, Gen.selfValue]) (rust% "_ => panic!(\"Attempted to create an enum variant from a discriminant that doesn't exist!\"),")
    [(.wild, none, .mac "panic" [.lit Gen.innerMsg])] (fun k hk => by
    obtain ⟨k, rfl⟩ : ∃ j, k = j + 20 := ⟨k - 20, by omega⟩
    rw [pArms_cons]
    simp [ps, Gen.innerMsg])
  simp only [← Nat.add_assoc] at h ⊢
  rw [show m + k + 300 = m + k + 299 + 1 from rfl]
  simp only [toTT_list, numbering_parse]
  simp [ps, h, Gen.intoInnerFn, Gen.selfValue]

theorem intoBox_parse (k : Nat) (hk : 300 ≤ k) : pBlock (m + k) (rust% "«Spec.numbering decl»
      ⟦match ⟦self⟧ { «decl.flatMap (Spec.boxArm en)» }⟧") = some (Gen.intoBoxFn en decl).body := by
  obtain ⟨k, rfl⟩ : ∃ j, k = j + 300 := ⟨k - 300, by omega⟩
  have := hD.enum
  have h : ∀ j, 200 ≤ j → _ := fun j hj => boxArms_parse en decl m hm hl (k + j) (by omega)
  simp only [← Nat.add_assoc] at h ⊢
  rw [show m + k + 300 = m + k + 299 + 1 from rfl]
  simp only [toTT_list, numbering_parse]
  simp [ps, h, Gen.intoBoxFn]

theorem fromBox_parse (k : Nat) (hk : 300 ≤ k) : pBlock (m + k) (rust% "unsafe {
        «Spec.numbering decl»
        const __TAGGED_BOX_TOTAL_VARIANTS: usize = ⟦[«commas (decl.map fun d => rust% \"stringify!(«d.name»)\")»].len()⟧;
        ⟦#[allow(unused_parens)]
        match ⟦tagged⟧.discriminant() {
          «decl.flatMap (Spec.unboxArm false en (rust% \"tagged\"))»
          discriminant => {
            #[allow(non_upper_case_globals)]
            panic!(
              \"The number of variants in `{}` is {}, but a variant by the discriminant of {} was attempted to be created\",
              stringify!(«en»),
              ⟦__TAGGED_BOX_TOTAL_VARIANTS⟧,
              discriminant
            );
          }
        }⟧
      }") = some (Gen.fromBoxFn en decl).body := by
  obtain ⟨k, rfl⟩ : ∃ j, k = j + 300 := ⟨k - 300, by omega⟩
  have := hD.enum
  have h : ∀ j, 200 ≤ j → _ := fun j hj => unboxArms_parse en decl m hm hl (k + j) (by omega) false (rust% "tagged") (Gen.varE "tagged") (fun k hk => by
    obtain ⟨k, rfl⟩ : ∃ j, k = j + 20 := ⟨k - 20, by omega⟩
    simp [ps]) _ _ (noArm_parse en Gen.createMsg)
  have h1 : ∀ j, 20 ≤ j → _ := fun j hj => pExprs_strings decl (m + k + j) (fun d hd => (hD.variants d hd).name) (by omega)
  simp only [ps] at h1
  simp only [← Nat.add_assoc, Gen.createMsg, toTT_list, toTT_tt, toTT_string, List.cons_append, List.nil_append] at h ⊢
  simp [ps, h, h1, Spec.numbering, Gen.numbering, variantNames_list, Gen.fromBoxFn, Gen.createMsg, Gen.count]

theorem ref_parse (k : Nat) (hk : 300 ≤ k) : pBlock (m + k) (rust% "«Spec.numbering decl»
      const __TAGGED_BOX_TOTAL_VARIANTS: usize = ⟦[«commas (decl.map fun d => rust% \"stringify!(«d.name»)\")»].len()⟧;
      #[allow(unused_parens)]
      match ⟦tagged⟧.discriminant() {
        «decl.flatMap (Spec.lendArm en)»
        discriminant => {
          #[allow(non_upper_case_globals)]
          panic!(
            \"The number of variants in `{}` is {}, but a variant by the discriminant of {} was attempted to be referenced\",
            stringify!(«en»),
            ⟦__TAGGED_BOX_TOTAL_VARIANTS⟧,
            discriminant
          );
        }
      };") = some (Gen.refFn en decl).body := by
  obtain ⟨k, rfl⟩ : ∃ j, k = j + 300 := ⟨k - 300, by omega⟩
  have := hD.enum
  have h : ∀ j, 200 ≤ j → _ := fun j hj => lendArms_parse en decl m hm hl (k + j) (by omega) _ _ (.ident "discriminant" _ inferInstance)
    (noArm_parse en Gen.referenceMsg)
  have h1 : ∀ j, 20 ≤ j → _ := fun j hj => pExprs_strings decl (m + k + j) (fun d hd => (hD.variants d hd).name) (by omega)
  simp only [ps] at h1
  simp only [← Nat.add_assoc, Gen.referenceMsg, toTT_list, toTT_tt, toTT_string, List.cons_append, List.nil_append] at h ⊢
  simp [ps, h, h1, Spec.numbering, Gen.numbering, variantNames_list, Gen.refFn, Gen.referenceMsg, Gen.count]

end

/-! ## The implementations of `From` -/

section
variable (r : List TT)
@[ps] theorem skipSemi_crate : skipSemi (.crate :: r) = skipSemi r := rfl
@[ps] theorem skipSemi_ident (x : String) : skipSemi (.atom (.ident x) :: r) = skipSemi r := rfl
@[ps] theorem skipSemi_path : skipSemi (.atom (.punct "::") :: r) = skipSemi r := rfl
@[ps] theorem skipSemi_semi : skipSemi (.atom (.punct ";") :: r) = r := rfl
end

theorem fromImpl_tuple (sn en v : String) (tys : List Ty) (hne : ∀ t, tys ≠ [t]) :
    Spec.fromImpl sn en ⟨v, .tuple tys⟩ = rust% "impl From<(«tyListTrailing tys»)> for «sn» {
      #[inline]
      fn from(tuple: («tyListTrailing tys»)) -> Self {
        #![allow(unused_imports, unused_variables)]
        use $crate::TaggableInner;
        let variant: «en» = «Spec.rebuild (rust% \"«en»::«v»\") (rust% \"tuple\") tys.length»;
        Self { value: variant.into_tagged_box(), }
      }
    }" := by
  rcases tys with _ | ⟨t, _ | ⟨t', ts⟩⟩
  · rfl
  · exact absurd rfl (hne t)
  · rfl

theorem genFromImpl_tuple (sn en v : String) (tys : List Ty) (hne : ∀ t, tys ≠ [t]) :
    Gen.fromImpl sn en ⟨v, .tuple tys⟩ = [.impl [] [] (some (Gen.fromT (.tuple (tys.map .user)))) (Gen.varT sn) [.fn 
      ⟨[[.atom (.ident "inline")]], "from", [], none, [("tuple", .tuple (tys.map .user))], some (Gen.varT "Self"),
      [.useS, .letS (.bind "variant") (some (Gen.varT en)) (Gen.rebuildE (Gen.two en v) (Gen.varE "tuple") tys.length),
        .tail (Gen.selfE (.method (Gen.varE "variant") "into_tagged_box" [] []))]⟩]] := by
  rcases tys with _ | ⟨t, _ | ⟨t', ts⟩⟩
  · rfl
  · exact absurd rfl (hne t)
  · rfl

section
variable (sn en : String) (d : VariantDef) [IsName sn] [IsName en] [VNames d] (m : Nat) (hm : width d.fields ≤ m) (rest : List TT)
include hm

theorem fromImpl_parse : pItems (m + 200 + (Gen.fromImpl sn en d).length) (Spec.fromImpl sn en d ++ rest) =
    (pItems (m + 200) rest).map (Gen.fromImpl sn en d ++ ·) := by
  obtain ⟨v, fs⟩ := d
  have : IsName v := VNames.name (d := ⟨v, fs⟩)
  have tuples : ∀ tys : List Ty, tys.length ≤ m → (∀ t, tys ≠ [t]) →
      pItems (m + 200 + (Gen.fromImpl sn en ⟨v, .tuple tys⟩).length) (Spec.fromImpl sn en ⟨v, .tuple tys⟩ ++ rest) =
        (pItems (m + 200) rest).map (Gen.fromImpl sn en ⟨v, .tuple tys⟩ ++ ·) := by
    intro tys hl hne
    have h3 := fun k (hk : 20 ≤ k) => pTys_trailing tys (m + k) (by omega)
    rw [genFromImpl_tuple _ _ _ _ hne]
    obtain ⟨w, hw, hw'⟩ := rebuild_parse (rust% "«en»::«v»") (rust% "tuple")
      (Gen.two en v) (Gen.varE "tuple") tys.length m hl (two_path en v) (fun k hk => by
        obtain ⟨k, rfl⟩ : ∃ m, k = m + 60 := ⟨k - 60, by omega⟩
        rw [← Nat.add_assoc]
        simp [ps])
    rw [fromImpl_tuple _ _ _ _ hne, hw]
    simp [ps, h3, hw']
  cases fs with
  | unit => simp [Gen.fromImpl, Gen.fromFn, Spec.fromImpl]
  | tuple tys =>
    match tys with
    | [] => exact tuples [] (by simp) (by simp)
    | [t] => simp [Gen.fromImpl, Gen.fromFn, Spec.fromImpl, ps]
    | t :: t' :: ts => exact tuples (t :: t' :: ts) hm (by simp)
  | record ms => simp [Gen.fromImpl, Gen.fromFn, Spec.fromImpl]
end

theorem fromImpls_parse (sn en : String) [IsName sn] [IsName en] (m : Nat) (rest : List TT) : ∀ (ds : List VariantDef),
    (∀ d ∈ ds, VNames d ∧ width d.fields ≤ m) →
    pItems (m + 200 + (ds.flatMap (Gen.fromImpl sn en)).length) (ds.flatMap (Spec.fromImpl sn en) ++ rest) =
      (pItems (m + 200) rest).map (ds.flatMap (Gen.fromImpl sn en) ++ ·)
  | [], _ => by simp
  | d :: ds, h => by
    have ih := fromImpls_parse sn en m rest ds (fun x hx => h x (List.mem_cons_of_mem _ hx))
    obtain ⟨h1, h2⟩ := h d (by simp)
    have h3 := fromImpl_parse sn en d (m + (ds.flatMap (Gen.fromImpl sn en)).length) (by omega) (ds.flatMap (Spec.fromImpl sn en) ++ rest)
    rw [List.flatMap_cons, List.flatMap_cons, List.append_assoc, List.length_append,
      show m + 200 + ((Gen.fromImpl sn en d).length + (ds.flatMap (Gen.fromImpl sn en)).length) =
        m + (ds.flatMap (Gen.fromImpl sn en)).length + 200 + (Gen.fromImpl sn en d).length by omega, h3,
      show m + (ds.flatMap (Gen.fromImpl sn en)).length + 200 = m + 200 + (ds.flatMap (Gen.fromImpl sn en)).length by omega, ih]
    cases pItems (m + 200) rest <;> simp

/-! ## All items -/

/-- The width and the number of variants together. -/
def size (decl : List VariantDef) : Nat := (decl.map fun d => width d.fields).sum + decl.length

theorem le_sum_of_mem : ∀ (xs : List Nat) (x : Nat), x ∈ xs → x ≤ xs.sum
  | [], _, h => by simp at h
  | y :: ys, x, h => by
    rcases List.mem_cons.1 h with rfl | h
    · simp
    · have := le_sum_of_mem ys x h
      simp
      omega

theorem width_le_size {decl : List VariantDef} {d : VariantDef} (h : d ∈ decl) : width d.fields + decl.length ≤ size decl := by
  have := le_sum_of_mem (decl.map fun d => width d.fields) _ (List.mem_map_of_mem h)
  unfold size
  omega

theorem generated_parse₁ (metas : List (List TT)) (svis : List TT) (sn en : String) [IsName sn] (decl : List VariantDef) [hD : DNames en decl]
    (k : Nat) (hk : size decl ≤ k) (R : List TT) : pItems (k + 403) (rust% "
  «TB.Macro.attrs metas»
  #[repr(transparent)]
  «TT.frag .vis svis» struct «sn» {
    value: $crate::TaggedBox<«en»>,
  }

  impl $crate::TaggableContainer for «sn» {
    type Inner = «en»;

    fn into_inner(self) -> «en» {
      «Spec.numbering decl»
      unsafe {
        ⟦#[allow(unused_parens)]
        match ⟦self.value⟧.discriminant() {
          «decl.flatMap (Spec.unboxArm true en (rust% \"self.value\"))»
          _ => panic!(\"Attempted to create an enum variant from a discriminant that doesn't exist!\"),
        }⟧
      }
    }
  }

  impl From<«en»> for «sn» {
    #[inline]
    fn from(variant: «en») -> Self {
      use $crate::TaggableInner;
      Self { value: variant.into_tagged_box(), }
    }
  }

  «R»") = (pItems (k + 400) R).map (
      [.struct (metas.map (fun m => [TT.frag .metaItem m]) ++ [Gen.attr1 "repr" "transparent"]) sn [] [("value", Gen.boxT (Gen.varT en))],
      .impl [] [] (some Gen.containerT) (Gen.varT sn) [.type [] "Inner" (Gen.varT en), .fn (Gen.intoInnerFn en decl)],
      .impl [] [] (some (Gen.fromT (Gen.varT en))) (Gen.varT sn) [.fn (Gen.fromEnumFn en)]] ++ ·) := by
  have := hD.enum
  have h := intoInner_parse en decl k (fun d hd => Nat.le_trans (width_le_size hd) hk) (by unfold size at hk; omega)
  simp only [toTT_list, toTT_tt, toTT_string, List.cons_append, List.nil_append] at h ⊢
  simp [ps, h, Gen.intoInnerFn, Gen.fromEnumFn, Function.comp_def]

theorem generated_parse₂ (metas : List (List TT)) (evis : List TT) (en : String) (decl : List VariantDef) [hD : DNames en decl]
    (k : Nat) (hk : size decl ≤ k) : pItems (k + 400) (rust% "

  «TB.Macro.attrs metas»
  «TT.frag .vis evis» enum «en» { «decl.flatMap VariantDef.rust» }

  impl $crate::TaggableInner for «en» {
    fn into_tagged_box(self) -> $crate::TaggedBox<Self> {
      «Spec.numbering decl»
      ⟦match ⟦self⟧ { «decl.flatMap (Spec.boxArm en)» }⟧
    }

    fn from_tagged_box(tagged: $crate::TaggedBox<«en»>) -> Self {
      unsafe {
        «Spec.numbering decl»
        const __TAGGED_BOX_TOTAL_VARIANTS: usize = ⟦[«commas (decl.map fun d => rust% \"stringify!(«d.name»)\")»].len()⟧;
        ⟦#[allow(unused_parens)]
        match ⟦tagged⟧.discriminant() {
          «decl.flatMap (Spec.unboxArm false en (rust% \"tagged\"))»
          discriminant => {
            #[allow(non_upper_case_globals)]
            panic!(
              \"The number of variants in `{}` is {}, but a variant by the discriminant of {} was attempted to be created\",
              stringify!(«en»),
              ⟦__TAGGED_BOX_TOTAL_VARIANTS⟧,
              discriminant
            );
          }
        }⟧
      }
    }

    unsafe fn ref_from_tagged_box<F>(tagged: &$crate::TaggedBox<«en»>, callback: F)
    where
      F: FnOnce(&«en»),
    {
      «Spec.numbering decl»
      const __TAGGED_BOX_TOTAL_VARIANTS: usize = ⟦[«commas (decl.map fun d => rust% \"stringify!(«d.name»)\")»].len()⟧;
      #[allow(unused_parens)]
      match ⟦tagged⟧.discriminant() {
        «decl.flatMap (Spec.lendArm en)»
        discriminant => {
          #[allow(non_upper_case_globals)]
          panic!(
            \"The number of variants in `{}` is {}, but a variant by the discriminant of {} was attempted to be referenced\",
            stringify!(«en»),
            ⟦__TAGGED_BOX_TOTAL_VARIANTS⟧,
            discriminant
          );
        }
      };
    }
  }") = some
      [.enum (metas.map fun m => [TT.frag .metaItem m]) en (decl.flatMap VariantDef.rust),
        .impl [] [] (some Gen.innerT) (Gen.varT en) [.fn (Gen.intoBoxFn en decl), .fn (Gen.fromBoxFn en decl), .fn (Gen.refFn en decl)]] := by
  have := hD.enum
  have h1 := intoBox_parse en decl k (fun d hd => Nat.le_trans (width_le_size hd) hk) (by unfold size at hk; omega)
  have h2 := fromBox_parse en decl k (fun d hd => Nat.le_trans (width_le_size hd) hk) (by unfold size at hk; omega)
  have h3 := ref_parse en decl k (fun d hd => Nat.le_trans (width_le_size hd) hk) (by unfold size at hk; omega)
  simp only [toTT_list, toTT_tt, toTT_string, List.cons_append, List.nil_append] at h1 h2 h3 ⊢
  simp [ps, h1, h2, h3, Gen.intoBoxFn, Gen.fromBoxFn, Gen.refFn]

theorem generated_parse (metas : List (List TT)) (svis evis : List TT) (sn en : String) [IsName sn] (decl : List VariantDef) [hD : DNames en decl]
    (k : Nat) (hk : size decl + (decl.flatMap (Gen.fromImpl sn en)).length + 403 ≤ k) :
    pItems k (Spec.generated metas svis sn evis en decl) = some (Gen.items metas sn en decl) := by
  have := hD.enum
  obtain ⟨k, rfl⟩ : ∃ j, k = size decl + j + (decl.flatMap (Gen.fromImpl sn en)).length + 403 :=
    ⟨k - (size decl + (decl.flatMap (Gen.fromImpl sn en)).length + 403), by omega⟩
  refine (generated_parse₁ metas svis sn en decl _ (by omega) _).trans ?_
  rw [show size decl + k + (decl.flatMap (Gen.fromImpl sn en)).length + 400 =
    (size decl + k + 200) + 200 + (decl.flatMap (Gen.fromImpl sn en)).length by omega]
  have h := fromImpls_parse sn en (size decl + k + 200) (rust% "

  «TB.Macro.attrs metas»
  «TT.frag .vis evis» enum «en» { «decl.flatMap VariantDef.rust» }

  impl $crate::TaggableInner for «en» {
    fn into_tagged_box(self) -> $crate::TaggedBox<Self> {
      «Spec.numbering decl»
      ⟦match ⟦self⟧ { «decl.flatMap (Spec.boxArm en)» }⟧
    }

    fn from_tagged_box(tagged: $crate::TaggedBox<«en»>) -> Self {
      unsafe {
        «Spec.numbering decl»
        const __TAGGED_BOX_TOTAL_VARIANTS: usize = ⟦[«commas (decl.map fun d => rust% \"stringify!(«d.name»)\")»].len()⟧;
        ⟦#[allow(unused_parens)]
        match ⟦tagged⟧.discriminant() {
          «decl.flatMap (Spec.unboxArm false en (rust% \"tagged\"))»
          discriminant => {
            #[allow(non_upper_case_globals)]
            panic!(
              \"The number of variants in `{}` is {}, but a variant by the discriminant of {} was attempted to be created\",
              stringify!(«en»),
              ⟦__TAGGED_BOX_TOTAL_VARIANTS⟧,
              discriminant
            );
          }
        }⟧
      }
    }

    unsafe fn ref_from_tagged_box<F>(tagged: &$crate::TaggedBox<«en»>, callback: F)
    where
      F: FnOnce(&«en»),
    {
      «Spec.numbering decl»
      const __TAGGED_BOX_TOTAL_VARIANTS: usize = ⟦[«commas (decl.map fun d => rust% \"stringify!(«d.name»)\")»].len()⟧;
      #[allow(unused_parens)]
      match ⟦tagged⟧.discriminant() {
        «decl.flatMap (Spec.lendArm en)»
        discriminant => {
          #[allow(non_upper_case_globals)]
          panic!(
            \"The number of variants in `{}` is {}, but a variant by the discriminant of {} was attempted to be referenced\",
            stringify!(«en»),
            ⟦__TAGGED_BOX_TOTAL_VARIANTS⟧,
            discriminant
          );
        }
      };
    }
  }") decl (fun d hd => ⟨hD.variants d hd, by have := width_le_size hd; omega⟩)
  rw [generated_parse₂ metas evis en decl (size decl + k) (by omega)] at h
  refine (congrArg _ h).trans ?_
  simp [Gen.items]

end TB.Rust

import Verif.Lemmas.GsFrom
import Verif.Lemmas.PsItems

/-! # Running generated code: the items and their functions (helper lemmas; no property theorems here) -/

set_option autoImplicit false
set_option linter.unusedSectionVars false
set_option linter.unusedSimpArgs false

namespace TB.Rust

open TB TB.Macro TB.Mbe TB.Rust.Gen

variable {β : Type}

theorem toTys_users : ∀ tys : List Ty, toTys (tys.map .user) = some tys
  | [] => rfl
  | t :: ts => by simp [toTys, toTy, toTys_users ts]

theorem toMembers_users : ∀ ms : List (String × Ty), toMembers (ms.map fun m => (m.1, .user m.2)) = some ms
  | [] => rfl
  | m :: ms => by simp [toMembers, toTy, toMembers_users ms]

theorem pVariants_rust (k : Nat) : ∀ decl : List VariantDef, (∀ d ∈ decl, VNames d) → (∀ d ∈ decl, width d.fields + 2 ≤ k) →
    pVariants k (decl.flatMap VariantDef.rust) = some decl
  | [], _, _ => rfl
  | ⟨v, f⟩ :: ds, hn, hk => by
    have ih := pVariants_rust k ds (fun d h => hn d (by simp [h])) (fun d h => hk d (by simp [h]))
    have hw := hk ⟨v, f⟩ (by simp)
    rw [List.flatMap_cons]
    cases f with
    | unit =>
      show pVariants k (.atom (.ident v) :: .atom (.punct ",") :: ds.flatMap VariantDef.rust) = _
      simp [pVariants, ih]
    | tuple tys =>
      show pVariants k (.atom (.ident v) :: .group .paren (tyList tys) :: .atom (.punct ",") :: ds.flatMap VariantDef.rust) = _
      simp [pVariants, ih, pTys_tyList tys k hw, toTys_users]
    | record ms =>
      show pVariants k (.atom (.ident v) :: .group .brace (fieldList ms) :: .atom (.punct ",") :: ds.flatMap VariantDef.rust) = _
      have hp := pTyped_fields ms k ((hn ⟨v, .record ms⟩ (by simp)).fields ms rfl) hw
      simp [pVariants, ih, hp, toMembers_users]

theorem implFns_append : ∀ is js : List Item, implFns (is ++ js) = implFns is ++ implFns js
  | [], _ => rfl
  | i :: is, js => by
    have ih := implFns_append is js
    cases i with
    | impl a b tr t fs => cases tr <;> simp [implFns, ih]
    | _ => simp [implFns, ih]

/-- The function of one payload's `From`. -/
def payloadFn (sn en : String) (d : VariantDef) : List GFn := match fromFn en d with
  | some (t, f) => [⟨"From", sn, argTy t, f⟩]
  | none => []

/-- The functions of the generated items. -/
def genFns (sn en : String) (decl : List VariantDef) : List GFn :=
  ⟨"TaggableContainer", sn, none, intoInnerFn en decl⟩ :: ⟨"From", sn, some (.named en), fromEnumFn en⟩ :: (decl.flatMap (payloadFn sn en) ++
    [⟨"TaggableInner", en, none, intoBoxFn en decl⟩, ⟨"TaggableInner", en, none, fromBoxFn en decl⟩, ⟨"TaggableInner", en, none, refFn en decl⟩])

theorem implFns_from (sn en : String) : ∀ decl : List VariantDef, implFns (decl.flatMap (fromImpl sn en)) = decl.flatMap (payloadFn sn en)
  | [] => rfl
  | d :: ds => by
    rw [List.flatMap_cons, List.flatMap_cons, implFns_append, implFns_from sn en ds]
    congr 1
    unfold fromImpl payloadFn
    cases fromFn en d with
    | none => rfl
    | some p => rfl

theorem implFns_items (metas : List (List TT)) (sn en : String) (decl : List VariantDef) : implFns (items metas sn en decl) = genFns sn en decl := by
  rw [items, implFns_append, implFns_append, implFns_from]
  rfl

theorem enum_items (k : Nat) (metas : List (List TT)) (sn en : String) (decl : List VariantDef) (h : pVariants k (decl.flatMap VariantDef.rust) = some decl) :
    enum? k (items metas sn en decl) = some (en, decl) := by
  have hskip : ∀ ds : List VariantDef, ∀ r, enum? k (ds.flatMap (fromImpl sn en) ++ r) = enum? k r := by
    intro ds r
    induction ds with
    | nil => rfl
    | cons d ds ih =>
      rw [List.flatMap_cons, List.append_assoc]
      unfold fromImpl
      cases fromFn en d with
      | none => exact ih
      | some p => exact ih
  show enum? k (decl.flatMap (fromImpl sn en) ++ _) = _
  rw [hskip]
  simp [enum?, h]

/-- Reading the generated items. -/
theorem genCrate_eq (lib : Crate (Host β)) (rc : Rustc) (hd : Bool) (cb : EVal → M β) (metas : List (List TT)) (svis evis : List TT) (sn en : String) [IsName sn]
    (decl : List VariantDef) [hD : DNames en decl] (k : Nat) (hk : size decl + (decl.flatMap (Gen.fromImpl sn en)).length + 403 ≤ k) :
    genCrate k lib rc hd cb (Spec.generated metas svis sn evis en decl) = some ⟨lib, rc, hd, sn, en, decl, genFns sn en decl, cb⟩ := by
  have hv := pVariants_rust k decl hD.variants (fun d h => by
    have := le_sum_of_mem (decl.map fun d => width d.fields) (width d.fields) (List.mem_map.2 ⟨d, h, rfl⟩)
    unfold size at hk
    omega)
  have hs : structName? (items metas sn en decl) = some sn := rfl
  rw [genCrate, generated_parse metas svis evis sn en decl k hk]
  simp only [hs, enum_items k metas sn en decl hv, implFns_items]

theorem fromFn_arg {en : String} {d : VariantDef} {t : RTy} {f : Fn} (h : fromFn en d = some (t, f)) : argTy t = d.fields.fromTy ∧ f.name = "from" := by
  obtain ⟨v, fs⟩ := d
  match fs with
  | .unit => simp [fromFn] at h
  | .record _ => simp [fromFn] at h
  | .tuple [t1] =>
    simp only [fromFn, Option.some.injEq, Prod.mk.injEq] at h
    obtain ⟨rfl, rfl⟩ := h
    exact ⟨rfl, rfl⟩
  | .tuple [] =>
    simp only [fromFn, Option.some.injEq, Prod.mk.injEq] at h
    obtain ⟨rfl, rfl⟩ := h
    exact ⟨rfl, rfl⟩
  | .tuple (t1 :: t2 :: ts) =>
    simp only [fromFn, Option.some.injEq, Prod.mk.injEq] at h
    obtain ⟨rfl, rfl⟩ := h
    exact ⟨by simp only [argTy, toTys_users]; rfl, rfl⟩

theorem fromFn_none {en : String} {d : VariantDef} (h : fromFn en d = none) : d.fields.fromTy = none := by
  obtain ⟨v, fs⟩ := d
  match fs with
  | .unit => rfl
  | .record _ => rfl
  | .tuple [t1] => simp [fromFn] at h
  | .tuple [] => simp [fromFn] at h
  | .tuple (t1 :: t2 :: ts) => simp [fromFn] at h

section
variable (g : GCrate β) (sn en : String) (decl : List VariantDef)

theorem findImpl_inner : findImpl g "TaggableContainer" sn none "into_inner" (genFns sn en decl) = some (intoInnerFn en decl) := by
  simp [findImpl, genFns, intoInnerFn]

theorem findImpl_enum : findImpl g "From" sn (some (.named en)) "from" (genFns sn en decl) = some (fromEnumFn en) := by
  simp [findImpl, genFns, fromEnumFn]

theorem findImpl_payloads (tr self : String) (arg : Option Ty) (name : String) (r : List GFn) (h : tr ≠ "From") : ∀ ds : List VariantDef,
    findImpl g tr self arg name (ds.flatMap (payloadFn sn en) ++ r) = findImpl g tr self arg name r
  | [] => rfl
  | d :: ds => by
    have ih := findImpl_payloads tr self arg name r h ds
    rw [List.flatMap_cons, List.append_assoc]
    unfold payloadFn at ih ⊢
    cases fromFn en d with
    | none => exact ih
    | some p =>
      rw [List.singleton_append, findImpl, if_neg (fun hh => h hh.1.symm)]
      exact ih

theorem findImpl_into : findImpl g "TaggableInner" en none "into_tagged_box" (genFns sn en decl) = some (intoBoxFn en decl) := by
  rw [genFns, findImpl, if_neg (by simp), findImpl, if_neg (by simp), findImpl_payloads g sn en _ _ _ _ _ (by decide)]
  simp [findImpl, intoBoxFn]

theorem findImpl_fromBox : findImpl g "TaggableInner" en none "from_tagged_box" (genFns sn en decl) = some (fromBoxFn en decl) := by
  rw [genFns, findImpl, if_neg (by simp), findImpl, if_neg (by simp), findImpl_payloads g sn en _ _ _ _ _ (by decide)]
  simp [findImpl, intoBoxFn, fromBoxFn]

theorem findImpl_ref : findImpl g "TaggableInner" en none "ref_from_tagged_box" (genFns sn en decl) = some (refFn en decl) := by
  rw [genFns, findImpl, if_neg (by simp), findImpl, if_neg (by simp), findImpl_payloads g sn en _ _ _ _ _ (by decide)]
  simp [findImpl, intoBoxFn, fromBoxFn, refFn]

theorem findImpl_payload {d : VariantDef} {ty : Ty} (hty : d.fields.fromTy = some ty) {t : RTy} {f : Fn} (hf : fromFn en d = some (t, f))
    (hu : (g.rc.typeId (.named en) :: (decl.filterMap (·.fields.fromTy)).map g.rc.typeId).Nodup) (hmem : d ∈ decl) :
    findImpl g "From" sn (some ty) "from" (genFns sn en decl) = some f := by
  have hin : ∀ ds : List VariantDef, ∀ r, d ∈ ds → ((ds.filterMap (·.fields.fromTy)).map g.rc.typeId).Nodup →
      findImpl g "From" sn (some ty) "from" (ds.flatMap (payloadFn sn en) ++ r) = some f := by
    intro ds r
    induction ds with
    | nil => intro h; cases h
    | cons d' ds ih =>
      intro h hn
      rw [List.flatMap_cons, List.append_assoc]
      cases hf' : fromFn en d' with
      | none =>
        have h0 := fromFn_none hf'
        simp only [List.filterMap_cons, h0] at hn
        rw [payloadFn]
        simp only [hf', List.nil_append]
        rcases List.mem_cons.1 h with rfl | h
        · rw [hf] at hf'; cases hf'
        · exact ih h hn
      | some p =>
        obtain ⟨t', f'⟩ := p
        obtain ⟨ha, hname⟩ := fromFn_arg hf'
        rw [payloadFn]
        simp only [hf', List.singleton_append]
        rcases List.mem_cons.1 h with rfl | h
        · rw [hf] at hf'
          cases hf'
          rw [findImpl, if_pos ⟨rfl, rfl, by rw [ha, hty], hname⟩]
        · cases hft : d'.fields.fromTy with
          | none =>
            rw [hft] at ha
            have hn' : ((ds.filterMap (·.fields.fromTy)).map g.rc.typeId).Nodup := by simpa only [List.filterMap_cons, hft] using hn
            rw [findImpl, if_neg (by rw [ha]; simp)]
            exact ih h hn'
          | some ty' =>
            simp only [List.filterMap_cons, hft, List.map_cons, List.nodup_cons] at hn
            rw [hft] at ha
            rw [findImpl, if_neg (fun hh => hn.1 (List.mem_map.2 ⟨ty, List.mem_filterMap.2 ⟨d, h, hty⟩, by
              have := hh.2.2.1
              rw [ha] at this
              simpa using this.symm⟩))]
            exact ih h hn.2
  rw [List.nodup_cons] at hu
  have hne : ¬ g.rc.typeId (.named en) = g.rc.typeId ty := fun h => hu.1 (List.mem_map.2 ⟨ty, List.mem_filterMap.2 ⟨d, hmem, hty⟩, h.symm⟩)
  rw [genFns, findImpl, if_neg (by simp), findImpl, if_neg (by simp [hne])]
  exact hin decl _ hmem hu.2

end

end TB.Rust

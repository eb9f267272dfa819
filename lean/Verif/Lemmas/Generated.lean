import Verif.Lemmas.MbeTop
import Verif.Spec.Generated

/-! # The Rust code of the modelled program is the code the declaration stands for (no property theorems here) -/

set_option autoImplicit false

namespace TB.Spec

open TB.Mbe TB.Macro

theorem rebuild_eq (path e : List TT) (n : Nat) : (tupleExpOf n).rust path e = rebuild path e n := by
  unfold tupleExpOf rebuild
  split <;> rfl

theorem boxArm_eq (en : String) (d : VariantDef) : (intoArmOf d).rust en = boxArm en d := by
  obtain ⟨v, f⟩ := d
  cases f with
  | unit => rfl
  | record ms => simp [intoArmOf, IntoArm.rust, boxArm, disc, ToTT.toTT]
  | tuple tys =>
    match tys with
    | [] => rfl
    | [t] => rfl
    | t :: u :: tys => simp [intoArmOf, IntoArm.rust, boxArm, disc, ToTT.toTT, letters, armNames]

theorem unboxArm_eq (c : Bool) (en : String) (tg : List TT) (d : VariantDef) : (readArmOf c d).rust en tg = unboxArm c en tg d := by
  obtain ⟨v, f⟩ := d
  cases f with
  | unit => rfl
  | record ms => simp [readArmOf, ReadArm.rust, unboxArm, disc, ToTT.toTT]
  | tuple tys =>
    match tys with
    | [] => cases c <;> rfl
    | [t] => rfl
    | t :: u :: tys => cases c <;> simp [readArmOf, ReadArm.rust, unboxArm, disc, ToTT.toTT, rebuild_eq]

theorem lendArm_eq (en : String) (d : VariantDef) : (refArmOf d).rust en = lendArm en d := by
  obtain ⟨v, f⟩ := d
  cases f with
  | unit => rfl
  | record ms => simp [refArmOf, RefArm.rust, lendArm, disc, ToTT.toTT]
  | tuple tys =>
    match tys with
    | [] => rfl
    | [t] => rfl
    | t :: u :: tys => simp [refArmOf, RefArm.rust, lendArm, disc, ToTT.toTT, rebuild_eq]

theorem fromImpl_eq (sn en : String) (decl : List VariantDef) :
    (decl.filterMap fromImplOf).flatMap (FromImpl.rust sn en) = decl.flatMap (fromImpl sn en) := by
  induction decl with
  | nil => rfl
  | cons d decl ih =>
    obtain ⟨v, f⟩ := d
    cases f with
    | unit => simpa [List.filterMap_cons, fromImplOf, fromImpl] using ih
    | record ms => simpa [List.filterMap_cons, fromImplOf, fromImpl] using ih
    | tuple tys =>
      match tys with
      | [] => simp [fromImplOf, fromImpl, FromImpl.rust, ih, rebuild_eq]
      | [t] => simp [fromImplOf, fromImpl, FromImpl.rust, ih]
      | t :: u :: tys => simp [fromImplOf, fromImpl, FromImpl.rust, ih, rebuild_eq]

theorem generated_eq (metas : List (List TT)) (svis : List TT) (sn : String) (evis : List TT) (en : String) (hasDrop : Bool) (decl : List VariantDef) :
    (programOf sn en hasDrop decl).rust metas svis evis (decl.map (·.name)) = generated metas svis sn evis en decl := by
  have h1 : (fun d => (intoArmOf d).rust en) = boxArm en := funext fun d => boxArm_eq en d
  have h2 : ∀ c tg, (fun d => (readArmOf c d).rust en tg) = unboxArm c en tg := fun c tg => funext fun d => unboxArm_eq c en tg d
  have h3 : (fun d => (refArmOf d).rust en) = lendArm en := funext fun d => lendArm_eq en d
  simp only [programOf, Program.rust, generated, List.flatMap_map, h1, h2, h3, fromImpl_eq, numbering, counterRust, totalRust, List.map_map,
    Function.comp_def]

end TB.Spec

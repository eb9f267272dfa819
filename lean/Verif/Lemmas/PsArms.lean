import Verif.Lemmas.PsBase

/-! # Parsing the arms of the generated `match` expressions (helper lemmas; no property theorems here) -/

set_option autoImplicit false
set_option maxRecDepth 4000

namespace TB.Rust

open TB.Mbe TB.Macro

/-- The number of fields. -/
def width : Fields → Nat
  | .unit => 0
  | .tuple tys => tys.length
  | .record ms => ms.length

/-- The names of a variant are names. -/
class VNames (d : VariantDef) : Prop where
  name : IsName d.name
  fields : ∀ ms, d.fields = .record ms → ∀ m ∈ ms, IsName m.1

instance (d : VariantDef) [h : VNames d] : IsName d.name := h.name

theorem letters_isName (k : Nat) : ∀ x ∈ Spec.letters.take k, IsName x := by
  intro x hx
  have := List.mem_of_mem_take hx
  exact ⟨fun h => by
    have h1 : ∀ x ∈ Spec.letters, x ∉ kws := by decide
    exact h1 x this h⟩

/-- What may come after an arm without a comma. -/
inductive ArmsRest : List TT → Prop
  | nil : ArmsRest []
  | ident (x : String) (r : List TT) (h : IsName x) : ArmsRest (.atom (.ident x) :: r)

attribute [ps] Gen.one Gen.two Gen.varE Gen.varT Gen.discE Gen.boxFn Gen.ctr Gen.attr1 Gen.tupleS Gen.recordS Gen.recordE Gen.recordP
attribute [ps] List.length_map

section
variable (en : String) (d : VariantDef) [IsName en] [VNames d] (m : Nat) (hm : width d.fields ≤ m) (rest : List TT) (hr : ArmsRest rest)
include hm hr

theorem boxArm_parse : pArms (m + 61) (Spec.boxArm en d ++ rest) = (pArms (m + 60) rest).map (Gen.boxArm en d :: ·) := by
  obtain ⟨v, fs⟩ := d
  have : IsName v := VNames.name (d := ⟨v, fs⟩)
  unfold Spec.boxArm Gen.boxArm Spec.disc
  simp only
  cases fs with
  | unit =>
    simp only [ps]
    rw [pArms_cons]
    cases hr <;> simp [ps]
  | tuple tys =>
    match tys with
    | [] =>
      simp only [ps]
      rw [pArms_cons]
      cases hr <;> simp [ps]
    | [t] =>
      simp only [ps]
      rw [pArms_cons]
      cases hr <;> simp [ps]
    | t :: t' :: ts =>
      have h1 := pPats_names (Spec.letters.take (t :: t' :: ts).length) (m + 59) (letters_isName _)
        (by simp [width] at hm ⊢; omega)
      have h2 := fun k (hk : 20 ≤ k) => pExprs_names (Spec.letters.take (t :: t' :: ts).length) (m + k) (letters_isName _)
        (by simp [width] at hm ⊢; omega)
      have h3 := fun k (hk : 20 ≤ k) => pTys_tyList (t :: t' :: ts) (m + k) (by simp [width] at hm ⊢; omega)
      simp only [ps]
      generalize Spec.letters.take (t :: t' :: ts).length = xs at h1 h2 ⊢
      generalize t :: t' :: ts = tys at h3 ⊢
      rw [pArms_cons]
      cases hr <;> simp [ps, h1, h2, h3] <;> rfl
  | record ms =>
    have hn : ∀ x ∈ ms, IsName x.1 := VNames.fields (d := ⟨v, .record ms⟩) ms rfl
    have hn' : ∀ x ∈ ms.map (·.1), IsName x := by simpa using fun a b h => hn (a, b) h
    have h1 := pFieldPats_names (ms.map (·.1)) (m + 59) (by simp [width] at hm ⊢; omega)
    have h2 := fun k (hk : 20 ≤ k) => pFields_names (ms.map (·.1)) (m + k) (by simp [width] at hm ⊢; omega)
    have h3 := fun k (hk : 20 ≤ k) => pTyped_fields ms (m + k) hn (by simp [width] at hm ⊢; omega)
    simp only [ps]
    rw [pArms_cons]
    cases hr <;> simp [ps, h1, h2, h3]

end

/-- `path(tuple.0, ..)` parses. -/
theorem rebuild_parse (path e : List TT) (p : RPath) (eE : Expr) (n m : Nat) (hn : n ≤ m)
    (hp : ∀ k r, 10 ≤ k → pPath k (.frag .path path :: r) = some (p, r))
    (he : ∀ k, 60 ≤ k → pExpr (m + k) false 1 e = some (eE, [])) :
    ∃ u, Spec.rebuild path e n = [.frag .expr u] ∧ ∀ k, 110 ≤ k → pExpr (m + k) false 1 u = some (Gen.rebuildE p eE n, []) := by
  unfold Spec.rebuild Gen.rebuildE
  split
  · refine ⟨_, rfl, fun k hk => ?_⟩
    obtain ⟨k, rfl⟩ : ∃ m, k = m + 30 := ⟨k - 30, by omega⟩
    rw [← Nat.add_assoc]
    simp [ps, hp]
  · refine ⟨_, rfl, fun k hk => ?_⟩
    obtain ⟨k, rfl⟩ : ∃ m, k = m + 110 := ⟨k - 110, by omega⟩
    rw [← Nat.add_assoc]
    have h1 := fun j (hj : 20 ≤ j) => pExprs_access (List.range n) (m + k + j) (by simp; omega)
    have h2 : ∀ j, 60 ≤ j → pExpr (m + k + j) false 1 e = some (eE, []) := fun j hj => by rw [Nat.add_assoc]; exact he _ (by omega)
    have h3 := fun j r (hj : 10 ≤ j) => hp (m + k + j) r (by omega)
    simp [ps, h1, h2, h3]

theorem unboxArm_true (en v : String) (tg : List TT) (tys : List Ty) (hne : ∀ t, tys ≠ [t]) :
    Spec.unboxArm true en tg ⟨v, .tuple tys⟩ = rust% "discrim if discrim == __tagged_box_enum_counter::«v» as u8 => {
        #[allow(dead_code)]
        #[repr(C)]
        struct «v»(«tyList tys»);
        «Spec.rebuild (rust% \"«en»::«v»\") (rust% \"$crate::TaggedBox::<«en»>::into_inner::<«v»>(⟦«tg»⟧)\") tys.length»
      }," := by
  rcases tys with _ | ⟨t, _ | ⟨t', ts⟩⟩
  · rfl
  · exact absurd rfl (hne t)
  · rfl

theorem unboxArm_false (en v : String) (tg : List TT) (tys : List Ty) (hne : ∀ t, tys ≠ [t]) :
    Spec.unboxArm false en tg ⟨v, .tuple tys⟩ = rust% "discrim if discrim == __tagged_box_enum_counter::«v» as u8 => {
        «Spec.rebuild (rust% \"«en»::«v»\") (rust% \"$crate::TaggedBox::<«en»>::into_inner::<(«tyList tys»)>(⟦«tg»⟧)\") tys.length»
      }," := by
  rcases tys with _ | ⟨t, _ | ⟨t', ts⟩⟩
  · rfl
  · exact absurd rfl (hne t)
  · rfl

theorem lendArm_tuple (en v : String) (tys : List Ty) (hne : ∀ t, tys ≠ [t]) :
    Spec.lendArm en ⟨v, .tuple tys⟩ = rust% "discrim if discrim == __tagged_box_enum_counter::«v» as u8 => {
      #[repr(C)]
      struct «v»(«tyList tys»);
      #[allow(unused_variables)]
      let tuple: «v» = «Spec.rebuild (rust% \"«v»\") (rust% \"⟦tagged⟧.as_ptr::<«v»>().read()\") tys.length»;
      let variant: core::mem::ManuallyDrop<«en»> =
        core::mem::ManuallyDrop::<«en»>::new(«Spec.rebuild (rust% \"«en»::«v»\") (rust% \"tuple\") tys.length»);
      (⟦callback⟧)(&*variant);
    }" := by
  rcases tys with _ | ⟨t, _ | ⟨t', ts⟩⟩
  · rfl
  · exact absurd rfl (hne t)
  · rfl

theorem genUnboxArm_tuple (c : Bool) (en v : String) (tg : Expr) (tys : List Ty) (hne : ∀ t, tys ≠ [t]) :
    Gen.unboxArm c en tg ⟨v, .tuple tys⟩ = Gen.guarded v (
      if c then .block [Gen.tupleS [Gen.attr1 "allow" "dead_code", Gen.attr1 "repr" "C"] v tys,
        .tail (Gen.rebuildE (Gen.two en v) (.call (Gen.boxFn en "into_inner" (Gen.varT v)) [tg]) tys.length)]
      else .block [.tail (Gen.rebuildE (Gen.two en v) (.call (Gen.boxFn en "into_inner" (.tuple (tys.map .user))) [tg]) tys.length)]) := by
  rcases tys with _ | ⟨t, _ | ⟨t', ts⟩⟩
  · rfl
  · exact absurd rfl (hne t)
  · rfl

theorem genLendArm_tuple (en v : String) (tys : List Ty) (hne : ∀ t, tys ≠ [t]) :
    Gen.lendArm en ⟨v, .tuple tys⟩ = Gen.guarded v (.block [Gen.tupleS [Gen.attr1 "repr" "C"] v tys,
      .letS (.bind "tuple") (some (Gen.varT v)) (Gen.rebuildE (Gen.one v) (Gen.readE (Gen.varT v)) tys.length),
      Gen.letMd en [Gen.varT en] (Gen.rebuildE (Gen.two en v) (Gen.varE "tuple") tys.length),
      Gen.callS (.ref false (.un .deref (Gen.varE "variant")))]) := by
  rcases tys with _ | ⟨t, _ | ⟨t', ts⟩⟩
  · rfl
  · exact absurd rfl (hne t)
  · rfl

theorem two_path (en v : String) [IsName en] [IsName v] (k : Nat) (r : List TT) (hk : 10 ≤ k) :
    pPath k (.frag .path (rust% "«en»::«v»") :: r) = some (Gen.two en v, r) := by
  obtain ⟨k, rfl⟩ : ∃ m, k = m + 10 := ⟨k - 10, by omega⟩
  simp [ps]

theorem one_path (v : String) [IsName v] (k : Nat) (r : List TT) (hk : 10 ≤ k) :
    pPath k (.frag .path (rust% "«v»") :: r) = some (Gen.one v, r) := by
  obtain ⟨k, rfl⟩ : ∃ m, k = m + 10 := ⟨k - 10, by omega⟩
  simp [ps]

/-- A fact for all large fuels stays one when the fuel is written as a sum. -/
theorem fuel_shift {α : Type} {f : Nat → α} {a : α} {m N : Nat} (h : ∀ k, N ≤ k → f (m + k) = a) (k : Nat) : ∀ j, N ≤ j → f (m + k + j) = a :=
  fun j hj => by rw [Nat.add_assoc]; exact h _ (by omega)

section
variable (en : String) (d : VariantDef) [IsName en] [VNames d] (m : Nat) (hm : width d.fields ≤ m) (rest : List TT)
include hm

attribute [ps] Gen.guarded Gen.letMd Gen.callS Gen.mdT Gen.readE

theorem unboxArm_parse (c : Bool) (tg : List TT) (tgE : Expr) (htg : ∀ k, 20 ≤ k → pExpr (m + k) false 1 tg = some (tgE, [])) :
    pArms (m + 151) (Spec.unboxArm c en tg d ++ rest) = (pArms (m + 150) rest).map (Gen.unboxArm c en tgE d :: ·) := by
  obtain ⟨v, fs⟩ := d
  have : IsName v := VNames.name (d := ⟨v, fs⟩)
  have tuples : ∀ tys : List Ty, tys.length ≤ m → (∀ t, tys ≠ [t]) →
      pArms (m + 151) (Spec.unboxArm c en tg ⟨v, .tuple tys⟩ ++ rest) =
        (pArms (m + 150) rest).map (Gen.unboxArm c en tgE ⟨v, .tuple tys⟩ :: ·) := by
    intro tys hl hne
    have h3 := fun k (hk : 20 ≤ k) => pTys_tyList tys (m + k) (by omega)
    rw [genUnboxArm_tuple _ _ _ _ _ hne]
    cases c with
    | true =>
      obtain ⟨u, hu, hu'⟩ := rebuild_parse (rust% "«en»::«v»") (rust% "$crate::TaggedBox::<«en»>::into_inner::<«v»>(⟦«tg»⟧)")
        (Gen.two en v) (.call (Gen.boxFn en "into_inner" (Gen.varT v)) [tgE]) tys.length m hl (two_path en v) (fun k hk => by
          obtain ⟨k, rfl⟩ : ∃ m, k = m + 60 := ⟨k - 60, by omega⟩
          rw [← Nat.add_assoc]
          simp [ps, fuel_shift (f := fun n => pExpr n false 1 tg) htg])
      rw [unboxArm_true _ _ _ _ hne, hu]
      simp only [ps, if_true]
      rw [pArms_cons]
      simp [ps, h3, hu']
    | false =>
      obtain ⟨u, hu, hu'⟩ := rebuild_parse (rust% "«en»::«v»") (rust% "$crate::TaggedBox::<«en»>::into_inner::<(«tyList tys»)>(⟦«tg»⟧)")
        (Gen.two en v) (.call (Gen.boxFn en "into_inner" (.tuple (tys.map .user))) [tgE]) tys.length m hl (two_path en v) (fun k hk => by
          obtain ⟨k, rfl⟩ : ∃ m, k = m + 60 := ⟨k - 60, by omega⟩
          rw [← Nat.add_assoc]
          simp [ps, fuel_shift (f := fun n => pExpr n false 1 tg) htg, fuel_shift (f := fun n => pTys n (tyList tys)) h3])
      rw [unboxArm_false _ _ _ _ hne, hu]
      simp only [ps, if_false, Bool.false_eq_true]
      rw [pArms_cons]
      simp [ps, hu']
  cases fs with
  | unit =>
    unfold Spec.unboxArm Gen.unboxArm Spec.disc
    simp only [ps]
    rw [pArms_cons]
    simp [ps]
  | tuple tys =>
    match tys with
    | [] => exact tuples [] (by simp) (by simp)
    | [t] =>
      unfold Spec.unboxArm Gen.unboxArm Spec.disc
      simp only [ps]
      rw [pArms_cons]
      simp [ps, htg]
    | t :: t' :: ts => exact tuples (t :: t' :: ts) hm (by simp)
  | record ms =>
    unfold Spec.unboxArm Gen.unboxArm Spec.disc
    have hn : ∀ x ∈ ms, IsName x.1 := VNames.fields (d := ⟨v, .record ms⟩) ms rfl
    have h1 := fun k (hk : 20 ≤ k) => pFieldPats_names (ms.map (·.1)) (m + k) (by simp [width] at hm ⊢; omega)
    have h2 := fun k (hk : 20 ≤ k) => pFields_names (ms.map (·.1)) (m + k) (by simp [width] at hm ⊢; omega)
    have h3 := fun k (hk : 20 ≤ k) => pTyped_fields ms (m + k) hn (by simp [width] at hm ⊢; omega)
    simp only [ps]
    rw [pArms_cons]
    simp [ps, h1, h2, h3, htg]

theorem lendArm_parse (hr : ArmsRest rest) :
    pArms (m + 181) (Spec.lendArm en d ++ rest) = (pArms (m + 180) rest).map (Gen.lendArm en d :: ·) := by
  obtain ⟨v, fs⟩ := d
  have : IsName v := VNames.name (d := ⟨v, fs⟩)
  have tuples : ∀ tys : List Ty, tys.length ≤ m → (∀ t, tys ≠ [t]) →
      pArms (m + 181) (Spec.lendArm en ⟨v, .tuple tys⟩ ++ rest) =
        (pArms (m + 180) rest).map (Gen.lendArm en ⟨v, .tuple tys⟩ :: ·) := by
    intro tys hl hne
    have h3 := fun k (hk : 20 ≤ k) => pTys_tyList tys (m + k) (by omega)
    rw [genLendArm_tuple _ _ _ hne]
    obtain ⟨u, hu, hu'⟩ := rebuild_parse (rust% "«v»") (rust% "⟦tagged⟧.as_ptr::<«v»>().read()")
      (Gen.one v) (Gen.readE (Gen.varT v)) tys.length m hl (one_path v) (fun k hk => by
        obtain ⟨k, rfl⟩ : ∃ m, k = m + 60 := ⟨k - 60, by omega⟩
        rw [← Nat.add_assoc]
        simp [ps])
    obtain ⟨w, hw, hw'⟩ := rebuild_parse (rust% "«en»::«v»") (rust% "tuple")
      (Gen.two en v) (Gen.varE "tuple") tys.length m hl (two_path en v) (fun k hk => by
        obtain ⟨k, rfl⟩ : ∃ m, k = m + 60 := ⟨k - 60, by omega⟩
        rw [← Nat.add_assoc]
        simp [ps])
    rw [lendArm_tuple _ _ _ hne, hu, hw]
    simp only [ps]
    rw [pArms_cons]
    cases hr <;> simp [ps, h3, hu', hw']
  cases fs with
  | unit =>
    unfold Spec.lendArm Gen.lendArm Spec.disc
    simp only [ps]
    rw [pArms_cons]
    cases hr <;> simp [ps]
  | tuple tys =>
    match tys with
    | [] => exact tuples [] (by simp) (by simp)
    | [t] =>
      unfold Spec.lendArm Gen.lendArm Spec.disc
      simp only [ps]
      rw [pArms_cons]
      cases hr <;> simp [ps]
    | t :: t' :: ts => exact tuples (t :: t' :: ts) hm (by simp)
  | record ms =>
    unfold Spec.lendArm Gen.lendArm Spec.disc
    have hn : ∀ x ∈ ms, IsName x.1 := VNames.fields (d := ⟨v, .record ms⟩) ms rfl
    have h1 := fun k (hk : 20 ≤ k) => pFieldPats_names (ms.map (·.1)) (m + k) (by simp [width] at hm ⊢; omega)
    have h2 := fun k (hk : 20 ≤ k) => pFields_names (ms.map (·.1)) (m + k) (by simp [width] at hm ⊢; omega)
    have h3 := fun k (hk : 20 ≤ k) => pTyped_fields ms (m + k) hn (by simp [width] at hm ⊢; omega)
    simp only [ps]
    rw [pArms_cons]
    cases hr <;> simp [ps, h1, h2, h3]
end
end TB.Rust

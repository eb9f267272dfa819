import Verif.Lemmas.MacroExpand

/-! # rustc's checks on the expansion succeed exactly for well-formed declarations (no property theorems here) -/

set_option autoImplicit false

namespace TB.Macro

variable {rc : Rustc}

theorem lookupVar_mem {α : Type} {ms : List (String × α)} (hn : (ms.map (·.1)).Nodup) {m : String × α} (h : m ∈ ms) :
    lookupVar m.1 ms = some m.2 := by
  induction ms with
  | nil => cases h
  | cons x xs ih =>
    obtain ⟨k, v⟩ := x
    rw [List.map_cons, List.nodup_cons] at hn
    rcases List.mem_cons.1 h with rfl | h
    · simp [lookupVar]
    · have hne : k ≠ m.1 := fun e => hn.1 (List.mem_map.2 ⟨m, h, e.symm⟩)
      simp only [lookupVar, if_neg hne]
      exact ih hn.2 h

theorem lookupVar_zip {α : Type} {names : List String} {xs : List α} (hn : names.Nodup) (hl : names.length = xs.length) :
    names.map (fun a => lookupVar a (names.zip xs)) = xs.map some := by
  induction names generalizing xs with
  | nil => cases xs with
    | nil => rfl
    | cons => simp at hl
  | cons n ns ih =>
    cases xs with
    | nil => simp at hl
    | cons x xs =>
      rw [List.nodup_cons] at hn
      simp only [List.zip_cons_cons, List.map_cons, lookupVar, if_true]
      congr 1
      rw [← ih hn.2 (by simpa using hl)]
      apply List.map_congr_left
      intro a ha
      rw [if_neg (fun e => hn.1 (by rw [e]; exact ha))]

theorem getElem?_range {α : Type} (xs : List α) : (List.range xs.length).map (fun i => xs[i]?) = xs.map some := by
  apply List.ext_getElem?
  intro i
  by_cases h : i < xs.length
  · simp [List.getElem?_range, h]
  · simp [h, List.getElem?_eq_none (Nat.not_lt.1 h)]

theorem sameTy_refl (t : Ty) : sameTy rc t t = true := by simp [sameTy]

theorem argsOK_refl (ts : List Ty) : argsOK rc (ts.map some) ts = true := by
  induction ts with
  | nil => rfl
  | cons t ts ih => simp [argsOK, sameTy_refl, ih]

theorem expOK_self (ts : List Ty) : expOK rc (tupleExpOf ts.length) ts ts = true := by
  cases ts with
  | nil => rfl
  | cons t ts =>
    have : tupleExpOf (t :: ts).length = .access (List.range (t :: ts).length) := by
      simp [tupleExpOf]
    rw [this]
    simp only [expOK]
    rw [getElem?_range]
    exact argsOK_refl _

theorem coversRecord_self {ms : List (String × Ty)} (hn : (ms.map (·.1)).Nodup) {ty : String → Option Ty}
    (hty : ∀ m ∈ ms, ty m.1 = some m.2) : coversRecord rc (ms.map (·.1)) ty ms = true := by
  simp only [coversRecord, Bool.and_eq_true, decide_eq_true_eq, beq_iff_eq, List.length_map, List.all_eq_true]
  refine ⟨⟨hn, trivial⟩, fun m hm => ?_⟩
  rw [hty m hm]
  refine ⟨?_, sameTy_refl _⟩
  rw [List.contains_iff_mem]
  exact List.mem_map.2 ⟨m, hm, rfl⟩

theorem lookupDef_mem {decl : List VariantDef} (hn : (decl.map (·.name)).Nodup) {d : VariantDef} (h : d ∈ decl) :
    lookupDef decl d.name = some d.fields := by
  induction decl with
  | nil => cases h
  | cons x xs ih =>
    rw [List.map_cons, List.nodup_cons] at hn
    rcases List.mem_cons.1 h with rfl | h
    · simp [lookupDef]
    · have hne : x.name ≠ d.name := fun e => hn.1 (List.mem_map.2 ⟨d, h, e.symm⟩)
      have := ih hn.2 h
      unfold lookupDef at this ⊢
      rw [List.find?_cons, beq_eq_false_iff_ne.2 hne]
      exact this

/-- What scoping demands of a variant. -/
structure DefScoped (en : String) (d : VariantDef) : Prop where
  reserved : d.name ∉ d.fields.reserved en
  capture : d.fields.multi = true → ∀ t ∈ d.fields.types, ¬ Occurs d.name t
  hidden : ∀ t ∈ d.fields.types, ¬ Occurs "Self" t ∧ ¬ Occurs "F" t ∧ ¬ Occurs "__tagged_box_enum_counter" t

/-- What `Drop` demands of a variant. -/
def DefCopy (rc : Rustc) (hd : Bool) (d : VariantDef) : Prop := hd = true → ∀ t ∈ d.fields.types, rc.isCopy t = true

mutual
theorem mentions_iff {x : String} : (t : Ty) → (t.mentions x = true ↔ Occurs x t)
  | .named s => by
    rw [Ty.mentions, beq_iff_eq]
    exact ⟨fun h => h ▸ .named, fun h => by cases h; rfl⟩
  | .app h args => by
    rw [Ty.mentions, Bool.or_eq_true, beq_iff_eq, mentionsList_iff args]
    constructor
    · rintro (rfl | ⟨t, ht, ho⟩)
      · exact .head
      · exact .arg ht ho
    · intro ho
      cases ho with
      | head => exact .inl rfl
      | arg ht ho => exact .inr ⟨_, ht, ho⟩
  | .tuple ts => by
    rw [Ty.mentions, mentionsList_iff ts]
    exact ⟨fun ⟨t, ht, ho⟩ => .comp ht ho, fun ho => by cases ho with | comp ht ho => exact ⟨_, ht, ho⟩⟩
theorem mentionsList_iff {x : String} : (ts : List Ty) → (Ty.mentionsList x ts = true ↔ ∃ t ∈ ts, Occurs x t)
  | [] => by simp [Ty.mentionsList]
  | t :: ts => by rw [Ty.mentionsList, Bool.or_eq_true, mentions_iff t, mentionsList_iff ts]; simp
end

theorem clear_iff {names : List String} {tys : List Ty} :
    clear names tys = true ↔ ∀ t ∈ tys, ∀ x ∈ names, ¬ Occurs x t := by
  simp [clear, ← mentions_iff]

theorem localOK_iff {used : List String} {v : String} {tys : List Ty} :
    localOK used v tys = true ↔ v ∉ used ∧ ∀ t ∈ tys, ¬ Occurs v t ∧ ¬ Occurs "Self" t := by
  simp [localOK, clear_iff, List.contains_iff_mem]

theorem armNames_take_length {tys : List Ty} (h : tys.length ≤ 32) : (armNames.take tys.length).length = tys.length := by
  rw [List.length_take]
  have : armNames.length = 32 := rfl
  omega

theorem bool_imp {a : Bool} {p : Prop} : ((!a) = true ∨ p) ↔ (a = true → p) := by
  cases a <;> simp

theorem all_copy {ts : List Ty} : ts.all rc.isCopy = true ↔ ∀ t ∈ ts, rc.isCopy t = true := List.all_eq_true

section

variable {sn en : String} {hd : Bool} {decl : List VariantDef}

theorem contains_name {d : VariantDef} (h : d ∈ decl) : (decl.map (·.name)).contains d.name = true := by
  rw [List.contains_iff_mem]; exact List.mem_map.2 ⟨d, h, rfl⟩

theorem intoArm_ok (hn : (decl.map (·.name)).Nodup)
    (hm : ∀ d ∈ decl, ∀ ms, d.fields = .record ms → (ms.map (·.1)).Nodup) (ha : ArityOK decl)
    {d : VariantDef} (h : d ∈ decl) (hw : DefCopy rc hd d) :
    IntoArm.ok rc (programOf sn en hd decl) (intoArmOf d) = true := by
  have hl := lookupDef_mem hn h
  have hc : (programOf sn en hd decl).counter.contains d.name = true := contains_name h
  obtain ⟨v, f⟩ := d
  simp only at hl
  have hl' : lookupDef (programOf sn en hd decl).defs v = some f := hl
  have hcopy : ((!(programOf sn en hd decl).hasDrop) = true ∨ ∀ t ∈ f.types, rc.isCopy t = true) :=
    bool_imp.2 hw
  cases f with
  | unit => simp only [intoArmOf, IntoArm.ok, hl', hc]; rfl
  | record ms =>
    have hms := hm _ h ms rfl
    simp only [intoArmOf, IntoArm.ok, hl', hc, Bool.true_and, Bool.and_eq_true, decide_eq_true_eq, Bool.or_eq_true]
    refine ⟨hms, ⟨?_, coversRecord_self hms (fun m hm' => lookupVar_mem hms hm')⟩,
      coversRecord_self hms (fun m hm' => ?_)⟩
    · rcases hcopy with h | h
      · exact .inl h
      · right; rw [List.all_eq_true]; intro m hm'; exact h _ (List.mem_map.2 ⟨m, hm', rfl⟩)
    · rw [if_pos (by rw [List.contains_iff_mem]; exact List.mem_map.2 ⟨m, hm', rfl⟩)]
      exact lookupVar_mem hms hm'
  | tuple tys =>
    match tys, hl', hw, hcopy with
    | [], hl', _, _ => simp only [intoArmOf, IntoArm.ok, hl', hc]; rfl
    | [t], hl', _, hcopy =>
      simp only [intoArmOf, IntoArm.ok, hl', hc, sameTy_refl, beq_self_eq_true, Bool.true_and, Bool.or_eq_true]
      rcases hcopy with h | h
      · exact .inl h
      · exact .inr (h t (by simp [Fields.types]))
    | t :: t' :: ts, hl', hw, hcopy =>
      have h32 := ha _ h _ rfl
      have hlen := armNames_take_length h32
      have hnd : (armNames.take (t :: t' :: ts).length).Nodup := armNames_nodup.sublist (List.take_sublist _ _)
      simp only [intoArmOf, IntoArm.ok, hl', hc, Bool.true_and, Bool.and_eq_true, decide_eq_true_eq,
        Bool.or_eq_true, beq_iff_eq]
      refine ⟨hnd, ⟨hlen.symm, ?_⟩, ?_⟩
      · rcases hcopy with h | h
        · exact .inl h
        · right; rw [List.all_eq_true]; intro x hx; exact h x hx
      · rw [lookupVar_zip hnd hlen]; exact argsOK_refl _

theorem recordOK_self (hn : (decl.map (·.name)).Nodup) {v : String} {ms : List (String × Ty)}
    (hms : (ms.map (·.1)).Nodup) (h : (⟨v, .record ms⟩ : VariantDef) ∈ decl) :
    recordOK rc (programOf sn en hd decl) v ms (ms.map (·.1)) (ms.map (·.1)) = true := by
  have hl' : lookupDef (programOf sn en hd decl).defs v = some (.record ms) := lookupDef_mem hn h
  simp only [recordOK, hl', Bool.true_and, Bool.and_eq_true, decide_eq_true_eq]
  refine ⟨⟨hms, coversRecord_self hms (fun m hm' => lookupVar_mem hms hm')⟩, coversRecord_self hms (fun m hm' => ?_)⟩
  rw [if_pos (by rw [List.contains_iff_mem]; exact List.mem_map.2 ⟨m, hm', rfl⟩)]
  exact lookupVar_mem hms hm'

theorem readArm_ok (hn : (decl.map (·.name)).Nodup)
    (hm : ∀ d ∈ decl, ∀ ms, d.fields = .record ms → (ms.map (·.1)).Nodup)
    {d : VariantDef} (h : d ∈ decl) (c : Bool) :
    ReadArm.ok rc (programOf sn en hd decl) (readArmOf c d) = true := by
  have hl := lookupDef_mem hn h
  have hc : (programOf sn en hd decl).counter.contains d.name = true := contains_name h
  obtain ⟨v, f⟩ := d
  simp only at hl
  have hl' : lookupDef (programOf sn en hd decl).defs v = some f := hl
  cases f with
  | unit => simp only [readArmOf, ReadArm.ok, hl', hc]; rfl
  | record ms =>
    simp only [readArmOf, ReadArm.ok, hc, recordOK_self hn (hm _ h ms rfl) h]; rfl
  | tuple tys =>
    match tys, hl' with
    | [], hl' =>
      cases c <;> simp only [readArmOf, ReadArm.ok, hl', hc, if_true, if_false, Bool.false_eq_true] <;> rfl
    | [t], hl' =>
      simp only [readArmOf, ReadArm.ok, hl', hc, sameTy_refl]; rfl
    | t :: t' :: ts, hl' =>
      have he := expOK_self (rc := rc) (t :: t' :: ts)
      cases c <;> simp only [readArmOf, ReadArm.ok, hl', hc, if_true, if_false, Bool.false_eq_true, he] <;> rfl

theorem refArm_ok (hn : (decl.map (·.name)).Nodup)
    (hm : ∀ d ∈ decl, ∀ ms, d.fields = .record ms → (ms.map (·.1)).Nodup)
    {d : VariantDef} (h : d ∈ decl) :
    RefArm.ok rc (programOf sn en hd decl) (refArmOf d) = true := by
  have hl := lookupDef_mem hn h
  have hc : (programOf sn en hd decl).counter.contains d.name = true := contains_name h
  obtain ⟨v, f⟩ := d
  simp only at hl
  have hl' : lookupDef (programOf sn en hd decl).defs v = some f := hl
  cases f with
  | unit => simp only [refArmOf, RefArm.ok, hl', hc]; rfl
  | record ms =>
    simp only [refArmOf, RefArm.ok, hc, recordOK_self hn (hm _ h ms rfl) h]; rfl
  | tuple tys =>
    match tys, hl' with
    | [], hl' =>
      simp only [refArmOf, RefArm.ok, hl', hc]; rfl
    | [t], hl' =>
      simp only [refArmOf, RefArm.ok, hl', hc, sameTy_refl]; rfl
    | t :: t' :: ts, hl' =>
      have he := expOK_self (rc := rc) (t :: t' :: ts)
      simp only [refArmOf, RefArm.ok, hl', hc, he]; rfl

theorem fromImpl_ok (hn : (decl.map (·.name)).Nodup) {d : VariantDef} (h : d ∈ decl) {f : FromImpl}
    (hf : fromImplOf d = some f) : FromImpl.ok rc (programOf sn en hd decl) f = true := by
  have hl := lookupDef_mem hn h
  obtain ⟨v, fl⟩ := d
  simp only at hl
  have hl' : lookupDef (programOf sn en hd decl).defs v = some fl := hl
  cases fl with
  | unit => cases hf
  | record ms => cases hf
  | tuple tys =>
    match tys, hf, hl' with
    | [], hf, hl' => cases hf; simp only [FromImpl.ok, hl']; rfl
    | [t], hf, hl' => cases hf; simp only [FromImpl.ok, hl', sameTy_refl]
    | t :: t' :: ts, hf, hl' => cases hf; simp only [FromImpl.ok, hl']; exact expOK_self _

theorem intoArm_covers (d : VariantDef) : IntoArm.covers d.name (intoArmOf d) = true := by
  obtain ⟨v, f⟩ := d
  cases f with
  | unit => simp [intoArmOf, IntoArm.covers]
  | record ms => simp [intoArmOf, IntoArm.covers]
  | tuple tys =>
    match tys with
    | [] => simp [intoArmOf, IntoArm.covers]
    | [t] => simp [intoArmOf, IntoArm.covers]
    | t :: t' :: ts => simp [intoArmOf, IntoArm.covers]

/-- The other direction: the checks enforce `Copy`. -/
theorem defCopy_of_ok (hn : (decl.map (·.name)).Nodup) {d : VariantDef} (h : d ∈ decl)
    (h1 : IntoArm.ok rc (programOf sn en hd decl) (intoArmOf d) = true) : DefCopy rc hd d := by
  have hl := lookupDef_mem hn h
  obtain ⟨v, f⟩ := d
  simp only at hl
  have hl' : lookupDef (programOf sn en hd decl).defs v = some f := hl
  cases f with
  | unit => exact fun _ t ht => by cases ht
  | record ms =>
    simp only [intoArmOf, IntoArm.ok, hl', Bool.and_eq_true, Bool.or_eq_true] at h1
    obtain ⟨_, ⟨hcp, _⟩, _⟩ := h1
    intro hdt t ht
    have := bool_imp.1 hcp hdt
    rw [List.all_eq_true] at this
    obtain ⟨m, hm, rfl⟩ := List.mem_map.1 ht
    exact this m hm
  | tuple tys =>
    match tys, hl', h1 with
    | [], hl', h1 => exact fun _ t ht => by cases ht
    | [t], hl', h1 =>
      simp only [intoArmOf, IntoArm.ok, hl', Bool.and_eq_true, Bool.or_eq_true] at h1
      intro hdt x hx
      have := bool_imp.1 h1.2.2 hdt
      simp only [Fields.types, List.mem_singleton] at hx
      rw [hx]; exact this
    | t :: t' :: ts, hl', h1 =>
      simp only [intoArmOf, IntoArm.ok, hl', Bool.and_eq_true, Bool.or_eq_true] at h1
      obtain ⟨_, ⟨_, hcp⟩, _⟩ := h1
      intro hdt x hx
      have := bool_imp.1 hcp hdt
      rw [List.all_eq_true] at this
      exact this x hx

theorem typesOK_iff {cfg : Config} (hn : (decl.map (·.name)).Nodup)
    (hm : ∀ d ∈ decl, ∀ ms, d.fields = .record ms → (ms.map (·.1)).Nodup) (ha : ArityOK decl) :
    (programOf sn en hd decl).typesOK rc cfg = true ↔ cfg.discrBits = 8 ∧ ∀ d ∈ decl, DefCopy rc hd d := by
  constructor
  · intro h
    simp only [Program.typesOK, Bool.and_eq_true, beq_iff_eq, List.all_eq_true] at h
    obtain ⟨⟨⟨⟨⟨⟨h8, hi⟩, _⟩, _⟩, _⟩, _⟩, _⟩ := h
    exact ⟨h8, fun d hdm => defCopy_of_ok hn hdm (hi _ (List.mem_map.2 ⟨d, hdm, rfl⟩))⟩
  · rintro ⟨h8, hw⟩
    simp only [Program.typesOK, Bool.and_eq_true, beq_iff_eq, List.all_eq_true, List.any_eq_true]
    refine ⟨⟨⟨⟨⟨⟨h8, ?_⟩, ?_⟩, ?_⟩, ?_⟩, ?_⟩, ?_⟩
    · intro a ham
      obtain ⟨d, hdm, rfl⟩ := List.mem_map.1 ham
      exact intoArm_ok hn hm ha hdm (hw d hdm)
    · intro d hdm
      exact ⟨_, List.mem_map.2 ⟨d, hdm, rfl⟩, intoArm_covers d⟩
    · intro a ham
      obtain ⟨d, hdm, rfl⟩ := List.mem_map.1 ham
      exact readArm_ok hn hm hdm true
    · intro a ham
      obtain ⟨d, hdm, rfl⟩ := List.mem_map.1 ham
      exact readArm_ok hn hm hdm false
    · intro a ham
      obtain ⟨d, hdm, rfl⟩ := List.mem_map.1 ham
      exact refArm_ok hn hm hdm
    · intro f hfm
      obtain ⟨d, hdm, hf⟩ := List.mem_filterMap.1 hfm
      exact fromImpl_ok hn hdm hf

theorem exists_unit_iff : (decl.map refArmOf).any RefArm.usesCore = true ↔ ∃ d ∈ decl, d.fields ≠ .unit := by
  rw [List.any_eq_true]
  constructor
  · rintro ⟨a, ha, hu⟩
    obtain ⟨d, hd, rfl⟩ := List.mem_map.1 ha
    refine ⟨d, hd, fun hf => ?_⟩
    obtain ⟨v, f⟩ := d
    cases hf
    cases hu
  · rintro ⟨d, hd, hf⟩
    refine ⟨_, List.mem_map.2 ⟨d, hd, rfl⟩, ?_⟩
    obtain ⟨v, f⟩ := d
    cases f with
    | unit => exact absurd rfl hf
    | record ms => rfl
    | tuple tys =>
      match tys with
      | [] => rfl
      | [t] => rfl
      | t :: t' :: ts => rfl

theorem exists_from_iff : (decl.filterMap fromImplOf).isEmpty = true ↔ ¬ ∃ d ∈ decl, d.fields.fromTy ≠ none := by
  rw [List.isEmpty_iff, List.filterMap_eq_nil_iff]
  constructor
  · rintro h ⟨d, hd, hf⟩
    have := h d hd
    obtain ⟨v, f⟩ := d
    cases f with
    | unit => exact hf rfl
    | record ms => exact hf rfl
    | tuple tys =>
      match tys with
      | [] => cases this
      | [t] => cases this
      | t :: t' :: ts => cases this
  · intro h d hd
    have hn : d.fields.fromTy = none := Classical.byContradiction fun hf => h ⟨d, hd, hf⟩
    obtain ⟨v, f⟩ := d
    cases f with
    | unit => rfl
    | record ms => rfl
    | tuple tys =>
      match tys with
      | [] => cases hn
      | [t] => cases hn
      | t :: t' :: ts => cases hn

theorem usual_iff {x : String} : usual rc (programOf sn en hd decl) x = true ↔ UsualName rc sn en x := by
  simp [usual, UsualName, programOf, List.contains_iff_mem, not_or]

theorem defScoped_iff {d : VariantDef} :
    (IntoArm.scopeOK (programOf sn en hd decl) (intoArmOf d) = true ∧
      ReadArm.scopeOK (programOf sn en hd decl) ["Self", counterName] (readArmOf true d) = true ∧
      ReadArm.scopeOK (programOf sn en hd decl) [counterName] (readArmOf false d) = true ∧
      RefArm.scopeOK (programOf sn en hd decl) (refArmOf d) = true ∧
      ∀ f, fromImplOf d = some f → FromImpl.scopeOK f = true) ↔ DefScoped en d := by
  have hP : (programOf sn en hd decl).enumName = en := rfl
  have hc : counterName = "__tagged_box_enum_counter" := rfl
  obtain ⟨v, f⟩ := d
  cases f with
  | unit =>
    refine ⟨fun _ => ⟨by simp [Fields.reserved], fun h => (by cases h), fun t ht => (by cases ht)⟩, fun _ => ⟨rfl, rfl, rfl, rfl, ?_⟩⟩
    intro f hf; cases hf
  | record ms =>
    simp only [intoArmOf, IntoArm.scopeOK, readArmOf, ReadArm.scopeOK, refArmOf, RefArm.scopeOK, hP, Bool.and_eq_true, clear_iff,
      localOK_iff, hc]
    constructor
    · rintro ⟨⟨h1, h2, h3⟩, ⟨h4, -⟩, -, ⟨h5, h6, -⟩, -⟩
      refine ⟨?_, fun _ t ht => (h3 t ht).1, fun t ht => ⟨(h3 t ht).2, h5 t ht _ (by simp), h1 t ht _ (by simp)⟩⟩
      simp only [List.mem_cons, List.not_mem_nil, or_false, not_or] at h2 h6
      simp [Fields.reserved, h2, h6]
    · rintro ⟨h1, h2, h3⟩
      simp only [Fields.reserved, List.mem_cons, List.not_mem_nil, or_false, not_or] at h1
      have h2 : ∀ t ∈ ms.map (·.2), ¬ Occurs v t := h2 rfl
      have h3 : ∀ t ∈ ms.map (·.2), _ := h3
      have hl : ∀ t ∈ ms.map (·.2), ¬ Occurs v t ∧ ¬ Occurs "Self" t := fun t ht => ⟨h2 t ht, (h3 t ht).1⟩
      refine ⟨⟨fun t ht x hx => ?_, ?_, hl⟩, ⟨fun t ht x hx => ?_, ?_, hl⟩, ⟨fun t ht x hx => ?_, ?_, hl⟩,
        ⟨fun t ht x hx => ?_, ?_, hl⟩, fun f hf => by cases hf⟩
      all_goals first
        | (simp only [List.mem_cons, List.not_mem_nil, or_false] at hx
           first
             | (subst hx; simp [h3 t ht])
             | (rcases hx with rfl | rfl <;> simp [h3 t ht]))
        | simp [h1]
  | tuple tys =>
    match tys with
    | [] =>
      have h1 : readArmOf true ⟨v, .tuple []⟩ = ⟨v, v, .ctuple [] .noEval⟩ := rfl
      have h2 : readArmOf false ⟨v, .tuple []⟩ = ⟨v, v, .rtuple [] .noEval⟩ := rfl
      have h3 : refArmOf ⟨v, .tuple []⟩ = ⟨v, v, .tuple [] .noEval .noEval⟩ := rfl
      rw [h1, h2, h3]
      simp only [intoArmOf, IntoArm.scopeOK, ReadArm.scopeOK, RefArm.scopeOK, hP, Bool.and_eq_true, clear_iff, localOK_iff,
        TupleExp.vars, List.append_nil]
      constructor
      · rintro ⟨-, -, -, ⟨-, h, -⟩, -⟩
        exact ⟨h, fun _ t ht => (by cases ht), fun t ht => (by cases ht)⟩
      · rintro ⟨h, -, -⟩
        have h : v ∉ [en, "core", "callback", "tuple", "variant"] := h
        refine ⟨trivial, ⟨by simp, ?_, by simp⟩, by simp, ⟨by simp, h, by simp⟩, fun f hf => ?_⟩
        · simp only [List.mem_cons, not_or] at h ⊢
          simp [h]
        · cases hf; rfl
    | [t] =>
      have h1 : readArmOf true ⟨v, .tuple [t]⟩ = ⟨v, v, .single t⟩ := rfl
      have h2 : readArmOf false ⟨v, .tuple [t]⟩ = ⟨v, v, .single t⟩ := rfl
      have h3 : refArmOf ⟨v, .tuple [t]⟩ = ⟨v, v, .single t⟩ := rfl
      rw [h1, h2, h3]
      simp only [intoArmOf, IntoArm.scopeOK, ReadArm.scopeOK, RefArm.scopeOK, clear_iff, hc]
      constructor
      · rintro ⟨-, h1, -, h2, -⟩
        refine ⟨by simp [Fields.reserved], fun h => (by cases h), fun x hx => ⟨?_, ?_, ?_⟩⟩
        · exact h1 x hx _ (by simp)
        · exact h2 x hx _ (by simp)
        · exact h1 x hx _ (by simp)
      · rintro ⟨-, -, h⟩
        have h := h t (by simp [Fields.types])
        refine ⟨?_, ?_, ?_, ?_, fun f hf => ?_⟩
        · simp [h]
        · simp [h]
        · simp [h]
        · simp [h]
        · cases hf
          simp [FromImpl.scopeOK, clear_iff, h]
    | t :: t' :: ts =>
      have h1 : readArmOf true ⟨v, .tuple (t :: t' :: ts)⟩ =
          ⟨v, v, .ctuple (t :: t' :: ts) (.access (List.range (t :: t' :: ts).length))⟩ := rfl
      have h2 : readArmOf false ⟨v, .tuple (t :: t' :: ts)⟩ =
          ⟨v, v, .rtuple (t :: t' :: ts) (.access (List.range (t :: t' :: ts).length))⟩ := rfl
      have h3 : refArmOf ⟨v, .tuple (t :: t' :: ts)⟩ =
          ⟨v, v, .tuple (t :: t' :: ts) (.access (List.range (t :: t' :: ts).length)) (.access (List.range (t :: t' :: ts).length))⟩ := rfl
      rw [h1, h2, h3]
      have hr : v ∉ Fields.reserved en (.tuple (t :: t' :: ts)) ↔ (v ∉ [en, "core", "__tagged_box_enum_counter", "u8", "tagged", "callback",
          "tuple", "variant"] ∧ v ∉ armNames.take (t :: t' :: ts).length) := by
        have : Fields.reserved en (.tuple (t :: t' :: ts)) = [en, "core", "__tagged_box_enum_counter", "u8", "tagged", "callback",
          "tuple", "variant"] ++ armNames.take (t :: t' :: ts).length := rfl
        rw [this, List.mem_append, not_or]
      have hft : (⟨v, .tuple (t :: t' :: ts)⟩ : VariantDef).fields.types = t :: t' :: ts := rfl
      have hd : DefScoped en ⟨v, .tuple (t :: t' :: ts)⟩ ↔ (v ∉ Fields.reserved en (.tuple (t :: t' :: ts)) ∧
          (∀ x ∈ t :: t' :: ts, ¬ Occurs v x) ∧ ∀ x ∈ t :: t' :: ts, ¬ Occurs "Self" x ∧ ¬ Occurs "F" x ∧
            ¬ Occurs "__tagged_box_enum_counter" x) :=
        ⟨fun h => ⟨h.reserved, h.capture rfl, h.hidden⟩, fun h => ⟨h.1, fun _ => h.2.1, h.2.2⟩⟩
      rw [hd, hr]
      simp only [intoArmOf, IntoArm.scopeOK, ReadArm.scopeOK, RefArm.scopeOK, hP, Bool.and_eq_true, clear_iff, localOK_iff,
        TupleExp.vars, hc]
      generalize t :: t' :: ts = tys
      constructor
      · rintro ⟨⟨h1, h2, h3⟩, ⟨h4, -⟩, -, ⟨h5, h6, -⟩, -⟩
        refine ⟨⟨?_, fun h => h2 (by simp [h])⟩, fun x hx => (h3 x hx).1, fun x hx => ⟨(h3 x hx).2, h5 x hx _ (by simp), h1 x hx _ (by simp)⟩⟩
        simp only [List.mem_cons, List.mem_append, List.not_mem_nil, or_false, not_or] at h2 h6
        simp [h2, h6]
      · rintro ⟨⟨h1, h2⟩, h3, h4⟩
        have hl : ∀ x ∈ tys, ¬ Occurs v x ∧ ¬ Occurs "Self" x := fun x hx => ⟨h3 x hx, (h4 x hx).1⟩
        simp only [List.mem_cons, List.not_mem_nil, or_false, not_or] at h1
        refine ⟨⟨fun x hx y hy => ?_, ?_, hl⟩, ⟨fun x hx y hy => ?_, ?_, hl⟩, fun x hx y hy => ?_, ⟨fun x hx y hy => ?_, ?_, hl⟩,
          fun f hf => ?_⟩
        · rw [List.mem_singleton.1 hy]; exact (h4 x hx).2.2
        · simp [h1, h2]
        · simp only [List.mem_cons, List.not_mem_nil, or_false] at hy
          rcases hy with rfl | rfl <;> simp [h4 x hx]
        · simp [h1]
        · rw [List.mem_singleton.1 hy]; exact (h4 x hx).2.2
        · simp only [List.mem_cons, List.not_mem_nil, or_false] at hy
          rcases hy with rfl | rfl <;> simp [h4 x hx]
        · simp [h1]
        · match tys, hf with
          | [], hf => cases hf; rfl
          | [x], hf => cases hf; simp [FromImpl.scopeOK, clear_iff, h4 x]
          | x :: y :: zs, hf =>
            cases hf
            rw [FromImpl.scopeOK, clear_iff]
            intro x hx y hy
            rw [List.mem_singleton.1 hy]; exact (h4 x hx).1

theorem scopeOK_iff : (programOf sn en hd decl).scopeOK rc = true ↔
    (∀ x ∈ ["u8", "usize", "From", "FnOnce"], UsualName rc sn en x) ∧
    ((∃ d ∈ decl, d.fields ≠ .unit) → UsualName rc sn en "core") ∧
    (en ≠ "F" ∧ en ≠ "__tagged_box_enum_counter" ∧ ((∃ d ∈ decl, d.fields.fromTy ≠ none) → en ≠ "TaggableInner")) ∧
    ∀ d ∈ decl, DefScoped en d := by
  have hc : counterName = "__tagged_box_enum_counter" := rfl
  have hcore := exists_unit_iff (decl := decl)
  have hfrom := exists_from_iff (decl := decl)
  have h1 : (["u8", "usize", "From", "FnOnce"].all (usual rc (programOf sn en hd decl)) = true) ↔
      ∀ x ∈ ["u8", "usize", "From", "FnOnce"], UsualName rc sn en x := by
    rw [List.all_eq_true]; simp only [usual_iff]
  have h2 : ((!(decl.map refArmOf).any RefArm.usesCore || usual rc (programOf sn en hd decl) "core") = true) ↔
      ((∃ d ∈ decl, d.fields ≠ .unit) → UsualName rc sn en "core") := by
    rw [Bool.or_eq_true, bool_imp, hcore, usual_iff]
  have h3 : ((![ "F", counterName].contains en) = true) ↔ (en ≠ "F" ∧ en ≠ "__tagged_box_enum_counter") := by
    simp [List.contains_iff_mem, not_or, hc]
  have h4 : (((decl.filterMap fromImplOf).isEmpty || en != "TaggableInner") = true) ↔
      ((∃ d ∈ decl, d.fields.fromTy ≠ none) → en ≠ "TaggableInner") := by
    rw [Bool.or_eq_true, hfrom, bne_iff_ne]
    exact ⟨fun h hx => h.resolve_left (fun hn => hn hx), fun h => (Classical.em _).elim (fun hx => .inr (h hx)) .inl⟩
  have h5 : ((decl.map intoArmOf).all (IntoArm.scopeOK (programOf sn en hd decl)) = true ∧
      (decl.map (readArmOf true)).all (ReadArm.scopeOK (programOf sn en hd decl) ["Self", counterName]) = true ∧
      (decl.map (readArmOf false)).all (ReadArm.scopeOK (programOf sn en hd decl) [counterName]) = true ∧
      (decl.map refArmOf).all (RefArm.scopeOK (programOf sn en hd decl)) = true ∧
      (decl.filterMap fromImplOf).all FromImpl.scopeOK = true) ↔ ∀ d ∈ decl, DefScoped en d := by
    simp only [List.all_eq_true, List.mem_map, List.mem_filterMap]
    constructor
    · rintro ⟨a1, a2, a3, a4, a5⟩ d hdm
      exact (defScoped_iff (sn := sn) (hd := hd) (decl := decl)).1 ⟨a1 _ ⟨d, hdm, rfl⟩, a2 _ ⟨d, hdm, rfl⟩, a3 _ ⟨d, hdm, rfl⟩, a4 _ ⟨d, hdm, rfl⟩, fun f hf => a5 f ⟨d, hdm, hf⟩⟩
    · intro h
      have h' := fun d hdm => (defScoped_iff (sn := sn) (hd := hd) (decl := decl)).2 (h d hdm)
      refine ⟨?_, ?_, ?_, ?_, ?_⟩
      · rintro _ ⟨d, hdm, rfl⟩; exact (h' d hdm).1
      · rintro _ ⟨d, hdm, rfl⟩; exact (h' d hdm).2.1
      · rintro _ ⟨d, hdm, rfl⟩; exact (h' d hdm).2.2.1
      · rintro _ ⟨d, hdm, rfl⟩; exact (h' d hdm).2.2.2.1
      · rintro f ⟨d, hdm, hf⟩; exact (h' d hdm).2.2.2.2 f hf
  rw [← h1, ← h2, ← h5, ← h4]
  unfold Program.scopeOK
  simp only [Bool.and_eq_true]
  constructor
  · rintro ⟨⟨⟨⟨⟨⟨⟨⟨a1, a2⟩, a3⟩, a4⟩, a5⟩, a6⟩, a7⟩, a8⟩, a9⟩
    exact ⟨a1, a2, ⟨(h3.1 a3).1, (h3.1 a3).2, a4⟩, a5, a6, a7, a8, a9⟩
  · rintro ⟨a1, a2, ⟨a3, a3', a4⟩, a5, a6, a7, a8, a9⟩
    exact ⟨⟨⟨⟨⟨⟨⟨⟨a1, a2⟩, h3.2 ⟨a3, a3'⟩⟩, a4⟩, a5⟩, a6⟩, a7⟩, a8⟩, a9⟩

theorem identsOK_iff : (programOf sn en hd decl).identsOK rc = true ↔
    rc.isKeyword sn = false ∧ rc.isKeyword en = false ∧
      ∀ d ∈ decl, rc.isKeyword d.name = false ∧ ∀ ms, d.fields = .record ms → ∀ m ∈ ms, rc.isKeyword m.1 = false := by
  simp only [Program.identsOK, Bool.and_eq_true, Bool.not_eq_true', List.all_eq_true, and_assoc]
  have hds : (programOf sn en hd decl).defs = decl := rfl
  rw [hds]
  refine and_congr Iff.rfl (and_congr Iff.rfl (forall_congr' fun d => imp_congr Iff.rfl (and_congr Iff.rfl ?_)))
  cases hf : d.fields with
  | unit => simp
  | tuple tys => simp
  | record ms => simp

theorem namesOK_iff : (programOf sn en hd decl).namesOK = true ↔
    (decl.map (·.name)).Nodup ∧ ∀ d ∈ decl, ∀ ms, d.fields = .record ms → (ms.map (·.1)).Nodup := by
  simp only [Program.namesOK, Bool.and_eq_true, decide_eq_true_eq, List.all_eq_true]
  constructor
  · rintro ⟨⟨h1, _⟩, h3⟩
    refine ⟨h1, fun d hdm ms hms => ?_⟩
    have := h3 d hdm
    rw [hms] at this
    simpa using this
  · rintro ⟨h1, h3⟩
    refine ⟨⟨h1, h1⟩, fun d hdm => ?_⟩
    cases hf : d.fields with
    | record ms => simpa using h3 d hdm ms hf
    | _ => rfl

theorem fromTypes_eq : (programOf sn en hd decl).fromTypes rc =
    rc.typeId (.named sn) :: rc.typeId (.named en) :: (decl.filterMap (·.fields.fromTy)).map rc.typeId := by
  simp only [Program.fromTypes, programOf]
  congr 2
  induction decl with
  | nil => rfl
  | cons d ds ih =>
    obtain ⟨v, f⟩ := d
    cases f with
    | unit =>
      rw [List.filterMap_cons_none (by rfl), List.filterMap_cons_none (by rfl)]
      exact ih
    | record ms =>
      rw [List.filterMap_cons_none (by rfl), List.filterMap_cons_none (by rfl)]
      exact ih
    | tuple tys =>
      match tys with
      | [] => simpa [fromImplOf, Fields.fromTy, FromImpl.srcTy] using ih
      | [t] => simpa [fromImplOf, Fields.fromTy, FromImpl.srcTy] using ih
      | t :: t' :: ts => simpa [fromImplOf, Fields.fromTy, FromImpl.srcTy] using ih

end

theorem compile_ok {cfg : Config} {sn en : String} {hd : Bool} {ts : List Tok} {P : Program} :
    compile rc cfg sn en hd ts = .ok P ↔
      ∃ decl, DeclSyntax rc ts decl ∧ WellFormed rc cfg sn en hd decl ∧ P = programOf sn en hd decl := by
  unfold compile
  constructor
  · intro h
    split at h
    · cases h
    · rename_i P' he
      obtain ⟨decl, hne, hD, ha, rfl⟩ := expand_ok.1 he
      split at h
      · cases h
      · rename_i h0
        split at h
        · cases h
        · rename_i h1
          split at h
          · cases h
          · rename_i hs
            split at h
            · cases h
            · rename_i h2
              split at h
              · cases h
              · rename_i h3
                cases h
                have h0 : (programOf sn en hd decl).identsOK rc = true := by simpa using h0
                have h1 : (programOf sn en hd decl).namesOK = true := by simpa using h1
                have hs : (programOf sn en hd decl).scopeOK rc = true := by simpa using hs
                have h2 : ((programOf sn en hd decl).fromTypes rc).Nodup := by simpa using h2
                have h3 : (programOf sn en hd decl).typesOK rc cfg = true := by simpa using h3
                obtain ⟨n1, n2⟩ := namesOK_iff.1 h1
                obtain ⟨t1, t2⟩ := (typesOK_iff n1 n2 ha).1 h3
                obtain ⟨s1, s2, s3, s4⟩ := scopeOK_iff.1 hs
                exact ⟨decl, hD, {
                  nonempty := hne, arity := ha, names := n1, members := n2, froms := fromTypes_eq ▸ h2
                  idents := identsOK_iff.1 h0, prelude := s1, core := s2, enumOK := s3
                  reserved := fun d hdm => (s4 d hdm).reserved
                  capture := fun d hdm => (s4 d hdm).capture
                  hidden := fun d hdm => (s4 d hdm).hidden
                  u8 := t1, copy := fun hh d hdm => t2 d hdm hh }, rfl⟩
  · rintro ⟨decl, hD, hw, rfl⟩
    have he : expand rc sn en hd ts = .ok (programOf sn en hd decl) :=
      expand_ok.2 ⟨decl, hw.nonempty, hD, hw.arity, rfl⟩
    have h0 : (programOf sn en hd decl).identsOK rc = true := identsOK_iff.2 hw.idents
    have h1 : (programOf sn en hd decl).namesOK = true := namesOK_iff.2 ⟨hw.names, hw.members⟩
    have hs : (programOf sn en hd decl).scopeOK rc = true := scopeOK_iff.2 ⟨hw.prelude, hw.core, hw.enumOK, fun d hdm =>
      ⟨hw.reserved d hdm, hw.capture d hdm, hw.hidden d hdm⟩⟩
    have h2 : decide (((programOf sn en hd decl).fromTypes rc).Nodup) = true := by
      rw [decide_eq_true_eq, fromTypes_eq]; exact hw.froms
    have h3 : (programOf sn en hd decl).typesOK rc cfg = true :=
      (typesOK_iff hw.names hw.members hw.arity).2 ⟨hw.u8, fun d hdm hh => hw.copy hh d hdm⟩
    simp [he, h0, h1, hs, h2, h3]

end TB.Macro

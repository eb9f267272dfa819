import Verif.Lemmas.MacroParse

/-! # What `tagged_box!` expands to (no property theorems here) -/

set_option autoImplicit false

namespace TB.Macro

variable {rc : Rustc}

/-! ## The tuple tables -/

/-- The variable names used by the tuple macros. -/
def armNames : List String :=
  ["a", "b", "c", "d", "e", "f", "g", "h", "i", "j", "k", "l", "m", "n", "o", "p", "q", "r", "s", "t", "u", "v", "w", "x",
   "y", "z", "aa", "bb", "cc", "dd", "ee", "ff"]

theorem armNames_nodup : armNames.Nodup := by decide

theorem expandTupleTable_find : ∀ n ∈ List.range 33, 1 ≤ n →
    expandTupleTable.find? (fun a => a.params.length == n) = some ⟨armNames.take n, List.range n⟩ := by
  decide

theorem expandTupleArmTable_find : ∀ n ∈ List.range 33, 1 ≤ n →
    expandTupleArmTable.find? (fun a => a.params.length == n) = some ⟨armNames.take n, armNames.take n, armNames.take n⟩ := by
  decide

theorem expandTupleTable_len : ∀ a ∈ expandTupleTable, a.params.length ≤ 32 := by decide
theorem expandTupleArmTable_len : ∀ a ∈ expandTupleArmTable, a.params.length ≤ 32 := by decide

/-- The expansion for `n` types. -/
def tupleExpOf (n : Nat) : TupleExp := if n = 0 then .noEval else .access (List.range n)

theorem expandTuple_ok {tys : List Ty} (h : tys.length ≤ 32) : expandTuple tys = .ok (tupleExpOf tys.length) := by
  cases tys with
  | nil => rfl
  | cons t ts =>
    have := expandTupleTable_find (t :: ts).length (List.mem_range.2 (by omega)) (by simp)
    simp only [expandTuple, this, tupleExpOf]
    rw [if_neg (by simp)]

theorem expandTuple_err {tys : List Ty} (h : ¬ tys.length ≤ 32) : expandTuple tys = .error .tooManyFields := by
  cases tys with
  | nil => simp at h
  | cons t ts =>
    have : expandTupleTable.find? (fun a => a.params.length == (t :: ts).length) = none := by
      rw [List.find?_eq_none]
      intro a ha e
      have := expandTupleTable_len a ha
      rw [beq_iff_eq] at e
      omega
    simp only [expandTuple, this]

theorem expandTupleArm_ok {tys : List Ty} (h : tys.length ≤ 32) :
    expandTupleArm tys = .ok (if tys.length = 0 then .dangling else
      .pack (armNames.take tys.length) (armNames.take tys.length)) := by
  cases tys with
  | nil => rfl
  | cons t ts =>
    have := expandTupleArmTable_find (t :: ts).length (List.mem_range.2 (by omega)) (by simp)
    simp only [expandTupleArm, this]
    rw [if_neg (by simp)]

theorem expandTupleArm_err {tys : List Ty} (h : ¬ tys.length ≤ 32) : expandTupleArm tys = .error .noRules := by
  cases tys with
  | nil => simp at h
  | cons t ts =>
    have : expandTupleArmTable.find? (fun a => a.params.length == (t :: ts).length) = none := by
      rw [List.find?_eq_none]
      intro a ha e
      have := expandTupleArmTable_len a ha
      rw [beq_iff_eq] at e
      omega
    simp only [expandTupleArm, this]

/-! ## Closed form of the expansion -/

/-- The arm of `into_tagged_box` for a variant. -/
def intoArmOf (d : VariantDef) : IntoArm :=
  match d.fields with
  | .unit => .dangling d.name false d.name
  | .tuple [] => .dangling d.name true d.name
  | .tuple [t] => .single d.name "var" t "var" d.name
  | .tuple tys => .tuple d.name (armNames.take tys.length) tys (armNames.take tys.length) d.name
  | .record ms => .record d.name (ms.map (·.1)) ms (ms.map (·.1)) d.name

/-- The arm of `into_inner` (`c := true`) or `from_tagged_box` for a variant. -/
def readArmOf (c : Bool) (d : VariantDef) : ReadArm :=
  ⟨d.name, d.name, match d.fields with
    | .unit => .unit
    | .tuple [t] => .single t
    | .tuple tys => if c then .ctuple tys (tupleExpOf tys.length) else .rtuple tys (tupleExpOf tys.length)
    | .record ms => .record ms (ms.map (·.1)) (ms.map (·.1))⟩

/-- The arm of `ref_from_tagged_box` for a variant. -/
def refArmOf (d : VariantDef) : RefArm :=
  ⟨d.name, d.name, match d.fields with
    | .unit => .unit
    | .tuple [t] => .single t
    | .tuple tys => .tuple tys (tupleExpOf tys.length) (tupleExpOf tys.length)
    | .record ms => .record ms (ms.map (·.1)) (ms.map (·.1))⟩

/-- The `From` implementation for a variant. -/
def fromImplOf (d : VariantDef) : Option FromImpl :=
  match d.fields with
  | .unit => none
  | .tuple [t] => some (.single d.name t)
  | .tuple tys => some (.tuple d.name tys (tupleExpOf tys.length))
  | .record _ => none

/-- The whole expansion of a declaration. -/
def programOf (structName enumName : String) (hasDrop : Bool) (decl : List VariantDef) : Program where
  structName := structName
  enumName := enumName
  hasDrop := hasDrop
  defs := decl
  counter := decl.map (·.name)
  total := decl.length
  into := decl.map intoArmOf
  inner := decl.map (readArmOf true)
  fromB := decl.map (readArmOf false)
  ref := decl.map refArmOf
  froms := decl.filterMap fromImplOf

/-- Tuple variants have at most 32 fields. -/
def ArityOK (decl : List VariantDef) : Prop := ∀ d ∈ decl, ∀ tys, d.fields = .tuple tys → tys.length ≤ 32

theorem run_iff {α : Type} {arms : List (Arm α)} {g : VariantDef → Except CErr α}
    (hm : ∀ ts, firstMatch rc arms ts = (parseVariant rc ts).map (fun p => (g p.1, p.2)))
    {ts : List Tok} {as : List α} :
    runMacro rc arms ts = .ok as ↔ ∃ decl, DeclSyntax rc ts decl ∧ EmitAll g decl as :=
  munch_ok hm (Nat.le_refl _)

/-- Emission functions of the eight macros. -/
def gEnum : VariantDef → Except CErr VariantDef := emit4 (makeEnumArms[0]'(by decide)).2 (makeEnumArms[1]'(by decide)).2 (makeEnumArms[3]'(by decide)).2
def gCounter : VariantDef → Except CErr String := emit4 (counterEnumArms[0]'(by decide)).2 (counterEnumArms[1]'(by decide)).2 (counterEnumArms[3]'(by decide)).2
def gCount : VariantDef → Except CErr String :=
  emit4 (countVariantsArms[0]'(by decide)).2 (countVariantsArms[1]'(by decide)).2 (countVariantsArms[3]'(by decide)).2
def gInto : VariantDef → Except CErr IntoArm :=
  emit5 (intoBoxArms[0]'(by decide)).2 (intoBoxArms[1]'(by decide)).2 (intoBoxArms[2]'(by decide)).2 (intoBoxArms[4]'(by decide)).2
def gInner : VariantDef → Except CErr ReadArm :=
  emit5 (boxedIntoInnerArms[0]'(by decide)).2 (boxedIntoInnerArms[1]'(by decide)).2 (boxedIntoInnerArms[2]'(by decide)).2 (boxedIntoInnerArms[4]'(by decide)).2
def gFrom : VariantDef → Except CErr ReadArm :=
  emit5 (fromTaggedBoxArms[0]'(by decide)).2 (fromTaggedBoxArms[1]'(by decide)).2 (fromTaggedBoxArms[2]'(by decide)).2 (fromTaggedBoxArms[4]'(by decide)).2
def gRef : VariantDef → Except CErr RefArm :=
  emit5 (refFromTaggedArms[0]'(by decide)).2 (refFromTaggedArms[1]'(by decide)).2 (refFromTaggedArms[2]'(by decide)).2 (refFromTaggedArms[4]'(by decide)).2
def gDerive : VariantDef → Except CErr (Option FromImpl) :=
  emit5 (deriveFromArms[0]'(by decide)).2 (deriveFromArms[1]'(by decide)).2 (deriveFromArms[2]'(by decide)).2 (deriveFromArms[4]'(by decide)).2

theorem run_makeEnum {ts : List Tok} {as : List VariantDef} :
    runMacro rc makeEnumArms ts = .ok as ↔ ∃ decl, DeclSyntax rc ts decl ∧ EmitAll gEnum decl as :=
  run_iff (fun ts => firstMatch_four (fun _ _ => rfl) ts)
theorem run_counter {ts : List Tok} {as : List String} :
    runMacro rc counterEnumArms ts = .ok as ↔ ∃ decl, DeclSyntax rc ts decl ∧ EmitAll gCounter decl as :=
  run_iff (fun ts => firstMatch_four (fun _ _ => rfl) ts)
theorem run_count {ts : List Tok} {as : List String} :
    runMacro rc countVariantsArms ts = .ok as ↔ ∃ decl, DeclSyntax rc ts decl ∧ EmitAll gCount decl as :=
  run_iff (fun ts => firstMatch_four (fun _ _ => rfl) ts)
theorem run_into {ts : List Tok} {as : List IntoArm} :
    runMacro rc intoBoxArms ts = .ok as ↔ ∃ decl, DeclSyntax rc ts decl ∧ EmitAll gInto decl as :=
  run_iff (fun ts => firstMatch_five (fun _ _ => rfl) ts)
theorem run_inner {ts : List Tok} {as : List ReadArm} :
    runMacro rc boxedIntoInnerArms ts = .ok as ↔ ∃ decl, DeclSyntax rc ts decl ∧ EmitAll gInner decl as :=
  run_iff (fun ts => firstMatch_five (fun _ _ => rfl) ts)
theorem run_from {ts : List Tok} {as : List ReadArm} :
    runMacro rc fromTaggedBoxArms ts = .ok as ↔ ∃ decl, DeclSyntax rc ts decl ∧ EmitAll gFrom decl as :=
  run_iff (fun ts => firstMatch_five (fun _ _ => rfl) ts)
theorem run_ref {ts : List Tok} {as : List RefArm} :
    runMacro rc refFromTaggedArms ts = .ok as ↔ ∃ decl, DeclSyntax rc ts decl ∧ EmitAll gRef decl as :=
  run_iff (fun ts => firstMatch_five (fun _ _ => rfl) ts)
theorem run_derive {ts : List Tok} {as : List (Option FromImpl)} :
    runMacro rc deriveFromArms ts = .ok as ↔ ∃ decl, DeclSyntax rc ts decl ∧ EmitAll gDerive decl as :=
  run_iff (fun ts => firstMatch_five (fun _ _ => rfl) ts)

theorem gEnum_eq (d : VariantDef) : gEnum d = .ok d := by
  obtain ⟨v, f⟩ := d; cases f <;> rfl
theorem gCounter_eq (d : VariantDef) : gCounter d = .ok d.name := by
  obtain ⟨v, f⟩ := d; cases f <;> rfl
theorem gCount_eq (d : VariantDef) : gCount d = .ok d.name := by
  obtain ⟨v, f⟩ := d; cases f <;> rfl

/-- Arity of a single variant is fine. -/
def DefOK (d : VariantDef) : Prop := ∀ tys, d.fields = .tuple tys → tys.length ≤ 32

theorem gInto_eq {d : VariantDef} (h : DefOK d) : gInto d = .ok (intoArmOf d) := by
  obtain ⟨v, f⟩ := d
  cases f with
  | unit => rfl
  | record ms => rfl
  | tuple tys =>
    have h32 := h _ rfl
    match tys with
    | [] => rfl
    | [t] => rfl
    | t :: t' :: ts =>
      show (match expandTupleArm (t :: t' :: ts) with
        | .ok .dangling => _ | .ok (.pack b a) => _ | .error e => _) = _
      rw [expandTupleArm_ok h32]; rfl

theorem gInner_eq {d : VariantDef} (h : DefOK d) : gInner d = .ok (readArmOf true d) := by
  obtain ⟨v, f⟩ := d
  cases f with
  | unit => rfl
  | record ms => rfl
  | tuple tys =>
    have h32 := h _ rfl
    match tys with
    | [] => rfl
    | [t] => rfl
    | t :: t' :: ts =>
      show (match expandTuple (t :: t' :: ts) with | .ok x => _ | .error e => _) = _
      rw [expandTuple_ok h32]; rfl

theorem gFrom_eq {d : VariantDef} (h : DefOK d) : gFrom d = .ok (readArmOf false d) := by
  obtain ⟨v, f⟩ := d
  cases f with
  | unit => rfl
  | record ms => rfl
  | tuple tys =>
    have h32 := h _ rfl
    match tys with
    | [] => rfl
    | [t] => rfl
    | t :: t' :: ts =>
      show (match expandTuple (t :: t' :: ts) with | .ok x => _ | .error e => _) = _
      rw [expandTuple_ok h32]; rfl

theorem gDerive_eq {d : VariantDef} (h : DefOK d) : gDerive d = .ok (fromImplOf d) := by
  obtain ⟨v, f⟩ := d
  cases f with
  | unit => rfl
  | record ms => rfl
  | tuple tys =>
    have h32 := h _ rfl
    match tys with
    | [] => rfl
    | [t] => rfl
    | t :: t' :: ts =>
      show (match expandTuple (t :: t' :: ts) with | .ok x => _ | .error e => _) = _
      rw [expandTuple_ok h32]; rfl

theorem gRef_eq {d : VariantDef} (h : DefOK d) : gRef d = .ok (refArmOf d) := by
  obtain ⟨v, f⟩ := d
  cases f with
  | unit => rfl
  | record ms => rfl
  | tuple tys =>
    have h32 := h _ rfl
    match tys with
    | [] => rfl
    | [t] => rfl
    | t :: t' :: ts =>
      show (match expandTuple (t :: t' :: ts), expandTuple (t :: t' :: ts) with
        | .ok x, .ok x' => _ | .error e, _ => _ | _, .error e => _) = _
      rw [expandTuple_ok h32]; rfl

theorem gInner_arity {d : VariantDef} {a : ReadArm} (h : gInner d = .ok a) : DefOK d := by
  obtain ⟨v, f⟩ := d
  intro tys hf
  cases hf
  match tys with
  | [] => simp
  | [t] => simp
  | t :: t' :: ts =>
    by_cases h32 : (t :: t' :: ts).length ≤ 32
    · exact h32
    · have : (match expandTuple (t :: t' :: ts) with
        | .ok x => Except.ok (⟨v, v, .ctuple (t :: t' :: ts) x⟩ : ReadArm) | .error e => .error e) = .ok a := h
      rw [expandTuple_err h32] at this; cases this

/-- **Closed form**: the expansion succeeds exactly on well-formed token lists with tuple arities of at most 32, and then all
component macros have processed the same declaration. -/
theorem expand_ok {ts : List Tok} {sn en : String} {hd : Bool} {P : Program} :
    expand rc sn en hd ts = .ok P ↔
      ∃ decl, decl ≠ [] ∧ DeclSyntax rc ts decl ∧ ArityOK decl ∧ P = programOf sn en hd decl := by
  constructor
  · intro h
    unfold expand at h
    split at h
    · cases h
    · rename_i t ts
      split at h
      · rename_i h1 h2 h3 h4 h5 h6 h7 h8
        cases h
        obtain ⟨decl, hD, e1⟩ := run_makeEnum.1 h1
        obtain ⟨_, hD', e2⟩ := run_counter.1 h2
        cases hD.unique hD'
        obtain ⟨_, hD', e3⟩ := run_count.1 h3
        cases hD.unique hD'
        obtain ⟨_, hD', e4⟩ := run_into.1 h4
        cases hD.unique hD'
        obtain ⟨_, hD', e5⟩ := run_inner.1 h5
        cases hD.unique hD'
        obtain ⟨_, hD', e6⟩ := run_from.1 h6
        cases hD.unique hD'
        obtain ⟨_, hD', e7⟩ := run_ref.1 h7
        cases hD.unique hD'
        obtain ⟨_, hD', e8⟩ := run_derive.1 h8
        cases hD.unique hD'
        have ha : ArityOK decl := fun d hd => by
          obtain ⟨a, ha⟩ := e5.mem hd
          exact gInner_arity ha
        refine ⟨decl, ?_, hD, ha, ?_⟩
        · rintro rfl; cases hD
        · rw [e1.eq (g' := id) (fun d _ => gEnum_eq d), e2.eq (g' := (·.name)) (fun d _ => gCounter_eq d),
            e3.eq (g' := (·.name)) (fun d _ => gCount_eq d), e4.eq (g' := intoArmOf) (fun d h => gInto_eq (ha d h)),
            e5.eq (g' := readArmOf true) (fun d h => gInner_eq (ha d h)),
            e6.eq (g' := readArmOf false) (fun d h => gFrom_eq (ha d h)),
            e7.eq (g' := refArmOf) (fun d h => gRef_eq (ha d h)),
            e8.eq (g' := fromImplOf) (fun d h => gDerive_eq (ha d h))]
          simp [programOf, List.filterMap_map]
      all_goals cases h
  · rintro ⟨decl, hne, hD, ha, rfl⟩
    have h1 := run_makeEnum.2 ⟨decl, hD, EmitAll.of_total (g' := id) (fun d _ => gEnum_eq d)⟩
    have h2 := run_counter.2 ⟨decl, hD, EmitAll.of_total (g' := (·.name)) (fun d _ => gCounter_eq d)⟩
    have h3 := run_count.2 ⟨decl, hD, EmitAll.of_total (g' := (·.name)) (fun d _ => gCount_eq d)⟩
    have h4 := run_into.2 ⟨decl, hD, EmitAll.of_total (g' := intoArmOf) (fun d h => gInto_eq (ha d h))⟩
    have h5 := run_inner.2 ⟨decl, hD, EmitAll.of_total (g' := readArmOf true) (fun d h => gInner_eq (ha d h))⟩
    have h6 := run_from.2 ⟨decl, hD, EmitAll.of_total (g' := readArmOf false) (fun d h => gFrom_eq (ha d h))⟩
    have h7 := run_ref.2 ⟨decl, hD, EmitAll.of_total (g' := refArmOf) (fun d h => gRef_eq (ha d h))⟩
    have h8 := run_derive.2 ⟨decl, hD, EmitAll.of_total (g' := fromImplOf) (fun d h => gDerive_eq (ha d h))⟩
    cases ts with
    | nil => cases hD with
      | nil => exact absurd rfl hne
      | cons h _ => cases h
    | cons t ts =>
      simp only [expand, h1, h2, h3, h4, h5, h6, h7, h8]
      simp [programOf, List.filterMap_map]

end TB.Macro

import Verif.DemoMacro
import Verif.Macro.Generators
import Verif.Spec.Sig

/-!
# Properties of declarations: which are accepted, and what is generated for them
-/

set_option autoImplicit false

namespace TB.Props

open TB.Macro

variable {env : Env} {rc : Rustc} {sn en : String} {hd : Bool} {ts : List Tok} {decl : List VariantDef} {P : Program}

/-! ## C41 -/

/-- **C41.** For every tuple variant with payload type `t` (`T` for `V(T)`, `(T, ..)` otherwise) the container has exactly one
`From` implementation whose source is the same type as `t`, and on every payload it builds the same container, heap and trace as
`Container::from(Enum::V(payload))`. Every `From<payload>` implementation is that of such a variant. -/
theorem C41_from_payload (hc : Compiled rc env.cfg sn en hd ts decl P) :
    (∀ d ∈ decl, ∀ t, d.fields.fromTy = some t →
      ∃ f ∈ P.froms, f.srcTy = t ∧ (∀ g ∈ P.froms, rc.typeId g.srcTy = rc.typeId t → g = f) ∧
        ∀ vs, HasTypes rc d.fields.types vs →
          containerFromPayload env rc P f vs = containerFrom env rc P ⟨d.name, .tuple vs⟩) ∧
    (∀ f ∈ P.froms, ∃ d ∈ decl, d.fields.fromTy = some f.srcTy ∧
      ∀ vs, (f.value vs).variant = d.name) := by
  obtain ⟨hw, rfl⟩ := hc.wf
  have hsrc : ∀ d f, fromImplOf d = some f → d.fields.fromTy = some f.srcTy ∧ (∀ vs, (f.value vs).variant = d.name) ∧
      ∀ vs, HasTypes rc d.fields.types vs → f.value vs = ⟨d.name, .tuple vs⟩ := by
    rintro ⟨v, fl⟩ f hf
    match fl, hf with
    | .tuple [], hf =>
      cases hf
      refine ⟨rfl, fun _ => rfl, fun vs hv => ?_⟩
      match vs, hv with
      | [], _ => rfl
    | .tuple [t], hf =>
      cases hf
      refine ⟨rfl, fun _ => rfl, fun vs hv => ?_⟩
      match vs, hv with
      | [x], _ => rfl
      | _ :: _ :: _, hv => exact absurd hv.2 (by simp [HasTypes])
    | .tuple (t :: t' :: tys), hf =>
      cases hf
      refine ⟨rfl, fun _ => rfl, fun vs hv => ?_⟩
      have hl : (t :: t' :: tys).length = vs.length := (hasTypes_length hv).symm
      show EVal.mk v (.tuple (accessFields (List.range (t :: t' :: tys).length) vs)) = _
      rw [hl, accessFields_range]
  have hnd : ((decl.filterMap fromImplOf).map (fun f => rc.typeId f.srcTy)).Nodup := by
    have h1 : (programOf sn en hd decl).fromTypes rc = _ := fromTypes_eq (rc := rc) (sn := sn) (en := en) (hd := hd) (decl := decl)
    have := hw.froms
    rw [← h1] at this
    exact (List.nodup_cons.1 (List.nodup_cons.1 this).2).2
  have huniq : ∀ (l : List FromImpl), (l.map (fun f => rc.typeId f.srcTy)).Nodup → ∀ f ∈ l, ∀ g ∈ l,
      rc.typeId g.srcTy = rc.typeId f.srcTy → g = f := by
    intro l
    induction l with
    | nil => intro _ f hf; cases hf
    | cons a l ih =>
      intro hn f hf g hg he
      rw [List.map_cons, List.nodup_cons] at hn
      rcases List.mem_cons.1 hf with rfl | hf' <;> rcases List.mem_cons.1 hg with rfl | hg'
      · rfl
      · exact absurd (List.mem_map.2 ⟨g, hg', he⟩) hn.1
      · exact absurd (List.mem_map.2 ⟨f, hf', he.symm⟩) hn.1
      · exact ih hn.2 f hf' g hg' he
  refine ⟨fun d hdm t ht => ?_, fun f hf => ?_⟩
  · obtain ⟨f, hf⟩ : ∃ f, fromImplOf d = some f := by
      obtain ⟨v, fl⟩ := d
      match fl, ht with
      | .tuple [], _ => exact ⟨_, rfl⟩
      | .tuple [_], _ => exact ⟨_, rfl⟩
      | .tuple (_ :: _ :: _), _ => exact ⟨_, rfl⟩
    obtain ⟨h1, _, h3⟩ := hsrc d f hf
    have hfm : f ∈ decl.filterMap fromImplOf := List.mem_filterMap.2 ⟨d, hdm, hf⟩
    have ht' : f.srcTy = t := by rw [h1] at ht; injection ht
    refine ⟨f, hfm, ht', fun g hg he => huniq _ hnd f hfm g hg (by rw [he, ht']), fun vs hv => ?_⟩
    show intoTaggedBox _ _ _ _ = intoTaggedBox _ _ _ _
    rw [h3 vs hv]
  · obtain ⟨d, hdm, hf'⟩ := List.mem_filterMap.1 hf
    obtain ⟨h1, h2, _⟩ := hsrc d f hf'
    exact ⟨d, hdm, h1, h2⟩

/-- Non-vacuity: `Pair(u8, u32)` has `From<(u8, u32)>`. -/
example : ⟨"Pair", .tuple [.named "u8", .named "u32"]⟩ ∈ declMix ∧
    HasTypes rcDemo [.named "u8", .named "u32"] [[some 7#8], [some 1#8, some 2#8, some 3#8, some 4#8]] ∧
    Compiled rcDemo (env60 true).cfg "Container" "Item" false toksMix declMix progMix :=
  ⟨by simp [declMix], ⟨⟨rfl, by decide⟩, ⟨rfl, by decide⟩, trivial⟩, mix_compiled true⟩

/-! ## C42 -/

/-- The result of a run is the error case. -/
def Rejects {α : Type} (r : Except CErr α) : Prop := ∃ e, r = .error e

theorem rejects_of {α : Type} {r : Except CErr α} (h : ∀ a, r ≠ .ok a) : Rejects r := by
  cases r with
  | error e => exact ⟨e, rfl⟩
  | ok a => exact absurd rfl (h a)

theorem intoArmOf_sig (d : VariantDef) : (intoArmOf d).sig = d.sig := by
  obtain ⟨v, fl⟩ := d
  match fl with
  | .unit | .tuple [] | .tuple [_] | .tuple (_ :: _ :: _) | .record _ => rfl

theorem readArmOf_sig (c : Bool) (d : VariantDef) : (readArmOf c d).sig = d.sig := by
  obtain ⟨v, fl⟩ := d
  match fl with
  | .unit | .tuple [] | .tuple [_] | .tuple (_ :: _ :: _) | .record _ => cases c <;> rfl

theorem refArmOf_sig (d : VariantDef) : (refArmOf d).sig = d.sig := by
  obtain ⟨v, fl⟩ := d
  match fl with
  | .unit | .tuple [] | .tuple [_] | .tuple (_ :: _ :: _) | .record _ => rfl

theorem fromImplOf_sig (decl : List VariantDef) :
    ((decl.map fromImplOf).filterMap id).map FromImpl.sig = (decl.filter VariantDef.isTuple).map VariantDef.sig := by
  induction decl with
  | nil => rfl
  | cons d ds ih =>
    obtain ⟨v, fl⟩ := d
    match fl with
    | .unit => exact ih
    | .record _ => exact ih
    | .tuple [] => exact congrArg (_ :: ·) ih
    | .tuple [_] => exact congrArg (_ :: ·) ih
    | .tuple (_ :: _ :: _) => exact congrArg (_ :: ·) ih

theorem gInto_arity {d : VariantDef} {a : IntoArm} (h : gInto d = .ok a) : DefOK d := by
  obtain ⟨v, f⟩ := d
  intro tys hf
  cases hf
  match tys with
  | [] => simp
  | [t] => simp
  | t :: t' :: ts =>
    refine Decidable.byContradiction fun hn => ?_
    have h' : (match expandTupleArm (t :: t' :: ts) with
      | .ok .dangling => .ok (.dangling v true v)
      | .ok (.pack binders args) => .ok (.tuple v binders (t :: t' :: ts) args v)
      | .error e => .error e : Except CErr IntoArm) = .ok a := h
    rw [expandTupleArm_err hn] at h'
    cases h'

theorem gFrom_arity {d : VariantDef} {a : ReadArm} (h : gFrom d = .ok a) : DefOK d := by
  obtain ⟨v, f⟩ := d
  intro tys hf
  cases hf
  match tys with
  | [] => simp
  | [t] => simp
  | t :: t' :: ts =>
    refine Decidable.byContradiction fun hn => ?_
    have h' : (match expandTuple (t :: t' :: ts) with
      | .ok x => .ok ⟨v, v, .rtuple (t :: t' :: ts) x⟩
      | .error e => .error e : Except CErr ReadArm) = .ok a := h
    rw [expandTuple_err hn] at h'
    cases h'

theorem gDerive_arity {d : VariantDef} {a : Option FromImpl} (h : gDerive d = .ok a) : DefOK d := by
  obtain ⟨v, f⟩ := d
  intro tys hf
  cases hf
  match tys with
  | [] => simp
  | [t] => simp
  | t :: t' :: ts =>
    refine Decidable.byContradiction fun hn => ?_
    have h' : (match expandTuple (t :: t' :: ts) with
      | .ok x => .ok (some (.tuple v (t :: t' :: ts) x))
      | .error e => .error e : Except CErr (Option FromImpl)) = .ok a := h
    rw [expandTuple_err hn] at h'
    cases h'

theorem gRef_arity {d : VariantDef} {a : RefArm} (h : gRef d = .ok a) : DefOK d := by
  obtain ⟨v, f⟩ := d
  intro tys hf
  cases hf
  match tys with
  | [] => simp
  | [t] => simp
  | t :: t' :: ts =>
    refine Decidable.byContradiction fun hn => ?_
    have h' : (match expandTuple (t :: t' :: ts), expandTuple (t :: t' :: ts) with
      | .ok x, .ok x' => .ok ⟨v, v, .tuple (t :: t' :: ts) x x'⟩
      | .error e, _ => .error e
      | _, .error e => .error e : Except CErr RefArm) = .ok a := h
    rw [expandTuple_err hn] at h'
    cases h'

/-- **C42.** For every token sequence: if it is not a sequence of variants each followed by a comma, all eight component macros
reject it. Otherwise those that only need names accept it; if no tuple variant has more than 32 fields, the other five accept it
as well and all eight generate code for the same variants, in the same order, under the same counter names, with the same payload
members; and if some tuple variant has more, all five reject it. -/
theorem C42_agreement (rc : Rustc) (ts : List Tok) :
    (¬ (∃ decl, DeclSyntax rc ts decl) ∧
      Rejects (runMacro rc makeEnumArms ts) ∧ Rejects (runMacro rc counterEnumArms ts) ∧
      Rejects (runMacro rc countVariantsArms ts) ∧ Rejects (runMacro rc intoBoxArms ts) ∧
      Rejects (runMacro rc boxedIntoInnerArms ts) ∧ Rejects (runMacro rc fromTaggedBoxArms ts) ∧
      Rejects (runMacro rc refFromTaggedArms ts) ∧ Rejects (runMacro rc deriveFromArms ts)) ∨
    (∃ decl, DeclSyntax rc ts decl ∧
      runMacro rc makeEnumArms ts = .ok decl ∧
      runMacro rc counterEnumArms ts = .ok (decl.map (·.name)) ∧
      runMacro rc countVariantsArms ts = .ok (decl.map (·.name)) ∧
      ((∀ d ∈ decl, ∀ tys, d.fields = .tuple tys → tys.length ≤ 32) →
        (∃ as, runMacro rc intoBoxArms ts = .ok as ∧ as.map IntoArm.sig = decl.map VariantDef.sig) ∧
        (∃ as, runMacro rc boxedIntoInnerArms ts = .ok as ∧ as.map ReadArm.sig = decl.map VariantDef.sig) ∧
        (∃ as, runMacro rc fromTaggedBoxArms ts = .ok as ∧ as.map ReadArm.sig = decl.map VariantDef.sig) ∧
        (∃ as, runMacro rc refFromTaggedArms ts = .ok as ∧ as.map RefArm.sig = decl.map VariantDef.sig) ∧
        (∃ as, runMacro rc deriveFromArms ts = .ok as ∧
          (as.filterMap id).map FromImpl.sig = (decl.filter VariantDef.isTuple).map VariantDef.sig)) ∧
      ((∃ d ∈ decl, ∃ tys, d.fields = .tuple tys ∧ 32 < tys.length) →
        Rejects (runMacro rc intoBoxArms ts) ∧ Rejects (runMacro rc boxedIntoInnerArms ts) ∧
        Rejects (runMacro rc fromTaggedBoxArms ts) ∧ Rejects (runMacro rc refFromTaggedArms ts) ∧
        Rejects (runMacro rc deriveFromArms ts))) := by
  rcases Classical.em (∃ decl, DeclSyntax rc ts decl) with ⟨decl, hD⟩ | hn
  · right
    refine ⟨decl, hD, ?_, ?_, ?_, fun ha => ⟨?_, ?_, ?_, ?_, ?_⟩, ?_⟩
    · have := EmitAll.of_total (g' := id) (ds := decl) (fun d _ => gEnum_eq d)
      rw [List.map_id] at this
      exact run_makeEnum.2 ⟨decl, hD, this⟩
    · exact run_counter.2 ⟨decl, hD, EmitAll.of_total (fun d _ => gCounter_eq d)⟩
    · exact run_count.2 ⟨decl, hD, EmitAll.of_total (fun d _ => gCount_eq d)⟩
    · exact ⟨_, run_into.2 ⟨decl, hD, EmitAll.of_total (fun d hd => gInto_eq (ha d hd))⟩, by
        rw [List.map_map]; exact List.map_congr_left (fun d _ => intoArmOf_sig d)⟩
    · exact ⟨_, run_inner.2 ⟨decl, hD, EmitAll.of_total (fun d hd => gInner_eq (ha d hd))⟩, by
        rw [List.map_map]; exact List.map_congr_left (fun d _ => readArmOf_sig true d)⟩
    · exact ⟨_, run_from.2 ⟨decl, hD, EmitAll.of_total (fun d hd => gFrom_eq (ha d hd))⟩, by
        rw [List.map_map]; exact List.map_congr_left (fun d _ => readArmOf_sig false d)⟩
    · exact ⟨_, run_ref.2 ⟨decl, hD, EmitAll.of_total (fun d hd => gRef_eq (ha d hd))⟩, by
        rw [List.map_map]; exact List.map_congr_left (fun d _ => refArmOf_sig d)⟩
    · exact ⟨_, run_derive.2 ⟨decl, hD, EmitAll.of_total (fun d hd => gDerive_eq (ha d hd))⟩, fromImplOf_sig decl⟩
    · rintro ⟨d, hd, tys, hf, hlt⟩
      have bad : ¬ DefOK d := fun h => by have := h tys hf; omega
      refine ⟨rejects_of fun a h => ?_, rejects_of fun a h => ?_, rejects_of fun a h => ?_, rejects_of fun a h => ?_,
        rejects_of fun a h => ?_⟩
      · obtain ⟨decl', hD', he⟩ := run_into.1 h
        rw [hD'.unique hD] at he
        obtain ⟨_, h1⟩ := he.mem hd
        exact bad (gInto_arity h1)
      · obtain ⟨decl', hD', he⟩ := run_inner.1 h
        rw [hD'.unique hD] at he
        obtain ⟨_, h1⟩ := he.mem hd
        exact bad (gInner_arity h1)
      · obtain ⟨decl', hD', he⟩ := run_from.1 h
        rw [hD'.unique hD] at he
        obtain ⟨_, h1⟩ := he.mem hd
        exact bad (gFrom_arity h1)
      · obtain ⟨decl', hD', he⟩ := run_ref.1 h
        rw [hD'.unique hD] at he
        obtain ⟨_, h1⟩ := he.mem hd
        exact bad (gRef_arity h1)
      · obtain ⟨decl', hD', he⟩ := run_derive.1 h
        rw [hD'.unique hD] at he
        obtain ⟨_, h1⟩ := he.mem hd
        exact bad (gDerive_arity h1)
  · left
    refine ⟨hn, rejects_of fun a h => ?_, rejects_of fun a h => ?_, rejects_of fun a h => ?_, rejects_of fun a h => ?_,
      rejects_of fun a h => ?_, rejects_of fun a h => ?_, rejects_of fun a h => ?_, rejects_of fun a h => ?_⟩
    · obtain ⟨d, hD, _⟩ := run_makeEnum.1 h; exact hn ⟨d, hD⟩
    · obtain ⟨d, hD, _⟩ := run_counter.1 h; exact hn ⟨d, hD⟩
    · obtain ⟨d, hD, _⟩ := run_count.1 h; exact hn ⟨d, hD⟩
    · obtain ⟨d, hD, _⟩ := run_into.1 h; exact hn ⟨d, hD⟩
    · obtain ⟨d, hD, _⟩ := run_inner.1 h; exact hn ⟨d, hD⟩
    · obtain ⟨d, hD, _⟩ := run_from.1 h; exact hn ⟨d, hD⟩
    · obtain ⟨d, hD, _⟩ := run_ref.1 h; exact hn ⟨d, hD⟩
    · obtain ⟨d, hD, _⟩ := run_derive.1 h; exact hn ⟨d, hD⟩

/-- **C42**, in particular: without a comma after the last variant the invocation is rejected. -/
theorem C42_last_comma {cfg : Config} (h : ts.getLast? ≠ some .comma) : Rejects (compile rc cfg sn en hd ts) := by
  refine rejects_of fun P hP => ?_
  obtain ⟨decl, hD, hw, _⟩ := compile_ok.1 hP
  have key : ∀ ts decl, DeclSyntax rc ts decl → ts = [] ∨ ts.getLast? = some .comma := by
    intro ts decl hD
    induction hD with
    | nil => exact .inl rfl
    | @cons ts d rest ds hv hr ih =>
      right
      have hend : ∃ l, ts = l ++ .comma :: rest := by
        cases hv with
        | unit => exact ⟨[_], rfl⟩
        | tuple0 => exact ⟨[_, _], rfl⟩
        | tuple _ => exact ⟨[_, _], rfl⟩
        | record0 => exact ⟨[_, _], rfl⟩
        | record _ => exact ⟨[_, _], rfl⟩
      obtain ⟨l, rfl⟩ := hend
      rcases ih with rfl | ih
      · simp
      · rw [List.getLast?_append]
        simp [List.getLast?_cons, ih]
  rcases key ts decl hD with rfl | h'
  · cases hD with
    | nil => exact hw.nonempty rfl
    | cons hv _ => cases hv
  · exact h h'

/-- Non-vacuity: accepted tokens, and the same without the final comma. -/
example : DeclSyntax rcDemo toksMix declMix ∧ toksMix.dropLast.getLast? ≠ some .comma ∧ toksMix.dropLast.length = 10 :=
  ⟨declMix_syntax, by simp [toksMix], by decide⟩

/-! ## C43 -/

/-- **C43.** Up to 32 fields: unpacking a structure gives back its fields, all of them, in order; and packing binds every field to
a variable of its own and passes them on in order. -/
theorem C43_arity_order {tys : List Ty} (h : tys.length ≤ 32) {vs : List Bytes} (hl : vs.length = tys.length) :
    (∃ x, expandTuple tys = .ok x ∧ unpack x vs = vs) ∧
    ((tys = [] ∧ expandTupleArm tys = .ok .dangling) ∨
      ∃ binders args, expandTupleArm tys = .ok (.pack binders args) ∧ binders.Nodup ∧ binders.length = tys.length ∧
        byName args (binders.zip vs) = vs) := by
  constructor
  · refine ⟨_, expandTuple_ok h, ?_⟩
    unfold tupleExpOf
    split
    · next h0 => rw [h0] at hl; exact (List.length_eq_zero_iff.1 hl).symm
    · rw [← hl]; exact accessFields_range _
  · by_cases h0 : tys.length = 0
    · left
      exact ⟨List.length_eq_zero_iff.1 h0, by rw [expandTupleArm_ok h, if_pos h0]⟩
    · right
      have hn : (armNames.take tys.length).length = tys.length := by
        rw [List.length_take]; exact Nat.min_eq_left (by simpa [armNames] using h)
      have hd : (armNames.take tys.length).Nodup := armNames_nodup.sublist (List.take_sublist _ _)
      exact ⟨_, _, by rw [expandTupleArm_ok h, if_neg h0], hd, hn, byName_zip hd (by rw [hn, hl])⟩

/-- **C43.** Above 32 fields both macros fail, and a declaration with such a variant does not compile. -/
theorem C43_too_many {cfg : Config} {tys : List Ty} (h : 32 < tys.length) :
    Rejects (expandTuple tys) ∧ Rejects (expandTupleArm tys) ∧
    (∀ ts decl v, DeclSyntax rc ts decl → ⟨v, .tuple tys⟩ ∈ decl → Rejects (compile rc cfg sn en hd ts)) := by
  refine ⟨⟨_, expandTuple_err (by omega)⟩, ⟨_, expandTupleArm_err (by omega)⟩, fun ts decl v hD hm => ?_⟩
  refine rejects_of fun P hP => ?_
  obtain ⟨decl', hD', hw, _⟩ := compile_ok.1 hP
  rw [hD'.unique hD] at hw
  have := hw.arity _ hm tys rfl
  omega

/-- Non-vacuity: 32 types, and 33. -/
example : (List.replicate 32 (Ty.named "u8")).length ≤ 32 ∧ 32 < (List.replicate 33 (Ty.named "u8")).length := by decide

/-! ## C44 -/

/-- **C44 does not hold**: at the eight widths 48..55, where `Discriminant` is `u16`, no declaration at all compiles. -/
theorem C44_refuted {cfg : Config} (hm : cfg ∈ table) (hw : cfg.ptrWidth ≤ 55) : Rejects (compile rc cfg sn en hd ts) := by
  refine rejects_of fun P hP => ?_
  obtain ⟨decl, _, hwf, _⟩ := compile_ok.1 hP
  have key : ∀ c ∈ table, c.ptrWidth ≤ 55 → c.discrBits ≠ 8 := by decide
  exact key cfg hm hw hwf.u8

/-- **C44**, the part that holds: at the widths 56..63 every declaration that is well-formed at some width compiles. -/
theorem C44_partial {cfg cfg' : Config} (hm : cfg ∈ table) (hw : 56 ≤ cfg.ptrWidth) (hD : DeclSyntax rc ts decl)
    (hwf : WellFormed rc cfg' sn en hd decl) : ∃ P, compile rc cfg sn en hd ts = .ok P := by
  have key : ∀ c ∈ table, 56 ≤ c.ptrWidth → c.discrBits = 8 := by decide
  exact ⟨_, compile_ok.2 ⟨decl, hD, { hwf with u8 := key cfg hm hw }, rfl⟩⟩

/-- Non-vacuity: both groups of widths are inhabited, and there is a well-formed declaration. -/
example : (∃ c ∈ table, c.ptrWidth = 48) ∧ (∃ c ∈ table, c.ptrWidth = 63) ∧
    WellFormed rcDemo (env60 true).cfg "Container" "Item" false (declUnits 3) :=
  ⟨by decide, by decide, declUnits_wf rfl false (by decide)⟩

/-! ## C45 -/

/-- **C45.** Whenever the arm of `into_tagged_box` for a variant declares a structure, then: the arms of `into_inner` and
`ref_from_tagged_box` for that variant declare a structure with the same field types in the same order (and so does the arm of
`from_tagged_box`, if it declares one at all); and the layout of that structure lists the fields in order, each aligned and in
bounds, each ending before the next one starts, with a size that is a multiple of an alignment divisible by every field's. -/
theorem C45_layout (hrc : rc.OK) {cfg : Config} (hc : Compiled rc cfg sn en hd ts decl P) {i : Nat} {a : IntoArm} {tys : List Ty}
    (ha : P.into[i]? = some a) (hs : IntoArm.structTys a = some tys) :
    (P.inner[i]?.bind ReadArm.structTys = some tys) ∧ (P.ref[i]?.bind RefArm.structTys = some tys) ∧
    (∀ r ∈ P.fromB[i]?, r.structTys = none ∨ r.structTys = some tys) ∧
    ∃ sh, sh = reprC (tys.map rc.leaf) ∧ sh.fields.map (·.2) = tys.map rc.leaf ∧
      (∀ f ∈ sh.fields, f.2.align ∣ f.1 ∧ f.1 + f.2.size ≤ sh.size ∧ f.2.align ∣ sh.align) ∧
      sh.fields.Pairwise (fun f g => f.1 + f.2.size ≤ g.1) ∧ sh.align ∣ sh.size := by
  obtain ⟨hw, rfl⟩ := hc.wf
  have hget : ∀ {α : Type} (g : VariantDef → α), (decl.map g)[i]? = decl[i]?.map g := fun g => List.getElem?_map ..
  have ha' : decl[i]?.map intoArmOf = some a := by rw [← hget]; exact ha
  have hleaf : ∀ l ∈ tys.map rc.leaf, l.WF := by
    intro l hl
    obtain ⟨t, _, rfl⟩ := List.mem_map.1 hl
    exact hrc.leaf_wf t
  refine ⟨?_, ?_, ?_, reprC (tys.map rc.leaf), rfl, reprC_fields _, ?_, placeC_sorted 0 _ hleaf, roundUp_dvd _ _⟩
  · show (decl.map (readArmOf true))[i]?.bind _ = _
    rw [hget]
    match hdi : decl[i]?, ha' with
    | some d, ha' =>
      cases ha'
      obtain ⟨v, fl⟩ := d
      match fl with
      | .unit | .tuple [] | .tuple [_] => cases hs
      | .tuple (_ :: _ :: _) | .record _ => cases hs; rfl
  · show (decl.map refArmOf)[i]?.bind _ = _
    rw [hget]
    match hdi : decl[i]?, ha' with
    | some d, ha' =>
      cases ha'
      obtain ⟨v, fl⟩ := d
      match fl with
      | .unit | .tuple [] | .tuple [_] => cases hs
      | .tuple (_ :: _ :: _) | .record _ => cases hs; rfl
  · show ∀ r ∈ (decl.map (readArmOf false))[i]?, _
    rw [hget]
    match hdi : decl[i]?, ha' with
    | some d, ha' =>
      cases ha'
      intro r hr
      cases hr
      obtain ⟨v, fl⟩ := d
      match fl with
      | .unit | .tuple [] | .tuple [_] => cases hs
      | .tuple (_ :: _ :: _) => exact .inl rfl
      | .record _ => cases hs; exact .inr rfl
  · intro f hf
    obtain ⟨h1, _, h3, h4⟩ := placeC_field 0 _ hleaf f hf
    exact ⟨h4, Nat.le_trans h3 (roundUp_ge (maxAlign_pos hleaf)), align_dvd_maxAlign hleaf h1⟩

/-- Non-vacuity: `Pair(u8, u32)` needs padding. -/
example : progMix.into[1]?.bind IntoArm.structTys = some [.named "u8", .named "u32"] ∧
    (reprC ([.named "u8", .named "u32"].map rcDemo.leaf)).size = 8 := ⟨rfl, by decide⟩

/-! ## C50 -/

/-- The declaration of the manual. `src/manually_impl_enum.rs:5-14` -/
def docDecl : List VariantDef := [⟨"Integer", .tuple [.named "i32"]⟩, ⟨"Boolean", .tuple [.named "bool"]⟩]

theorem docNum {env : Env} (h8 : env.cfg.discrBits = 8) (n : Nat) :
    asDiscr env (BitVec.ofNat 8 n) = BitVec.ofNat _ n := by
  apply BitVec.eq_of_toNat_eq
  rw [asDiscr_toNat h8, BitVec.toNat_ofNat, BitVec.toNat_ofNat, h8]

/-- **C50.** For the manual's declaration, the four functions written out in the manual do exactly what the generated ones do: on
every box, value, heap and callback. (Messages of panics are not modelled.) -/
theorem C50_manual (hc : Compiled rc env.cfg sn en false ts docDecl P) :
    (∀ b, containerIntoInner env rc P b = docRead env rc b) ∧
    (∀ b, (taggable env rc P).fromTaggedBox b = docRead env rc b) ∧
    (∀ e, (taggable env rc P).intoTaggedBox e = docInto env rc e) ∧
    (∀ (β : Type) b (callback : EVal → M β), (taggable env rc P).refFrom b callback = docRef env rc b callback) := by
  obtain ⟨hw, rfl⟩ := hc.wf
  have g0 : asDiscr env (counterU8 (programOf sn en false docDecl) "Integer") = docInteger env := docNum hw.u8 0
  have g1 : asDiscr env (counterU8 (programOf sn en false docDecl) "Boolean") = docBoolean env := docNum hw.u8 1
  refine ⟨fun b => ?_, fun b => ?_, fun e => ?_, fun β b f => ?_⟩
  · show firstRead env rc _ b [readArmOf true _, readArmOf true _] = _
    simp only [firstRead, readArmOf, Macro.guard, g0, g1]
    rfl
  · show firstRead env rc _ b [readArmOf false _, readArmOf false _] = _
    simp only [firstRead, readArmOf, Macro.guard, g0, g1]
    rfl
  · show M.cleanup [] (firstInto env rc _ e [intoArmOf _, intoArmOf _]) = _
    rw [cleanup_nil]
    obtain ⟨v, p⟩ := e
    simp only [firstInto, intoArmOf, IntoArm.run, g0, g1, docInto]
    by_cases h0 : v = "Integer"
    · subst h0
      match p with
      | .tuple [x] => rfl
      | .unit | .record _ | .tuple [] | .tuple (_ :: _ :: _) => rfl
    · rw [if_neg h0, if_neg h0]
      by_cases h1 : v = "Boolean"
      · subst h1
        match p with
        | .tuple [x] => rfl
        | .unit | .record _ | .tuple [] | .tuple (_ :: _ :: _) => rfl
      · rw [if_neg h1, if_neg h1]
  · show firstRef env rc _ b f [refArmOf _, refArmOf _] = _
    simp only [firstRef, refArmOf, RefArm.build, Macro.guard, g0, g1, docRef]
    split
    · funext s
      simp only [M.bind_def]
      cases ptrRead (rc.leaf (.named "i32")).shape (b.asPtr env) s with
      | ret vs s1 =>
        show M.cleanup [] _ s1 = _
        rw [cleanup_nil]; rfl
      | panic k s1 => rfl
      | ub k => rfl
    · split
      · funext s
        simp only [M.bind_def]
        cases ptrRead (rc.leaf (.named "bool")).shape (b.asPtr env) s with
      | ret vs s1 =>
        show M.cleanup [] _ s1 = _
        rw [cleanup_nil]; rfl
      | panic k s1 => rfl
      | ub k => rfl
      · rfl

/-- Non-vacuity: the manual's declaration compiles at the default width. -/
example : ∃ P, Compiled rcDemo (env60 true).cfg "Container" "Item" false
    [.ident "Integer", .group .paren [.ident "i32"], .comma, .ident "Boolean", .group .paren [.ident "bool"], .comma]
    docDecl P :=
  ⟨_, .cons (.tuple (.one ⟨by simp, 0, rfl, rfl⟩)) (.cons (.tuple (.one ⟨by simp, 0, rfl, rfl⟩)) .nil), rfl⟩

/-! ## C51 -/

/-- **C51.** An invocation compiles exactly when its tokens are a declaration, that is a sequence of variants each followed by a
comma, and the declaration is well-formed in the sense of `Spec/Decl.lean`. -/
theorem C51_accepts_exactly {cfg : Config} :
    (∃ P, compile rc cfg sn en hd ts = .ok P) ↔ ∃ decl, DeclSyntax rc ts decl ∧ WellFormed rc cfg sn en hd decl :=
  ⟨fun ⟨_, h⟩ => let ⟨decl, h1, h2, _⟩ := compile_ok.1 h; ⟨decl, h1, h2⟩,
   fun ⟨decl, h1, h2⟩ => ⟨_, compile_ok.2 ⟨decl, h1, h2, rfl⟩⟩⟩

/-- A recursive enum cannot refer to itself by `Self`, although a plain enum can: every such declaration is rejected, whatever the
number of fields of the variant. -/
theorem C51_self {cfg : Config} (hD : DeclSyntax rc ts decl) {d : VariantDef} (hd' : d ∈ decl) {t : Ty} (ht : t ∈ d.fields.types)
    (hs : Occurs "Self" t) : Rejects (compile rc cfg sn en hd ts) := by
  refine rejects_of fun P hP => ?_
  obtain ⟨decl', hD', hw, _⟩ := compile_ok.1 hP
  cases DeclSyntax.unique hD hD'
  exact (hw.hidden d hd' t ht).1 hs

/-- Non-vacuity: `Next(Self)` is rejected, the same with another type accepted. (The demonstration compiler knows only identifiers as
types; it has no `Box<Self>`.) -/
example : Occurs "Self" (.named "Self") ∧ compile rcDemo (env60 true).cfg "Container" "Item" false
      [.ident "Next", .group .paren [.ident "Self"], .comma] = .error .scopeError ∧
    ∃ P, compile rcDemo (env60 true).cfg "Container" "Item" false
      [.ident "Next", .group .paren [.ident "u8"], .comma] = .ok P :=
  ⟨.named, rfl, _, rfl⟩

/-- Non-vacuity: accepted, and rejected because a multi-field variant mentions a type of its own name. -/
example : (∃ P, compile rcDemo (env60 true).cfg "Container" "Item" false toksMix = .ok P) ∧
    compile rcDemo (env60 true).cfg "Container" "Item" false
      [.ident "Point", .group .paren [.ident "Point", .comma, .ident "u8"], .comma] = .error .scopeError ∧
    ∃ P, compile rcDemo (env60 true).cfg "Container" "Item" false
      [.ident "Point", .group .paren [.ident "Point"], .comma] = .ok P :=
  ⟨⟨_, (mix_compiled true).compiles⟩, rfl, _, rfl⟩

/-! ## C52 -/

/-- The non-empty prefixes of a list, shortest first. -/
def prefixes {α : Type} (l : List α) : List (List α) := (List.range l.length).map fun n => l.take (n + 1)

theorem prefixes_cons {α : Type} (x : α) (l : List α) : prefixes (x :: l) = [x] :: (prefixes l).map (x :: ·) := by
  simp only [prefixes, List.length_cons, List.range_succ_eq_map, List.map_cons, List.map_map, List.take_succ_cons, List.take_zero]
  rfl

/-- What the generators produce, for every invocation: one arm per non-empty prefix of the input. -/
theorem C52_generators : (∀ input, genTuple input = (prefixes input).map fun p => ⟨p.map (·.2), p.map (·.1)⟩) ∧
    ∀ input, genArms input = (prefixes input).map fun p => ⟨⟨p, p, p⟩, .infer, true⟩ := by
  constructor
  · have key : ∀ (input : List (Nat × String)) fin m acc, genTupleInner fin m acc input =
        fin ++ (prefixes input).map fun p => ⟨m ++ p.map (·.2), acc ++ p.map (·.1)⟩ := by
      intro input
      induction input with
      | nil => intro fin m acc; simp [genTupleInner, prefixes]
      | cons x l ih =>
        intro fin m acc
        simp only [genTupleInner, ih, prefixes_cons, List.map_cons, List.map_map, List.append_assoc, List.cons_append, List.nil_append]
        rfl
    intro input
    simpa [genTuple] using key input [] [] []
  · have key : ∀ (input : List String) fin m acc, genArmInner fin m acc input =
        fin ++ (prefixes input).map fun p => ⟨⟨m ++ p, acc ++ p, acc ++ p⟩, .infer, true⟩ := by
      intro input
      induction input with
      | nil => intro fin m acc; simp [genArmInner, prefixes]
      | cons x l ih =>
        intro fin m acc
        simp only [genArmInner, ih, prefixes_cons, List.map_cons, List.map_map, List.append_assoc, List.cons_append, List.nil_append]
        rfl
    intro input
    simpa [genArms] using key input [] [] []

/-- **C52**, the part that holds: the arms of `__expand_tuple!` are what the generator produces, and so are those of
`__expand_tuple_arm!` except for the cast and for naming the enum: there, `as u8` stands for `as _`, the arms with types leave the enum to inference
where the generator names it, and the first arm without types does the opposite. -/
theorem C52_partial : expandTupleTable = genTuple genTupleInput ∧
    checkedInArms = (genArms genArmsInput).map (fun t => ⟨t.arm, .u8, false⟩) ∧
    genArms genArmsInput = checkedInArms.map (fun t => ⟨t.arm, .infer, true⟩) ∧
    checkedInEmpty = genEmpty.map (fun t => { t with explicitEnum := true }) ∧
    genEmpty.map (·.explicitEnum) = [false, true] := by decide

/-- **C52 does not hold** for `__expand_tuple_arm!`: no checked-in arm with types is one the generator produces (for the documented or any
other input): it casts to `u8` where the generator infers the type. -/
theorem C52_refuted : checkedInArms ≠ genArms genArmsInput ∧ checkedInEmpty ≠ genEmpty ∧
    ∀ input, ∀ a ∈ checkedInArms, a ∉ genArms input := by
  refine ⟨by decide, by decide, fun input a ha hg => ?_⟩
  rw [C52_generators.2] at hg
  obtain ⟨x, _, rfl⟩ := List.mem_map.1 ha
  obtain ⟨y, _, e⟩ := List.mem_map.1 hg
  cases e

end TB.Props

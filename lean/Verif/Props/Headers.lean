import Verif.Spec.Headers
import Verif.Source.Headers
import Verif.Props.SourceRun
import Verif.Props.Derive
import Verif.Props.Types

/-!
# The traits of the types of the crate, from the text (C95)
-/

set_option autoImplicit false

namespace TB.Props

open TB TB.Rust TB.Rust.Code TB.Spec TB.Macro

/-! ## C95 -/

theorem has_append (as bs : List Header) (ty tr : String) (holds : String → Prop) : Has (as ++ bs) ty tr holds ↔ Has as ty tr holds ∨ Has bs ty tr holds := by
  simp only [Has, List.mem_append]
  constructor
  · rintro ⟨h, h1 | h1, h2⟩
    · exact .inl ⟨h, h1, h2⟩
    · exact .inr ⟨h, h1, h2⟩
  · rintro (⟨h, h1, h2⟩ | ⟨h, h1, h2⟩)
    · exact ⟨h, .inl h1, h2⟩
    · exact ⟨h, .inr h1, h2⟩

theorem has_ptr (tr : String) (holds : String → Prop) : Has (ptrHeaders ++ boxHeaders) "TaggedPointer" tr holds ↔
    tr ∈ ["Copy", "Clone", "PartialEq", "Eq", "Hash", "PartialOrd", "Ord", "Debug", "Pointer", "LowerHex", "UpperHex", "Binary", "Octal"] := by
  have h1 : ¬ Has boxHeaders "TaggedPointer" tr holds := by
    rintro ⟨h, hm, hs, _⟩
    have : ∀ h ∈ boxHeaders, h.self ≠ "TaggedPointer" := by decide
    exact this h hm hs
  rw [has_append, or_iff_left h1]
  simp only [Has, ptrHeaders, List.mem_map]
  constructor
  · rintro ⟨h, ⟨x, hx, rfl⟩, _, rfl, _⟩
    exact hx
  · intro h
    exact ⟨_, ⟨tr, h, rfl⟩, rfl, rfl, by simp⟩

theorem has_box (tr : String) (holds : String → Prop) : Has (ptrHeaders ++ boxHeaders) "TaggedBox" tr holds ↔ holds "TaggableInner" ∧
    (tr ∈ ["LowerHex", "UpperHex", "Binary", "Octal"] ∨ (tr ∈ ["Clone", "Copy", "PartialEq", "Eq", "PartialOrd", "Ord"] ∧ holds tr) ∨
      (tr ∈ ["Debug", "Display"] ∧ holds tr ∧ holds "Clone")) := by
  have h1 : ¬ Has ptrHeaders "TaggedBox" tr holds := by
    rintro ⟨h, hm, hs, _⟩
    have : ∀ h ∈ ptrHeaders, h.self ≠ "TaggedBox" := by decide
    exact this h hm hs
  rw [has_append, or_iff_right h1]
  simp only [Has, boxHeaders, List.mem_cons, List.not_mem_nil, or_false]
  constructor
  · rintro ⟨h, hm, _, rfl, hb⟩
    rcases hm with rfl | rfl | rfl | rfl | rfl | rfl | rfl | rfl | rfl | rfl | rfl | rfl <;> simp_all
  · rintro ⟨h0, ht⟩
    rcases ht with (rfl | rfl | rfl | rfl) | ⟨rfl | rfl | rfl | rfl | rfl | rfl, h2⟩ | ⟨rfl | rfl, h2, h3⟩ <;> simp [h0, *]

/-- **C95.** The trait implementations in the text. A pointer has exactly the thirteen traits; a box has no trait unless its parameter has `TaggableInner`, and then it has exactly
the four number formats, those of six traits that its parameter has, and `Debug` and `Display` if its parameter has them and `Clone`. In particular nothing has `Drop`, and boxes have
neither `Hash` nor `Default`. -/
theorem C95 : ∃ ss hs, crateImpls = some (ss, hs) ∧
    (∀ tr holds, Has hs "TaggedPointer" tr holds ↔
      tr ∈ ["Copy", "Clone", "PartialEq", "Eq", "Hash", "PartialOrd", "Ord", "Debug", "Pointer", "LowerHex", "UpperHex", "Binary", "Octal"]) ∧
    ∀ tr holds, Has hs "TaggedBox" tr holds ↔ holds "TaggableInner" ∧
      (tr ∈ ["LowerHex", "UpperHex", "Binary", "Octal"] ∨ (tr ∈ ["Clone", "Copy", "PartialEq", "Eq", "PartialOrd", "Ord"] ∧ holds tr) ∨
        (tr ∈ ["Debug", "Display"] ∧ holds tr ∧ holds "Clone")) :=
  ⟨_, _, crate_impls, has_ptr, has_box⟩

theorem trName_inj {t u : Tr} (h : trName t = trName u) : t = u := by
  cases t <;> cases u <;> first | rfl | (exact absurd h (by decide))

theorem inner_tr (ts : Trs) (t : Tr) : inner ts (trName t) ↔ ts t := by
  constructor
  · rintro (h | ⟨u, h, hu⟩)
    · exact absurd h (by cases t <;> decide)
    · rw [← trName_inj h]; exact hu
  · exact fun h => .inr ⟨t, rfl, h⟩

theorem box_traits (ts : Trs) (t : Tr) : Has (ptrHeaders ++ boxHeaders) "TaggedBox" (trName t) (inner ts) ↔ boxTraits ts t := by
  rw [has_box]
  have h0 : inner ts "TaggableInner" := .inl rfl
  have hc : inner ts "Clone" ↔ ts .clone := inner_tr ts .clone
  simp only [h0, true_and, inner_tr, hc, boxTraits]
  cases t <;> simp [trName, boxBounds]

/-- **C95**, derives: which attributes `#[derive(..)]` a declaration may have, from the implementations in the text; the same as in C57. -/
theorem C95_derive : ∃ ss hs, crateImpls = some (ss, hs) ∧ ∀ derived manual payloads : Trs,
    (Accepted hs derived manual manual payloads ↔
      EnumOK derived manual payloads ∧ ¬ derived .hash ∧ (derived .debug → derived .clone ∨ manual .clone)) := by
  refine ⟨_, _, crate_impls, fun derived manual payloads => ?_⟩
  rw [← C57_exact]
  have e : (fun t => Has (ptrHeaders ++ boxHeaders) "TaggedBox" (trName t) (inner fun t => derived t ∨ manual t)) = boxTraits fun t => derived t ∨ manual t :=
    funext fun t => propext (box_traits _ t)
  constructor
  · rintro ⟨h1, h2⟩
    rw [e] at h2
    exact ⟨h1, h2⟩
  · rintro ⟨h1, h2⟩
    exact ⟨h1, by rw [e]; exact h2⟩

/-- **C95**, supertraits: the implementations are accepted, whatever the parameter. With a trait, a box (and a pointer) has its supertraits, if this is so for the parameter. -/
theorem C95_supers : ∃ ss hs, crateImpls = some (ss, hs) ∧ ∀ ts : Trs, (∀ t, ts t → ∀ u ∈ t.supers, ts u) → ∀ ty ∈ ["TaggedPointer", "TaggedBox"],
    ∀ t, Has hs ty (trName t) (inner ts) → ∀ u ∈ t.supers, Has hs ty (trName u) (inner ts) := by
  refine ⟨_, _, crate_impls, fun ts hts ty hty t ht u hu => ?_⟩
  simp only [List.mem_cons, List.not_mem_nil, or_false] at hty
  rcases hty with rfl | rfl
  · rw [has_ptr] at ht ⊢
    cases t <;> simp only [Tr.supers, List.mem_cons, List.not_mem_nil, or_false] at hu <;> first | exact hu.elim | (rcases hu with rfl | rfl <;> decide) | (subst hu; decide)
  · rw [box_traits] at ht ⊢
    cases t <;> simp only [Tr.supers, List.mem_cons, List.not_mem_nil, or_false] at hu <;> first
      | exact hu.elim
      | (simp only [boxTraits, boxBounds, Option.some.injEq, exists_eq_left', List.mem_cons, List.not_mem_nil, or_false, forall_eq] at ht ⊢
         rcases hu with rfl | rfl <;> exact ⟨_, rfl, fun b hb => by rw [List.mem_singleton.1 hb]; exact hts _ ht _ (by simp [Tr.supers])⟩)
      | (subst hu
         simp only [boxTraits, boxBounds, Option.some.injEq, exists_eq_left', List.mem_cons, List.not_mem_nil, or_false, forall_eq] at ht ⊢
         exact hts _ ht _ (by simp [Tr.supers]))

/-- **C95**, the derived functions of a pointer, with the fields and derives in the text, for any two pointers: `==` compares what `as_u64` and `discriminant` (run from the text) give;
`cmp` and `partial_cmp` compare the discriminants first; the hasher gets the same data for equal pointers only. -/
theorem C95_pointer {E : Type} {env : Env} {user : User E} (hc : env.cfg ∈ table) (s : State) (exp : RT) :
    ∃ ss hs st cr, crateImpls = some (ss, hs) ∧ st ∈ ss ∧ st.name = "TaggedPointer" ∧ sourceCrate env user = some cr ∧
    ∀ v w : BitVec 64, ∃ a b d e : Nat, a < 2 ^ 64 ∧ b < 2 ^ 64 ∧ d < 2 ^ env.cfg.discrBits ∧ e < 2 ^ env.cfg.discrBits ∧
      let x : V E := .struct "TaggedPointer" [("tagged_ptr", .int .u64 v)]
      let y : V E := .struct "TaggedPointer" [("tagged_ptr", .int .u64 w)]
      cr.call "TaggedPointer" "as_u64" [] (some x) [] exp s = .ret (u64 a) [] s ∧ cr.call "TaggedPointer" "discriminant" [] (some x) [] exp s = .ret (discr env.cfg d) [] s ∧
      cr.call "TaggedPointer" "as_u64" [] (some y) [] exp s = .ret (u64 b) [] s ∧ cr.call "TaggedPointer" "discriminant" [] (some y) [] exp s = .ret (discr env.cfg e) [] s ∧
      st.eq x y = some (decide (a = b ∧ d = e)) ∧ st.cmp x y = some ((compare d e).then (compare a b)) ∧ st.partialCmp x y = some (some ((compare d e).then (compare a b))) ∧
      (∃ h, st.hash x = some h) ∧ (st.hash x = st.hash y ↔ a = b ∧ d = e) := by
  haveI : InTable env := ⟨hc⟩
  refine ⟨_, _, ptrStruct, _, crate_impls, by simp, rfl, sourceCrate_eq env user, fun v w => ?_⟩
  have h5 := (C05_eq_iff env.cfg hc ⟨v⟩ ⟨w⟩).1
  have h6 := C06_order env.cfg hc ⟨v⟩ ⟨w⟩
  have hu : ∀ p : TPtr, (src env user).call "TaggedPointer" "as_u64" [] (some (ptrV p)) [] exp s = .ret (.int .u64 (p.asU64 env.cfg)) [] s := fun p => Rust.asU64 env user 160 p exp [] s
  have hd : ∀ p : TPtr, (src env user).call "TaggedPointer" "discriminant" [] (some (ptrV p)) [] exp s = .ret (dV (p.discriminant env.cfg)) [] s := fun p => Rust.discriminant env user 160 p exp [] s
  have key : v = w ↔ ((⟨v⟩ : TPtr).asU64 env.cfg).toNat = ((⟨w⟩ : TPtr).asU64 env.cfg).toNat ∧
      ((⟨v⟩ : TPtr).discriminant env.cfg).toNat = ((⟨w⟩ : TPtr).discriminant env.cfg).toNat := by
    rw [BitVec.toNat_inj, BitVec.toNat_inj, ← h5]
    exact ⟨fun h => by rw [h], fun h => congrArg TPtr.raw h⟩
  have e2 : ptrStruct.cmp (E := E) (.struct "TaggedPointer" [("tagged_ptr", .int .u64 v)]) (.struct "TaggedPointer" [("tagged_ptr", .int .u64 w)]) = some (TPtr.cmp ⟨v⟩ ⟨w⟩) := by
    simp [StructInfo.cmp, ptrStruct, fieldVals, lookup, cmpList, intCmp, TPtr.cmp]
  refine ⟨((⟨v⟩ : TPtr).asU64 env.cfg).toNat, ((⟨w⟩ : TPtr).asU64 env.cfg).toNat, ((⟨v⟩ : TPtr).discriminant env.cfg).toNat, ((⟨w⟩ : TPtr).discriminant env.cfg).toNat,
    BitVec.isLt _, BitVec.isLt _, BitVec.isLt _, BitVec.isLt _, ?_, ?_, ?_, ?_, ?_, ?_, ?_, ?_, ?_⟩
  · exact (hu ⟨v⟩).trans (by simp [u64])
  · exact (hd ⟨v⟩).trans (by rw [discr_toNat'])
  · exact (hu ⟨w⟩).trans (by simp [u64])
  · exact (hd ⟨w⟩).trans (by rw [discr_toNat'])
  · have e1 : ptrStruct.eq (E := E) (.struct "TaggedPointer" [("tagged_ptr", .int .u64 v)]) (.struct "TaggedPointer" [("tagged_ptr", .int .u64 w)]) = some (v == w) := by
      simp [StructInfo.eq, ptrStruct, fieldVals, lookup, eqList, intEq]
    rw [e1, Option.some.injEq, Bool.eq_iff_iff, beq_iff_eq, decide_eq_true_iff, ← key]
  · exact (e2).trans (congrArg some h6)
  · simp only [StructInfo.partialCmp, show ("PartialOrd" ∈ ptrStruct.derives) = True from by simp [ptrStruct], if_true]
    have e3 : ptrStruct.cmp (E := E) (.struct "TaggedPointer" [("tagged_ptr", .int .u64 v)]) (.struct "TaggedPointer" [("tagged_ptr", .int .u64 w)]) = _ := e2.trans (congrArg some h6)
    simp only [StructInfo.cmp, show ("Ord" ∈ ptrStruct.derives) = True from by simp [ptrStruct], if_true] at e3
    simp [fieldVals, ptrStruct, lookup] at e3 ⊢
    rw [e3]
  · exact ⟨_, rfl⟩
  · have e1 : ∀ v, ptrStruct.hash (E := E) (.struct "TaggedPointer" [("tagged_ptr", .int .u64 v)]) = some [(.u64, v)] := fun v => by
      simp [StructInfo.hash, ptrStruct, fieldVals, lookup, hashList, intHash]
    rw [e1, e1, ← key]
    simp

/-- **C95**, auto traits: from the fields in the text; a pointer has every auto trait, a box has those of its parameter. -/
theorem C95_auto : ∃ ss hs, crateImpls = some (ss, hs) ∧ ∀ tr ∈ ["Send", "Sync", "Unpin", "UnwindSafe", "RefUnwindSafe"], ∀ T : Prop,
    Auto ss hs tr T (.path [("TaggedPointer", [])]) ∧ (Auto ss hs tr T (.path [("TaggedBox", [.path [("T", [])]])]) ↔ T) := by
  refine ⟨_, _, crate_impls, fun tr htr T => ?_⟩
  have hno : ∀ h ∈ ptrHeaders ++ boxHeaders, h.trait ≠ tr := by
    have : ∀ tr ∈ ["Send", "Sync", "Unpin", "UnwindSafe", "RefUnwindSafe"], ∀ h ∈ ptrHeaders ++ boxHeaders, h.trait ≠ tr := by decide
    exact this tr htr
  have hp : Auto [ptrStruct, boxStruct] (ptrHeaders ++ boxHeaders) tr T (.path [("TaggedPointer", [])]) := by
    refine .struct ptrStruct (by simp) (fun h hm _ => hno h hm) fun f hf => ?_
    rw [show f = ("tagged_ptr", .path [("u64", [])]) from List.mem_singleton.1 hf]
    exact .u64
  refine ⟨hp, fun h => ?_, fun hT => ?_⟩
  · generalize hx : (Rust.RTy.path [("TaggedBox", [.path [("T", [])]])]) = x at h
    cases h with
    | u64 => simp at hx
    | param _ => simp at hx
    | phantom _ _ => simp at hx
    | struct st hm _ hf =>
      rcases List.mem_cons.1 hm with rfl | hm
      · simp [ptrStruct] at hx
      · rw [List.mem_singleton.1 hm] at hf
        have h2 := hf ("_type", .path [("PhantomData", [.path [("T", [])]])]) (by simp [boxStruct])
        generalize hy : ((("_type", .path [("PhantomData", [.path [("T", [])]])]) : String × Rust.RTy)).2 = y at h2
        cases h2 with
        | u64 => simp at hy
        | param _ => simp at hy
        | struct st hm _ hf =>
          simp only [List.mem_cons, List.not_mem_nil, or_false] at hm
          rcases hm with rfl | rfl <;> simp [ptrStruct, boxStruct] at hy
        | phantom t ht =>
          cases hy
          generalize hz : (Rust.RTy.path [("T", [])]) = z at ht
          cases ht with
          | u64 => simp at hz
          | param h => exact h
          | phantom _ _ => simp at hz
          | struct st hm _ hf =>
            simp only [List.mem_cons, List.not_mem_nil, or_false] at hm
            rcases hm with rfl | rfl <;> simp [ptrStruct, boxStruct] at hz
  · refine .struct boxStruct (by simp) (fun h hm _ => hno h hm) fun f hf => ?_
    simp only [boxStruct, List.mem_cons, List.not_mem_nil, or_false] at hf
    rcases hf with rfl | rfl
    · exact hp
    · exact .phantom _ (.param hT)

/-- **C95**, layout: from the fields and attributes in the text, on every target, whatever the parameter; the same as in C66. -/
theorem C95_layout : ∃ ss hs, crateImpls = some (ss, hs) ∧ ∀ (t : Target) (T : Rust.RTy),
    layoutOf t ss 3 (.path [("TaggedPointer", [])]) = some ⟨8, t.alignU64⟩ ∧ layoutOf t ss 3 (.path [("TaggedBox", [T])]) = some ⟨8, t.alignU64⟩ := by
  refine ⟨_, _, crate_impls, fun t T => ?_⟩
  have key : ∀ a : Nat, TB.Macro.transparent [⟨8, a⟩] = some ⟨8, a⟩ ∧ TB.Macro.transparent [⟨8, a⟩, ⟨0, 1⟩] = some ⟨8, a⟩ := by
    intro a
    have e : ((⟨8, a⟩ : SA) != ⟨0, 1⟩) = true := by simp
    constructor <;> simp [TB.Macro.transparent, List.filter, e]
  constructor <;> simp [layoutOf, ptrStruct, boxStruct, (key _).1, (key _).2]

/-- Non-vacuity: the derives in the documentation of the macro, `#[derive(Debug, Clone, PartialEq)]`, are accepted for payloads that have them. -/
example : ∃ ss hs, crateImpls = some (ss, hs) ∧ Accepted hs (fun t => t = .debug ∨ t = .clone ∨ t = .partialEq) (fun _ => False) (fun _ => False) (fun _ => True) := by
  obtain ⟨ss, hs, h, hd⟩ := C95_derive
  refine ⟨ss, hs, h, (hd _ _ _).2 ⟨⟨⟨fun _ _ h => h, fun _ _ => trivial, fun t ht u hu => ?_⟩, by decide⟩, by decide, fun _ => .inl (.inr (.inl rfl))⟩⟩
  rcases ht with (rfl | rfl | rfl) | h
  · cases hu
  · cases hu
  · cases hu
  · exact h.elim

/-- A set of traits that is closed under supertraits, for `C95_supers`: those of integers. -/
example : ∀ t : Tr, (fun _ : Tr => True) t → ∀ u ∈ t.supers, (fun _ : Tr => True) u := fun _ _ _ _ => trivial

end TB.Props

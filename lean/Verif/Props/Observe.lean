import Verif.DemoMacro
import Verif.Lemmas.Container

/-!
# Properties of conversions and observations: destructors, and changes through shared references
-/

set_option autoImplicit false

namespace TB.Props

open TB.Macro

variable {env : Env} {rc : Rustc} {sn en : String} {hd : Bool} {ts : List Tok} {decl : List VariantDef} {P : Program}

/-! ## C55 -/

/-- The claim: a successful conversion into a container runs no destructor. -/
def C55_Statement (env : Env) (rc : Rustc) (decl : List VariantDef) (P : Program) : Prop :=
  ∀ e, IsEnumValue rc decl e → ∀ s, HeapInv env s → ∀ b s', containerFrom env rc P e s = .ret b s' → dtorsBetween s s' = []

/-- **C55**, exactly what runs at a successful conversion: the destructors of the fields, if together they have size zero (see `C23` for
the second run), and then the enum's own, if it has one. -/
theorem C55_exact (h : env.OK) (hrc : rc.OK) (hc : Compiled rc env.cfg sn en hd ts decl P)
    (hlen : decl.length ≤ 2 ^ env.cfg.DISCRIMINANT_BITS) (ho : env.debug = true ∨ env.InRange) {e : EVal}
    (hv : IsEnumValue rc decl e) {s s' : State} (hi : HeapInv env s) {b : TBox} (hr : containerFrom env rc P e s = .ret b s') :
    dtorsBetween s s' = (if zeroSized rc decl e then fieldDtors rc decl e else []) ++ (if hd then [.dropEnum e.variant] else []) := by
  obtain ⟨fail, s'', _, _, _, _, h1, h2⟩ := from_step h hrc hc hlen ho hv hi
  cases fail with
  | some k => simp only at h2; rw [h2] at hr; cases hr
  | none =>
    obtain ⟨b', i, h2, _⟩ := h2
    rw [h2] at hr
    cases hr
    exact h1

/-- **C55**, the part that holds: for enums without a `Drop` implementation and without zero-sized payloads that have destructors. -/
theorem C55_partial (h : env.OK) (hrc : rc.OK) (hc : Compiled rc env.cfg sn en false ts decl P)
    (hlen : decl.length ≤ 2 ^ env.cfg.DISCRIMINANT_BITS) (ho : env.debug = true ∨ env.InRange)
    (hz : ∀ d ∈ decl, ∀ sh, d.fields.shape rc = some sh → sh.size = 0 → ∀ t ∈ d.fields.types, (rc.leaf t).needsDrop = false) :
    C55_Statement env rc decl P := by
  intro e hv s hi b s' hr
  rw [C55_exact h hrc hc hlen ho hv hi hr]
  simp only [Bool.false_eq_true, if_false, List.append_nil]
  split
  · rename_i hzs
    unfold zeroSized at hzs
    unfold fieldDtors
    cases hf : decl.find? (fun d => d.name == e.variant) with
    | none => rfl
    | some d =>
      rw [hf] at hzs
      simp only at hzs ⊢
      cases hsh : d.fields.shape rc with
      | none => rw [hsh] at hzs; cases hzs
      | some sh =>
        rw [hsh] at hzs
        have hno := hz d (List.mem_of_find?_eq_some hf) sh hsh (by simpa using hzs)
        rw [List.filterMap_eq_nil_iff]
        rintro ⟨t, v⟩ hm
        have := hno t (List.of_mem_zip hm).1
        simp [this]
  · rfl

/-- **C55 does not hold** for enums that implement `Drop`: every successful conversion runs the destructor, and so does the owner of
the value taken out later. -/
theorem C55_refuted_drop (h : env.OK) (hrc : rc.OK) (hc : Compiled rc env.cfg sn en true ts decl P)
    (hlen : decl.length ≤ 2 ^ env.cfg.DISCRIMINANT_BITS) (ho : env.debug = true ∨ env.InRange) {e : EVal}
    (hv : IsEnumValue rc decl e) {s s' : State} (hi : HeapInv env s) {b : TBox} (hr : containerFrom env rc P e s = .ret b s') :
    Event.dropEnum e.variant ∈ dtorsBetween s s' := by
  rw [C55_exact h hrc hc hlen ho hv hi hr]
  simp

/-- `Lock(Guard),` where `Guard` is a zero-sized type with a destructor. -/
def toksLock : List Tok := [.ident "Lock", .group .paren [.ident "Guard"], .comma]
def declLock : List VariantDef := [⟨"Lock", .tuple [.named "Guard"]⟩]
def progLock : Program := programOf "Container" "Item" false declLock

theorem lock_compiled (b : Bool) : Compiled rcDemo (env60 b).cfg "Container" "Item" false toksLock declLock progLock :=
  ⟨.cons (.tuple (.one ⟨by simp, 0, rfl, rfl⟩)) .nil, by rfl⟩

/-- **C55 does not hold** for zero-sized payloads with a destructor. -/
theorem C55_refuted (debug : Bool) : ¬ C55_Statement (env60 debug) rcDemo declLock progLock := by
  intro h
  have hv : IsEnumValue rcDemo declLock ⟨"Lock", .tuple [[]]⟩ := ⟨0, _, rfl, rfl, ⟨rfl, by decide⟩, trivial⟩
  obtain ⟨b, s', hr⟩ : ∃ b s', containerFrom (env60 debug) rcDemo progLock ⟨"Lock", .tuple [[]]⟩ state0 = .ret b s' := by
    cases debug <;> exact ⟨_, _, rfl⟩
  have h1 := C55_exact (env60_ok debug) rcDemo_ok (lock_compiled debug) (by cases debug <;> decide) (.inr (env60_inRange debug)) hv
    (state0_inv _) hr
  rw [h _ hv _ (state0_inv _) _ _ hr] at h1
  exact absurd h1 (by decide)

/-- Non-vacuity: the declaration of the demo meets the hypotheses of `C55_partial`, and a conversion succeeds. -/
example : (∀ d ∈ declMix, ∀ sh, d.fields.shape rcDemo = some sh → sh.size = 0 → ∀ t ∈ d.fields.types, (rcDemo.leaf t).needsDrop = false) ∧
    (∃ b s', containerFrom (env60 true) rcDemo progMix ⟨"Heap", .tuple [List.replicate 8 (some 1#8)]⟩ state0 = .ret b s') := by
  refine ⟨?_, ⟨_, _, rfl⟩⟩
  intro d hd sh hsh hz
  have : ∀ d ∈ declMix, ∀ sh, d.fields.shape rcDemo = some sh → sh.size ≠ 0 := by
    intro d hd sh hsh
    simp only [declMix, List.mem_cons, List.not_mem_nil, or_false] at hd
    rcases hd with rfl | rfl | rfl | rfl <;> cases hsh <;> decide
  exact absurd hz (this d hd sh hsh)

/-! ## C56 -/

/-- The claim: a change of the value made by a callback through its shared reference (fields may be `Cell`s; the callback says
what the value is when it returns) is there afterwards: the container then gives up the changed value. -/
def C56_Statement (env : Env) (rc : Rustc) (decl : List VariantDef) (P : Program) : Prop :=
  ∀ s b i e, HeapInv env s → Stores env rc decl s b i e →
    ∀ (β : Type) (f : EVal → M (β × EVal)) r e' s', f e s = .ret (r, e') s' → HeapInv env s' → Extends s s' → IsValue rc decl i e' →
      ∀ s'', (taggable env rc P).refFrom b f s = .ret (some (r, e')) s'' →
        containerIntoInner env rc P b s'' = .ret e' s''

/-- **C56**, what happens instead: the callback is called with a bitwise copy; whatever it does to it, the container presents and
gives up the old value (so a value taken out of a cell by the callback is owned twice, and one put into a cell is lost without running its
destructor). -/
theorem C56_exact (hrc : rc.OK) (hc : Compiled rc env.cfg sn en hd ts decl P) {s : State} {b : TBox} {i : Nat} {e : EVal}
    (hs : Stores env rc decl s b i e) {β : Type} (f : EVal → M (β × EVal)) {r : β} {e' : EVal} {s' : State}
    (hf : f e s = .ret (r, e') s') (he : Extends s s') :
    ∃ s'', (taggable env rc P).refFrom b f s = .ret (some (r, e')) s'' ∧
      containerIntoInner env rc P b s'' = .ret e s'' ∧
      dtorsBetween s' s'' = (if hd ∧ e.payload = .unit then [.dropEnum e.variant] else []) ∧
      ∀ (γ : Type) (g : EVal → M γ) x s₃, g e s'' = .ret x s₃ → ∃ s₄, (taggable env rc P).refFrom b g s'' = .ret (some x) s₄ := by
  have hp := seen_step (hd := hd) hc hs
  have hr : (taggable env rc P).refFrom b f s = .ret (some (r, e')) (s'.log ((crateDtors rc decl hd).seen e)) := by
    rw [hp]
    refine cleanup_ret ?_
    exact M.bind_of_ret hf
  have hE : Extends s (s'.log ((crateDtors rc decl hd).seen e)) := he.trans (Extends.log _ _)
  have hs' := hs.mono hrc hE
  refine ⟨_, hr, ?_, ?_, ?_⟩
  · obtain ⟨hw, rfl⟩ := hc.wf
    exact containerIntoInner_stores hw.u8 hw.names hw.members hs'
  · rw [dtors_log, seen_isDtor]
    show (if e.payload = .unit then enumDtor hd e else []) = _
    cases hd <;> by_cases h : e.payload = .unit <;> simp [enumDtor, h]
  · intro γ g x s₃ hg
    refine ⟨s₃.log ((crateDtors rc decl hd).seen e), ?_⟩
    rw [seen_step (hd := hd) hc hs']
    exact cleanup_ret (M.bind_of_ret hg)

/-- **C56**, the part that holds: if the callback leaves the value as it is (no interior mutability). -/
theorem C56_partial (hrc : rc.OK) (hc : Compiled rc env.cfg sn en hd ts decl P) {s : State} {b : TBox} {i : Nat} {e : EVal}
    (hs : Stores env rc decl s b i e) {β : Type} (f : EVal → M (β × EVal)) {r : β} {s' : State}
    (hf : f e s = .ret (r, e) s') (he : Extends s s') :
    ∃ s'', (taggable env rc P).refFrom b f s = .ret (some (r, e)) s'' ∧ containerIntoInner env rc P b s'' = .ret e s'' := by
  obtain ⟨s'', h1, h2, _⟩ := C56_exact hrc hc hs f hf he
  exact ⟨s'', h1, h2⟩

/-- **C56 does not hold** for any declared enum: not for any stored value and any other value of the same variant. -/
theorem C56_refuted (hrc : rc.OK) (hc : Compiled rc env.cfg sn en hd ts decl P) {s : State} (hi : HeapInv env s) {b : TBox}
    {i : Nat} {e e' : EVal} (hs : Stores env rc decl s b i e) (hv : IsValue rc decl i e') (hne : e ≠ e') :
    ¬ C56_Statement env rc decl P := by
  intro h
  obtain ⟨s'', h1, h2, _⟩ := C56_exact hrc hc hs (fun _ => pure ((), e')) (r := ()) (e' := e') (s' := s) rfl (Extends.refl _)
  have h3 := h s b i e hi hs Unit _ () e' s rfl hi (Extends.refl _) hv s'' h1
  rw [h2] at h3
  exact hne (by injection h3)

/-- Non-vacuity: a container made from one owned value, and another value of the same variant. -/
example : ∃ s b, HeapInv (env60 true) s ∧ Stores (env60 true) rcDemo declMix s b 2 ⟨"Heap", .tuple [List.replicate 8 (some 1#8)]⟩ ∧
    IsValue rcDemo declMix 2 ⟨"Heap", .tuple [List.replicate 8 (some 2#8)]⟩ := by
  have hv : IsValue rcDemo declMix 2 ⟨"Heap", .tuple [List.replicate 8 (some 1#8)]⟩ := ⟨_, rfl, rfl, ⟨rfl, by decide⟩, trivial⟩
  obtain ⟨b, s', hr⟩ : ∃ b s', containerFrom (env60 true) rcDemo progMix ⟨"Heap", .tuple [List.replicate 8 (some 1#8)]⟩ state0 = .ret b s' :=
    ⟨_, _, rfl⟩
  obtain ⟨hw, hP⟩ := (mix_compiled true).wf
  obtain ⟨h1, _, h2⟩ := into_stores (env60_ok true) rcDemo_ok hw.u8 hw.names hw.members hw.arity hv (state0_inv _) hr
  exact ⟨s', b, h1, h2 (by decide) (.inl rfl), _, rfl, rfl, ⟨rfl, by decide⟩, trivial⟩

end TB.Props

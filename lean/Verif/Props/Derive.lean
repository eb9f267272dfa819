import Verif.Macro.Derive

/-!
# Properties of derived traits
-/

set_option autoImplicit false

namespace TB.Props

open TB.Macro

/-! ## C57 -/

/-- The claim: attributes that are accepted on a plain enum are accepted by `tagged_box!` (the container having the same
hand-written implementations as the enum). -/
def C57_Statement : Prop := ∀ derived manual payloads : Trs, EnumOK derived manual payloads → MacroOK derived manual manual payloads

/-- **C57**, exactly what is accepted: what is accepted on the plain enum, without `Hash`, and without `Debug` unless the enum is
`Clone`. -/
theorem C57_exact (derived manual payloads : Trs) :
    MacroOK derived manual manual payloads ↔
      EnumOK derived manual payloads ∧ ¬ derived .hash ∧ (derived .debug → derived .clone ∨ manual .clone) := by
  constructor
  · rintro ⟨h1, h2⟩
    refine ⟨h1, fun h => ?_, fun h => ?_⟩
    · obtain ⟨_, h, _⟩ := h2.fields _ h; cases h
    · obtain ⟨_, e, h⟩ := h2.fields _ h
      cases e
      exact h .clone (by simp)
  · rintro ⟨h1, h2, h3⟩
    refine ⟨h1, h1.once, fun t ht => ?_, h1.supers⟩
    cases t with
    | hash => exact absurd ht h2
    | default => exact absurd ht h1.noDefault
    | debug =>
      refine ⟨_, rfl, fun b hb => ?_⟩
      rcases List.mem_cons.1 hb with rfl | hb
      · exact .inl ht
      · rw [List.mem_singleton.1 hb]; exact h3 ht
    | clone | copy | partialEq | eq | partialOrd | ord =>
      exact ⟨_, rfl, fun b hb => by rw [List.mem_singleton.1 hb]; exact .inl ht⟩

/-- **C57**, the part that holds: deriving any of `Clone`, `Copy`, `PartialEq`, `Eq`, `PartialOrd`, `Ord`, and `Debug` with `Clone`. -/
theorem C57_partial (derived manual payloads : Trs) (h : EnumOK derived manual payloads) (h1 : ¬ derived .hash)
    (h2 : derived .debug → derived .clone) : MacroOK derived manual manual payloads :=
  (C57_exact _ _ _).2 ⟨h, h1, fun hd => .inl (h2 hd)⟩

/-- A single trait. -/
def only (t : Tr) : Trs := fun u => u = t

theorem only_ok {t : Tr} (ht : t = .debug ∨ t = .hash) : EnumOK (only t) (fun _ => False) (fun _ => True) := by
  refine ⟨⟨fun _ _ h => h, fun _ _ => trivial, fun u hu v hv => ?_⟩, ?_⟩
  · rcases hu with hu | hu
    · cases hu
      rcases ht with rfl | rfl <;> cases hv
    · exact hu.elim
  · intro h
    cases h
    rcases ht with h | h <;> cases h

/-- **C57 does not hold**: `#[derive(Hash)]` and `#[derive(Debug)]` (alone) are rejected for every enum. -/
theorem C57_refuted : ¬ C57_Statement ∧ (∀ manual manualC payloads, ¬ MacroOK (only .hash) manual manualC payloads) ∧
    (∀ manualC payloads, ¬ MacroOK (only .debug) (fun _ => False) manualC payloads) := by
  refine ⟨fun h => ?_, fun _ _ _ h => ?_, fun _ _ h => ?_⟩
  · have := (C57_exact _ _ _).1 (h _ _ _ (only_ok (.inr rfl)))
    exact this.2.1 rfl
  · obtain ⟨_, h, _⟩ := h.container.fields .hash rfl; cases h
  · obtain ⟨_, e, h⟩ := h.container.fields .debug rfl
    cases e
    rcases h .clone (by simp) with h | h
    · cases h
    · exact h

/-- Non-vacuity: the derives of the documentation, `#[derive(Debug, Clone, PartialEq)]`, for payloads that have them (here with
nothing else). `README.md:29`, `mod.rs:606` -/
example : MacroOK (fun t => t = .debug ∨ t = .clone ∨ t = .partialEq) (fun _ => False) (fun _ => False)
    (fun t => t = .debug ∨ t = .clone ∨ t = .partialEq) := by
  refine C57_partial _ _ _ ⟨⟨fun _ _ h => h, fun _ h => h, fun t ht u hu => ?_⟩, ?_⟩ ?_ ?_
  · rcases ht with (rfl | rfl | rfl) | ht
    · cases hu
    · cases hu
    · cases hu
    · exact ht.elim
  · rintro (h | h | h) <;> cases h
  · rintro (h | h | h) <;> cases h
  · exact fun _ => .inr (.inl rfl)

end TB.Props

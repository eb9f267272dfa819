import Verif.DemoMacro
import Verif.Lemmas.Reentrant

/-!
# Properties of reentrant programs
-/

set_option autoImplicit false

namespace TB.Props

open TB.Macro

variable {ι : Type} [DecidableEq ι] {env : Env} {rc : Rustc} {E : ι → DeclEnum}

/-! ## C73 -/

/-- The crate's destructors for each enum of the family (see C46). -/
def familyDtors (rc : Rustc) (E : ι → DeclEnum) (i : ι) : Dtors := crateDtors rc (E i).decl (E i).hasDrop

/-- Rust's destructors for plain values. -/
def plainDtors (rc : Rustc) (E : ι → DeclEnum) (i : ι) : Dtors := rustDtors rc (E i).decl (E i).hasDrop

/-- **C73** User code may itself use containers. For every family of enums that compile and fit, and every well-typed program whose
closures, `clone`, `eq`, `partial_cmp`, `cmp` and `fmt` may in turn do anything to containers of any of the enums (look at, compare and
clone the container that is being looked at, make and consume others, panic, catch panics), to any depth: run on any heap, there is no
undefined behaviour, and the outcome (result or panic) and the destructors that run are those of the same program on plain values, where
some attempts to make containers fail for lack of memory. They fail only if the allocator returned null or, in a debug build, an address
outside the reserved width. -/
theorem C73 (h : env.OK) (hrc : rc.OK) (ho : env.debug = true ∨ env.InRange) (hE : ∀ i, (E i).OK env rc) {α : Type} (p : RProg env ι α)
    (hw : WellTyped env (plain rc E (familyDtors rc E) p [])) (s : State) (hi : HeapInv env s) :
    ∃ fs s' o, (∀ f ∈ fs, FailOK env f) ∧ (env.InRange → ¬ NullBetween s s' → ∀ f ∈ fs, f = none) ∧ HeapInv env s' ∧ Extends s s' ∧
      plain rc E (familyDtors rc E) p [] fs = some o ∧ o.evs = dtorsBetween s s' ∧
      ((∃ a t hs, o.res = .ok (a, hs) ∧ exec rc E p [] s = .ret (a, t) s' ∧ TableSim env rc E s' t hs) ∨
       (∃ k, o.res = .error k ∧ exec rc E p [] s = .panic k s')) := by
  obtain ⟨fs, s', h1, h2, h3, h4, h5⟩ := exec_tracks h hrc ho hE p s [] [] hi ⟨rfl, by simp⟩ hw
  rcases h5 with ⟨⟨a, t⟩, ⟨b, hs⟩, e, ⟨hab, S⟩, h5⟩ | ⟨k, e, h5⟩
  · cases hab
    have := h5 []
    rw [List.append_nil] at this
    exact ⟨fs, s', _, h1, h2, h3, h4, this, rfl, .inl ⟨a, t, hs, rfl, e, S⟩⟩
  · have := h5 []
    rw [List.append_nil] at this
    exact ⟨fs, s', _, h1, h2, h3, h4, this, rfl, .inr ⟨k, rfl, e⟩⟩

/-- **C73**, corollary: if there is memory, the outcome is what the program does with plain values, with Rust's own rules for
destructors, which a program of this kind does not see. -/
theorem C73_memory (h : env.OK) (hrc : rc.OK) (hin : env.InRange) (hE : ∀ i, (E i).OK env rc) {α : Type} (p : RProg env ι α)
    (hw : WellTyped env (plain rc E (plainDtors rc E) p [])) (s : State) (hi : HeapInv env s)
    (hm : ∀ s', (∃ r, exec rc E p [] s = .ret r s') ∨ (∃ k, exec rc E p [] s = .panic k s') → ¬ NullBetween s s') :
    ∃ o, plain rc E (plainDtors rc E) p [] [] = some o ∧
      ((∃ a t hs s', o.res = .ok (a, hs) ∧ exec rc E p [] s = .ret (a, t) s') ∨
       (∃ k s', o.res = .error k ∧ exec rc E p [] s = .panic k s')) := by
  have hw' : WellTyped env (plain rc E (familyDtors rc E) p []) := by
    intro fs hfs hn
    rcases plain_alike alike_eq (familyDtors rc E) (plainDtors rc E) p [] fs fs rfl with ⟨_, e⟩ | ⟨o, o', e, _⟩
    · exact hw fs hfs e
    · rw [hn] at e; cases e
  obtain ⟨fs, s', o, _, h2, _, _, h5, _, h7⟩ := C73 h hrc (.inr hin) hE p hw' s hi
  have hnone : ∀ f ∈ fs, f = none := by
    apply h2 hin
    rcases h7 with ⟨a, t, hs, _, e, _⟩ | ⟨k, _, e⟩
    · exact hm s' (.inl ⟨_, e⟩)
    · exact hm s' (.inr ⟨_, e⟩)
  rcases plain_alike alike_none (familyDtors rc E) (plainDtors rc E) p [] fs [] ⟨hnone, by simp⟩ with ⟨e, _⟩ | ⟨o₁, o', e, e', hr, _⟩
  · rw [h5] at e; cases e
  · rw [h5] at e
    cases e
    refine ⟨o', e', ?_⟩
    rw [← hr]
    rcases h7 with ⟨a, t, hs, ho, e, _⟩ | ⟨k, ho, e⟩
    · exact .inl ⟨a, t, hs, s', ho, e⟩
    · exact .inr ⟨k, s', ho, e⟩

/-- Two enums: the mixed one, and one with three unit variants and a `Drop` implementation. -/
def twoEnums (b : Bool) : DeclEnum :=
  if b then ⟨"Container", "Item", true, toksUnits 3, declUnits 3, programOf "Container" "Item" true (declUnits 3)⟩
  else ⟨"Container", "Item", false, toksMix, declMix, progMix⟩

theorem twoEnums_ok (debug b : Bool) : (twoEnums b).OK (env60 debug) rcDemo := by
  cases b
  · exact ⟨mix_compiled debug, by cases debug <;> decide⟩
  · exact ⟨units_compiled rfl true (by decide), by cases debug <;> decide⟩

/-- Make a pair. In a closure that looks at it: clone it, with a `clone` that looks at the original once more and makes a container of the
other enum on the way; compare the original with the clone, with an `eq` that panics unless the other enum's container can be looked
at; consume the clone. Catch what goes wrong. -/
def reentrantDemo (env : Env) : RProg env Bool (Bool × Bool) :=
  .catch (.from false ⟨"Pair", .tuple [[some 7#8], [some 1#8, some 0#8, some 0#8, some 0#8]]⟩ fun h =>
    .observe false h
      (fun x => .clone false h
        (fun y => .observe false h (fun z => .from true ⟨unitName 1, .unit⟩ fun d => .observe true d (fun u => .ret (z, u)) fun _ => .ret z)
          fun r => .ret (r.getD y))
        fun c => .from true ⟨unitName 2, .unit⟩ fun d =>
          .eq false h c
            (fun a b => .observe true d (fun u => .ret (u.variant == unitName 2)) fun ok => if ok = some true then .ret (a == b) else .panic 1)
            fun same => .intoInner false c fun z => .drop true d (.ret (same, z == x)))
      fun r => .ret (r.getD (false, false)))
    fun r => match r with
      | .ok r => .ret r
      | .error _ => .ret (true, true)

theorem reentrantDemo_wellTyped (debug : Bool) :
    WellTyped (env60 debug) (plain rcDemo twoEnums (familyDtors rcDemo twoEnums) (reentrantDemo (env60 debug)) []) := by
  have pair : IsEnumValue rcDemo (twoEnums false).decl ⟨"Pair", .tuple [[some 7#8], [some 1#8, some 0#8, some 0#8, some 0#8]]⟩ := by
    decide
  have unit1 : IsEnumValue rcDemo (twoEnums true).decl ⟨unitName 1, .unit⟩ := ⟨1, units_value (by decide)⟩
  have unit2 : IsEnumValue rcDemo (twoEnums true).decl ⟨unitName 2, .unit⟩ := ⟨2, units_value (by decide)⟩
  refine Goes.wellTyped (Q := fun _ => True) ?_
  rw [reentrantDemo, plain]
  refine Goes.bind (Goes.catchUnwind (Q := fun _ => True) ?_) fun r _ => ?_
  · refine (Goes.make pair).bind fun _ _ => (Goes.get rfl).bind fun x hx => ?_
    subst hx
    refine (Goes.andThen (Q := fun _ => True) ?_ _).bind fun r _ => .pure trivial
    refine (Goes.get rfl).bind fun x hx => ?_
    subst hx
    refine (Goes.andThen (Q := fun r => r.1 = ⟨"Pair", .tuple [[some 7#8], [some 1#8, some 0#8, some 0#8, some 0#8]]⟩) ?_ _).bind
      fun r hr => ?_
    · refine (Goes.get rfl).bind fun x hx => ?_
      subst hx
      refine (Goes.andThen (Q := fun r => r.1 = ⟨"Pair", .tuple [[some 7#8], [some 1#8, some 0#8, some 0#8, some 0#8]]⟩) ?_ _).bind
        fun r hr => .pure hr
      refine (Goes.make unit1).bind fun _ _ => (Goes.get rfl).bind fun x hx => ?_
      exact (Goes.andThen (Q := fun _ => True) (.pure trivial) _).bind fun r _ => .pure rfl
    · rw [hr]
      refine (Goes.make pair).bind fun _ _ => (Goes.make unit2).bind fun _ _ => ?_
      refine (Goes.get rfl).bind fun x hx => (Goes.get rfl).bind fun y hy => ?_
      refine (Goes.andThen (Q := fun _ => True) ?_ _).bind fun r _ => ?_
      · refine (Goes.get rfl).bind fun z hz => ?_
        refine (Goes.andThen (Q := fun _ => True) (.pure trivial) _).bind fun r _ => ?_
        by_cases ok : some r.1 = some true
        · simp only [if_pos ok]; exact .pure trivial
        · simp only [if_neg ok]; exact .panic
      · refine (Goes.get rfl).bind fun z hz => (Goes.get rfl).bind fun z hz => ?_
        exact (Goes.andThen (Q := fun _ => True) (.pure trivial) _).bind fun _ _ => .pure trivial
  · match r with
    | .ok r => exact .pure trivial
    | .error kind => exact .pure trivial

/-- On plain values the program answers `(true, true)`, also if the destructors are the crate's, and it runs the destructor of the second
enum four times: when each of the two containers is made, and when it is looked at. -/
example (debug : Bool) : ((plain rcDemo twoEnums (familyDtors rcDemo twoEnums) (reentrantDemo (env60 debug)) [] []).map fun o =>
    ((match o.res with | .ok (a, hs) => some (a, hs.length) | .error _ => none), o.evs.length)) =
    some (some ((true, true), 3), 4) := by
  cases debug <;> decide +kernel

/-- All hypotheses can be met. -/
example (debug : Bool) : ∃ fs s' o, (∀ f ∈ fs, FailOK (env60 debug) f) ∧
    plain rcDemo twoEnums (familyDtors rcDemo twoEnums) (reentrantDemo (env60 debug)) [] fs = some o ∧
    ((∃ a t hs, o.res = .ok (a, hs) ∧ exec rcDemo twoEnums (reentrantDemo (env60 debug)) [] state0 = .ret (a, t) s') ∨
     (∃ k, o.res = .error k ∧ exec rcDemo twoEnums (reentrantDemo (env60 debug)) [] state0 = .panic k s')) := by
  obtain ⟨fs, s', o, h1, _, _, _, h5, _, h7⟩ := C73 (env60_ok debug) rcDemo_ok (.inr (env60_inRange debug)) (twoEnums_ok debug)
    (reentrantDemo (env60 debug)) (reentrantDemo_wellTyped debug) state0 (state0_inv _)
  refine ⟨fs, s', o, h1, h5, ?_⟩
  rcases h7 with ⟨a, t, hs, e, e', _⟩ | h7
  · exact .inl ⟨a, t, hs, e, e'⟩
  · exact .inr h7

end TB.Props

import Verif.Lemmas.BorrowOwned
import Verif.Props.Borrow

/-!
# Aliasing of payloads that are boxes (C74)

The rules are Stacked Borrows (`Verif/Borrow.lean`), the functions for an enum with variants `V(Box<U>)` are in `Verif/BorrowOwned.lean`; what a client may
do and sees is in `Verif/Spec/BorrowOwned.lean`.
-/

set_option autoImplicit false

namespace TB.Props

open TB

variable {env : Env} {s : State} {β : Borrows} {Us : List Shape}

/-- **C74 (the rule that is needed)** A client the compiler accepts that reads a box only in the closure of the latest `ref_from_tagged_box` on its container has no undefined
behaviour, aliasing included, and sees what the specification says. For all enums with variants `V(Box<U>)`, all adaptive clients, any number of steps, any
starting heap and borrow state. -/
theorem C74_latest (ok : env.OK) (hr : env.debug = true ∨ env.InRange) (hU : ∀ U ∈ Us, U.WF)
    (hn : Us.length ≤ env.cfg.MAX_DISCRIMINANT.toNat + 1) (hi : HeapInv env s) (hβ : ∀ e ∈ β.exposed, e < β.next)
    (p : WClient env) (hp : AcceptedO Us p) (hl : LatestOnly Us p) (n : Nat) :
    ∃ os c x, runClientW env Us p s β n = some (os, c) ∧ OReach Us p os x := by
  obtain ⟨os, c, x, _, h1, h2, _⟩ := run_wsim ok hr hU hn hi hβ hp hl n
  exact ⟨os, c, x, h1, h2⟩

/-- **C74 (partial)** A client the compiler accepts that never calls `ref_from_tagged_box` on a container inside a closure running on the same container — so no `a == a`,
`a.cmp(&a)` — has no undefined behaviour.
Missing for the full claim: clients that do so, for which it is false (`C74_refuted`). -/
theorem C74_partial (ok : env.OK) (hr : env.debug = true ∨ env.InRange) (hU : ∀ U ∈ Us, U.WF)
    (hn : Us.length ≤ env.cfg.MAX_DISCRIMINANT.toNat + 1) (hi : HeapInv env s) (hβ : ∀ e ∈ β.exposed, e < β.next)
    (p : WClient env) (hp : AcceptedO Us p) (hnn : NeverNested Us p) (n : Nat) :
    ∃ os c x, runClientW env Us p s β n = some (os, c) ∧ OReach Us p os x :=
  C74_latest ok hr hU hn hi hβ p hp (fun os x k hreach hop => by
    obtain ⟨h, hrun⟩ := hp os x _ hreach hop
    exact nested_latest hnn hreach k h hrun) n

/-- **C74 (the rule is sharp)** In every state a client that kept the rule can be in: reading the box (of a type that is not zero-sized) in the closure of a call that is not the latest on its
container is undefined behaviour. -/
theorem C74_sharp (ok : env.OK) (hr : env.debug = true ∨ env.InRange) (hU : ∀ U ∈ Us, U.WF)
    (hn : Us.length ≤ env.cfg.MAX_DISCRIMINANT.toNat + 1) (hi : HeapInv env s) (hβ : ∀ e ∈ β.exposed, e < β.next)
    (p : WClient env) (hp : AcceptedO Us p) (hl : LatestOnly Us p) (n : Nat) :
    ∃ os c x, runClientW env Us p s β n = some (os, c) ∧ OReach Us p os x ∧
      ∀ k h i v U, x.Running k h → x.In h i v → Us[i]? = some U → 0 < U.size → ¬ x.Latest k → stepW env Us c (.look k) = none := by
  obtain ⟨os, c, x, _, h1, h2, S⟩ := run_wsim ok hr hU hn hi hβ hp hl n
  exact ⟨os, c, x, h1, h2, fun k h i v U a b d e f => S.dead a b d e f⟩

/-! ## Examples -/

/-- A client that runs through a list of operations, unless something panicked. -/
def boxScript {env : Env} (ops : List WOp) (os : List (Obs env)) : Option WOp :=
  if os.any (fun o => match o.1 with | .panicked _ => true | _ => false) then none else ops[os.length]?

/-- What a script does from the states `st` is known if every operation leads from one to the next. -/
theorem boxScript_reach {env : Env} {Us : List Shape} {ops : List WOp} {st : Nat → OState} (h0 : st 0 = ⟨[], [], []⟩)
    (h : ∀ k op, ops[k]? = some op → ∀ (o : Obs env) x', SpecNextO env Us (st k) op o x' → x' = st (k + 1) ∨ ∃ pk, o.1 = .panicked pk) :
    ∀ os x, OReach Us (boxScript (env := env) ops) os x → (∃ pk e, (.panicked pk, e) ∈ os) ∨ x = st os.length := by
  intro os x hr
  induction hr with
  | start => exact Or.inr h0.symm
  | @next os x op o x' _ hop hn ih =>
    rcases ih with ⟨pk, e, hm⟩ | rfl
    · exact Or.inl ⟨pk, e, List.mem_append_left _ hm⟩
    · have hop' : ops[os.length]? = some op := by
        unfold boxScript at hop
        split at hop
        · cases hop
        · exact hop
      rcases h _ op hop' o x' hn with rfl | ⟨pk, hpk⟩
      · exact Or.inr (by simp)
      · refine Or.inl ⟨pk, o.2, List.mem_append_right _ ?_⟩
        rw [← hpk]
        exact List.mem_singleton.2 rfl

theorem boxScript_some {env : Env} {ops : List WOp} {os : List (Obs env)} {op : WOp} (h : boxScript ops os = some op) :
    ops[os.length]? = some op ∧ ¬ ∃ pk e, (.panicked pk, e) ∈ os := by
  unfold boxScript at h
  split at h
  · cases h
  · rename_i hne
    refine ⟨h, fun ⟨pk, e, hm⟩ => hne ?_⟩
    rw [List.any_eq_true]
    exact ⟨_, hm, rfl⟩

/-- `enum Item { A(Box<u32>) }` -/
def oneBox : List Shape := [u32L.shape]

section
variable (debug : Bool)

/-- `let a = Container::from(Item::A(Box::new(..))); a == a` — `PartialEq` for `TaggedBox` is `src/tagged_box.rs:534-551`. -/
def selfEq : List WOp := [.make 0 vA, .put 0, .enter 0, .enter 0, .look 0]

def selfEqStates : Nat → OState
  | 0 => ⟨[], [], []⟩
  | 1 => ⟨[], [some (0, vA)], []⟩
  | 2 => ⟨[some (0, vA)], [none], []⟩
  | 3 => ⟨[some (0, vA)], [none], [(0, true)]⟩
  | _ => ⟨[some (0, vA)], [none], [(0, true), (0, true)]⟩

theorem selfEq_reach : ∀ os x, OReach oneBox (boxScript (env := env60 debug) selfEq) os x →
    (∃ pk e, (.panicked pk, e) ∈ os) ∨ x = selfEqStates os.length := by
  refine boxScript_reach rfl ?_
  intro k op hk o x' hn
  match k, hk with
  | 0, hk =>
    cases hk
    rcases hn with ⟨_, rfl⟩ | ⟨rfl, _⟩
    · exact Or.inl rfl
    · exact Or.inr ⟨_, rfl⟩
  | 1, hk =>
    cases hk
    obtain ⟨i, v, U, ho, _, ⟨_, rfl⟩ | ⟨rfl, _⟩ | ⟨_, rfl, _⟩⟩ := hn
    · cases ho
      exact Or.inl rfl
    · exact Or.inr ⟨_, rfl⟩
    · exact Or.inr ⟨_, rfl⟩
  | 2, hk | 3, hk =>
    cases hk
    obtain ⟨i, v, _, _, rfl⟩ := hn
    exact Or.inl rfl
  | 4, hk =>
    cases hk
    obtain ⟨_, _, _, _, _, _, rfl⟩ := hn
    exact Or.inl rfl
  | k + 5, hk => simp [selfEq] at hk

/-- **C74 refuted** Passing the compiler is not enough: comparing a container with itself reads a box in the outer closure after the inner call, which is undefined behaviour. -/
theorem C74_refuted : AcceptedO oneBox (boxScript (env := env60 debug) selfEq) ∧
    (runClientW (env60 debug) oneBox (boxScript selfEq) state0 borrows0 4).isSome = true ∧
    runClientW (env60 debug) oneBox (boxScript selfEq) state0 borrows0 5 = none := by
  refine ⟨?_, ?_, ?_⟩
  · intro os x op hreach hop
    obtain ⟨hk, hnp⟩ := boxScript_some hop
    rcases selfEq_reach debug os x hreach with h | rfl
    · exact absurd h hnp
    · generalize os.length = k at hk
      match k, hk with
      | 0, hk => cases hk; exact ⟨_, rfl, vA_has⟩
      | 1, hk | 2, hk | 3, hk => cases hk; exact ⟨0, vA, rfl⟩
      | 4, hk => cases hk; exact ⟨0, rfl⟩
      | k + 5, hk => simp [selfEq] at hk
  · cases debug <;> decide +kernel
  · rw [← Option.isNone_iff_eq_none]
    cases debug <;> decide +kernel

/-- `enum Item { A(Box<u32>), B(Box<u64>) }` -/
def twoBoxes : List Shape := [u32L.shape, u64L.shape]

def vC : Val := [[some 8#8, some 7#8, some 6#8, some 5#8, some 4#8, some 3#8, some 2#8, some 1#8]]

theorem vC_has : u64L.shape.Has vC := ⟨⟨rfl, rfl⟩, trivial⟩

/-- Two containers compared with each other; then one is looked at again and taken apart, its box written and put back, the other dropped. -/
def boxCareful : List WOp := [.make 0 vA, .make 1 vC, .put 0, .put 1, .enter 0, .enter 1, .look 0, .look 1, .leave 1, .leave 0, .enter 0, .look 2, .leave 2,
  .take 0, .set 2 vB, .get 2, .put 2, .enter 2, .look 3, .leave 3, .drop 1, .take 2, .free 3]

def boxCarefulStates : Nat → OState
  | 0 => ⟨[], [], []⟩
  | 1 => ⟨[], [some (0, vA)], []⟩
  | 2 => ⟨[], [some (0, vA), some (1, vC)], []⟩
  | 3 => ⟨[some (0, vA)], [none, some (1, vC)], []⟩
  | 4 => ⟨[some (0, vA), some (1, vC)], [none, none], []⟩
  | 5 => ⟨[some (0, vA), some (1, vC)], [none, none], [(0, true)]⟩
  | 6 | 7 | 8 => ⟨[some (0, vA), some (1, vC)], [none, none], [(0, true), (1, true)]⟩
  | 9 => ⟨[some (0, vA), some (1, vC)], [none, none], [(0, true), (1, false)]⟩
  | 10 => ⟨[some (0, vA), some (1, vC)], [none, none], [(0, false), (1, false)]⟩
  | 11 | 12 => ⟨[some (0, vA), some (1, vC)], [none, none], [(0, false), (1, false), (0, true)]⟩
  | 13 => ⟨[some (0, vA), some (1, vC)], [none, none], [(0, false), (1, false), (0, false)]⟩
  | 14 => ⟨[none, some (1, vC)], [none, none, some (0, vA)], [(0, false), (1, false), (0, false)]⟩
  | 15 | 16 => ⟨[none, some (1, vC)], [none, none, some (0, vB)], [(0, false), (1, false), (0, false)]⟩
  | 17 => ⟨[none, some (1, vC), some (0, vB)], [none, none, none], [(0, false), (1, false), (0, false)]⟩
  | 18 | 19 => ⟨[none, some (1, vC), some (0, vB)], [none, none, none], [(0, false), (1, false), (0, false), (2, true)]⟩
  | 20 => ⟨[none, some (1, vC), some (0, vB)], [none, none, none], [(0, false), (1, false), (0, false), (2, false)]⟩
  | 21 => ⟨[none, none, some (0, vB)], [none, none, none], [(0, false), (1, false), (0, false), (2, false)]⟩
  | 22 => ⟨[none, none, none], [none, none, none, some (0, vB)], [(0, false), (1, false), (0, false), (2, false)]⟩
  | _ => ⟨[none, none, none], [none, none, none, none], [(0, false), (1, false), (0, false), (2, false)]⟩

theorem boxCareful_reach : ∀ os x, OReach twoBoxes (boxScript (env := env60 debug) boxCareful) os x →
    (∃ pk e, (.panicked pk, e) ∈ os) ∨ x = boxCarefulStates os.length := by
  refine boxScript_reach rfl ?_
  intro k op hk o x' hn
  match k, hk with
  | 0, hk | 1, hk =>
    cases hk
    rcases hn with ⟨_, rfl⟩ | ⟨rfl, _⟩
    · exact Or.inl rfl
    · exact Or.inr ⟨_, rfl⟩
  | 2, hk | 3, hk | 16, hk =>
    cases hk
    obtain ⟨i, v, U, ho, _, ⟨_, rfl⟩ | ⟨rfl, _⟩ | ⟨_, rfl, _⟩⟩ := hn
    · cases ho
      exact Or.inl rfl
    · exact Or.inr ⟨_, rfl⟩
    · exact Or.inr ⟨_, rfl⟩
  | 4, hk | 5, hk | 10, hk | 17, hk =>
    cases hk
    obtain ⟨i, v, _, _, rfl⟩ := hn
    exact Or.inl rfl
  | 6, hk | 7, hk | 11, hk | 18, hk =>
    cases hk
    obtain ⟨_, _, _, _, _, _, rfl⟩ := hn
    exact Or.inl rfl
  | 8, hk | 9, hk | 12, hk | 19, hk =>
    cases hk
    obtain ⟨h, hrun, _, rfl⟩ := hn
    cases hrun
    exact Or.inl rfl
  | 13, hk | 21, hk =>
    cases hk
    obtain ⟨i, v, hin, _, rfl⟩ := hn
    cases hin
    exact Or.inl rfl
  | 14, hk =>
    cases hk
    obtain ⟨i, v, U, ho, _, _, rfl⟩ := hn
    cases ho
    exact Or.inl rfl
  | 15, hk =>
    cases hk
    obtain ⟨_, _, _, _, rfl⟩ := hn
    exact Or.inl rfl
  | 20, hk =>
    cases hk
    obtain ⟨_, rfl⟩ := hn
    exact Or.inl rfl
  | 22, hk =>
    cases hk
    obtain ⟨i, v, U, ho, _, _, rfl⟩ := hn
    exact Or.inl rfl
  | k + 23, hk => simp [boxCareful] at hk

/-- Non-vacuity of `C74_partial` (and of `C74_latest`, `C74_sharp`): this client meets the hypotheses, and runs to the end. -/
theorem boxCareful_ok : AcceptedO twoBoxes (boxScript (env := env60 debug) boxCareful) ∧ NeverNested twoBoxes (boxScript (env := env60 debug) boxCareful) ∧
    (∀ U ∈ twoBoxes, U.WF) ∧ twoBoxes.length ≤ (env60 debug).cfg.MAX_DISCRIMINANT.toNat + 1 ∧
    (runClientW (env60 debug) twoBoxes (boxScript boxCareful) state0 borrows0 23).map (fun r => r.1.length) = some 23 := by
  refine ⟨?_, ?_, ?_, by cases debug <;> decide, by cases debug <;> decide +kernel⟩
  · intro os x op hreach hop
    obtain ⟨hk, hnp⟩ := boxScript_some hop
    rcases boxCareful_reach debug os x hreach with h | rfl
    · exact absurd h hnp
    · generalize os.length = k at hk
      match k, hk with
      | 0, hk => cases hk; exact ⟨_, rfl, vA_has⟩
      | 1, hk => cases hk; exact ⟨_, rfl, vC_has⟩
      | 2, hk | 3, hk | 4, hk | 5, hk | 10, hk | 15, hk | 16, hk | 17, hk | 22, hk => cases hk; exact ⟨_, _, rfl⟩
      | 6, hk | 7, hk | 8, hk | 9, hk | 11, hk | 12, hk | 18, hk | 19, hk => cases hk; exact ⟨_, rfl⟩
      | 14, hk => cases hk; exact ⟨_, _, _, rfl, rfl, vB_has⟩
      | 13, hk | 20, hk | 21, hk =>
        cases hk
        refine ⟨⟨_, _, rfl⟩, fun k hrun => ?_⟩
        match k, hrun with
        | 0, hrun | 1, hrun | 2, hrun | 3, hrun => cases hrun
        | k + 4, hrun => cases hrun
      | k + 23, hk => simp [boxCareful] at hk
  · intro os x h hreach hop
    obtain ⟨hk, hnp⟩ := boxScript_some hop
    rcases boxCareful_reach debug os x hreach with h | rfl
    · exact absurd h hnp
    · generalize os.length = k at hk
      intro k' hrun
      match k, hk with
      | 4, hk | 5, hk | 10, hk | 17, hk =>
        cases hk
        match k', hrun with
        | 0, hrun | 1, hrun | 2, hrun | 3, hrun => cases hrun
        | k + 4, hrun => cases hrun
      | 0, hk | 1, hk | 2, hk | 3, hk | 6, hk | 7, hk | 8, hk | 9, hk | 11, hk | 12, hk | 13, hk | 14, hk | 15, hk | 16, hk | 18, hk | 19, hk | 20, hk
      | 21, hk | 22, hk => cases hk
      | k + 23, hk => simp [boxCareful] at hk
  · intro U hU
    simp only [twoBoxes, List.mem_cons, List.not_mem_nil, or_false] at hU
    rcases hU with rfl | rfl
    · exact u32L_wf.shape
    · exact u64L_wf.shape

/-- The situation of `C74_sharp`: in the state of `selfEq` before its last step, call 0 runs and is not the latest. -/
example : (selfEqStates 4).Running 0 0 ∧ (selfEqStates 4).In 0 0 vA ∧ oneBox[0]? = some u32L.shape ∧ 0 < u32L.shape.size ∧ ¬ (selfEqStates 4).Latest 0 :=
  ⟨rfl, rfl, rfl, by decide, fun h => h 1 (0, true) (0, true) (by decide) rfl rfl rfl⟩

end

end TB.Props

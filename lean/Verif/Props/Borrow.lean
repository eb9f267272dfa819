import Verif.Lemmas.Borrow
import Verif.Demo

/-!
# Aliasing of the references handed out by boxes (C72)

The rules are Stacked Borrows (`Verif/Borrow.lean`); what a client may do and sees is in `Verif/Spec/Borrow.lean`.
-/

set_option autoImplicit false

namespace TB.Props

open TB

variable {env : Env} {s : State} {β : Borrows}

/-- **C72 (the rule that is needed)** A client that keeps the documented contract, and moreover never reads a location while a `&mut` to it is live and never
writes or frees a location while any reference to it is live — counting the references from *all* copies of the box — has no undefined
behaviour, aliasing included, and sees what the plain store says. For all adaptive clients, any number of steps, any starting
heap and borrow state. -/
theorem C72_exclusive (ok : env.OK) (hr : env.debug = true ∨ env.InRange) (hi : HeapInv env s)
    (hβ : ∀ e ∈ β.exposed, e < β.next) (p : BClient env) (hp : WellBehavedB p) (hx : ExclusiveClient p) (n : Nat) :
    ∃ os c x, runClientB env p s β n = some (os, c) ∧ BReach p os x := by
  obtain ⟨os, c, x, xs, h1, h2, _⟩ := run_bsim ok hr hi hβ hp hx n
  exact ⟨os, c, x, h1, h2⟩

/-- **C72 (partial)** For clients that never copy a box, what the compiler checks — the reference keeps the box it came from borrowed — is enough.
Missing for the full claim: clients that copy boxes, for which it is false (`C72_refuted`). -/
theorem C72_partial (ok : env.OK) (hr : env.debug = true ∨ env.InRange) (hi : HeapInv env s)
    (hβ : ∀ e ∈ β.exposed, e < β.next) (p : BClient env) (hp : WellBehavedB p) (hb : BorrowChecked p) (hc : NoCopies p) (n : Nat) :
    ∃ os c x, runClientB env p s β n = some (os, c) ∧ BReach p os x :=
  C72_exclusive ok hr hi hβ p hp (fun _ _ _ hreach hop => (reach_linear hb hc hreach).exclusive (hb _ _ _ hreach hop)) n

/-- **C72 (shared use)** Boxes may be copied freely by clients that only read: any number of references from any number of copies. -/
theorem C72_read_only (ok : env.OK) (hr : env.debug = true ∨ env.InRange) (hi : HeapInv env s)
    (hβ : ∀ e ∈ β.exposed, e < β.next) (p : BClient env) (hp : WellBehavedB p) (hro : ReadOnly p) (n : Nat) :
    ∃ os c x, runClientB env p s β n = some (os, c) ∧ BReach p os x :=
  C72_exclusive ok hr hi hβ p hp (fun _ _ _ hreach hop =>
    ⟨fun _ _ _ _ _ ρ hρ _ => reach_shared hro hreach ρ hρ, fun h hh => by rw [hro _ _ hop] at hh; cases hh⟩) n

/-- **C72 (the rule is sharp)** In every state a client that kept the rule can be in: an operation within the documented contract that breaks it for some live reference to
a value that is not zero-sized runs, but makes the next use of that reference undefined behaviour; and a value cannot be changed through a `&`. -/
theorem C72_sharp (ok : env.OK) (hr : env.debug = true ∨ env.InRange) (hi : HeapInv env s)
    (hβ : ∀ e ∈ β.exposed, e < β.next) (p : BClient env) (hp : WellBehavedB p) (hx : ExclusiveClient p) (n : Nat) :
    ∃ os c x, runClientB env p s β n = some (os, c) ∧ BReach p os x ∧
      ∀ r ρ sh v, x.Refers r ρ sh v → 0 < sh.size →
        (∀ op, ContractB x op → Breaks x op ρ → ∃ o c', stepB env c op = some (o, c') ∧ stepB env c' (.get r) = none) ∧
        (∀ v', ρ.isMut = false → stepB env c (.set r v') = none) := by
  obtain ⟨os, c, x, xs, h1, h2, T⟩ := run_bsim ok hr hi hβ hp hx n
  exact ⟨os, c, x, h1, h2, fun r ρ sh v h hz =>
    ⟨fun op hc hb => T.breaks ok op hc h hz hb, fun v' hm => T.noWrite h hm hz v'⟩⟩

/-- **C72 (copies of a freed box)** In every state a client that kept the rule can be in: freeing a box runs, whatever copies of it exist; any use of the memory through a copy right
afterwards is undefined behaviour. -/
theorem C72_freed (ok : env.OK) (hr : env.debug = true ∨ env.InRange) (hi : HeapInv env s)
    (hβ : ∀ e ∈ β.exposed, e < β.next) (p : BClient env) (hp : WellBehavedB p) (hx : ExclusiveClient p) (n : Nat) :
    ∃ os c x, runClientB env p s β n = some (os, c) ∧ BReach p os x ∧
      ∀ h h' loc d d' sh v, h ≠ h' → x.a.Typed h loc d sh v → x.a.At h' loc d' → 0 < sh.size →
        ∀ free ∈ freesOf h sh, ∃ o c', stepB env c free = some (o, c') ∧ ∀ v', ∀ use ∈ usesOf h' sh v', stepB env c' use = none := by
  obtain ⟨os, c, x, xs, h1, h2, T⟩ := run_bsim ok hr hi hβ hp hx n
  exact ⟨os, c, x, h1, h2, fun h h' loc d d' sh v hne ht hat hz free hf => T.freed ok hne ht hat hz hf⟩

/-- `Breaks` is exactly the negation of the rule of `C72_exclusive`. -/
theorem exclusive_iff {x : RState env} {op : BOp env} : Exclusive x op ↔ ∀ ρ, x.Live ρ → ¬ Breaks x op ρ := by
  constructor
  · rintro ⟨h1, h2⟩ ρ hρ (⟨hm, h, hh, d, hat⟩ | ⟨h, hh, d, hat⟩)
    · rw [h1 h hh _ d hat ρ hρ rfl] at hm; cases hm
    · exact h2 h hh _ d hat ρ hρ rfl
  · intro hb
    refine ⟨fun h hh loc d hat ρ hρ hloc => ?_, fun h hh loc d hat ρ hρ hloc => ?_⟩
    · subst hloc
      cases hm : ρ.isMut with
      | false => rfl
      | true => exact absurd (Or.inl ⟨hm, h, hh, d, hat⟩) (hb ρ hρ)
    · subst hloc
      exact hb ρ hρ (Or.inr ⟨h, hh, d, hat⟩)

/-! ## Examples -/

/-- No byte has been borrowed yet. -/
def borrows0 : Borrows := { stk := fun _ => [], next := 0, exposed := [] }

def vA : Val := [[some 1#8, some 2#8, some 3#8, some 4#8]]
def vB : Val := [[some 9#8, some 9#8, some 9#8, some 9#8]]

theorem vA_has : u32L.shape.Has vA := ⟨⟨rfl, rfl⟩, trivial⟩
theorem vB_has : u32L.shape.Has vB := ⟨⟨rfl, rfl⟩, trivial⟩

/-- A client that runs through a list of operations, unless the first of them panicked. -/
def borrowScript {env : Env} (ops : List (BOp env)) : BClient env
  | (.panicked _, _) :: _ => none
  | os => ops[os.length]?

/-- What a borrowScript does from the states `st` is known if every operation leads from one to the next. -/
theorem borrowScript_reach {env : Env} {ops : List (BOp env)} {st : Nat → RState env} (h0 : st 0 = ⟨⟨[], []⟩, []⟩)
    (h : ∀ k op, ops[k]? = some op → ∀ o x', SpecNextB (st k) op o x' → x' = st (k + 1) ∨ (k = 0 ∧ ∃ pk, o.1 = .panicked pk)) :
    ∀ os x, BReach (borrowScript ops) os x → (∃ pk e rest, os = (.panicked pk, e) :: rest) ∨ x = st os.length := by
  intro os x hr
  induction hr with
  | start => exact Or.inr h0.symm
  | @next os x op o x' _ hop hn ih =>
    rcases ih with ⟨pk, e, rest, rfl⟩ | rfl
    · exact Or.inl ⟨pk, e, rest ++ [o], rfl⟩
    · have hop' : ops[os.length]? = some op := by
        unfold borrowScript at hop
        split at hop
        · cases hop
        · exact hop
      rcases h _ op hop' o x' hn with rfl | ⟨h00, pk, hpk⟩
      · exact Or.inr (by simp)
      · refine Or.inl ⟨pk, o.2, [], ?_⟩
        have : os = [] := List.length_eq_zero_iff.1 h00
        subst this
        rw [← hpk]
        rfl

theorem script_some {env : Env} {ops : List (BOp env)} {os : List (Obs env)} {op : BOp env} (h : borrowScript ops os = some op) :
    ops[os.length]? = some op ∧ ¬ ∃ pk e rest, os = (.panicked pk, e) :: rest := by
  unfold borrowScript at h
  split at h
  · cases h
  · rename_i hne
    exact ⟨h, fun ⟨pk, e, rest, e'⟩ => hne pk e rest e'⟩

section
variable (debug : Bool)

def dB : (env60 debug).cfg.Discr := (3#8 : BitVec 8)

/-- Two copies of one box, a `&mut` from each; then the first is used. Every line is accepted by the compiler when the box is `Copy`. -/
def twoMut : List (BOp (env60 debug)) :=
  [.base (.new u32L.shape vA (dB debug)), .base (.copy 0), .borrowMut 0 u32L.shape, .borrowMut 1 u32L.shape, .set 1 vB, .set 0 vA]

def twoMutStates : Nat → RState (env60 debug)
  | 0 => ⟨⟨[], []⟩, []⟩
  | 1 => ⟨⟨[⟨u32L.shape, vA, true⟩], [some (0, dB debug)]⟩, []⟩
  | 2 => ⟨⟨[⟨u32L.shape, vA, true⟩], [some (0, dB debug), some (0, dB debug)]⟩, []⟩
  | 3 => ⟨⟨[⟨u32L.shape, vA, true⟩], [some (0, dB debug), some (0, dB debug)]⟩, [some ⟨0, 0, true⟩]⟩
  | 4 => ⟨⟨[⟨u32L.shape, vA, true⟩], [some (0, dB debug), some (0, dB debug)]⟩, [some ⟨0, 0, true⟩, some ⟨1, 0, true⟩]⟩
  | 5 => ⟨⟨[⟨u32L.shape, vB, true⟩], [some (0, dB debug), some (0, dB debug)]⟩, [some ⟨0, 0, true⟩, some ⟨1, 0, true⟩]⟩
  | _ => ⟨⟨[⟨u32L.shape, vA, true⟩], [some (0, dB debug), some (0, dB debug)]⟩, [some ⟨0, 0, true⟩, some ⟨1, 0, true⟩]⟩

theorem twoMut_reach : ∀ os x, BReach (borrowScript (twoMut debug)) os x →
    (∃ pk e rest, os = (.panicked pk, e) :: rest) ∨ x = twoMutStates debug os.length := by
  refine borrowScript_reach rfl ?_
  intro k op hk o x' hn
  match k, hk with
  | 0, hk =>
    cases hk
    obtain ⟨a', hn, rfl⟩ := hn
    rcases hn with ⟨_, rfl⟩ | ⟨_, rfl, rfl⟩ | ⟨_, _, rfl, rfl⟩
    · exact Or.inl rfl
    · exact Or.inr ⟨rfl, _, rfl⟩
    · exact Or.inr ⟨rfl, _, rfl⟩
  | 1, hk =>
    cases hk
    obtain ⟨a', ⟨loc, d, hat, _, rfl⟩, rfl⟩ := hn
    cases hat
    exact Or.inl rfl
  | 2, hk =>
    cases hk
    obtain ⟨loc, d, v, ⟨hat, _⟩, _, rfl⟩ := hn
    cases hat
    exact Or.inl rfl
  | 3, hk =>
    cases hk
    obtain ⟨loc, d, v, ⟨hat, _⟩, _, rfl⟩ := hn
    cases hat
    exact Or.inl rfl
  | 4, hk =>
    cases hk
    obtain ⟨ρ, sh, v, ⟨h1, h2⟩, _, rfl⟩ := hn
    cases h1
    cases h2
    exact Or.inl rfl
  | 5, hk =>
    cases hk
    obtain ⟨ρ, sh, v, ⟨h1, h2⟩, _, rfl⟩ := hn
    cases h1
    cases h2
    exact Or.inl rfl
  | k + 6, hk => simp [twoMut] at hk

/-- **C72 refuted** Keeping the documented contract and passing the borrow checker is not enough: with two copies of a box the client below holds two live `&mut` to
the same value, and using the first after the second is undefined behaviour. -/
theorem C72_refuted : WellBehavedB (borrowScript (twoMut debug)) ∧ BorrowChecked (borrowScript (twoMut debug)) ∧
    (runClientB (env60 debug) (borrowScript (twoMut debug)) state0 borrows0 5).isSome = true ∧
    runClientB (env60 debug) (borrowScript (twoMut debug)) state0 borrows0 6 = none := by
  refine ⟨?_, ?_, ?_, ?_⟩
  · intro os x op hreach hop
    obtain ⟨hk, hnp⟩ := script_some hop
    rcases twoMut_reach debug os x hreach with h | rfl
    · exact absurd h hnp
    · generalize os.length = k at hk
      match k, hk with
      | 0, hk => cases hk; exact ⟨u32L_wf.shape, vA_has, show (3#8 : BitVec 8) ≤ 15#8 by decide⟩
      | 1, hk => cases hk; exact ⟨0, _, rfl⟩
      | 2, hk => cases hk; exact ⟨0, _, vA, rfl, rfl⟩
      | 3, hk => cases hk; exact ⟨0, _, vA, rfl, rfl⟩
      | 4, hk => cases hk; exact ⟨_, _, rfl, rfl, rfl, vB_has⟩
      | 5, hk => cases hk; exact ⟨_, _, rfl, rfl, rfl, vA_has⟩
      | k + 6, hk => simp [twoMut] at hk
  · intro os x op hreach hop
    obtain ⟨hk, hnp⟩ := script_some hop
    rcases twoMut_reach debug os x hreach with h | rfl
    · exact absurd h hnp
    · generalize os.length = k at hk
      match k, hk with
      | 0, hk => cases hk; exact ⟨(fun h hh => by cases hh), (fun h hh => by cases hh)⟩
      | 1, hk => cases hk; exact ⟨(fun h _ ρ hρ => by simp [RState.Live, twoMutStates] at hρ), (fun h hh => by cases hh)⟩
      | 2, hk =>
        cases hk
        exact ⟨(fun h hh => by cases hh), fun h _ ρ hρ => by simp [RState.Live, twoMutStates] at hρ⟩
      | 3, hk =>
        cases hk
        refine ⟨(fun h hh => by cases hh), fun h hh ρ hρ => ?_⟩
        simp only [BOp.claims, List.mem_singleton] at hh
        simp [RState.Live, twoMutStates] at hρ
        subst hρ hh
        exact Nat.zero_ne_one
      | 4, hk => cases hk; exact ⟨(fun h hh => by cases hh), (fun h hh => by cases hh)⟩
      | 5, hk => cases hk; exact ⟨(fun h hh => by cases hh), (fun h hh => by cases hh)⟩
      | k + 6, hk => simp [twoMut] at hk
  · cases debug <;> decide +kernel
  · rw [← Option.isNone_iff_eq_none]
    cases debug <;> decide +kernel

/-- A client without copies: references are taken, used and given up in all ways. -/
def careful : List (BOp (env60 debug)) :=
  [.base (.new u32L.shape vA (dB debug)), .borrow 0 u32L.shape, .borrow 0 u32L.shape, .get 0, .base (.read 0 u32L.shape), .get 1, .done 0, .done 1,
    .borrowMut 0 u32L.shape, .set 2 vB, .get 2, .done 2, .base (.read 0 u32L.shape), .base (.boxDrop 0 u32L.shape)]

def carefulStates : Nat → RState (env60 debug)
  | 0 => ⟨⟨[], []⟩, []⟩
  | 1 => ⟨⟨[⟨u32L.shape, vA, true⟩], [some (0, dB debug)]⟩, []⟩
  | 2 => ⟨⟨[⟨u32L.shape, vA, true⟩], [some (0, dB debug)]⟩, [some ⟨0, 0, false⟩]⟩
  | 3 | 4 | 5 | 6 => ⟨⟨[⟨u32L.shape, vA, true⟩], [some (0, dB debug)]⟩, [some ⟨0, 0, false⟩, some ⟨0, 0, false⟩]⟩
  | 7 => ⟨⟨[⟨u32L.shape, vA, true⟩], [some (0, dB debug)]⟩, [none, some ⟨0, 0, false⟩]⟩
  | 8 => ⟨⟨[⟨u32L.shape, vA, true⟩], [some (0, dB debug)]⟩, [none, none]⟩
  | 9 => ⟨⟨[⟨u32L.shape, vA, true⟩], [some (0, dB debug)]⟩, [none, none, some ⟨0, 0, true⟩]⟩
  | 10 | 11 => ⟨⟨[⟨u32L.shape, vB, true⟩], [some (0, dB debug)]⟩, [none, none, some ⟨0, 0, true⟩]⟩
  | 12 | 13 => ⟨⟨[⟨u32L.shape, vB, true⟩], [some (0, dB debug)]⟩, [none, none, none]⟩
  | _ => ⟨⟨[⟨u32L.shape, vB, false⟩], [none]⟩, [none, none, none]⟩

theorem careful_reach : ∀ os x, BReach (borrowScript (careful debug)) os x →
    (∃ pk e rest, os = (.panicked pk, e) :: rest) ∨ x = carefulStates debug os.length := by
  refine borrowScript_reach rfl ?_
  intro k op hk o x' hn
  match k, hk with
  | 0, hk =>
    cases hk
    obtain ⟨a', hn, rfl⟩ := hn
    rcases hn with ⟨_, rfl⟩ | ⟨_, rfl, rfl⟩ | ⟨_, _, rfl, rfl⟩
    · exact Or.inl rfl
    · exact Or.inr ⟨rfl, _, rfl⟩
    · exact Or.inr ⟨rfl, _, rfl⟩
  | 1, hk | 2, hk | 8, hk =>
    cases hk
    obtain ⟨loc, d, v, ⟨hat, _⟩, _, rfl⟩ := hn
    cases hat
    exact Or.inl rfl
  | 3, hk | 5, hk | 10, hk =>
    cases hk
    obtain ⟨ρ, sh, v, _, _, rfl⟩ := hn
    exact Or.inl rfl
  | 4, hk | 12, hk =>
    cases hk
    obtain ⟨a', ⟨loc, d, v, _, _, rfl⟩, rfl⟩ := hn
    exact Or.inl rfl
  | 6, hk | 7, hk | 11, hk =>
    cases hk
    obtain ⟨_, rfl⟩ := hn
    exact Or.inl rfl
  | 9, hk =>
    cases hk
    obtain ⟨ρ, sh, v, ⟨h1, h2⟩, _, rfl⟩ := hn
    cases h1
    cases h2
    exact Or.inl rfl
  | 13, hk =>
    cases hk
    obtain ⟨a', ⟨loc, d, v, ⟨hat, hcell⟩, _, rfl⟩, rfl⟩ := hn
    cases hat
    cases hcell
    exact Or.inl rfl
  | k + 14, hk => simp [careful] at hk

/-- Non-vacuity of `C72_partial` (and of `C72_exclusive`, from which it follows): the careful client meets its hypotheses. -/
theorem careful_ok : WellBehavedB (borrowScript (careful debug)) ∧ BorrowChecked (borrowScript (careful debug)) ∧ NoCopies (borrowScript (careful debug)) := by
  refine ⟨?_, ?_, ?_⟩
  · intro os x op hreach hop
    obtain ⟨hk, hnp⟩ := script_some hop
    rcases careful_reach debug os x hreach with h | rfl
    · exact absurd h hnp
    · generalize os.length = k at hk
      match k, hk with
      | 0, hk => cases hk; exact ⟨u32L_wf.shape, vA_has, show (3#8 : BitVec 8) ≤ 15#8 by decide⟩
      | 1, hk | 2, hk | 4, hk | 8, hk => cases hk; exact ⟨0, _, vA, rfl, rfl⟩
      | 12, hk | 13, hk => cases hk; exact ⟨0, _, vB, rfl, rfl⟩
      | 3, hk | 5, hk | 6, hk | 7, hk | 10, hk | 11, hk => cases hk; exact ⟨_, rfl⟩
      | 9, hk => cases hk; exact ⟨_, _, rfl, rfl, rfl, vB_has⟩
      | k + 14, hk => simp [careful] at hk
  · intro os x op hreach hop
    obtain ⟨hk, hnp⟩ := script_some hop
    rcases careful_reach debug os x hreach with h | rfl
    · exact absurd h hnp
    · generalize os.length = k at hk
      match k, hk with
      | 0, hk | 3, hk | 5, hk | 6, hk | 7, hk | 9, hk | 10, hk | 11, hk =>
        cases hk; exact ⟨(fun h hh => by cases hh), (fun h hh => by cases hh)⟩
      | 1, hk | 2, hk | 4, hk | 12, hk =>
        cases hk
        refine ⟨fun h _ ρ hρ _ => ?_, fun h hh => by cases hh⟩
        simp [RState.Live, carefulStates] at hρ
        try subst hρ; rfl
      | 8, hk | 13, hk =>
        cases hk
        exact ⟨(fun h hh => by cases hh), fun h _ ρ hρ => by simp [RState.Live, carefulStates] at hρ⟩
      | k + 14, hk => simp [careful] at hk
  · intro os h hop
    obtain ⟨hk, _⟩ := script_some hop
    generalize os.length = k at hk
    match k, hk with
    | 0, hk | 1, hk | 2, hk | 3, hk | 4, hk | 5, hk | 6, hk | 7, hk | 8, hk | 9, hk | 10, hk | 11, hk | 12, hk | 13, hk => cases hk
    | k + 14, hk => simp [careful] at hk

/-- It really runs to the end, reads what it wrote, and leaves an empty heap. -/
example : (runClientB (env60 debug) (borrowScript (careful debug)) state0 borrows0 14).map
    (fun r => (r.1.length, r.2.s.blocks)) = some (14, []) := by cases debug <;> decide +kernel

/-- Two copies that are only read, with a reference from each. -/
def readers : List (BOp (env60 debug)) :=
  [.base (.new u32L.shape vA (dB debug)), .base (.copy 0), .borrow 0 u32L.shape, .borrow 1 u32L.shape, .get 0, .get 1, .get 0]

def readersStates : Nat → RState (env60 debug)
  | 0 => ⟨⟨[], []⟩, []⟩
  | 1 => ⟨⟨[⟨u32L.shape, vA, true⟩], [some (0, dB debug)]⟩, []⟩
  | 2 => ⟨⟨[⟨u32L.shape, vA, true⟩], [some (0, dB debug), some (0, dB debug)]⟩, []⟩
  | 3 => ⟨⟨[⟨u32L.shape, vA, true⟩], [some (0, dB debug), some (0, dB debug)]⟩, [some ⟨0, 0, false⟩]⟩
  | _ => ⟨⟨[⟨u32L.shape, vA, true⟩], [some (0, dB debug), some (0, dB debug)]⟩, [some ⟨0, 0, false⟩, some ⟨1, 0, false⟩]⟩

theorem readers_reach : ∀ os x, BReach (borrowScript (readers debug)) os x →
    (∃ pk e rest, os = (.panicked pk, e) :: rest) ∨ x = readersStates debug os.length := by
  refine borrowScript_reach rfl ?_
  intro k op hk o x' hn
  match k, hk with
  | 0, hk =>
    cases hk
    obtain ⟨a', hn, rfl⟩ := hn
    rcases hn with ⟨_, rfl⟩ | ⟨_, rfl, rfl⟩ | ⟨_, _, rfl, rfl⟩
    · exact Or.inl rfl
    · exact Or.inr ⟨rfl, _, rfl⟩
    · exact Or.inr ⟨rfl, _, rfl⟩
  | 1, hk =>
    cases hk
    obtain ⟨a', ⟨loc, d, hat, _, rfl⟩, rfl⟩ := hn
    cases hat
    exact Or.inl rfl
  | 2, hk | 3, hk =>
    cases hk
    obtain ⟨loc, d, v, ⟨hat, _⟩, _, rfl⟩ := hn
    cases hat
    exact Or.inl rfl
  | 4, hk | 5, hk | 6, hk =>
    cases hk
    obtain ⟨ρ, sh, v, _, _, rfl⟩ := hn
    exact Or.inl rfl
  | k + 7, hk => simp [readers] at hk

/-- Non-vacuity of `C72_read_only`: the readers meet its hypotheses, and run to the end. -/
theorem readers_ok : WellBehavedB (borrowScript (readers debug)) ∧ ReadOnly (borrowScript (readers debug)) ∧
    (runClientB (env60 debug) (borrowScript (readers debug)) state0 borrows0 7).map (fun r => r.1.length) = some 7 := by
  refine ⟨?_, ?_, by cases debug <;> decide +kernel⟩
  · intro os x op hreach hop
    obtain ⟨hk, hnp⟩ := script_some hop
    rcases readers_reach debug os x hreach with h | rfl
    · exact absurd h hnp
    · generalize os.length = k at hk
      match k, hk with
      | 0, hk => cases hk; exact ⟨u32L_wf.shape, vA_has, show (3#8 : BitVec 8) ≤ 15#8 by decide⟩
      | 1, hk => cases hk; exact ⟨0, _, rfl⟩
      | 2, hk | 3, hk => cases hk; exact ⟨0, _, vA, rfl, rfl⟩
      | 4, hk | 5, hk | 6, hk => cases hk; exact ⟨_, rfl⟩
      | k + 7, hk => simp [readers] at hk
  · intro os op hop
    obtain ⟨hk, _⟩ := script_some hop
    generalize os.length = k at hk
    match k, hk with
    | 0, hk | 1, hk | 2, hk | 3, hk | 4, hk | 5, hk | 6, hk => cases hk; rfl
    | k + 7, hk => simp [readers] at hk

/-- The hypotheses of `C72_sharp` at step 4 of the readers: writing through box 1 breaks the rule for reference 0, which came from box 0. -/
example : (readersStates debug 4).Refers 0 ⟨0, 0, false⟩ u32L.shape vA ∧ 0 < u32L.shape.size ∧
    ContractB (readersStates debug 4) (.base (.write 1 u32L.shape vB)) ∧
    Breaks (readersStates debug 4) (.base (.write 1 u32L.shape vB)) ⟨0, 0, false⟩ :=
  ⟨⟨rfl, rfl⟩, by decide, ⟨vB_has, 0, _, vA, rfl, rfl⟩, Or.inr ⟨1, List.mem_singleton.2 rfl, _, rfl⟩⟩

/-- The hypotheses of `C72_freed` at the same step: box 1 is a copy of box 0. -/
example : (readersStates debug 4).a.Typed 0 0 (dB debug) u32L.shape vA ∧ (readersStates debug 4).a.At 1 0 (dB debug) ∧ 0 < u32L.shape.size :=
  ⟨⟨rfl, rfl⟩, rfl, by decide⟩

end

end TB.Props

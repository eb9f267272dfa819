import Verif.Lemmas.History
import Verif.Lemmas.Ledger
import Verif.Demo

/-!
# Properties of histories of box operations (C17, C21, C27)

All statements are about arbitrary adaptive clients and any number of steps, from any well-formed heap.
-/

set_option autoImplicit false

namespace TB.Props

open TB

variable {env : Env} {s : State}

/-- **C27** A client that keeps the documented contract with respect to the abstract store (`WellBehaved`) never
reaches undefined behaviour, for any number of steps; and everything it observes (values, discriminants, pointer
equality, panics, destructor runs) is what the abstract store allows. -/
theorem C27_no_ub (ok : env.OK) (hr : env.debug = true ∨ env.InRange) (hi : HeapInv env s) (p : Client env)
    (hp : WellBehaved p) (n : Nat) :
    ∃ os c, runClient env p s n = some (os, c) ∧ ∃ a, SpecReach p os a := by
  obtain ⟨os, c, a, xs, h1, h2, _⟩ := run_sim ok hr hi hp n
  exact ⟨os, c, h1, a, h2⟩

/-- An example client: box a `u32`; if that worked, copy the handle, read through the copy, and free the memory through the
original; if `new` panicked, stop. -/
def demoClient : Client (env60 true)
  | [] => some (.new u32L.shape [[some 1#8, some 2#8, some 3#8, some 4#8]] (3#8 : BitVec 8))
  | [(.handle _, _)] => some (.copy 0)
  | [(.handle _, _), _] => some (.read 1 u32L.shape)
  | [(.handle _, _), _, _] => some (.boxDrop 0 u32L.shape)
  | _ => none

/-- Non-vacuity of C27 and C21: the example client is well-behaved. -/
theorem demoClient_wellBehaved : WellBehaved demoClient := by
  let v : Val := [[some 1#8, some 2#8, some 3#8, some 4#8]]
  let d : (env60 true).cfg.Discr := (3#8 : BitVec 8)
  have key : ∀ os a, SpecReach demoClient os a →
      (os = [] ∧ a = ⟨[], []⟩) ∨
      (∃ n e, os = [(.handle n, e)] ∧ a = ⟨[⟨u32L.shape, v, true⟩], [some (0, d)]⟩) ∨
      (∃ n e o, os = [(.handle n, e), o] ∧ a = ⟨[⟨u32L.shape, v, true⟩], [some (0, d), some (0, d)]⟩) ∨
      (∃ n e o o', os = [(.handle n, e), o, o'] ∧ a = ⟨[⟨u32L.shape, v, true⟩], [some (0, d), some (0, d)]⟩) ∨
      demoClient os = none := by
    intro os a h
    induction h with
    | start => exact Or.inl ⟨rfl, rfl⟩
    | @next os a op o a' _ hop hn ih =>
      rcases ih with ⟨rfl, rfl⟩ | ⟨n, e, rfl, rfl⟩ | ⟨n, e, o1, rfl, rfl⟩ | ⟨n, e, o1, o2, rfl, rfl⟩ | h
      · cases hop
        rcases hn with ⟨rfl, rfl⟩ | ⟨_, rfl, rfl⟩ | ⟨_, _, rfl, rfl⟩
        · exact Or.inr (Or.inl ⟨_, _, rfl, rfl⟩)
        · exact Or.inr (Or.inr (Or.inr (Or.inr rfl)))
        · exact Or.inr (Or.inr (Or.inr (Or.inr rfl)))
      · cases hop
        obtain ⟨loc, d', hat, rfl, rfl⟩ := hn
        cases hat
        exact Or.inr (Or.inr (Or.inl ⟨_, _, _, rfl, rfl⟩))
      · cases hop
        obtain ⟨loc, d', v', ht, rfl, rfl⟩ := hn
        exact Or.inr (Or.inr (Or.inr (Or.inl ⟨_, _, _, _, rfl, rfl⟩)))
      · cases hop
        exact Or.inr (Or.inr (Or.inr (Or.inr rfl)))
      · rw [h] at hop; cases hop
  intro os a op h hop
  rcases key os a h with ⟨rfl, rfl⟩ | ⟨n, e, rfl, rfl⟩ | ⟨n, e, o, rfl, rfl⟩ | ⟨n, e, o, o', rfl, rfl⟩ | h
  · cases hop
    exact ⟨u32L_wf.shape, ⟨⟨rfl, rfl⟩, trivial⟩, show (3#8 : BitVec 8) ≤ 15#8 by decide⟩
  · cases hop; exact ⟨0, d, rfl⟩
  · cases hop; exact ⟨0, d, v, rfl, rfl⟩
  · cases hop; exact ⟨0, d, v, rfl, rfl⟩
  · rw [h] at hop; cases hop

/-- The example client really runs through `new`, `copy`, `read`, `boxDrop`, and the heap is empty afterwards. -/
example : ∃ c, runClient (env60 true) demoClient state0 4 =
      some ([(.handle 0, []), (.handle 1, []), (.val [[some 1#8, some 2#8, some 3#8, some 4#8]], []), (.unit, [])], c) ∧
    c.s.blocks = [] := ⟨_, rfl, rfl⟩

/-- **C21** At every point of every such history the live allocations are those that existed before plus exactly one per
live location of the store with non-zero size (same size and alignment). Boxes that were dropped or consumed by
`into_inner` still count: only `into_box` removes a location. -/
theorem C21_heap_footprint (ok : env.OK) (hr : env.debug = true ∨ env.InRange) (hi : HeapInv env s) (p : Client env)
    (hp : WellBehaved p) (n : Nat) :
    ∃ os c a, runClient env p s n = some (os, c) ∧ SpecReach p os a ∧
      (c.s.blocks.map (fun b => (b.size, b.align))).Perm
        (a.footprint ++ s.blocks.map (fun b => (b.size, b.align))) ∧
      ∀ b ∈ s.blocks, b ∈ c.s.blocks := by
  obtain ⟨os, c, a, xs, h1, h2, S⟩ := run_sim ok hr hi hp n
  refine ⟨os, c, a, h1, h2, ?_, fun b hb => S.blocks.symm.subset (List.mem_append_right _ hb)⟩
  have := S.blocks.map (fun b => (b.size, b.align))
  rwa [List.map_append, footprint_eq a S.cells] at this

/-- **C21** (the crate itself never deallocates) No operation other than freeing through a `Box` removes a block, whether
or not the client keeps the contract, in any state. -/
theorem C21_never_deallocates (c c' : CState) (op : Op env) (o : Obs env) (h : step env c op = some (o, c'))
    (hop : ∀ hd sh, op ≠ .boxDrop hd sh ∧ op ≠ .boxTake hd sh) : c.s.blocks <:+ c'.s.blocks := by
  have same : ∀ {α : Type} (m : M α) (f : α → Res env × List (Option TBox)),
      (∀ a s', m c.s = .ret a s' → c.s.blocks <:+ s'.blocks) → (∀ k s', m c.s = .panic k s' → c.s.blocks <:+ s'.blocks) →
      stepWith c m f = some (o, c') → c.s.blocks <:+ c'.s.blocks := by
    intro α m f h1 h2 h3
    unfold stepWith at h3
    split at h3
    · rename_i e; cases h3; exact h1 _ _ e
    · rename_i e; cases h3; exact h2 _ _ e
    · cases h3
  have rd : ∀ (sh : Shape) (ad : Nat) (v : Val) (s' : State), ptrRead sh ad c.s = .ret v s' → s' = c.s :=
    fun sh ad v s' e => (ptrRead_ret_iff.1 e).1
  have wrt : ∀ (sh : Shape) (ad : Nat) (v : Val) (s1 s' : State) (u : Unit), ptrWrite sh ad v s1 = .ret u s' →
      s'.blocks = s1.blocks := by
    intro sh ad v s1 s' u e
    unfold ptrWrite at e
    split at e
    · cases e; rfl
    · cases e
  have wrp : ∀ (sh : Shape) (ad : Nat) (v : Val) (s1 s' : State) k, ptrWrite sh ad v s1 ≠ .panic k s' := by
    intro sh ad v s1 s' k e
    unfold ptrWrite at e
    split at e <;> cases e
  have exc : ∀ {α : Type} (x : Except PanicKind α) (s1 : State), (∃ a, M.ofExcept x s1 = .ret a s1) ∨
      ∃ k, M.ofExcept x s1 = .panic k s1 := by
    intro α x s1
    cases x
    · exact Or.inr ⟨_, rfl⟩
    · exact Or.inl ⟨_, rfl⟩
  cases op with
  | new sh v d =>
    have key : match TBox.new env sh v d c.s with
        | .ret _ s' => c.s.blocks <:+ s'.blocks
        | .panic _ s' => c.s.blocks <:+ s'.blocks
        | .ub _ => True := by
      by_cases hz : sh.size = 0
      · rw [new_zst hz]; exact List.suffix_refl _
      · by_cases ha : env.alloc c.s sh.size sh.align = 0
        · rw [new_null hz ha]; exact List.suffix_refl _
        · simp only [TBox.new, hz, if_false, M.bind_def, allocM, ha]
          by_cases h0 : BitVec.ofNat 64 (env.alloc c.s sh.size sh.align) = 0#64
          · simp only [h0, if_true, M.bind_def]
            exact List.suffix_cons _ _
          · simp only [h0, if_false, M.bind_def]
            cases hw : ptrWrite sh (env.alloc c.s sh.size sh.align) v
              { mem := overlay c.s.mem (env.alloc c.s sh.size sh.align) (List.replicate sh.size none),
                blocks := ⟨env.alloc c.s sh.size sh.align, sh.size, sh.align⟩ :: c.s.blocks,
                trace := c.s.trace ++ [.alloc ⟨env.alloc c.s sh.size sh.align, sh.size, sh.align⟩] } with
            | ret u s1 =>
              have hb := wrt _ _ _ _ _ _ hw
              have hb' : c.s.blocks <:+ s1.blocks := by rw [hb]; exact List.suffix_cons _ _
              rcases exc (TPtr.new env.cfg env.debug (BitVec.ofNat 64 (env.alloc c.s sh.size sh.align)) d) s1 with
                ⟨x, e⟩ | ⟨k, e⟩
              · simp only [e]; exact hb'
              · simp only [e]; exact hb'
            | panic k s1 => exact absurd hw (wrp _ _ _ _ _ _)
            | ub k => trivial
    refine same _ _ ?_ ?_ h
    · intro b s' e; rw [e] at key; exact key
    · intro k s' e; rw [e] at key; exact key
  | copy h' =>
    simp only [step, Option.bind_eq_some_iff] at h
    obtain ⟨b, _, h⟩ := h
    exact same _ _ (fun a s' e => by cases e; exact List.suffix_refl _) (fun k s' e => by cases e) h
  | discr h' =>
    simp only [step, Option.bind_eq_some_iff] at h
    obtain ⟨b, _, h⟩ := h
    exact same _ _ (fun a s' e => by cases e; exact List.suffix_refl _) (fun k s' e => by cases e) h
  | ptrEq h1 h2 =>
    simp only [step, Option.bind_eq_some_iff] at h
    obtain ⟨b, _, b', _, h⟩ := h
    exact same _ _ (fun a s' e => by cases e; exact List.suffix_refl _) (fun k s' e => by cases e) h
  | read h' sh =>
    simp only [step, Option.bind_eq_some_iff] at h
    obtain ⟨b, _, h⟩ := h
    exact same _ _ (fun a s' e => by rw [rd _ _ _ _ e]; exact List.suffix_refl _)
      (fun k s' e => absurd e ptrRead_no_panic) h
  | assign h' sh v =>
    simp only [step, Option.bind_eq_some_iff] at h
    obtain ⟨b, _, h⟩ := h
    refine same _ _ (fun a s' e => ?_) (fun k s' e => ?_) h
    · obtain ⟨old, s1, e1, e⟩ := M.bind_ret_inv e
      rw [rd _ _ _ _ e1] at e
      obtain ⟨u, s2, e2, e⟩ := M.bind_ret_inv e
      cases e2
      obtain ⟨u', s3, e3, e⟩ := M.bind_ret_inv e
      cases e
      rw [wrt _ _ _ _ _ _ e3]
      exact List.suffix_refl _
    · exfalso
      simp only [TBox.asMutRefAssign, M.bind_def] at e
      split at e
      · rename_i a' s1 e1
        simp only [dropVal, M.log] at e
        split at e
        · cases e
        · rename_i e2; exact wrp _ _ _ _ _ _ e2
        · cases e
      · rename_i e1; exact ptrRead_no_panic e1
      · cases e
  | write h' sh v =>
    simp only [step, Option.bind_eq_some_iff] at h
    obtain ⟨b, _, h⟩ := h
    refine same _ _ (fun a s' e => ?_) (fun k s' e => ?_) h
    · obtain ⟨u', s3, e3, e⟩ := M.bind_ret_inv e
      cases e
      rw [wrt _ _ _ _ _ _ e3]
      exact List.suffix_refl _
    · exfalso
      simp only [TBox.asMutPtrWrite, M.bind_def] at e
      split at e
      · cases e
      · rename_i e2; exact wrp _ _ _ _ _ _ e2
      · cases e
  | intoInner h' sh =>
    simp only [step, Option.bind_eq_some_iff] at h
    obtain ⟨b, _, h⟩ := h
    exact same _ _ (fun a s' e => by rw [rd _ _ _ _ e]; exact List.suffix_refl _)
      (fun k s' e => absurd e ptrRead_no_panic) h
  | drop h' =>
    simp only [step, Option.bind_eq_some_iff] at h
    obtain ⟨b, _, h⟩ := h
    exact same _ _ (fun a s' e => by cases e; exact List.suffix_refl _) (fun k s' e => by cases e) h
  | rawRoundtrip h' =>
    simp only [step, Option.bind_eq_some_iff] at h
    obtain ⟨b, _, h⟩ := h
    refine same _ _ (fun a s' e => ?_) (fun k s' e => ?_) h
    · simp only [TBox.fromRaw, M.bind_def] at e
      rcases exc (TPtr.new env.cfg env.debug (BitVec.ofNat 64 (b.intoRaw env)) (b.discriminant env)) c.s with
        ⟨x, e1⟩ | ⟨k, e1⟩ <;> rw [e1] at e <;> cases e
      exact List.suffix_refl _
    · simp only [TBox.fromRaw, M.bind_def] at e
      rcases exc (TPtr.new env.cfg env.debug (BitVec.ofNat 64 (b.intoRaw env)) (b.discriminant env)) c.s with
        ⟨x, e1⟩ | ⟨k, e1⟩ <;> rw [e1] at e <;> cases e
      exact List.suffix_refl _
  | boxDrop h' sh => exact absurd rfl (hop h' sh).1
  | boxTake h' sh => exact absurd rfl (hop h' sh).2

/-! ## C23 for whole histories -/

/-- **C23** (part), for whole histories: if the client keeps the contract, does not copy boxes and boxes no zero-sized types, then at
every point of its run each value (given by type and bytes) has been destroyed and handed back together at most as often as it was moved
into boxes. If it loses none (`NoLeak`) and has consumed all its boxes, then exactly as often: each value was destroyed once or handed
back once. Missing: zero-sized types, for which it is false (`C23_zst_double_drop_refuted`). -/
theorem C23_history_partial (ok : env.OK) (hr : env.debug = true ∨ env.InRange) (hi : HeapInv env s) (p : Client env)
    (hp : WellBehaved p) (hc : ∀ os h, p os ≠ some (.copy h)) (hz : ∀ os sh v d, p os = some (.new sh v d) → 0 < sh.size) (n : Nat) :
    ∃ os c, runClient env p s n = some (os, c) ∧
      (∀ id x, timesDestroyed (ledger p [] os) (.drop id x) + timesOut (ledger p [] os) (.drop id x) ≤
        timesIn (ledger p [] os) (.drop id x)) ∧
      (NoLeak p os → (∀ h, c.get h = none) → ∀ id x,
        timesDestroyed (ledger p [] os) (.drop id x) + timesOut (ledger p [] os) (.drop id x) =
          timesIn (ledger p [] os) (.drop id x)) := by
  obtain ⟨os, c, a, xs, h1, h2, S⟩ := run_sim ok hr hi hp n
  have B := balanced hc hz h2
  refine ⟨os, c, h1, fun id x => ?_, fun hl hnone id x => ?_⟩
  · have := B.books (.drop id x)
    omega
  · have h3 := B.exact hl (.drop id x)
    have h4 : a.owned (.drop id x) = 0 := by
      have : ∀ y ∈ a.handles, y = none := by
        intro y hy
        obtain ⟨j, hj⟩ := List.getElem?_of_mem hy
        cases y with
        | none => rfl
        | some y =>
          obtain ⟨_, _, h5, _⟩ := S.hsome j y.1 y.2 hj
          have := hnone j
          rw [CState.get, h5] at this
          cases this
      simp only [AState.owned]
      generalize a.handles = l at this
      induction l with
      | nil => rfl
      | cons y ys ih =>
        rw [this y (by simp)]
        simp only [List.map_cons, List.sum_cons, owns, Nat.zero_add]
        exact ih (fun z hz => this z (by simp [hz]))
    omega

/-- Box an owned value; if that worked, assign another and take that out. -/
def demoOwner : Client (env60 true)
  | [] => some (.new ownedL.shape [List.replicate 8 (some 1#8)] (3#8 : BitVec 8))
  | [(.handle _, _)] => some (.assign 0 ownedL.shape [List.replicate 8 (some 2#8)])
  | [(.handle _, _), _] => some (.boxTake 0 ownedL.shape)
  | _ => none

/-- Non-vacuity: this client meets the hypotheses; of the two values it moves in, one is destroyed and one handed back. -/
example : WellBehaved demoOwner ∧ (∀ os h, demoOwner os ≠ some (.copy h)) ∧
    (∀ os sh v d, demoOwner os = some (.new sh v d) → 0 < sh.size) ∧
    ∃ c, runClient (env60 true) demoOwner state0 3 = some ([(.handle 0, []), (.unit, [.drop 5 (List.replicate 8 (some 1#8))]),
        (.val [List.replicate 8 (some 2#8)], [])], c) ∧ c.handles = [none] := by
  let d : (env60 true).cfg.Discr := (3#8 : BitVec 8)
  have ops : ∀ os op, demoOwner os = some op → os = [] ∧ op = .new ownedL.shape [List.replicate 8 (some 1#8)] (3#8 : BitVec 8) ∨
      (∃ n e, os = [(.handle n, e)]) ∧ op = .assign 0 ownedL.shape [List.replicate 8 (some 2#8)] ∨
      (∃ n e o, os = [(.handle n, e), o]) ∧ op = .boxTake 0 ownedL.shape := by
    intro os op h
    match os with
    | [] => cases h; exact .inl ⟨rfl, rfl⟩
    | [(.handle n, e)] => cases h; exact .inr (.inl ⟨⟨n, e, rfl⟩, rfl⟩)
    | [(.handle n, e), o] => cases h; exact .inr (.inr ⟨⟨n, e, o, rfl⟩, rfl⟩)
    | (.handle _, _) :: _ :: _ :: _ => cases h
    | (.panicked _, _) :: _ => cases h
    | (.val _, _) :: _ => cases h
    | (.bool _, _) :: _ => cases h
    | (.discr _, _) :: _ => cases h
    | (.unit, _) :: _ => cases h
  have key : ∀ os a, SpecReach demoOwner os a →
      (os = [] ∧ a = ⟨[], []⟩) ∨
      (∃ n e, os = [(.handle n, e)] ∧ a = ⟨[⟨ownedL.shape, [List.replicate 8 (some 1#8)], true⟩], [some (0, d)]⟩) ∨
      (∃ n e o, os = [(.handle n, e), o] ∧ a = ⟨[⟨ownedL.shape, [List.replicate 8 (some 2#8)], true⟩], [some (0, d)]⟩) ∨
      demoOwner os = none := by
    intro os a h
    induction h with
    | start => exact .inl ⟨rfl, rfl⟩
    | @next os a op o a' _ hop hn ih =>
      rcases ih with ⟨rfl, rfl⟩ | ⟨n, e, rfl, rfl⟩ | ⟨n, e, o1, rfl, rfl⟩ | h
      · cases hop
        rcases hn with ⟨rfl, rfl⟩ | ⟨_, rfl, rfl⟩ | ⟨_, _, rfl, rfl⟩
        · exact .inr (.inl ⟨_, _, rfl, rfl⟩)
        · exact .inr (.inr (.inr rfl))
        · exact .inr (.inr (.inr rfl))
      · cases hop
        obtain ⟨loc, d', v, ht, rfl, rfl⟩ := hn
        cases ht.1
        exact .inr (.inr (.inl ⟨_, _, _, rfl, rfl⟩))
      · cases hop
        exact .inr (.inr (.inr rfl))
      · rw [h] at hop; cases hop
  refine ⟨fun os a op h hop => ?_, fun os h e => ?_, fun os sh v d e => ?_, _, rfl, rfl⟩
  · rcases key os a h with ⟨rfl, rfl⟩ | ⟨n, e, rfl, rfl⟩ | ⟨n, e, o, rfl, rfl⟩ | h
    · cases hop
      exact ⟨ownedL_wf.shape, ⟨⟨rfl, rfl⟩, trivial⟩, show (3#8 : BitVec 8) ≤ 15#8 by decide⟩
    · cases hop; exact ⟨⟨⟨rfl, rfl⟩, trivial⟩, 0, d, _, rfl, rfl⟩
    · cases hop; exact ⟨0, d, _, rfl, rfl⟩
    · rw [h] at hop; cases hop
  · rcases ops os _ e with ⟨_, e⟩ | ⟨_, e⟩ | ⟨_, e⟩ <;> cases e
  · rcases ops os _ e with ⟨_, e⟩ | ⟨_, e⟩ | ⟨_, e⟩ <;> cases e
    exact (by decide : 0 < 8)

end TB.Props

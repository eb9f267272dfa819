import Verif.Provenance
import Verif.Lemmas.History

/-! # Pointer provenance (helper lemmas) -/

set_option autoImplicit false

namespace TB

theorem MP.bind_def {α β} (m : MP α) (f : α → MP β) (σ : PState) :
    (m >>= f) σ = match m σ with
      | .ret a σ' => f a σ'
      | .panic k σ' => .panic k σ'
      | .ub k => .ub k := rfl

/-- Every live allocation that is not one of `B` has been exposed. -/
def Ghost (B : List Block) (σ : PState) : Prop := ∀ x ∈ σ.live, x.2 ∈ B ∨ x.1 ∈ σ.exposed

/-- The block of a value at address `a` is live and exposed. -/
def Mine (σ : PState) (sh : Shape) (a : Nat) : Prop :=
  0 < sh.size → ∃ id, (id, (⟨a, sh.size, sh.align⟩ : Block)) ∈ σ.live ∧ id ∈ σ.exposed

theorem valid_wild {σ : PState} {sh : Shape} {a : Nat} (hm : Mine σ sh a)
    (h : validPtr σ.toState a sh.size sh.align = true) : σ.valid (fromExposed a) sh.size sh.align = true := by
  obtain ⟨h1, h2, -⟩ := validPtr_iff.1 h
  have h3 : sh.size = 0 ∨ ∃ x ∈ σ.live, (σ.grants (fromExposed a) x.1 = true ∧ x.2.base ≤ a) ∧ a + sh.size ≤ x.2.base + x.2.size := by
    by_cases hz : sh.size = 0
    · exact .inl hz
    · obtain ⟨id, hb, hx⟩ := hm (by omega)
      exact .inr ⟨_, hb, ⟨by simpa [PState.grants, fromExposed] using hx, Nat.le_refl _⟩, Nat.le_refl _⟩
  simp only [PState.valid, Bool.and_eq_true, decide_eq_true_eq, Bool.or_eq_true, List.any_eq_true]
  exact ⟨⟨h1, h2⟩, h3⟩

/-- A read that is allowed gives what the address-level machine reads. -/
theorem readQ_valid {σ : PState} {sh : Shape} {p : Ptr} {v : Val} {s' : State} (hv : σ.valid p sh.size sh.align = true)
    (h : ptrRead sh p.addr σ.toState = .ret v s') : readQ sh p σ = .ret v σ := by
  obtain ⟨-, h1, rfl, h2⟩ := ptrRead_ret_iff.1 h
  have h3 : fieldsValid sh (getVal σ.mem p.addr sh) = true := by
    unfold ptrRead at h
    rw [if_pos h1] at h
    split at h
    · assumption
    · cases h
  rw [readQ, if_pos hv, if_pos h3]
  rfl

theorem readQ_ret {σ : PState} {sh : Shape} {a : Nat} {v : Val} {s' : State} (hm : Mine σ sh a)
    (h : ptrRead sh a σ.toState = .ret v s') : readQ sh (fromExposed a) σ = .ret v σ :=
  readQ_valid (valid_wild hm (ptrRead_ret_iff.1 h).2.1) h

theorem writeQ_ret {σ : PState} {sh : Shape} {a : Nat} {v : Val} (hm : Mine σ sh a)
    (h : validPtr σ.toState a sh.size sh.align = true) :
    writeQ sh (fromExposed a) v σ = .ret () { σ with mem := putVal σ.mem a sh v } := by
  simp only [writeQ, valid_wild hm h, if_true]
  rfl

theorem map_eraseP {q : Nat → Bool} {b : Block} : ∀ {l : List (Nat × Block)}, (l.map (·.2)).Nodup → (∃ x ∈ l, x.2 = b ∧ q x.1 = true) →
    (l.eraseP (fun x => q x.1 && decide (x.2 = b))).map (·.2) = (l.map (·.2)).erase b
  | [], _, ⟨_, h, _⟩ => by cases h
  | y :: ys, hn, ⟨x, hx, hb, hq⟩ => by
    rw [List.map_cons, List.nodup_cons] at hn
    rw [List.mem_cons] at hx
    by_cases hy : y.2 = b
    · have : x = y := by
        rcases hx with rfl | hx
        · rfl
        · exact absurd (List.mem_map.2 ⟨x, hx, hb.trans hy.symm⟩) hn.1
      subst this
      rw [List.eraseP_cons_of_pos (by simp [hq, hb]), List.map_cons, hb, List.erase_cons_head]
    · have hx' : x ∈ ys := by
        rcases hx with rfl | hx
        · exact absurd hb hy
        · exact hx
      rw [List.eraseP_cons_of_neg (by simp [hy]), List.map_cons, map_eraseP hn.2 ⟨x, hx', hb, hq⟩, List.map_cons,
        List.erase_cons_tail (by simpa using hy)]

theorem deallocQ_ret {env : Env} {σ : PState} {sh : Shape} {a : Nat} (hi : HeapInv env σ.toState) (hm : Mine σ sh a) (hz : sh.size ≠ 0)
    {B : List Block} (hg : Ghost B σ) :
    ∃ σ', deallocQ (fromExposed a) sh.size sh.align σ = .ret () σ' ∧
      σ'.toState = freedState σ.toState ⟨a, sh.size, sh.align⟩ ∧ Ghost B σ' := by
  obtain ⟨id, hb, hx⟩ := hm (by omega)
  have hany : σ.live.any (fun x => σ.grants (fromExposed a) x.1 &&
      decide (x.2 = ⟨(fromExposed a).addr, sh.size, sh.align⟩)) = true := by
    simp only [List.any_eq_true, Bool.and_eq_true, decide_eq_true_eq]
    exact ⟨_, hb, by simpa [PState.grants, fromExposed] using hx, rfl⟩
  refine ⟨_, by rw [deallocQ, if_pos hany], ?_, ?_⟩
  · have := map_eraseP (q := σ.grants (fromExposed a)) (b := ⟨a, sh.size, sh.align⟩) hi.nodup
      ⟨_, hb, rfl, by simpa [PState.grants, fromExposed] using hx⟩
    exact congrArg (fun bs => (⟨σ.mem, bs, σ.trace ++ [.dealloc ⟨a, sh.size, sh.align⟩]⟩ : State)) this
  · intro x hx
    exact hg x (List.mem_of_mem_eraseP hx)

variable {env : Env} {s0 : State} {c : CState} {a : AState env} {xs : List (Cell × Nat)}

/-- The allocation of a live location is exposed. -/
theorem Sim.mine (S : Sim env s0 c a xs) {σ : PState} (e : σ.toState = c.s) (hg : Ghost s0.blocks σ) {loc ad : Nat} {sh : Shape}
    {v : Val} (hx : xs[loc]? = some (⟨sh, v, true⟩, ad)) : Mine σ sh ad := by
  intro hz
  have hmem : (⟨ad, sh.size, sh.align⟩ : Block) ∈ xs.filterMap cellBlock := by
    rw [List.mem_filterMap]
    exact ⟨_, List.mem_of_getElem? hx, by simp [cellBlock, hz]⟩
  have hn := S.blocks.nodup_iff.1 S.inv.nodup
  have hnot : (⟨ad, sh.size, sh.align⟩ : Block) ∉ s0.blocks := fun h =>
    (List.nodup_append.1 hn).2.2 _ hmem _ h rfl
  have hin : (⟨ad, sh.size, sh.align⟩ : Block) ∈ σ.toState.blocks := by
    rw [e]; exact S.blocks.symm.subset (List.mem_append_left _ hmem)
  obtain ⟨⟨id, b⟩, h1, rfl⟩ := List.mem_map.1 hin
  rcases hg _ h1 with h | h
  · exact absurd h hnot
  · exact ⟨id, h1, h⟩

/-- The state `newQ` ends in when the allocator succeeds. -/
def boxedQ (σ : PState) (a : Nat) (sh : Shape) (v : Val) : PState :=
  { mem := putVal (overlay σ.mem a (List.replicate sh.size none)) a sh v,
    live := (σ.next, ⟨a, sh.size, sh.align⟩) :: σ.live,
    trace := σ.trace ++ [.alloc ⟨a, sh.size, sh.align⟩],
    next := σ.next + 1,
    exposed := σ.next :: σ.next :: σ.exposed }

/-- Two outcomes are the same up to allocation identities. -/
def Agree {α : Type} (B : List Block) : Out α → POut α → Prop
  | .ret b s', .ret b' σ' => b' = b ∧ σ'.toState = s' ∧ Ghost B σ'
  | .panic k s', .panic k' σ' => k' = k ∧ σ'.toState = s' ∧ Ghost B σ'
  | _, _ => False

theorem newQ_zst {σ : PState} {sh : Shape} {v : Val} {d : env.cfg.Discr} (hz : sh.size = 0) :
    TBox.newQ env sh v d σ = .ret (TBox.dangling env sh.align d) (σ.log (dropEvents sh v)) := by
  simp only [TBox.newQ, hz, if_true, MP.bind_def]
  rfl

theorem newQ_null {σ : PState} {sh : Shape} {v : Val} {d : env.cfg.Discr} (hz : sh.size ≠ 0)
    (ha : env.alloc σ.toState sh.size sh.align = 0) :
    TBox.newQ env sh v d σ = .panic .nullAlloc ((σ.log [.allocNull sh.size sh.align]).log (dropEvents sh v)) := by
  simp only [TBox.newQ, hz, if_false, MP.bind_def, allocQ, ha, if_true, exposeQ]
  rfl

theorem newQ_alloc (ok : env.OK) {σ : PState} {sh : Shape} {v : Val} {d : env.cfg.Discr} (hz : sh.size ≠ 0)
    (ha : env.alloc σ.toState sh.size sh.align ≠ 0) :
    TBox.newQ env sh v d σ =
      match TPtr.new env.cfg env.debug (BitVec.ofNat 64 (env.alloc σ.toState sh.size sh.align)) d with
      | .ok t => .ret ⟨t⟩ (boxedQ σ (env.alloc σ.toState sh.size sh.align) sh v)
      | .error k => .panic k (boxedQ σ (env.alloc σ.toState sh.size sh.align) sh v) := by
  obtain ⟨l1, l2, l3⟩ := ok.lawful σ.toState sh.size sh.align (by omega) ha
  have hlt : env.alloc σ.toState sh.size sh.align < 2 ^ 64 := by have := ok.pow_le; omega
  have hne : ¬ (BitVec.ofNat 64 (env.alloc σ.toState sh.size sh.align) = 0#64) := by
    intro e
    have := congrArg BitVec.toNat e
    rw [BitVec.toNat_ofNat, Nat.mod_eq_of_lt hlt] at this
    exact ha this
  have hv : ({ mem := overlay σ.mem (env.alloc σ.toState sh.size sh.align) (List.replicate sh.size none),
               live := (σ.next, ⟨env.alloc σ.toState sh.size sh.align, sh.size, sh.align⟩) :: σ.live,
               trace := σ.trace ++ [.alloc ⟨env.alloc σ.toState sh.size sh.align, sh.size, sh.align⟩],
               next := σ.next + 1,
               exposed := σ.next :: σ.exposed } : PState).valid
        ⟨env.alloc σ.toState sh.size sh.align, .of σ.next⟩ sh.size sh.align = true := by
    simp [PState.valid, PState.grants, ha, Nat.mod_eq_zero_of_dvd l1]
  simp only [TBox.newQ, hz, if_false, MP.bind_def, allocQ, ha, exposeQ, hne, writeQ, hv, if_true]
  cases TPtr.new env.cfg env.debug (BitVec.ofNat 64 (env.alloc σ.toState sh.size sh.align)) d <;> rfl

theorem newQ_spec (ok : env.OK) {B : List Block} {σ : PState} (hg : Ghost B σ) (sh : Shape) (v : Val) (d : env.cfg.Discr) :
    Agree B (TBox.new env sh v d σ.toState) (TBox.newQ env sh v d σ) := by
  by_cases hz : sh.size = 0
  · rw [new_zst hz, newQ_zst hz]
    exact ⟨rfl, rfl, hg⟩
  · by_cases ha : env.alloc σ.toState sh.size sh.align = 0
    · rw [new_null hz ha, newQ_null hz ha]
      exact ⟨rfl, rfl, hg⟩
    · rw [new_alloc ok hz ha, newQ_alloc ok hz ha]
      have hgh : Ghost B (boxedQ σ (env.alloc σ.toState sh.size sh.align) sh v) := by
        intro x hx
        simp only [boxedQ, List.mem_cons] at hx ⊢
        rcases hx with rfl | hx
        · exact .inr (.inl rfl)
        · rcases hg x hx with h | h
          · exact .inl h
          · exact .inr (.inr (.inr h))
      cases TPtr.new env.cfg env.debug (BitVec.ofNat 64 (env.alloc σ.toState sh.size sh.align)) d with
      | ok t => exact ⟨rfl, rfl, hgh⟩
      | error k => exact ⟨rfl, rfl, hgh⟩

/-- Computations at the two levels that end the same way give the same step. -/
theorem stepWithQ_spec {α : Type} {B : List Block} {σ : PState} {hs : List (Option TBox)} {m : M α} {q : MP α}
    {f : α → Res env × List (Option TBox)}
    (h : Agree B (m σ.toState) (q σ)) {o : Obs env} {c' : CState} (hstep : stepWith ⟨σ.toState, hs⟩ m f = some (o, c')) :
    ∃ σ', stepWithQ ⟨σ, hs⟩ q f = some (o, ⟨σ', c'.handles⟩) ∧ σ'.toState = c'.s ∧ Ghost B σ' := by
  simp only [stepWith] at hstep
  generalize m σ.toState = x at h hstep
  simp only [stepWithQ]
  generalize q σ = y at h ⊢
  match x, y, h with
  | .ret b s', .ret b' σ', h =>
    obtain ⟨rfl, rfl, h⟩ := h
    cases hstep
    exact ⟨σ', rfl, rfl, h⟩
  | .panic k s', .panic k' σ', h =>
    obtain ⟨rfl, rfl, h⟩ := h
    cases hstep
    exact ⟨σ', rfl, rfl, h⟩

/-- One step at both levels. -/
theorem Sim.stepQ (ok : env.OK) {σ : PState} {hs : List (Option TBox)} (S : Sim env s0 ⟨σ.toState, hs⟩ a xs)
    (hg : Ghost s0.blocks σ) (op : Op env) (hc : Contract a op) {o : Obs env} {c' : CState}
    (hstep : TB.step env ⟨σ.toState, hs⟩ op = some (o, c')) :
    ∃ σ', TB.stepQ env ⟨σ, hs⟩ op = some (o, ⟨σ', c'.handles⟩) ∧ σ'.toState = c'.s ∧ Ghost s0.blocks σ' := by
  have hget : ∀ h, (⟨σ, hs⟩ : QState).get h = (⟨σ.toState, hs⟩ : CState).get h := fun _ => rfl
  cases op with
  | new sh v d => exact stepWithQ_spec (m := TBox.new env sh v d) (newQ_spec ok hg sh v d) hstep
  | copy h =>
    simp only [TB.step, Option.bind_eq_some_iff] at hstep
    obtain ⟨b, hb, hstep⟩ := hstep
    simp only [TB.stepQ, hget, hb, Option.bind_some]
    refine stepWithQ_spec (m := pure b.copy) ?_ hstep
    exact ⟨rfl, rfl, hg⟩
  | discr h =>
    simp only [TB.step, Option.bind_eq_some_iff] at hstep
    obtain ⟨b, hb, hstep⟩ := hstep
    simp only [TB.stepQ, hget, hb, Option.bind_some]
    refine stepWithQ_spec (m := pure (b.discriminant env)) ?_ hstep
    exact ⟨rfl, rfl, hg⟩
  | ptrEq h h' =>
    simp only [TB.step, Option.bind_eq_some_iff] at hstep
    obtain ⟨b, hb, b', hb', hstep⟩ := hstep
    simp only [TB.stepQ, hget, hb, hb', Option.bind_some]
    refine stepWithQ_spec (m := pure (decide (b.asPtr env = b'.asPtr env))) ?_ hstep
    exact ⟨rfl, rfl, hg⟩
  | read h sh =>
    obtain ⟨loc, d, v, ht⟩ := hc
    obtain ⟨ad, hx, hb, _, _, _, H, e⟩ := S.typed ok ht
    have hm := S.mine rfl hg hx
    simp only [TB.step, hb, Option.bind_some] at hstep
    simp only [TB.stepQ, hget, hb, Option.bind_some]
    refine stepWithQ_spec ?_ hstep
    have hr : (boxAt env ad d).asRef env sh σ.toState = .ret v σ.toState := H.read
    rw [hr]
    have h1 := readQ_ret (a := (boxAt env ad d).asPtr env) (by rw [e]; exact hm) hr
    rw [show (boxAt env ad d).asRefQ env sh σ = .ret v σ from h1]
    exact ⟨rfl, rfl, hg⟩
  | assign h sh v' =>
    obtain ⟨hv, loc, d, v, ht⟩ := hc
    obtain ⟨ad, hx, hb, _, _, _, H, e⟩ := S.typed ok ht
    have hm := S.mine rfl hg hx
    simp only [TB.step, hb, Option.bind_some] at hstep
    simp only [TB.stepQ, hget, hb, Option.bind_some]
    refine stepWithQ_spec ?_ hstep
    rw [asMutRefAssign_ret H]
    have hr : ptrRead sh ((boxAt env ad d).asPtr env) σ.toState = .ret v σ.toState := H.read
    have h1 : readQ sh ((boxAt env ad d).asMutPtrQ env) σ = .ret v σ :=
      readQ_ret (a := (boxAt env ad d).asPtr env) (by rw [e]; exact hm) hr
    have h2 : writeQ sh ((boxAt env ad d).asMutPtrQ env) v' (σ.log (dropEvents sh v)) = .ret () _ :=
      writeQ_ret (σ := σ.log (dropEvents sh v)) (a := (boxAt env ad d).asPtr env) (by rw [e]; exact hm) H.valid
    simp only [TBox.asMutRefAssignQ, MP.bind_def, h1, dropQ, h2]
    exact ⟨rfl, rfl, hg⟩
  | write h sh v' =>
    obtain ⟨hv, loc, d, v, ht⟩ := hc
    obtain ⟨ad, hx, hb, _, _, _, H, e⟩ := S.typed ok ht
    have hm := S.mine rfl hg hx
    simp only [TB.step, hb, Option.bind_some] at hstep
    simp only [TB.stepQ, hget, hb, Option.bind_some]
    refine stepWithQ_spec ?_ hstep
    rw [asMutPtrWrite_ret H]
    have h2 : writeQ sh ((boxAt env ad d).asMutPtrQ env) v' σ = .ret () _ :=
      writeQ_ret (a := (boxAt env ad d).asPtr env) (by rw [e]; exact hm) H.valid
    simp only [TBox.asMutPtrWriteQ, MP.bind_def, h2]
    exact ⟨rfl, rfl, hg⟩
  | intoInner h sh =>
    obtain ⟨loc, d, v, ht⟩ := hc
    obtain ⟨ad, hx, hb, _, _, _, H, e⟩ := S.typed ok ht
    have hm := S.mine rfl hg hx
    simp only [TB.step, hb, Option.bind_some] at hstep
    simp only [TB.stepQ, hget, hb, Option.bind_some]
    refine stepWithQ_spec ?_ hstep
    have hr : (boxAt env ad d).intoInner env sh σ.toState = .ret v σ.toState := H.read
    rw [hr]
    have h1 := readQ_ret (a := (boxAt env ad d).asPtr env) (by rw [e]; exact hm) hr
    rw [show (boxAt env ad d).intoInnerQ env sh σ = .ret v σ from h1]
    exact ⟨rfl, rfl, hg⟩
  | drop h =>
    simp only [TB.step, Option.bind_eq_some_iff] at hstep
    obtain ⟨b, hb, hstep⟩ := hstep
    simp only [TB.stepQ, hget, hb, Option.bind_some]
    refine stepWithQ_spec (m := b.dropBox) ?_ hstep
    exact ⟨rfl, rfl, hg⟩
  | rawRoundtrip h =>
    simp only [TB.step, Option.bind_eq_some_iff] at hstep
    obtain ⟨b, hb, hstep⟩ := hstep
    simp only [TB.stepQ, hget, hb, Option.bind_some]
    refine stepWithQ_spec ?_ hstep
    simp only [TBox.fromRaw, TBox.fromRawQ, M.bind_def, MP.bind_def, exposeQ, TBox.intoRawQ, TBox.asMutPtrQ, fromExposed, TBox.intoRaw]
    cases TPtr.new env.cfg env.debug (BitVec.ofNat 64 (b.boxed.asMutPtr env.cfg env.ptrBits)) (b.discriminant env) with
    | ok t => exact ⟨rfl, rfl, hg⟩
    | error k => exact ⟨rfl, rfl, hg⟩
  | boxDrop h sh =>
    obtain ⟨loc, d, v, ht⟩ := hc
    obtain ⟨ad, hx, hb, _, _, _, H, e⟩ := S.typed ok ht
    have hm : Mine σ sh ((boxAt env ad d).asPtr env) := by rw [e]; exact S.mine rfl hg hx
    simp only [TB.step, hb, Option.bind_some] at hstep
    simp only [TB.stepQ, hget, hb, Option.bind_some]
    refine stepWithQ_spec ?_ hstep
    rw [boxDrop_ret H]
    have h1 : readQ sh ((boxAt env ad d).intoBoxQ env).ptr σ = .ret v σ :=
      readQ_ret (a := (boxAt env ad d).asPtr env) hm H.read
    simp only [QBox.drop, MP.bind_def, h1, dropQ]
    by_cases hz : sh.size = 0
    · simp only [if_pos hz]
      exact ⟨rfl, rfl, hg⟩
    · simp only [if_neg hz]
      obtain ⟨σ', e1, e2, e3⟩ := deallocQ_ret (σ := σ.log (dropEvents sh v)) (env := env) (S.inv.log _) hm hz hg
      rw [show deallocQ ((boxAt env ad d).intoBoxQ env).ptr sh.size sh.align (σ.log (dropEvents sh v)) = .ret () σ' from e1]
      exact ⟨rfl, e2, e3⟩
  | boxTake h sh =>
    obtain ⟨loc, d, v, ht⟩ := hc
    obtain ⟨ad, hx, hb, _, _, _, H, e⟩ := S.typed ok ht
    have hm : Mine σ sh ((boxAt env ad d).asPtr env) := by rw [e]; exact S.mine rfl hg hx
    simp only [TB.step, hb, Option.bind_some] at hstep
    simp only [TB.stepQ, hget, hb, Option.bind_some]
    refine stepWithQ_spec ?_ hstep
    rw [boxIntoValue_ret H]
    have h1 : readQ sh ((boxAt env ad d).intoBoxQ env).ptr σ = .ret v σ :=
      readQ_ret (a := (boxAt env ad d).asPtr env) hm H.read
    simp only [QBox.intoValue, MP.bind_def, h1]
    by_cases hz : sh.size = 0
    · simp only [if_pos hz]
      exact ⟨rfl, rfl, hg⟩
    · simp only [if_neg hz]
      obtain ⟨σ', e1, e2, e3⟩ := deallocQ_ret (env := env) S.inv hm hz hg
      rw [MP.bind_def, show deallocQ ((boxAt env ad d).intoBoxQ env).ptr sh.size sh.align σ = .ret () σ' from e1]
      exact ⟨rfl, e2, e3⟩

/-- Whole runs at both levels. -/
theorem run_both (ok : env.OK) (hr : env.debug = true ∨ env.InRange) {σ : PState} (hi : HeapInv env σ.toState) {p : Client env}
    (hp : WellBehaved p) : ∀ n, ∃ os hs σ' a xs, runClient env p σ.toState n = some (os, ⟨σ'.toState, hs⟩) ∧
      runClientQ env p σ n = some (os, ⟨σ', hs⟩) ∧ SpecReach p os a ∧ Sim env σ.toState ⟨σ'.toState, hs⟩ a xs ∧
      Ghost σ.toState.blocks σ'
  | 0 => by
    obtain ⟨os, c, a, xs, e, hreach, S⟩ := run_sim ok hr hi hp 0
    simp only [runClient, Option.some.injEq, Prod.mk.injEq] at e
    obtain ⟨rfl, rfl⟩ := e
    exact ⟨[], [], σ, a, xs, rfl, rfl, hreach, S, fun x hx => .inl (List.mem_map.2 ⟨x, hx, rfl⟩)⟩
  | n + 1 => by
    obtain ⟨os, hs, σ', a, xs, e, eq, hreach, S, hg⟩ := run_both ok hr hi hp n
    cases hop : p os with
    | none => exact ⟨os, hs, σ', a, xs, by simp [runClient, e, hop], by simp [runClientQ, eq, hop], hreach, S, hg⟩
    | some op =>
      have hc := hp os a op hreach hop
      obtain ⟨o, c', a', xs', h1, h2, h3⟩ := S.step ok hr op hc
      obtain ⟨σ'', q1, q2, q3⟩ := S.stepQ ok hg op hc h1
      obtain ⟨s', hs'⟩ := c'
      subst q2
      exact ⟨os ++ [o], hs', σ'', a', xs', by simp [runClient, e, hop, h1], by simp [runClientQ, eq, hop, q1],
        hreach.next hop h2, h3, q3⟩

/-! ## What gets exposed -/

/-- Only identities that were unused before have become exposed. -/
def Grow (σ σ' : PState) : Prop := σ.next ≤ σ'.next ∧ ∀ i ∈ σ'.exposed, i ∈ σ.exposed ∨ σ.next ≤ i

theorem Grow.refl (σ : PState) : Grow σ σ := ⟨Nat.le_refl _, fun _ h => .inl h⟩

theorem Grow.trans {σ σ' σ'' : PState} (h : Grow σ σ') (h' : Grow σ' σ'') : Grow σ σ'' := by
  refine ⟨Nat.le_trans h.1 h'.1, fun i hi => ?_⟩
  rcases h'.2 i hi with hi | hi
  · exact h.2 i hi
  · exact .inr (Nat.le_trans h.1 hi)

/-- All outcomes only expose new identities. -/
def GrowOut {α : Type} (σ : PState) : POut α → Prop
  | .ret _ σ' => Grow σ σ'
  | .panic _ σ' => Grow σ σ'
  | .ub _ => True

theorem GrowOut.bind {α β : Type} {m : MP α} {f : α → MP β} {σ : PState} (h : GrowOut σ (m σ)) (hf : ∀ x σ', GrowOut σ' (f x σ')) :
    GrowOut σ ((m >>= f) σ) := by
  rw [MP.bind_def]
  match hm : m σ, h with
  | .ret x σ', h =>
    have := hf x σ'
    show GrowOut σ (f x σ')
    match f x σ', this with
    | .ret _ σ'', h' => exact Grow.trans h h'
    | .panic _ σ'', h' => exact Grow.trans h h'
    | .ub _, _ => trivial
  | .panic _ _, h => exact h
  | .ub _, _ => trivial

theorem growOut_read (sh : Shape) (p : Ptr) (σ : PState) : GrowOut σ (readQ sh p σ) := by
  unfold readQ
  split
  · split
    · exact Grow.refl _
    · trivial
  · trivial

theorem growOut_write (sh : Shape) (p : Ptr) (v : Val) (σ : PState) : GrowOut σ (writeQ sh p v σ) := by
  unfold writeQ
  split
  · exact ⟨Nat.le_refl _, fun _ h => .inl h⟩
  · trivial

theorem growOut_dealloc (p : Ptr) (n m : Nat) (σ : PState) : GrowOut σ (deallocQ p n m σ) := by
  unfold deallocQ
  split
  · exact ⟨Nat.le_refl _, fun _ h => .inl h⟩
  · trivial

theorem growOut_pure {α : Type} (x : α) (σ : PState) : GrowOut σ ((pure x : MP α) σ) := Grow.refl σ

theorem growOut_except {α : Type} (x : Except PanicKind α) (σ : PState) : GrowOut σ (MP.ofExcept x σ) := by
  cases x <;> exact Grow.refl σ

theorem growOut_drop (sh : Shape) (v : Val) (σ : PState) : GrowOut σ (dropQ sh v σ) := ⟨Nat.le_refl _, fun _ h => .inl h⟩

theorem growOut_new (sh : Shape) (v : Val) (d : env.cfg.Discr) (σ : PState) : GrowOut σ (TBox.newQ env sh v d σ) := by
  unfold TBox.newQ
  split
  · exact (growOut_drop sh v σ).bind fun _ _ => growOut_pure _ _
  · rw [MP.bind_def, allocQ]
    by_cases ha : env.alloc σ.toState sh.size sh.align = 0
    · simp only [if_pos ha]
      rw [MP.bind_def]
      exact Grow.refl σ
    · simp only [if_neg ha]
      rw [MP.bind_def]
      simp only [exposeQ]
      split
      · exact ⟨Nat.le_succ _, fun i hi => by
          rw [show ((PState.log _ _).exposed : List Nat) = σ.next :: σ.exposed from rfl] at hi
          rcases List.mem_cons.1 hi with rfl | hi
          · exact .inr (Nat.le_refl _)
          · exact .inl hi⟩
      · rw [MP.bind_def]
        unfold writeQ
        split
        · rename_i he
          split at he
          · cases he
            rw [MP.bind_def]
            have hg : ∀ σ' : PState, σ'.next = σ.next + 1 → σ'.exposed = σ.next :: σ.next :: σ.exposed → Grow σ σ' := by
              intro σ' h1 h2
              refine ⟨by omega, fun i hi => ?_⟩
              rw [h2] at hi
              rcases List.mem_cons.1 hi with rfl | hi
              · exact .inr (Nat.le_refl _)
              rcases List.mem_cons.1 hi with rfl | hi
              · exact .inr (Nat.le_refl _)
              · exact .inl hi
            simp only [exposeQ]
            rw [MP.bind_def]
            cases TPtr.new env.cfg env.debug (BitVec.ofNat 64 (env.alloc σ.toState sh.size sh.align)) d with
            | ok t => exact hg _ rfl rfl
            | error k => exact hg _ rfl rfl
          · cases he
        · rename_i he
          split at he <;> cases he
        · trivial

theorem growOut_step {α : Type} {σ : PState} {hs : List (Option TBox)} {q : MP α} {f : α → Res env × List (Option TBox)}
    (h : GrowOut σ (q σ)) {o : Obs env} {c' : QState} (e : stepWithQ ⟨σ, hs⟩ q f = some (o, c')) : Grow σ c'.σ := by
  simp only [stepWithQ] at e
  generalize q σ = y at h e
  match y, h with
  | .ret _ _, h => cases e; exact h
  | .panic _ _, h => cases e; exact h

theorem stepQ_grow (c : QState) (op : Op env) {o : Obs env} {c' : QState} (e : TB.stepQ env c op = some (o, c')) : Grow c.σ c'.σ := by
  cases op with
  | new sh v d => exact growOut_step (growOut_new sh v d c.σ) e
  | copy h =>
    simp only [TB.stepQ, Option.bind_eq_some_iff] at e
    obtain ⟨b, _, e⟩ := e
    exact growOut_step (growOut_pure _ _) e
  | discr h =>
    simp only [TB.stepQ, Option.bind_eq_some_iff] at e
    obtain ⟨b, _, e⟩ := e
    exact growOut_step (growOut_pure _ _) e
  | ptrEq h h' =>
    simp only [TB.stepQ, Option.bind_eq_some_iff] at e
    obtain ⟨b, _, b', _, e⟩ := e
    exact growOut_step (growOut_pure _ _) e
  | read h sh =>
    simp only [TB.stepQ, Option.bind_eq_some_iff] at e
    obtain ⟨b, _, e⟩ := e
    exact growOut_step (growOut_read _ _ _) e
  | assign h sh v =>
    simp only [TB.stepQ, Option.bind_eq_some_iff] at e
    obtain ⟨b, _, e⟩ := e
    refine growOut_step ?_ e
    exact (growOut_read _ _ _).bind fun _ _ => (growOut_drop _ _ _).bind fun _ _ => (growOut_write _ _ _ _).bind fun _ _ => growOut_pure _ _
  | write h sh v =>
    simp only [TB.stepQ, Option.bind_eq_some_iff] at e
    obtain ⟨b, _, e⟩ := e
    refine growOut_step ?_ e
    exact (growOut_write _ _ _ _).bind fun _ _ => growOut_pure _ _
  | intoInner h sh =>
    simp only [TB.stepQ, Option.bind_eq_some_iff] at e
    obtain ⟨b, _, e⟩ := e
    exact growOut_step (growOut_read _ _ _) e
  | drop h =>
    simp only [TB.stepQ, Option.bind_eq_some_iff] at e
    obtain ⟨b, _, e⟩ := e
    exact growOut_step (growOut_pure _ _) e
  | rawRoundtrip h =>
    simp only [TB.stepQ, Option.bind_eq_some_iff] at e
    obtain ⟨b, _, e⟩ := e
    refine growOut_step ?_ e
    exact GrowOut.bind (m := exposeQ (b.intoRawQ env)) (Grow.refl _) fun _ _ => (growOut_except _ _).bind fun _ _ => growOut_pure _ _
  | boxDrop h sh =>
    simp only [TB.stepQ, Option.bind_eq_some_iff] at e
    obtain ⟨b, _, e⟩ := e
    refine growOut_step ?_ e
    refine (growOut_read _ _ _).bind fun _ _ => (growOut_drop _ _ _).bind fun _ _ => ?_
    split
    · exact growOut_pure _ _
    · exact growOut_dealloc _ _ _ _
  | boxTake h sh =>
    simp only [TB.stepQ, Option.bind_eq_some_iff] at e
    obtain ⟨b, _, e⟩ := e
    refine growOut_step ?_ e
    refine (growOut_read _ _ _).bind fun _ _ => ?_
    split
    · exact growOut_pure _ _
    · exact (growOut_dealloc _ _ _ _).bind fun _ _ => growOut_pure _ _

theorem runQ_grow (p : Client env) (σ : PState) : ∀ n {os c}, runClientQ env p σ n = some (os, c) → Grow σ c.σ
  | 0, os, c, h => by cases h; exact Grow.refl _
  | n + 1, os, c, h => by
    simp only [runClientQ, Option.bind_eq_some_iff] at h
    obtain ⟨⟨os', c'⟩, h1, h2⟩ := h
    have ih := runQ_grow p σ n h1
    cases hop : p os' with
    | none => simp only [hop] at h2; cases h2; exact ih
    | some op =>
      simp only [hop, Option.map_eq_some_iff] at h2
      obtain ⟨⟨o, c''⟩, h3, h4⟩ := h2
      cases h4
      exact ih.trans (stepQ_grow c' op h3)

end TB

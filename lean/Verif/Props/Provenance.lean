import Verif.Lemmas.Provenance
import Verif.Props.History

/-!
# Pointer provenance (C64)

`runClientQ` runs the same clients as `runClient`, on a machine whose pointers carry provenance.
-/

set_option autoImplicit false

namespace TB.Props

open TB

variable {env : Env}

/-- **C64** A client that keeps the documented contract never reaches undefined behaviour on the machine with provenance either, for
any number of steps, from any heap (whose own allocations need not be exposed); it observes exactly what it observes on the machine
that knows addresses only, and leaves the same memory and blocks. -/
theorem C64_no_ub (ok : env.OK) (hr : env.debug = true ∨ env.InRange) (σ : PState) (hi : HeapInv env σ.toState) (p : Client env)
    (hp : WellBehaved p) (n : Nat) :
    ∃ os hs σ', runClientQ env p σ n = some (os, ⟨σ', hs⟩) ∧ runClient env p σ.toState n = some (os, ⟨σ'.toState, hs⟩) := by
  obtain ⟨os, hs, σ', _, _, h1, h2, _⟩ := run_both ok hr hi hp n
  exact ⟨os, hs, σ', h2, h1⟩

/-- **C64** No run of any client makes an allocation that existed before reachable from an integer: an allocation that was not exposed at
the start (its identity is one of those already given out) is not exposed at the end. -/
theorem C64_foreign_stays_private (σ : PState) (p : Client env) (n : Nat) (os : List (Obs env)) (c : QState)
    (h : runClientQ env p σ n = some (os, c)) (id : Nat) (hid : id < σ.next) (hx : id ∉ σ.exposed) : id ∉ c.σ.exposed := by
  intro hc
  rcases (runQ_grow p σ n h).2 id hc with h | h
  · exact hx h
  · omega

/-- **C64** `from_raw` takes any pointer: if a value can be read through the pointer, it can be read through the box made of it, and every
allocation the pointer gave access to can be accessed (hence freed) through the pointer `into_raw` returns. -/
theorem C64_from_raw (ok : env.OK) (σ : PState) (sh : Shape) (q : Ptr) (v : Val) (hq : readQ sh q σ = .ret v σ)
    (d : env.cfg.Discr) (hd : d ≤ env.cfg.MAX_DISCRIMINANT) (ha : q.addr < 2 ^ env.ptrBits) (hw : q.addr < 2 ^ env.cfg.ptrWidth) :
    ∃ b σ', TBox.fromRawQ env q d σ = .ret b σ' ∧ σ'.toState = σ.toState ∧ σ'.live = σ.live ∧ b.discriminant env = d ∧
      b.asRefQ env sh σ' = .ret v σ' ∧ (b.intoRawQ env).addr = q.addr ∧
      ∀ id, σ.grants q id = true → σ'.grants (b.intoRawQ env) id = true := by
  have hlt64 : q.addr < 2 ^ 64 := Nat.lt_of_lt_of_le ha ok.pow_le
  have eofn : (BitVec.ofNat 64 q.addr).toNat = q.addr := by rw [BitVec.toNat_ofNat, Nat.mod_eq_of_lt hlt64]
  have hnew : TPtr.new env.cfg env.debug (BitVec.ofNat 64 q.addr) d = .ok ⟨TPtr.storeDiscriminant env.cfg (BitVec.ofNat 64 q.addr) d⟩ := by
    rcases TPtr.new_cases env.cfg env.debug (BitVec.ofNat 64 q.addr) d with ⟨e, _⟩ | ⟨hdbg, ⟨e, h⟩ | ⟨e, _, h⟩⟩
    · exact e
    · exact absurd hd h
    · rw [ok.sane.le_maxPtr_iff, eofn] at h; exact absurd hw h
  obtain ⟨e1, e2⟩ := store_parts ok ha hw (Env.DiscrOK.fits ok hd)
  let σ' : PState := match q.prov with
    | .of id => { σ with exposed := id :: σ.exposed }
    | .wild => σ
  have hσ : σ'.toState = σ.toState ∧ σ'.live = σ.live ∧ σ'.mem = σ.mem := by
    show (match q.prov with | .of id => _ | .wild => σ : PState).toState = _ ∧ (match q.prov with | .of id => _ | .wild => σ : PState).live = _ ∧
      (match q.prov with | .of id => _ | .wild => σ : PState).mem = _
    cases q.prov <;> exact ⟨rfl, rfl, rfl⟩
  have hgr : ∀ id, σ.grants q id = true → σ'.grants (fromExposed q.addr) id = true := by
    intro id h
    show decide (id ∈ (match q.prov with | .of id => { σ with exposed := id :: σ.exposed } | .wild => σ : PState).exposed) = true
    cases hp : q.prov with
    | of i => simp only [PState.grants, hp, decide_eq_true_eq] at h; subst h; simp
    | wild => simpa [PState.grants, hp] using h
  have hfrom : TBox.fromRawQ env q d σ = .ret ⟨⟨TPtr.storeDiscriminant env.cfg (BitVec.ofNat 64 q.addr) d⟩⟩ σ' := by
    simp only [TBox.fromRawQ, MP.bind_def, exposeQ, hnew]
    rfl
  refine ⟨_, σ', hfrom, hσ.1, hσ.2.1, e2, ?_, e1, ?_⟩
  · have e : TBox.asPtrQ env ⟨⟨TPtr.storeDiscriminant env.cfg (BitVec.ofNat 64 q.addr) d⟩⟩ = fromExposed q.addr := congrArg fromExposed e1
    rw [TBox.asRefQ, e]
    unfold readQ at hq ⊢
    split at hq
    · rename_i hv
      have hv' : σ'.valid (fromExposed q.addr) sh.size sh.align = true := by
        simp only [PState.valid, Bool.and_eq_true, decide_eq_true_eq, Bool.or_eq_true, List.any_eq_true] at hv ⊢
        obtain ⟨hv1, hv2⟩ := hv
        refine ⟨hv1, hv2.imp id fun ⟨x, hx, ⟨h1, h2⟩, h3⟩ => ⟨x, by rw [hσ.2.1]; exact hx, ⟨hgr _ h1, h2⟩, h3⟩⟩
      split at hq
      · rename_i hf
        cases hq
        rw [if_pos hv', hσ.2.2]
        show (if fieldsValid sh (getVal σ.mem q.addr sh) = true then _ else _) = _
        rw [if_pos hf]
        rfl
      · cases hq
    · cases hq
  · have e : TBox.intoRawQ env ⟨⟨TPtr.storeDiscriminant env.cfg (BitVec.ofNat 64 q.addr) d⟩⟩ = fromExposed q.addr := congrArg fromExposed e1
    rw [e]
    exact hgr

/-- **C64** A `Box` of the program (never exposed) can be turned into a tagged box and back: `Box::new`, `Box::into_raw`, `from_raw`, `into_box`,
and moving the value out gives the value and frees exactly the allocation `Box::new` made. -/
theorem C64_box_roundtrip (ok : env.OK) (σ : PState) (sh : Shape) (hw : sh.WF) (v : Val) (hv : sh.Has v)
    (d : env.cfg.Discr) (hd : d ≤ env.cfg.MAX_DISCRIMINANT) (hn : 0 < sh.size → env.alloc σ.toState sh.size sh.align ≠ 0)
    (hr : env.alloc σ.toState sh.size sh.align < 2 ^ env.cfg.ptrWidth) :
    ∃ x σ₁ b σ₂ σ₃, QBox.new env sh v σ = .ret x σ₁ ∧ TBox.fromRawQ env x.ptr d σ₁ = .ret b σ₂ ∧ b.discriminant env = d ∧
      (b.intoBoxQ env).intoValue sh σ₂ = .ret v σ₃ ∧ σ₃.live = σ.live := by
  by_cases hz : sh.size = 0
  · obtain ⟨p1, p2, p3⟩ := align_lt ok hw.align_pow
    have hrd : readQ sh ⟨sh.align, .wild⟩ σ = .ret v σ := readQ_ret (fun h => by omega)
      (ptrRead_zst hw hv hz (by have := hw.align_pos; omega) (Nat.dvd_refl _) σ.toState)
    obtain ⟨b, σ', h1, _, h3, h4, h5, _⟩ := C64_from_raw ok σ sh _ v hrd d hd p2 p3
    refine ⟨⟨⟨sh.align, .wild⟩⟩, σ, b, σ', σ', by rw [QBox.new, if_pos hz]; rfl, h1, h4, ?_, h3⟩
    have h5' : readQ sh (b.intoBoxQ env).ptr σ' = .ret v σ' := h5
    simp only [QBox.intoValue, MP.bind_def, h5', hz, if_true]
    rfl
  · have hn := hn (by omega)
    obtain ⟨l1, l2, l3⟩ := ok.lawful σ.toState sh.size sh.align (by omega) hn
    let σ₁ : PState := { mem := putVal (overlay σ.mem (env.alloc σ.toState sh.size sh.align) (List.replicate sh.size none))
                            (env.alloc σ.toState sh.size sh.align) sh v,
                         live := (σ.next, ⟨env.alloc σ.toState sh.size sh.align, sh.size, sh.align⟩) :: σ.live,
                         trace := σ.trace ++ [.alloc ⟨env.alloc σ.toState sh.size sh.align, sh.size, sh.align⟩],
                         next := σ.next + 1,
                         exposed := σ.exposed }
    have hval : ∀ m, (⟨m, σ₁.live, σ₁.trace, σ₁.next, σ₁.exposed⟩ : PState).valid ⟨env.alloc σ.toState sh.size sh.align, .of σ.next⟩
        sh.size sh.align = true := by
      intro m
      simp [PState.valid, PState.grants, σ₁, hn, Nat.mod_eq_zero_of_dvd l1]
    have hnew : QBox.new env sh v σ = .ret ⟨⟨env.alloc σ.toState sh.size sh.align, .of σ.next⟩⟩ σ₁ := by
      have := hval (overlay σ.mem (env.alloc σ.toState sh.size sh.align) (List.replicate sh.size none))
      simp only [QBox.new, hz, if_false, MP.bind_def, allocQ, hn, writeQ]
      simp only [σ₁] at this
      rw [this]
      rfl
    have hrd : readQ sh ⟨env.alloc σ.toState sh.size sh.align, .of σ.next⟩ σ₁ = .ret v σ₁ :=
      readQ_valid (hval _) (boxedState_read (s := σ.toState) ok hw hv hz hn)
    obtain ⟨b, σ₂, h1, h2, h3, h4, h5, h6, h7⟩ := C64_from_raw ok σ₁ sh _ v hrd d hd (by show env.alloc σ.toState sh.size sh.align < _; omega) hr
    have hg : σ₂.grants (b.intoRawQ env) σ.next = true := h7 σ.next (by simp [PState.grants])
    have h5' : readQ sh (b.intoBoxQ env).ptr σ₂ = .ret v σ₂ := h5
    have hhead : (fun x : Nat × Block => σ₂.grants (b.intoRawQ env) x.1 && decide (x.2 = ⟨(b.intoRawQ env).addr, sh.size, sh.align⟩))
        (σ.next, ⟨env.alloc σ.toState sh.size sh.align, sh.size, sh.align⟩) = true := by
      simp [hg, h6]
    have hlive : σ₂.live = (σ.next, ⟨env.alloc σ.toState sh.size sh.align, sh.size, sh.align⟩) :: σ.live := h3
    have hd : ∃ σ₃, deallocQ (b.intoBoxQ env).ptr sh.size sh.align σ₂ = .ret () σ₃ ∧ σ₃.live = σ.live := by
      refine ⟨_, by rw [deallocQ, if_pos (by rw [hlive, List.any_cons]; exact Bool.or_eq_true_iff.2 (.inl hhead))], ?_⟩
      show σ₂.live.eraseP _ = _
      rw [hlive]
      exact List.eraseP_cons_of_pos (p := fun x : Nat × Block =>
        σ₂.grants (b.intoRawQ env) x.1 && decide (x.2 = ⟨(b.intoRawQ env).addr, sh.size, sh.align⟩)) hhead
    obtain ⟨σ₃, h8, h9⟩ := hd
    refine ⟨_, σ₁, b, σ₂, σ₃, hnew, h1, h4, ?_, h9⟩
    simp only [QBox.intoValue, MP.bind_def, h5', hz, if_false]
    rw [h8]
    rfl

/-- **C64** `new_unchecked` exposes what `new` exposes: the two are the same function here too. -/
theorem C64_new_unchecked (sh : Shape) (v : Val) (d : env.cfg.Discr) : TBox.newUncheckedQ env sh v d = TBox.newQ env sh v d := rfl

/-- Why the casts matter: if nothing is exposed, an address made into a pointer gives access to nothing. -/
theorem C64_unexposed (σ : PState) (h : ∀ x ∈ σ.live, x.1 ∉ σ.exposed) (sh : Shape) (hz : 0 < sh.size) (a : Nat) :
    readQ sh (fromExposed a) σ = .ub .badPointer := by
  have : σ.valid (fromExposed a) sh.size sh.align = false := by
    rw [Bool.eq_false_iff]
    intro hv
    simp only [PState.valid, Bool.and_eq_true, decide_eq_true_eq, Bool.or_eq_true, List.any_eq_true] at hv
    rcases hv.2 with h0 | ⟨x, hx, ⟨h1, _⟩, _⟩
    · omega
    · exact h x hx (by simpa [PState.grants, fromExposed] using h1)
  rw [readQ, this]
  rfl

/-! ## An example -/

/-- A heap with one private allocation of the program in it. -/
def pstate0 : PState := ⟨fun _ => none, [(0, ⟨4096, 16, 8⟩)], [], 1, []⟩

/-- Non-vacuity: the example client of C27 on that heap. -/
example : ∃ c, runClientQ (env60 true) demoClient pstate0 4 =
      some ([(.handle 0, []), (.handle 1, []), (.val [[some 1#8, some 2#8, some 3#8, some 4#8]], []), (.unit, [])], c) ∧
    c.σ.live = pstate0.live ∧ c.σ.exposed = [1, 1] := ⟨_, rfl, rfl, rfl⟩

/-- The same address, but the program's allocation is not exposed: reading it through an integer is undefined. -/
example : readQ u64L.shape (fromExposed 4096) pstate0 = .ub .badPointer :=
  C64_unexposed _ (by simp [pstate0]) _ (by decide) _

/-- An address handed out again is a different allocation: the old pointer is dead, although the block is there. -/
example : (⟨fun _ => some 0#8, [(1, ⟨4096, 16, 8⟩)], [], 2, []⟩ : PState).valid ⟨4096, .of 0⟩ 8 8 = false ∧
    (⟨fun _ => some 0#8, [(1, ⟨4096, 16, 8⟩)], [], 2, []⟩ : PState).valid ⟨4096, .of 1⟩ 8 8 = true := by
  decide

end TB.Props

import Verif.Lemmas.Box
import Verif.Demo

/-!
# Properties of `TaggedBox` (C15 - C20, C22 - C26, C53)

Standing hypotheses: `env.OK` (a row of the settings table, a lawful allocator, a 32- or 64-bit target) and
`HeapInv env s` (live blocks do not overlap).  The state `s` is otherwise arbitrary: any contents, any other
allocations, made by anyone.
-/

set_option autoImplicit false

namespace TB.Props

open TB

variable {env : Env} {s : State} {sh : Shape} {v : Val}

/-- **C15** For every type, value, allowed discriminant, heap state and lawful allocator: if `new` returns, all
accessors give back the value and the discriminant. `env.debug = true ∨ env.InRange`: either the build checks the
address, or the allocator's addresses fit the reserved width (needed: `C15_release_out_of_range_refuted`). -/
theorem C15_box_roundtrip (ok : env.OK) (hi : HeapInv env s) (hw : sh.WF) (hv : sh.Has v) {d : env.cfg.Discr}
    (hd : d ≤ env.cfg.MAX_DISCRIMINANT) (hr : env.debug = true ∨ env.InRange) {b : TBox} {s' : State}
    (hn : TBox.new env sh v d s = .ret b s') :
    b.discriminant env = d ∧
    b.asRef env sh s' = .ret v s' ∧
    ptrRead sh (b.asPtr env) s' = .ret v s' ∧
    b.intoInner env sh s' = .ret v s' ∧
    (b.intoBox env).deref sh s' = .ret v s' ∧
    (∃ s'', (b.intoBox env).intoValue sh s' = .ret v s'') ∧
    HeapInv env s' := by
  have hd' : env.DiscrFits d := Env.DiscrOK.fits ok hd
  rcases new_spec ok hi hw hv d with ⟨b', s1, e, i1, _, hh, _⟩ | ⟨_, _, e⟩ | ⟨_, _, _, k, e, _⟩
  · rw [e] at hn; cases hn
    have H := hh hd' hr
    exact ⟨H.discr, H.read, H.read, H.read, H.read, ⟨_, boxIntoValue_ret H⟩, i1⟩
  · rw [e] at hn; cases hn
  · rw [e] at hn; cases hn

/-- **C15** (outcomes) `new` never has undefined behaviour, and panics only if the allocator fails, or in a debug
build if the discriminant or the address is out of range. -/
theorem C15_new_outcomes (ok : env.OK) (hi : HeapInv env s) (hw : sh.WF) (hv : sh.Has v) (d : env.cfg.Discr) :
    match TBox.new env sh v d s with
    | .ret _ _ => 0 < sh.size → env.alloc s sh.size sh.align ≠ 0
    | .panic k _ => 0 < sh.size ∧
        ((k = .nullAlloc ∧ env.alloc s sh.size sh.align = 0) ∨
         (k = .discriminant ∧ env.debug = true ∧ env.alloc s sh.size sh.align ≠ 0 ∧ env.cfg.MAX_DISCRIMINANT < d) ∨
         (k = .pointer ∧ env.debug = true ∧ d ≤ env.cfg.MAX_DISCRIMINANT ∧
            2 ^ env.cfg.POINTER_WIDTH ≤ env.alloc s sh.size sh.align))
    | .ub _ => False := by
  rcases new_spec ok hi hw hv d with ⟨b', s1, e, _, _, _, hh⟩ | ⟨hp, ha, e⟩ | ⟨hp, hdbg, ha, k, e, hk⟩
  · rw [e]; intro hp
    rcases hh with ⟨h0, _⟩ | ⟨_, h1, _⟩
    · omega
    · exact h1
  · rw [e]; exact ⟨hp, Or.inl ⟨rfl, ha⟩⟩
  · rw [e]; refine ⟨hp, Or.inr ?_⟩
    rcases hk with ⟨rfl, h⟩ | ⟨rfl, h, h'⟩
    · exact Or.inl ⟨rfl, hdbg, ha, BitVec.not_le.1 h⟩
    · refine Or.inr ⟨rfl, hdbg, h, Nat.not_lt.1 h'⟩

/-- Non-vacuity of C15: a `u32` boxed with discriminant 3 at the default width, from an empty heap. -/
example : ∃ b s', TBox.new (env60 true) u32L.shape [[some 1#8, some 2#8, some 3#8, some 4#8]] (3#8 : BitVec 8) state0
      = .ret b s' ∧ b.boxed.raw = 0x3000000000001000#64 ∧ s'.blocks = [⟨4096, 4, 4⟩] ∧
      HeapInv (env60 true) state0 ∧ (env60 true).OK ∧ u32L.shape.WF ∧
      u32L.shape.Has [[some 1#8, some 2#8, some 3#8, some 4#8]] ∧ (3#8 : BitVec 8) ≤ cfg60.MAX_DISCRIMINANT :=
  ⟨_, _, rfl, rfl, rfl, state0_inv _, env60_ok _, u32L_wf.shape, ⟨⟨rfl, rfl⟩, trivial⟩,
    show (3#8 : BitVec 8) ≤ 15#8 by decide⟩

/-- The range hypothesis of **C15** is needed: with a lawful allocator whose addresses do not fit, a release build
returns a box, without any panic, from which reading the value back is undefined behaviour. -/
theorem C15_release_out_of_range_refuted :
    ∃ (env : Env) (s s' : State) (v : Val) (d : env.cfg.Discr) (b : TBox), env.OK ∧ HeapInv env s ∧ u32L.shape.Has v ∧
      d ≤ env.cfg.MAX_DISCRIMINANT ∧ TBox.new env u32L.shape v d s = .ret b s' ∧
      b.asRef env u32L.shape s' = .ub .badPointer :=
  ⟨env60high false, state0, _, [[some 1#8, some 2#8, some 3#8, some 4#8]], (3#8 : BitVec 8), _, env60high_ok _,
    state0_inv _, ⟨⟨rfl, rfl⟩, trivial⟩, show (3#8 : BitVec 8) ≤ 15#8 by decide, rfl, rfl⟩

/-- **C16** Assignment through `as_mut_ref` and a raw write through `as_mut_ptr`: succeed, keep tag and address, and
every read afterwards sees the new value. The assignment destroys the old value once; the raw write does not. -/
theorem C16_mutation (hi : HeapInv env s) (hw : sh.WF) {b : TBox} {d : env.cfg.Discr} (hb : Holds env s b sh v d)
    {v' : Val} (hv : sh.Has v') :
    (∃ b' s', b.asMutRefAssign env sh v' s = .ret b' s' ∧ b'.discriminant env = d ∧ b'.asPtr env = b.asPtr env ∧
      b'.asRef env sh s' = .ret v' s' ∧ b'.intoInner env sh s' = .ret v' s' ∧ b.asRef env sh s' = .ret v' s' ∧
      s'.blocks = s.blocks ∧ s'.trace = s.trace ++ dropEvents sh v ∧ HeapInv env s') ∧
    (∃ b' s', b.asMutPtrWrite env sh v' s = .ret b' s' ∧ b'.discriminant env = d ∧ b'.asPtr env = b.asPtr env ∧
      b'.asRef env sh s' = .ret v' s' ∧ b'.intoInner env sh s' = .ret v' s' ∧ b.asRef env sh s' = .ret v' s' ∧
      s'.blocks = s.blocks ∧ s'.trace = s.trace ∧ HeapInv env s') := by
  constructor
  · have H := (hb.log hw (dropEvents sh v)).written hw hv
    exact ⟨_, _, asMutRefAssign_ret hb, H.discr, rfl, H.read, H.read, H.read, rfl, rfl, writtenState_inv (hi.log _)⟩
  · have H := hb.written hw hv
    exact ⟨_, _, asMutPtrWrite_ret hb, H.discr, rfl, H.read, H.read, H.read, rfl, rfl, writtenState_inv hi⟩

/-- **C17** (single steps; arbitrary histories are part of `C27`) Whatever is done with box `b` — writing through it,
moving its value out, dropping it, turning it into a `Box` and dropping or consuming that — every other box `b₂` with
its own allocation (or holding a zero-sized value) still holds its value and tag. Creating a box disturbs no box. -/
theorem C17_noninterference (ok : env.OK) (hi : HeapInv env s) (hw : sh.WF) {b b₂ : TBox} {sh₂ : Shape} (hw₂ : sh₂.WF)
    {v₂ : Val} {d d₂ : env.cfg.Discr} (h₂ : Holds env s b₂ sh₂ v₂ d₂) {v' : Val} (hv : sh.Has v') :
    (∀ d' b' s', TBox.new env sh v' d' s = .ret b' s' → Holds env s' b₂ sh₂ v₂ d₂) ∧
    (∀ d' k s', TBox.new env sh v' d' s = .panic k s' → Holds env s' b₂ sh₂ v₂ d₂) ∧
    (Holds env s b sh v d → (b.asPtr env ≠ b₂.asPtr env ∨ sh.size = 0 ∨ sh₂.size = 0) →
      (∀ x s', b.asMutRefAssign env sh v' s = .ret x s' → Holds env s' b₂ sh₂ v₂ d₂) ∧
      (∀ x s', b.asMutPtrWrite env sh v' s = .ret x s' → Holds env s' b₂ sh₂ v₂ d₂) ∧
      (∀ x s', b.intoInner env sh s = .ret x s' → Holds env s' b₂ sh₂ v₂ d₂) ∧
      (∀ x s', b.dropBox s = .ret x s' → Holds env s' b₂ sh₂ v₂ d₂) ∧
      (∀ x s', (b.intoBox env).drop sh s = .ret x s' → Holds env s' b₂ sh₂ v₂ d₂) ∧
      (∀ x s', (b.intoBox env).intoValue sh s = .ret x s' → Holds env s' b₂ sh₂ v₂ d₂)) := by
  have alive : (b.asPtr env ≠ b₂.asPtr env ∨ sh.size = 0 ∨ sh₂.size = 0) → sh.size ≠ 0 → 0 < sh₂.size →
      (⟨b₂.asPtr env, sh₂.size, sh₂.align⟩ : Block) ≠ ⟨b.asPtr env, sh.size, sh.align⟩ := by
    intro hne h1 h2 e
    have := congrArg Block.base e
    simp only at this
    omega
  have wr : Holds env s b sh v d → (b.asPtr env ≠ b₂.asPtr env ∨ sh.size = 0 ∨ sh₂.size = 0) →
      Holds env (writtenState s (b.asPtr env) sh v') b₂ sh₂ v₂ d₂ := by
    intro hb hne
    refine h₂.frame hw₂ h₂.own (fun i h1 h3 => ?_)
    refine putVal_out hw hv ?_
    exact h₂.bytes_disjoint hi hb (by omega) i ⟨h1, h3⟩
  have fr : (b.asPtr env ≠ b₂.asPtr env ∨ sh.size = 0 ∨ sh₂.size = 0) → sh.size ≠ 0 →
      Holds env (freedState s ⟨b.asPtr env, sh.size, sh.align⟩) b₂ sh₂ v₂ d₂ := by
    intro hne hz
    refine h₂.frame hw₂ (fun h0 => ?_) (fun _ _ _ => rfl)
    exact (List.mem_erase_of_ne (alive hne hz h0)).2 (h₂.own h0)
  refine ⟨?_, ?_, fun hb hne => ⟨?_, ?_, ?_, ?_, ?_, ?_⟩⟩
  · intro d' b' s' e
    rcases new_spec ok hi hw hv d' with ⟨_, _, e', _, he, _⟩ | ⟨_, _, e'⟩ | ⟨_, _, _, k, e', _⟩ <;> rw [e'] at e <;>
      cases e
    exact h₂.mono hw₂ he
  · intro d' k s' e
    rcases new_spec ok hi hw hv d' with ⟨_, _, e', _, he, _⟩ | ⟨_, _, e'⟩ | ⟨hz, _, ha, k, e', _⟩ <;> rw [e'] at e <;>
      cases e
    · exact (h₂.log hw₂ _).log hw₂ _
    · exact h₂.mono hw₂ (boxedState_extends ok hw hv (by omega) ha)
  · intro x s' e
    rw [asMutRefAssign_ret hb] at e; cases e
    exact (wr hb hne).log hw₂ (dropEvents sh v)
  · intro x s' e
    rw [asMutPtrWrite_ret hb] at e; cases e
    exact wr hb hne
  · intro x s' e
    have : b.intoInner env sh s = .ret v s := hb.read
    rw [this] at e; cases e; exact h₂
  · intro x s' e; cases e; exact h₂
  · intro x s' e
    rw [boxDrop_ret hb] at e; cases e
    split
    · exact h₂.log hw₂ _
    · rename_i hz
      exact h₂.frame hw₂ (fun h0 => (List.mem_erase_of_ne (alive hne hz h0)).2 (h₂.own h0)) (fun _ _ _ => rfl)
  · intro x s' e
    rw [boxIntoValue_ret hb] at e; cases e
    split
    · exact h₂
    · rename_i hz; exact fr hne hz

/-- **C18** `from_raw(into_raw(b), b.discriminant())` is bit-identical to `b` — for every word whose address part fits a
native pointer, in release builds always, in debug builds whenever the tag is an allowed one — and
`into_raw(from_raw(p, d)) = p`, `discriminant() = d`. The heap is neither read nor changed. -/
theorem C18_raw_roundtrip (ok : env.OK) :
    (∀ (b : TBox) (s : State), (b.asU64 env).toNat < 2 ^ env.ptrBits →
      (env.debug = true → b.discriminant env ≤ env.cfg.MAX_DISCRIMINANT) →
      TBox.fromRaw env (b.intoRaw env) (b.discriminant env) s = .ret b s) ∧
    (∀ (p : Nat) (d : env.cfg.Discr) (s : State), p < 2 ^ env.ptrBits → p < 2 ^ env.cfg.POINTER_WIDTH →
      d ≤ env.cfg.MAX_DISCRIMINANT →
      ∃ b, TBox.fromRaw env p d s = .ret b s ∧ b.intoRaw env = p ∧ b.discriminant env = d) := by
  have hs := ok.sane
  constructor
  · intro b s hlt hd
    have e1 : b.intoRaw env = (b.asU64 env).toNat := by
      simp only [TBox.intoRaw, TPtr.asMutPtr, BitVec.toNat_setWidth]
      exact Nat.mod_eq_of_lt hlt
    have e2 : BitVec.ofNat 64 (b.intoRaw env) = b.asU64 env := by
      rw [e1]; exact BitVec.ofNat_toNat _ _ |>.trans (BitVec.setWidth_eq _)
    have hle : b.asU64 env ≤ env.cfg.MAX_POINTER_VALUE := by
      rw [hs.le_maxPtr_iff]
      show (TPtr.stripDiscriminant env.cfg b.boxed.raw).toNat < _
      rw [hs.strip_toNat]
      exact Nat.mod_lt _ (Nat.two_pow_pos _)
    have e3 : TPtr.storeDiscriminant env.cfg (b.asU64 env) (b.discriminant env) = b.boxed.raw := by
      apply hs.eq_of_strip_fetch
      · rw [hs.strip_store]
        exact Nat.mod_eq_of_lt ((hs.le_maxPtr_iff _).1 hle)
      · rw [hs.fetch_store, Nat.div_eq_of_lt ((hs.le_maxPtr_iff _).1 hle), Nat.zero_or]
        exact Nat.mod_eq_of_lt (hs.fetch_lt _)
    simp only [TBox.fromRaw, e2]
    rcases TPtr.new_cases env.cfg env.debug (b.asU64 env) (b.discriminant env) with
      ⟨e, _⟩ | ⟨hdbg, ⟨e, h⟩ | ⟨e, _, h⟩⟩
    · rw [e, e3]; rfl
    · exact absurd (hd hdbg) h
    · exact absurd hle h
  · intro p d s hp hr hd
    have hlt64 : p < 2 ^ 64 := Nat.lt_of_lt_of_le hp ok.pow_le
    have eofn : (BitVec.ofNat 64 p).toNat = p := by rw [BitVec.toNat_ofNat, Nat.mod_eq_of_lt hlt64]
    obtain ⟨e1, e2⟩ := store_parts ok hp hr (Env.DiscrOK.fits ok hd)
    refine ⟨⟨⟨TPtr.storeDiscriminant env.cfg (BitVec.ofNat 64 p) d⟩⟩, ?_, e1, e2⟩
    simp only [TBox.fromRaw]
    rcases TPtr.new_cases env.cfg env.debug (BitVec.ofNat 64 p) d with ⟨e, _⟩ | ⟨hdbg, ⟨e, h⟩ | ⟨e, _, h⟩⟩
    · rw [e]; rfl
    · exact absurd hd h
    · rw [hs.le_maxPtr_iff, eofn] at h; exact absurd hr h

/-- Non-vacuity of C18: a real box word at the default width in a debug build. -/
example : ((⟨⟨0x3000000000001000#64⟩⟩ : TBox).asU64 (env60 true)).toNat < 2 ^ (env60 true).ptrBits ∧
    (⟨⟨0x3000000000001000#64⟩⟩ : TBox).discriminant (env60 true) ≤ cfg60.MAX_DISCRIMINANT :=
  ⟨show (0x1000#64).toNat < 2 ^ 64 by decide, show (3#8 : BitVec 8) ≤ 15#8 by decide⟩

/-- **C19** Dropping the `Box` made by `into_box` from a box that `new` returned frees exactly the block that `new`
allocated (same address, size and alignment), after destroying the current value once; nothing else changes. A
zero-sized value frees nothing. `s₂` is any later state in which the box still holds some value `v₂`. -/
theorem C19_into_box_frees_own (ok : env.OK) (hi : HeapInv env s) (hw : sh.WF) (hv : sh.Has v) {d : env.cfg.Discr}
    (hd : d ≤ env.cfg.MAX_DISCRIMINANT) (hr : env.debug = true ∨ env.InRange) {b : TBox} {s₁ : State}
    (hn : TBox.new env sh v d s = .ret b s₁) {s₂ : State} (hi₂ : HeapInv env s₂) {v₂ : Val}
    (hb : Holds env s₂ b sh v₂ d) :
    (0 < sh.size → ∃ blk : Block, s₁.trace = s.trace ++ [.alloc blk] ∧ s₁.blocks = blk :: s.blocks ∧
      blk.size = sh.size ∧ blk.align = sh.align ∧
      ∃ s₃, (b.intoBox env).drop sh s₂ = .ret () s₃ ∧ s₃.trace = s₂.trace ++ dropEvents sh v₂ ++ [.dealloc blk] ∧
        s₃.mem = s₂.mem ∧ s₃.blocks = s₂.blocks.erase blk ∧ blk ∈ s₂.blocks ∧ blk ∉ s₃.blocks ∧ HeapInv env s₃) ∧
    (sh.size = 0 → s₁.blocks = s.blocks ∧
      ∃ s₃, (b.intoBox env).drop sh s₂ = .ret () s₃ ∧ s₃.trace = s₂.trace ++ dropEvents sh v₂ ∧
        s₃.mem = s₂.mem ∧ s₃.blocks = s₂.blocks) := by
  have hd' : env.DiscrFits d := Env.DiscrOK.fits ok hd
  rcases new_spec ok hi hw hv d with ⟨b', s1, e, i1, _, hh, hc⟩ | ⟨_, _, e⟩ | ⟨_, _, _, k, e, _⟩ <;> rw [e] at hn <;>
    cases hn
  have H := hh hd' hr
  constructor
  · intro hz
    have o1 := H.own hz
    have o2 := hb.own hz
    rcases hc with ⟨h0, _⟩ | ⟨_, ha, rfl⟩
    · omega
    · -- the block `new` made is the box's own block
      have hx : (⟨env.alloc s sh.size sh.align, sh.size, sh.align⟩ : Block) = ⟨b.asPtr env, sh.size, sh.align⟩ := by
        obtain ⟨l1, l2, l3⟩ := ok.lawful s sh.size sh.align hz ha
        have hlt : env.alloc s sh.size sh.align < 2 ^ env.ptrBits := by omega
        have hlt64 : env.alloc s sh.size sh.align < 2 ^ 64 := Nat.lt_of_lt_of_le hlt ok.pow_le
        have hn := new_alloc ok (v := v) (d := d) (s := s) (sh := sh) (by omega) ha
        rw [e] at hn
        rcases TPtr.new_cases env.cfg env.debug (BitVec.ofNat 64 (env.alloc s sh.size sh.align)) d with
          ⟨e', hr'⟩ | ⟨_, ⟨e', _⟩ | ⟨e', _⟩⟩
        · rw [e'] at hn
          have hrange : env.alloc s sh.size sh.align < 2 ^ env.cfg.ptrWidth := by
            rcases hr with hdbg | hin
            · have := (ok.sane.le_maxPtr_iff _).1 (hr' hdbg).2
              rwa [BitVec.toNat_ofNat, Nat.mod_eq_of_lt hlt64] at this
            · exact hin _ _ _
          have := (store_parts ok hlt hrange hd').1
          cases hn
          rw [this]
        · rw [e'] at hn; cases hn
        · rw [e'] at hn; cases hn
      refine ⟨⟨env.alloc s sh.size sh.align, sh.size, sh.align⟩, rfl, rfl, rfl, rfl, ?_⟩
      refine ⟨_, boxDrop_ret hb, ?_⟩
      have hz' : sh.size ≠ 0 := by omega
      rw [if_neg hz', hx]
      refine ⟨rfl, rfl, rfl, o2, ?_, freedState_inv (hi₂.log _) _⟩
      show _ ∉ s₂.blocks.erase _
      rw [hi₂.nodup.mem_erase_iff]
      exact fun h => h.1 rfl
  · intro hz
    rcases hc with ⟨_, rfl⟩ | ⟨h0, _⟩
    · refine ⟨rfl, _, boxDrop_ret hb, ?_⟩
      rw [if_pos hz]
      exact ⟨rfl, rfl, rfl⟩
    · omega

/-- Non-vacuity of C19: allocate, drop the `Box`, and the heap is empty again. -/
example : ∃ b s₁ s₂, TBox.new (env60 false) ownedL.shape [List.replicate 8 (some 7#8)] (1#8 : BitVec 8) state0 = .ret b s₁ ∧
    (b.intoBox (env60 false)).drop ownedL.shape s₁ = .ret () s₂ ∧ s₁.blocks = [⟨4096, 8, 8⟩] ∧ s₂.blocks = [] ∧
    s₂.trace = [.alloc ⟨4096, 8, 8⟩, .drop 5 (List.replicate 8 (some 7#8)), .dealloc ⟨4096, 8, 8⟩] :=
  ⟨_, _, _, rfl, rfl, rfl, rfl, rfl⟩

/-- **C20**, the `Box`-like promise: dropping a box destroys the value and releases the allocation; moving the value
out with `into_inner` releases the allocation. -/
def C20_Statement : Prop :=
  ∀ (env : Env) (s : State) (sh : Shape) (v : Val) (d : env.cfg.Discr) (b : TBox) (s₁ : State), env.OK → env.InRange →
    HeapInv env s → sh.WF → sh.Has v → d ≤ env.cfg.MAX_DISCRIMINANT → 0 < sh.size →
    TBox.new env sh v d s = .ret b s₁ →
    (∀ s₂, b.dropBox s₁ = .ret () s₂ → s₂.blocks = s.blocks ∧ ∀ e ∈ dropEvents sh v, e ∈ s₂.trace.drop s₁.trace.length) ∧
    (∀ x s₂, b.intoInner env sh s₁ = .ret x s₂ → s₂.blocks = s.blocks)

/-- **C20** is false, and not just for one value: for every type that is not zero-sized, every value and heap, neither
dropping nor `into_inner` deallocates anything or runs any destructor. -/
theorem C20_release_refuted : ¬ C20_Statement ∧
    ∀ (env : Env) (s : State) (sh : Shape) (v : Val) (d : env.cfg.Discr) (b : TBox) (s₁ : State), env.OK →
      HeapInv env s → sh.WF → sh.Has v → 0 < sh.size → TBox.new env sh v d s = .ret b s₁ →
      s₁.blocks.length = s.blocks.length + 1 ∧ b.dropBox s₁ = .ret () s₁ ∧
      ∀ x s₂, b.intoInner env sh s₁ = .ret x s₂ → s₂ = s₁ := by
  constructor
  · intro h
    have := h (env60 false) state0 u8L.shape [[some 9#8]] (1#8 : BitVec 8) _ _ (env60_ok _) (env60_inRange _)
      (state0_inv _) u8L_wf.shape ⟨⟨rfl, rfl⟩, trivial⟩ (show (1#8 : BitVec 8) ≤ 15#8 by decide) (by decide) rfl
    have h2 := (this.1 _ rfl).1
    cases h2
  · intro env s sh v d b s₁ ok hi hw hv hz hn
    rcases new_spec ok hi hw hv d with ⟨b', s1, e, i1, _, hh, hc⟩ | ⟨_, _, e⟩ | ⟨_, _, _, k, e, _⟩ <;> rw [e] at hn <;>
      cases hn
    rcases hc with ⟨h0, _⟩ | ⟨_, ha, rfl⟩
    · omega
    · exact ⟨rfl, rfl, fun x s₂ h => (ptrRead_ret_iff.1 h).1⟩

/-- **C20** (part) What does hold: the promise is kept by the route `into_box` then dropping (or consuming) the
`Box`: the heap is back to what it was before `new`. Missing: the two routes of `C20_Statement`. -/
theorem C20_release_via_box_partial (ok : env.OK) (hi : HeapInv env s) (hw : sh.WF) (hv : sh.Has v)
    {d : env.cfg.Discr} (hd : d ≤ env.cfg.MAX_DISCRIMINANT) (hr : env.debug = true ∨ env.InRange) {b : TBox}
    {s₁ : State} (hn : TBox.new env sh v d s = .ret b s₁) :
    (∃ s₂, (b.intoBox env).drop sh s₁ = .ret () s₂ ∧ s₂.blocks = s.blocks ∧
      dropEvents sh v <:+: s₂.trace.drop s₁.trace.length) ∧
    (∃ s₂, (b.intoBox env).intoValue sh s₁ = .ret v s₂ ∧ s₂.blocks = s.blocks) := by
  have hd' : env.DiscrFits d := Env.DiscrOK.fits ok hd
  obtain ⟨-, -, -, -, -, -, i1⟩ := C15_box_roundtrip ok hi hw hv hd hr hn
  have H : Holds env s₁ b sh v d := by
    rcases new_spec ok hi hw hv d with ⟨b', s1, e, i1, _, hh, hc⟩ | ⟨_, _, e⟩ | ⟨_, _, _, k, e, _⟩ <;> rw [e] at hn <;>
      cases hn
    exact hh hd' hr
  obtain ⟨c1, c2⟩ := C19_into_box_frees_own ok hi hw hv hd hr hn i1 H
  by_cases hz : sh.size = 0
  · obtain ⟨h1, s3, h2, h3, _, h4⟩ := c2 hz
    refine ⟨⟨s3, h2, by rw [h4, h1], ?_⟩, ⟨_, boxIntoValue_ret H, ?_⟩⟩
    · rw [h3, List.drop_left]; exact List.infix_refl _
    · rw [if_pos hz, h1]
  · obtain ⟨blk, h1, h2, _, _, s3, h3, h4, _, h5, _, _, _⟩ := c1 (by omega)
    have e3 := h3
    rw [boxDrop_ret H, if_neg hz] at e3
    refine ⟨⟨s3, h3, by rw [h5, h2, List.erase_cons_head], ?_⟩, ⟨_, boxIntoValue_ret H, ?_⟩⟩
    · rw [h4, List.append_assoc, List.drop_left]
      exact ⟨[], _, rfl⟩
    · rw [if_neg hz]
      have : s₁.blocks.erase ⟨b.asPtr env, sh.size, sh.align⟩ = s₁.blocks.erase blk := by
        cases e3; exact h5
      show s₁.blocks.erase _ = _
      rw [this, h2, List.erase_cons_head]

/-- **C22** For zero-sized types `new` never calls the allocator, never panics (whatever the discriminant, in every
mode), changes no memory, and yields a non-null address aligned for the type. -/
theorem C22_zst_never_allocates (ok : env.OK) (hw : sh.WF) (hz : sh.size = 0) (d : env.cfg.Discr) :
    ∃ b s', TBox.new env sh v d s = .ret b s' ∧ s'.blocks = s.blocks ∧ s'.mem = s.mem ∧
      (∀ e ∈ s'.trace.drop s.trace.length, ∃ id x, e = .drop id x) ∧
      b.asPtr env ≠ 0 ∧ sh.align ∣ b.asPtr env := by
  refine ⟨_, _, new_zst hz, rfl, rfl, ?_, ?_⟩
  · intro e he
    simp only [State.log, List.drop_left, dropEvents, List.mem_filterMap] at he
    obtain ⟨p, _, hp⟩ := he
    split at hp
    · cases hp; exact ⟨_, _, rfl⟩
    · cases hp
  · obtain ⟨p1, p2, p3⟩ := align_lt ok hw.align_pow
    have hs := ok.sane
    have ha64 : sh.align < 2 ^ 64 := Nat.lt_of_lt_of_le p2 ok.pow_le
    have e : (TBox.dangling env sh.align d).asPtr env = sh.align := by
      simp only [TBox.asPtr, TPtr.asPtr, TBox.dangling, TPtr.dangling, BitVec.toNat_setWidth, hs.strip_store,
        BitVec.toNat_ofNat]
      rw [Nat.mod_eq_of_lt ha64, Nat.mod_eq_of_lt p3, Nat.mod_eq_of_lt p2]
    rw [e]
    exact ⟨by omega, Nat.dvd_refl _⟩

/-- Non-vacuity of C22: a zero-sized type with a destructor. -/
example : guardL.shape.WF ∧ guardL.shape.size = 0 ∧ guardL.shape.Has [[]] :=
  ⟨guardL_wf.shape, rfl, ⟨rfl, rfl⟩, trivial⟩

/-- **C23**: moving a value into a box does not run its destructor (so that whoever takes the value out again owns a
value that has not been destroyed). -/
def C23_Statement (sh : Shape) : Prop :=
  ∀ (env : Env) (s : State) (v : Val) (d : env.cfg.Discr) (b : TBox) (s₁ : State), env.OK → env.InRange →
    HeapInv env s → sh.Has v → d ≤ env.cfg.MAX_DISCRIMINANT → TBox.new env sh v d s = .ret b s₁ →
    (∀ id x, Event.drop id x ∉ s₁.trace.drop s.trace.length) ∧
    (∃ s₂, b.intoInner env sh s₁ = .ret v s₂ ∧ ∀ id x, Event.drop id x ∉ s₂.trace.drop s.trace.length)

/-- **C23** (part) True for every type that is not zero-sized. Missing: zero-sized types with a destructor, for which it
is false (`C23_zst_double_drop_refuted`). -/
theorem C23_destroyed_once_partial (hw : sh.WF) (hz : 0 < sh.size) : C23_Statement sh := by
  intro env s v d b s₁ ok hr hi hv hd hn
  have C := C15_box_roundtrip ok hi hw hv hd (Or.inr hr) hn
  have key : ∀ id x, Event.drop id x ∉ s₁.trace.drop s.trace.length := by
    rcases new_spec ok hi hw hv d with ⟨b', s1, e, i1, _, hh, hc⟩ | ⟨_, _, e⟩ | ⟨_, _, _, k, e, _⟩ <;> rw [e] at hn <;>
      cases hn
    rcases hc with ⟨h0, _⟩ | ⟨_, ha, rfl⟩
    · omega
    · intro id x
      simp [boxedState]
  exact ⟨key, _, C.2.2.2.1, key⟩

/-- **C23** is false for every zero-sized type with a destructor: `new` already destroys the value, and `into_inner`
still hands it out (its new owner will destroy it again). -/
theorem C23_zst_double_drop_refuted : ¬ C23_Statement guardL.shape ∧
    ∀ (l : Leaf) (env : Env) (s : State) (x : List MByte) (d : env.cfg.Discr), l.WF → l.size = 0 → l.needsDrop = true →
      l.Has x → env.OK → d ≤ env.cfg.MAX_DISCRIMINANT →
      ∃ b s₁, TBox.new env l.shape [x] d s = .ret b s₁ ∧ s₁.trace = s.trace ++ [.drop l.id x] ∧
        b.intoInner env l.shape s₁ = .ret [x] s₁ := by
  constructor
  · intro h
    have := (h (env60 false) state0 [[]] (1#8 : BitVec 8) _ _ (env60_ok _) (env60_inRange _) (state0_inv _)
      ⟨⟨rfl, rfl⟩, trivial⟩ (show (1#8 : BitVec 8) ≤ 15#8 by decide) rfl).1 6 []
    exact this (by decide)
  · intro l env s x d hl hz hnd hx ok hd
    have hw := hl.shape
    refine ⟨_, _, new_zst (sh := l.shape) hz, ?_, ?_⟩
    · simp [State.log, dropEvents, Leaf.shape, hnd]
    · obtain ⟨p1, p2, p3⟩ := align_lt ok hw.align_pow
      have e1 := (store_parts ok p2 p3 (Env.DiscrOK.fits ok hd)).1
      show ptrRead l.shape ((TBox.dangling env l.shape.align d).asPtr env) _ = _
      have e1' : (TBox.dangling env l.shape.align d).asPtr env = l.shape.align := e1
      rw [e1']
      exact ptrRead_zst hw (v := [x]) ⟨hx, trivial⟩ hz (by omega) (Nat.dvd_refl _) _

/-- **C24** If the allocator returns null, `new` panics in every mode, whatever the discriminant; no block is created or
changed, and the argument is destroyed exactly once. Conversely this panic happens only then. -/
theorem C24_alloc_failure (ok : env.OK) (hi : HeapInv env s) (hw : sh.WF) (hv : sh.Has v) (d : env.cfg.Discr)
    (hz : 0 < sh.size) :
    (env.alloc s sh.size sh.align = 0 →
      ∃ s', TBox.new env sh v d s = .panic .nullAlloc s' ∧ s'.blocks = s.blocks ∧ s'.mem = s.mem ∧
        s'.trace = s.trace ++ [.allocNull sh.size sh.align] ++ dropEvents sh v) ∧
    (∀ s', TBox.new env sh v d s = .panic .nullAlloc s' → env.alloc s sh.size sh.align = 0) := by
  constructor
  · intro ha
    exact ⟨_, new_null (by omega) ha, rfl, rfl, rfl⟩
  · intro s' e
    have := C15_new_outcomes ok hi hw hv d
    rw [e] at this
    rcases this.2 with h | ⟨h, _⟩ | ⟨h, _⟩
    · exact h.2
    · cases h
    · cases h

/-- Non-vacuity of C24: an allocator that always fails, in a release build, with an out-of-range discriminant. -/
example : ∃ s', TBox.new (env60null false) ownedL.shape [List.replicate 8 (some 7#8)] (200#8 : BitVec 8) state0
      = .panic .nullAlloc s' ∧ s'.trace = [.allocNull 8 8, .drop 5 (List.replicate 8 (some 7#8))] :=
  ⟨_, rfl, rfl⟩

/-- **C25** `new_unchecked` behaves exactly like `new`, including the debug range checks it is documented to skip. -/
theorem C25_new_unchecked (sh : Shape) (v : Val) (d : env.cfg.Discr) (s : State) :
    TBox.newUnchecked env sh v d s = TBox.new env sh v d s ∧
    (env.OK → HeapInv env s → sh.WF → sh.Has v → 0 < sh.size → env.debug = true → env.alloc s sh.size sh.align ≠ 0 →
      env.cfg.MAX_DISCRIMINANT < d → ∃ s', TBox.newUnchecked env sh v d s = .panic .discriminant s') := by
  refine ⟨rfl, fun ok hi hw hv hz hdbg ha hd => ?_⟩
  have hn := new_alloc ok (v := v) (d := d) (s := s) (sh := sh) (by omega) ha
  have e : TPtr.new env.cfg env.debug (BitVec.ofNat 64 (env.alloc s sh.size sh.align)) d = .error .discriminant := by
    have : ¬ d ≤ env.cfg.MAX_DISCRIMINANT := BitVec.not_le.2 hd
    simp [TPtr.new, hdbg, this]
  rw [e] at hn
  exact ⟨_, hn⟩

/-- **C26** A copy has the same word, hence tag and address; a value written through either is read through the
other. -/
theorem C26_copies_alias (hw : sh.WF) {b : TBox} {d : env.cfg.Discr} (hb : Holds env s b sh v d) {v' : Val}
    (hv : sh.Has v') :
    b.copy.boxed.raw = b.boxed.raw ∧ b.copy.discriminant env = d ∧ b.copy.asPtr env = b.asPtr env ∧
    (∃ x s', b.copy.asMutRefAssign env sh v' s = .ret x s' ∧ b.asRef env sh s' = .ret v' s') ∧
    (∃ x s', b.asMutRefAssign env sh v' s = .ret x s' ∧ b.copy.asRef env sh s' = .ret v' s') := by
  have H := (hb.log hw (dropEvents sh v)).written hw hv
  exact ⟨rfl, hb.discr, rfl, ⟨_, _, asMutRefAssign_ret hb, H.read⟩, ⟨_, _, asMutRefAssign_ret hb, H.read⟩⟩

/-- **C53** A range check that fails inside `new` (debug builds only) strands the freshly made allocation: the panic
leaves the block alive, holding the value, which is never destroyed. -/
theorem C53_range_panic_leaks (ok : env.OK) (hi : HeapInv env s) (hw : sh.WF) (hv : sh.Has v) (d : env.cfg.Discr)
    {k : PanicKind} {s' : State} (hn : TBox.new env sh v d s = .panic k s') (hk : k ≠ .nullAlloc) :
    env.debug = true ∧ ∃ blk : Block, s'.blocks = blk :: s.blocks ∧ blk.size = sh.size ∧ blk.align = sh.align ∧
      ptrRead sh blk.base s' = .ret v s' ∧ s'.trace = s.trace ++ [.alloc blk] ∧
      (env.cfg.MAX_DISCRIMINANT < d ∨ 2 ^ env.cfg.POINTER_WIDTH ≤ blk.base) := by
  rcases new_spec ok hi hw hv d with ⟨b', s1, e, i1, _, hh, hc⟩ | ⟨_, _, e⟩ | ⟨hz, hdbg, ha, k', e, hkk⟩ <;>
    rw [e] at hn <;> cases hn
  · exact absurd rfl hk
  · refine ⟨hdbg, ⟨env.alloc s sh.size sh.align, sh.size, sh.align⟩, rfl, rfl, rfl,
      boxedState_read ok hw hv (by omega) ha, rfl, ?_⟩
    rcases hkk with ⟨_, h⟩ | ⟨_, _, h⟩
    · exact Or.inl (BitVec.not_le.1 h)
    · exact Or.inr (Nat.not_lt.1 h)

/-- Non-vacuity of C53: discriminant 16 at the default width in a debug build. -/
example : ∃ s', TBox.new (env60 true) ownedL.shape [List.replicate 8 (some 7#8)] (16#8 : BitVec 8) state0
      = .panic .discriminant s' ∧ s'.blocks = [⟨4096, 8, 8⟩] ∧ s'.trace = [.alloc ⟨4096, 8, 8⟩] :=
  ⟨_, rfl, rfl, rfl⟩

/-- Non-vacuity of C16, C17, C26 (`Holds`): two boxes of different types alive at once. -/
example : ∃ b₁ b₂ s₁ s₂,
    TBox.new (env60 true) u32L.shape [[some 1#8, some 2#8, some 3#8, some 4#8]] (3#8 : BitVec 8) state0 = .ret b₁ s₁ ∧
    TBox.new (env60 true) boolL.shape [[some 1#8]] (4#8 : BitVec 8) s₁ = .ret b₂ s₂ ∧
    b₁.asPtr (env60 true) = 4096 ∧ b₂.asPtr (env60 true) = 4100 ∧
    b₁.asRef (env60 true) u32L.shape s₂ = .ret [[some 1#8, some 2#8, some 3#8, some 4#8]] s₂ ∧
    b₂.asRef (env60 true) boolL.shape s₂ = .ret [[some 1#8]] s₂ :=
  ⟨_, _, _, _, rfl, rfl, rfl, rfl, rfl, rfl⟩

end TB.Props

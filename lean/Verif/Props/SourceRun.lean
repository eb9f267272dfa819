import Verif.Lemmas.RsTop
import Verif.Props.Pointer
import Verif.Props.Box
import Verif.Props.Traits

/-!
# The crate's own code, run from its text (C79 - C81)

`sourceCrate env user` is the crate as the text of its source files says (`Spec/SourceRun.lean`); `cr.call ty f targs self args exp s` runs the function `f`
of the type `ty`, with generic arguments `targs`, in the state `s`. `.ret v [] s'`: it returns `v` in the state `s'`.
-/

set_option autoImplicit false

namespace TB.Props

open TB TB.Rust TB.Spec

variable {E : Type}

/-! ## C79: `src/tagged_pointer.rs` -/

/-- **C79.** For every setting, build mode, target and state: the code of `TaggedPointer::new`, run from its text on an address that fits the reserved width and
a discriminant that is allowed, returns a pointer `t` (and changes nothing); the code of `discriminant`, `as_u64`, `as_raw_u64`, `as_ptr`, `as_mut_ptr` run on
`t` gives back the discriminant, the address, both in one word, and the address cut to the target's pointers. -/
theorem C79 (env : Env) (hc : env.cfg ∈ table) (user : User E) (s : State) (a d : Nat) (ha : a < 2 ^ env.cfg.ptrWidth)
    (hd : d ≤ env.cfg.MAX_DISCRIMINANT.toNat) (exp : RT) :
    ∃ cr t, sourceCrate env user = some cr ∧
      cr.call "TaggedPointer" "new" [] none [u64 a, discr env.cfg d] exp s = .ret t [] s ∧
      cr.call "TaggedPointer" "discriminant" [] (some t) [] exp s = .ret (discr env.cfg d) [] s ∧
      cr.call "TaggedPointer" "as_u64" [] (some t) [] exp s = .ret (u64 a) [] s ∧
      cr.call "TaggedPointer" "as_raw_u64" [] (some t) [] exp s = .ret (u64 (a + d * 2 ^ env.cfg.ptrWidth)) [] s ∧
      (∀ ty, cr.call "TaggedPointer" "as_ptr" [ty] (some t) [] exp s = .ret (.ptr ty (a % 2 ^ env.ptrBits)) [] s) ∧
      (∀ ty, cr.call "TaggedPointer" "as_mut_ptr" [ty] (some t) [] exp s = .ret (.ptr ty (a % 2 ^ env.ptrBits)) [] s) := by
  haveI : InTable env := ⟨hc⟩
  have hs := sane_of_mem hc
  have ha64 : a < 2 ^ 64 := Nat.lt_of_lt_of_le ha (Nat.pow_le_pow_right (by decide) (by have := hs.sum; omega))
  have hd' : d < 2 ^ env.cfg.discrBits := Nat.lt_of_le_of_lt hd (BitVec.isLt _)
  have h1 : (BitVec.ofNat 64 a).toNat = a := by rw [BitVec.toNat_ofNat, Nat.mod_eq_of_lt ha64]
  have h2 : (BitVec.ofNat env.cfg.discrBits d).toNat = d := by rw [BitVec.toNat_ofNat, Nat.mod_eq_of_lt hd']
  obtain ⟨t, e1, e2, e3, e4⟩ := C01_roundtrip env.cfg hc env.debug (BitVec.ofNat 64 a) (BitVec.ofNat env.cfg.discrBits d)
    ((hs.le_maxPtr_iff _).2 (by rw [h1]; exact ha)) (by rw [BitVec.le_def]; exact Nat.le_trans (Nat.le_of_eq h2) hd)
  rw [h1, h2] at e4
  have hA : (u64 a : V E) = .int .u64 (BitVec.ofNat 64 a) := rfl
  have hD : (discr env.cfg d : V E) = dV (BitVec.ofNat env.cfg.discrBits d : env.cfg.Discr) := by
    have := discr_toNat' (E := E) env (BitVec.ofNat env.cfg.discrBits d)
    rwa [h2] at this
  refine ⟨_, ptrV t, sourceCrate_eq env user, ?_, ?_, ?_, ?_, fun ty => ?_, fun ty => ?_⟩
  · rw [hA, hD]
    exact (Rust.new' env user 160 _ _ exp [] s).trans (by rw [e1])
  · rw [hD, ← e2]
    exact Rust.discriminant env user 160 t exp [] s
  · rw [hA, ← e3]
    exact Rust.asU64 env user 160 t exp [] s
  · refine (Rust.asRawU64 env user 160 t exp [] s).trans ?_
    rw [← u64_toNat, show t.raw.toNat = _ from e4]
    rfl
  · refine (Rust.asPtr env user 160 t ty exp [] s).trans ?_
    rw [asPtr_eq e3, h1]
  · refine (Rust.asMutPtr env user 160 t ty exp [] s).trans ?_
    rw [Rust.asMutPtr_eq e3, h1]

/-- **C79**, all inputs. What `TaggedPointer::new` does on every word and every value of the type `Discriminant`: with debug assertions it panics with the
message in the text, naming the discriminant and the largest one, if the discriminant is too large; else with the message that names the width and the next width
if the address does not fit; otherwise, and always without debug assertions, it returns. Nothing else changes. -/
theorem C79_new (env : Env) (hc : env.cfg ∈ table) (user : User E) (s : State) (a d : Nat) (ha : a < 2 ^ 64) (hd : d < 2 ^ env.cfg.discrBits) (exp : RT) :
    ∃ cr, sourceCrate env user = some cr ∧
      ((env.debug = true ∧ env.cfg.MAX_DISCRIMINANT.toNat < d ∧
          cr.call "TaggedPointer" "new" [] none [u64 a, discr env.cfg d] exp s = .panic (tooLarge env.cfg d) [] s) ∨
       (env.debug = true ∧ d ≤ env.cfg.MAX_DISCRIMINANT.toNat ∧ 2 ^ env.cfg.ptrWidth ≤ a ∧
          cr.call "TaggedPointer" "new" [] none [u64 a, discr env.cfg d] exp s = .panic (tooWide env.cfg) [] s) ∨
       ((env.debug = false ∨ d ≤ env.cfg.MAX_DISCRIMINANT.toNat ∧ a < 2 ^ env.cfg.ptrWidth) ∧
          ∃ t, cr.call "TaggedPointer" "new" [] none [u64 a, discr env.cfg d] exp s = .ret t [] s ∧
            cr.call "TaggedPointer" "as_raw_u64" [] (some t) [] exp s =
              .ret (u64 (a ||| d * 2 ^ env.cfg.ptrWidth % 2 ^ 64)) [] s)) := by
  haveI : InTable env := ⟨hc⟩
  have hs := sane_of_mem hc
  have h1 : (BitVec.ofNat 64 a).toNat = a := by rw [BitVec.toNat_ofNat, Nat.mod_eq_of_lt ha]
  have h2 : (BitVec.ofNat env.cfg.discrBits d).toNat = d := by rw [BitVec.toNat_ofNat, Nat.mod_eq_of_lt hd]
  have hA : (u64 a : V E) = .int .u64 (BitVec.ofNat 64 a) := rfl
  have hD : (discr env.cfg d : V E) = dV (BitVec.ofNat env.cfg.discrBits d : env.cfg.Discr) := by
    have := discr_toNat' (E := E) env (BitVec.ofNat env.cfg.discrBits d)
    rwa [h2] at this
  have hT : (tooLarge env.cfg d : Msg E) = panicMsg (BitVec.ofNat env.cfg.discrBits d : env.cfg.Discr) .discriminant := by
    have := tooLarge_eq (E := E) env (BitVec.ofNat env.cfg.discrBits d)
    rwa [h2] at this
  have hW : (tooWide env.cfg : Msg E) = panicMsg (BitVec.ofNat env.cfg.discrBits d : env.cfg.Discr) .pointer := rfl
  have hN : (src env user).call "TaggedPointer" "new" [] none [u64 a, discr env.cfg d] exp s =
      match TPtr.new env.cfg env.debug (BitVec.ofNat 64 a) (BitVec.ofNat env.cfg.discrBits d) with
      | .ok t => .ret (ptrV t) [] s
      | .error k => .panic (panicMsg (BitVec.ofNat env.cfg.discrBits d : env.cfg.Discr) k) [] s := by
    rw [hA, hD]
    exact Rust.new' env user 160 _ _ exp [] s
  have i1 : (BitVec.ofNat env.cfg.discrBits d : env.cfg.Discr) ≤ env.cfg.MAX_DISCRIMINANT ↔ d ≤ env.cfg.MAX_DISCRIMINANT.toNat := by
    rw [BitVec.le_def]
    show (BitVec.ofNat env.cfg.discrBits d).toNat ≤ _ ↔ _
    rw [h2]
  have i2 : BitVec.ofNat 64 a ≤ env.cfg.MAX_POINTER_VALUE ↔ a < 2 ^ env.cfg.ptrWidth := by
    rw [hs.le_maxPtr_iff, h1]
  refine ⟨_, sourceCrate_eq env user, ?_⟩
  rw [hN, hT, hW]
  unfold TPtr.new
  have raw : ∀ t, t = (ptrV ⟨TPtr.storeDiscriminant env.cfg (BitVec.ofNat 64 a) (BitVec.ofNat env.cfg.discrBits d)⟩ : V E) →
      (src env user).call "TaggedPointer" "as_raw_u64" [] (some t) [] exp s = .ret (u64 (a ||| d * 2 ^ env.cfg.ptrWidth % 2 ^ 64)) [] s := by
    rintro t rfl
    refine (Rust.asRawU64 env user 160 _ exp [] s).trans ?_
    rw [← u64_toNat]
    congr 2
    simp only [TPtr.storeDiscriminant, BitVec.toNat_or, BitVec.toNat_shiftLeft, h1, Nat.shiftLeft_eq]
    rw [discr_toNat env]
    show a ||| (BitVec.ofNat env.cfg.discrBits d).toNat * _ % _ = _
    rw [h2]
    rfl
  by_cases hdb : env.debug = true
  · by_cases hm : d ≤ env.cfg.MAX_DISCRIMINANT.toNat
    · by_cases hw : a < 2 ^ env.cfg.ptrWidth
      · exact .inr (.inr ⟨.inr ⟨hm, hw⟩, _, by simp [hdb, i1.2 hm, i2.2 hw], raw _ rfl⟩)
      · exact .inr (.inl ⟨hdb, hm, Nat.not_lt.1 hw, by simp [hdb, i1.2 hm, mt i2.1 hw]⟩)
    · exact .inl ⟨hdb, Nat.not_le.1 hm, by simp [hdb, mt i1.1 hm]⟩
  · exact .inr (.inr ⟨.inl (by simpa using hdb), _, by simp [hdb], raw _ rfl⟩)

/-- **C79**, the model. Run from its text, each function of `TaggedPointer` does exactly what the model's function does, for every input and state. -/
theorem C79_model (env : Env) (hc : env.cfg ∈ table) (user : User E) (s : State) (exp : RT) :
    ∃ cr, sourceCrate env user = some cr ∧
      (∀ (p : BitVec 64) (d : env.cfg.Discr), cr.call "TaggedPointer" "new" [] none [.int .u64 p, dV d] exp s =
        match TPtr.new env.cfg env.debug p d with
        | .ok t => .ret (ptrV t) [] s
        | .error k => .panic (panicMsg d k) [] s) ∧
      (∀ (sh : Shape) (d : env.cfg.Discr), cr.call "TaggedPointer" "dangling" [.opaque sh] none [dV d] exp s =
        .ret (ptrV (TPtr.dangling env.cfg sh.align d)) [] s) ∧
      (∀ t : TPtr, cr.call "TaggedPointer" "discriminant" [] (some (ptrV t)) [] exp s = .ret (dV (t.discriminant env.cfg)) [] s) ∧
      (∀ t : TPtr, cr.call "TaggedPointer" "as_u64" [] (some (ptrV t)) [] exp s = .ret (.int .u64 (t.asU64 env.cfg)) [] s) ∧
      (∀ t : TPtr, cr.call "TaggedPointer" "as_raw_u64" [] (some (ptrV t)) [] exp s = .ret (.int .u64 t.asRawU64) [] s) ∧
      (∀ (t : TPtr) (ty : RT), cr.call "TaggedPointer" "as_ptr" [ty] (some (ptrV t)) [] exp s =
        .ret (.ptr ty (t.asPtr env.cfg env.ptrBits)) [] s) ∧
      (∀ (t : TPtr) (ty : RT), cr.call "TaggedPointer" "as_mut_ptr" [ty] (some (ptrV t)) [] exp s =
        .ret (.ptr ty (t.asMutPtr env.cfg env.ptrBits)) [] s) ∧
      (∀ (t : TPtr) (sh : Shape), cr.call "TaggedPointer" "as_ref" [.opaque sh] (some (ptrV t)) [] exp s =
        XOut.of (fun _ => .ref (.opaque sh) (t.asPtr env.cfg env.ptrBits)) .kind [] (ptrRead sh (t.asPtr env.cfg env.ptrBits) s)) ∧
      (∀ (t : TPtr) (sh : Shape), cr.call "TaggedPointer" "as_mut_ref" [.opaque sh] (some (ptrV t)) [] exp s =
        XOut.of (fun _ => .ref (.opaque sh) (t.asMutPtr env.cfg env.ptrBits)) .kind [] (ptrRead sh (t.asMutPtr env.cfg env.ptrBits) s)) ∧
      (∀ (p : BitVec 64) (d : env.cfg.Discr), cr.call "TaggedPointer" "store_discriminant" [] none [.int .u64 p, dV d] exp s =
        .ret (.int .u64 (TPtr.storeDiscriminant env.cfg p d)) [] s) ∧
      (∀ p : BitVec 64, cr.call "TaggedPointer" "fetch_discriminant" [] none [.int .u64 p] exp s =
        .ret (dV (TPtr.fetchDiscriminant env.cfg p)) [] s) ∧
      (∀ p : BitVec 64, cr.call "TaggedPointer" "strip_discriminant" [] none [.int .u64 p] exp s =
        .ret (.int .u64 (TPtr.stripDiscriminant env.cfg p)) [] s) := by
  haveI : InTable env := ⟨hc⟩
  refine ⟨_, sourceCrate_eq env user, fun p d => Rust.new' env user 160 p d exp [] s, fun sh d => Rust.dangling env user 160 sh d exp [] s,
    fun t => Rust.discriminant env user 160 t exp [] s, fun t => Rust.asU64 env user 160 t exp [] s, fun t => Rust.asRawU64 env user 160 t exp [] s,
    fun t ty => Rust.asPtr env user 160 t ty exp [] s, fun t ty => Rust.asMutPtr env user 160 t ty exp [] s, fun t sh => ?_, fun t sh => ?_,
    fun p d => Rust.store env user 180 p d exp [] s, fun p => Rust.fetch env user 180 p exp [] s, fun p => Rust.strip env user 180 p exp [] s⟩
  · refine (Rust.asRef env user 160 t sh exp [] s).trans ?_
    cases ptrRead sh (t.asPtr env.cfg env.ptrBits) s <;> rfl
  · refine (Rust.asMutRef env user 160 t sh exp [] s).trans ?_
    cases ptrRead sh (t.asMutPtr env.cfg env.ptrBits) s <;> rfl

/-- `TaggedPointer::new` on the addresses 4096 and 2^60, at 60 bits, in a debug build. -/
example (user : User Unit) (exp : RT) :
    (∃ cr t, sourceCrate (env60 true) user = some cr ∧ cr.call "TaggedPointer" "new" [] none [u64 4096, discr cfg60 7] exp state0 = .ret t [] state0 ∧
      cr.call "TaggedPointer" "as_raw_u64" [] (some t) [] exp state0 = .ret (u64 0x7000000000001000) [] state0) ∧
    (∃ cr, sourceCrate (env60 true) user = some cr ∧
      cr.call "TaggedPointer" "new" [] none [u64 (2 ^ 60), discr cfg60 7] exp state0 = .panic (tooWide cfg60) [] state0) := by
  constructor
  · obtain ⟨cr, t, h, h1, _, _, h2, _⟩ := C79 (env60 true) cfg60_mem user state0 4096 7 (by decide) (by decide) exp
    exact ⟨cr, t, h, h1, h2⟩
  · obtain ⟨cr, h, h1⟩ := C79_new (env60 true) cfg60_mem user state0 (2 ^ 60) 7 (by decide) (by decide) exp
    refine ⟨cr, h, ?_⟩
    rcases h1 with ⟨_, h2, _⟩ | ⟨_, _, _, h2⟩ | ⟨h2, _⟩
    · exact absurd h2 (by decide)
    · exact h2
    · rcases h2 with h2 | h2
      · cases h2
      · exact absurd h2.2 (by decide)

/-! ## C80: `src/tagged_box.rs` -/

theorem givesBack (env : Env) (hc : env.cfg ∈ table) (user : User E) {s : State} {b : TBox} {sh : Shape} {v : Val} {d : env.cfg.Discr}
    (h1 : b.discriminant env = d) (h2 : ptrRead sh (b.asPtr env) s = .ret v s) :
    GivesBack (src env user) s (boxV b) sh v d.toNat (b.asPtr env) := by
  haveI : InTable env := ⟨hc⟩
  have hm : b.asMutPtr env = b.asPtr env := rfl
  refine ⟨h2, fun exp => ?_, fun exp => Rust.b_asPtr env user 140 b sh exp [] s, fun exp => Rust.b_asMutPtr env user 140 b sh exp [] s, fun exp => ?_, fun exp => ?_,
    fun exp => ?_, fun exp => Rust.b_intoRaw env user 140 b sh exp [] s, fun exp => Rust.b_intoBox env user 120 b sh exp [] s⟩
  · refine (Rust.b_discriminant env user 140 b exp [] s).trans ?_
    rw [h1, ← discr_toNat' env]
    rfl
  · refine (Rust.b_asRef env user 140 b sh exp [] s).trans ?_
    rw [show b.asRef env sh s = _ from h2]
    rfl
  · refine (Rust.b_asMutRef env user 140 b sh exp [] s).trans ?_
    rw [hm, h2]
    rfl
  · refine (Rust.b_intoInner env user 120 b sh exp [] s).trans ?_
    rw [show b.intoInner env sh s = _ from h2]
    rfl

/-- **C80.** The code of `TaggedBox::new`, run from its text, on every value of every type, every discriminant, in every state: it never has undefined behaviour
and never gets stuck. It panics only if the allocator fails, or, in a debug build, if the discriminant is too large or else the address too wide, with the
message in the text. If it returns, and the discriminant is allowed and the address fits (which a debug build checks), all accessors give back the value and
the discriminant; so do they for the box that `from_raw` makes out of the result of `into_raw`. -/
theorem C80 (env : Env) (ok : env.OK) (user : User E) (s : State) (hi : HeapInv env s) (sh : Shape) (hw : sh.WF) (hz : sh.size < 2 ^ 64) (v : Val) (hv : sh.Has v)
    (d : Nat) (hd : d < 2 ^ env.cfg.discrBits) (exp : RT) :
    ∃ cr, sourceCrate env user = some cr ∧
      match cr.call "TaggedBox" "new" [.opaque sh] none [.obj sh v, discr env.cfg d] exp s with
      | .ret b l s' => l = [] ∧ HeapInv env s' ∧ (0 < sh.size → env.alloc s sh.size sh.align ≠ 0) ∧
          (d ≤ env.cfg.MAX_DISCRIMINANT.toNat → env.debug = true ∨ env.InRange →
            ∃ a, GivesBack cr s' b sh v d a ∧
              ∃ b₂, (∀ exp, cr.call "TaggedBox" "from_raw" [.opaque sh] none [.ptr (.opaque sh) a, discr env.cfg d] exp s' = .ret b₂ [] s') ∧
                GivesBack cr s' b₂ sh v d a)
      | .panic m l s' => l = [] ∧ HeapInv env s' ∧ 0 < sh.size ∧
          (m = assertFailed ∧ env.alloc s sh.size sh.align = 0 ∨
           m = tooLarge env.cfg d ∧ env.debug = true ∧ env.alloc s sh.size sh.align ≠ 0 ∧ env.cfg.MAX_DISCRIMINANT.toNat < d ∨
           m = tooWide env.cfg ∧ env.debug = true ∧ d ≤ env.cfg.MAX_DISCRIMINANT.toNat ∧ 2 ^ env.cfg.ptrWidth ≤ env.alloc s sh.size sh.align)
      | .ub _ => False
      | .stuck => False := by
  haveI : InTable env := ⟨ok.cfg_mem⟩
  obtain ⟨d', rfl⟩ : ∃ d' : env.cfg.Discr, d'.toNat = d := ⟨BitVec.ofNat _ d, by rw [BitVec.toNat_ofNat, Nat.mod_eq_of_lt hd]⟩
  refine ⟨_, sourceCrate_eq env user, ?_⟩
  have hN := Rust.b_new env user 120 sh hz v d' exp [] s
  have hN' : (src env user).call "TaggedBox" "new" [.opaque sh] none [.obj sh v, discr env.cfg d'.toNat] exp s =
      XOut.of boxV (panicMsg d') [] (TBox.new env sh v d' s) := by
    rw [discr_toNat' env]
    exact hN
  rw [hN']
  rcases new_spec ok hi hw hv d' with ⟨b, s1, e, i1, _, hh, h0⟩ | ⟨hp, ha, e⟩ | ⟨hp, hdbg, ha, k, e, hk⟩
  · rw [e]
    refine ⟨rfl, i1, fun hp => ?_, fun hd hr => ?_⟩
    · rcases h0 with ⟨h0, _⟩ | ⟨_, h1, _⟩
      · omega
      · exact h1
    · have H := hh (Env.DiscrOK.fits ok hd) hr
      refine ⟨b.asPtr env, givesBack env ok.cfg_mem user H.discr H.read, ?_⟩
      have hs := ok.sane
      have hlt : b.asPtr env < 2 ^ env.cfg.ptrWidth := by
        rw [TBox.asPtr, asPtr_eq rfl]
        exact Nat.lt_of_le_of_lt (Nat.mod_le _ _) (by rw [TPtr.asU64, hs.strip_toNat]; exact Nat.mod_lt _ (Nat.two_pow_pos _))
      have hlt' : b.asPtr env < 2 ^ env.ptrBits := by
        rw [TBox.asPtr, asPtr_eq rfl]
        exact Nat.mod_lt _ (Nat.two_pow_pos _)
      obtain ⟨b₂, e1, e2, e3⟩ := (C18_raw_roundtrip ok).2 _ d' s1 hlt' hlt hd
      refine ⟨boxV b₂, fun exp => ?_, ?_⟩
      · rw [discr_toNat' env]
        exact (Rust.b_fromRaw env user 120 sh _ d' exp [] s1).trans (by rw [e1]; rfl)
      · have e2' : b₂.asPtr env = b.asPtr env := e2
        rw [← e2']
        exact givesBack env ok.cfg_mem user e3 (by rw [e2']; exact H.read)
  · rw [e]
    exact ⟨rfl, (hi.log _).log _, hp, .inl ⟨rfl, ha⟩⟩
  · rw [e]
    refine ⟨rfl, boxedState_inv ok hi (by omega) ha, hp, .inr ?_⟩
    rcases hk with ⟨rfl, h⟩ | ⟨rfl, h, h'⟩
    · exact .inl ⟨(tooLarge_eq env d').symm, hdbg, ha, BitVec.not_le.1 h⟩
    · exact .inr ⟨(tooWide_eq env d').symm, hdbg, h, Nat.not_lt.1 h'⟩

/-- **C80**, the model. Run from its text, each function of `TaggedBox` does exactly what the model's function does, for every input and state. -/
theorem C80_model (env : Env) (hc : env.cfg ∈ table) (user : User E) (s : State) (exp : RT) (sh : Shape) :
    ∃ cr, sourceCrate env user = some cr ∧
      (∀ (v : Val) (d : env.cfg.Discr), sh.size < 2 ^ 64 → cr.call "TaggedBox" "new" [.opaque sh] none [.obj sh v, dV d] exp s =
        XOut.of boxV (panicMsg d) [] (TBox.new env sh v d s)) ∧
      (∀ (v : Val) (d : env.cfg.Discr), sh.size < 2 ^ 64 → cr.call "TaggedBox" "new_unchecked" [.opaque sh] none [.obj sh v, dV d] exp s =
        XOut.of boxV (panicMsg d) [] (TBox.newUnchecked env sh v d s)) ∧
      (∀ (a : Nat) (d : env.cfg.Discr), cr.call "TaggedBox" "from_raw" [.opaque sh] none [.ptr (.opaque sh) a, dV d] exp s =
        XOut.of boxV (panicMsg d) [] (TBox.fromRaw env a d s)) ∧
      (∀ d : env.cfg.Discr, cr.call "TaggedBox" "dangling" [.opaque sh] none [dV d] exp s = .ret (boxV (TBox.dangling env sh.align d)) [] s) ∧
      (∀ b : TBox, cr.call "TaggedBox" "discriminant" [] (some (boxV b)) [] exp s = .ret (dV (b.discriminant env)) [] s) ∧
      (∀ b : TBox, cr.call "TaggedBox" "as_u64" [] (some (boxV b)) [] exp s = .ret (.int .u64 (b.asU64 env)) [] s) ∧
      (∀ b : TBox, cr.call "TaggedBox" "as_ptr" [.opaque sh] (some (boxV b)) [] exp s = .ret (.ptr (.opaque sh) (b.asPtr env)) [] s) ∧
      (∀ b : TBox, cr.call "TaggedBox" "as_mut_ptr" [.opaque sh] (some (boxV b)) [] exp s = .ret (.ptr (.opaque sh) (b.asMutPtr env)) [] s) ∧
      (∀ b : TBox, cr.call "TaggedBox" "as_ref" [.opaque sh] (some (boxV b)) [] exp s =
        XOut.of (fun _ => .ref (.opaque sh) (b.asPtr env)) .kind [] (b.asRef env sh s)) ∧
      (∀ b : TBox, cr.call "TaggedBox" "as_mut_ref" [.opaque sh] (some (boxV b)) [] exp s =
        XOut.of (fun _ => .ref (.opaque sh) (b.asMutPtr env)) .kind [] (ptrRead sh (b.asMutPtr env) s)) ∧
      (∀ b : TBox, cr.call "TaggedBox" "into_inner" [.opaque sh] none [boxV b] exp s = XOut.of (.obj sh) .kind [] (b.intoInner env sh s)) ∧
      (∀ b : TBox, cr.call "TaggedBox" "into_raw" [.opaque sh] none [boxV b] exp s = .ret (.ptr (.opaque sh) (b.intoRaw env)) [] s) ∧
      (∀ b : TBox, cr.call "TaggedBox" "into_box" [.opaque sh] none [boxV b] exp s = .ret (.boxed (.opaque sh) (b.intoBox env).addr) [] s) := by
  haveI : InTable env := ⟨hc⟩
  exact ⟨_, sourceCrate_eq env user, fun v d hz => Rust.b_new env user 120 sh hz v d exp [] s, fun v d hz => Rust.b_newUnchecked env user 120 sh hz v d exp [] s,
    fun a d => Rust.b_fromRaw env user 120 sh a d exp [] s, fun d => Rust.b_dangling env user 140 sh d exp [] s,
    fun b => Rust.b_discriminant env user 140 b exp [] s, fun b => Rust.b_asU64 env user 140 b exp [] s,
    fun b => Rust.b_asPtr env user 140 b sh exp [] s, fun b => Rust.b_asMutPtr env user 140 b sh exp [] s,
    fun b => Rust.b_asRef env user 140 b sh exp [] s, fun b => Rust.b_asMutRef env user 140 b sh exp [] s,
    fun b => Rust.b_intoInner env user 120 b sh exp [] s, fun b => Rust.b_intoRaw env user 140 b sh exp [] s,
    fun b => Rust.b_intoBox env user 120 b sh exp [] s⟩

/-- A `u32` boxed with the number 3: from an empty heap, at 60 bits, in a debug build, the text of `new` returns a box that gives it back. -/
example (user : User Unit) (exp : RT) : ∃ cr b s' a, sourceCrate (env60 true) user = some cr ∧
    cr.call "TaggedBox" "new" [.opaque u32L.shape] none [.obj u32L.shape [[some 1#8, some 2#8, some 3#8, some 4#8]], discr cfg60 3] exp state0 = .ret b [] s' ∧
    GivesBack cr s' b u32L.shape [[some 1#8, some 2#8, some 3#8, some 4#8]] 3 a := by
  obtain ⟨cr, h, h1⟩ := C80 (env60 true) (env60_ok true) user state0 (state0_inv _) u32L.shape u32L_wf.shape (by decide)
    [[some 1#8, some 2#8, some 3#8, some 4#8]] ⟨⟨rfl, rfl⟩, trivial⟩ 3 (by decide) exp
  revert h1
  cases hr : cr.call "TaggedBox" "new" [.opaque u32L.shape] none [.obj u32L.shape [[some 1#8, some 2#8, some 3#8, some 4#8]], discr (env60 true).cfg 3] exp state0 with
  | ret b l s' =>
    rintro ⟨rfl, _, _, h2⟩
    obtain ⟨a, h3, _⟩ := h2 (by decide) (.inl rfl)
    exact ⟨cr, b, s', a, h, hr, h3⟩
  | panic m l s' =>
    rintro ⟨_, _, _, ⟨_, h2⟩ | ⟨_, _, _, h2⟩ | ⟨_, _, _, h2⟩⟩
    · exact absurd h2 (by decide)
    · exact absurd h2 (by decide)
    · exact absurd h2 (by decide)
  | ub k => exact False.elim
  | stuck => exact False.elim

/-! ## C81: the trait implementations -/

/-- **C81.** Comparing, cloning and printing boxes, run from the text. For every implementation of `TaggableInner`, hand-written or generated, that presents
the values `x` and `y` for the boxes `a` and `b`, running the destructors `es`, `es'` afterwards: `eq`, `partial_cmp` and `cmp` do what the user's functions do
on `x` and `y`; `clone` puts what the user's `clone` returns into a new box with the user's `into_tagged_box`; `Debug` and `Display` write what the user's
functions write with default parameters. -/
theorem C81 (env : Env) (hc : env.cfg ∈ table) (user : User E) (hN : Natural user.taggable) (s : State) (a b : TBox) (x y : E) (es es' : List Event)
    (hx : Presents user.taggable s a x es) (hy : Presents user.taggable s b y es') (exp : RT) :
    ∃ cr, sourceCrate env user = some cr ∧
      cr.callTrait "PartialEq" "TaggedBox" "eq" (some (boxV a)) [.refv (boxV b)] exp s = XOut.of .bool .kind [] (M.cleanup (es' ++ es) (user.eq x y) s) ∧
      cr.callTrait "PartialOrd" "TaggedBox" "partial_cmp" (some (boxV a)) [.refv (boxV b)] exp s =
        XOut.of optOrd .kind [] (M.cleanup (es' ++ es) (user.partialCmp x y) s) ∧
      cr.callTrait "Ord" "TaggedBox" "cmp" (some (boxV a)) [.refv (boxV b)] exp s = XOut.of .ordering .kind [] (M.cleanup (es' ++ es) (user.cmp x y) s) ∧
      cr.callTrait "Clone" "TaggedBox" "clone" (some (boxV a)) [] exp s =
        XOut.of boxV .kind [] ((M.cleanup es (user.clone x) >>= user.taggable.intoTaggedBox) s) ∧
      (∀ spec, cr.callFmt "Debug" "TaggedBox" (boxV a) spec s = printed (M.cleanup es (user.debug x {}) s)) ∧
      (∀ spec, cr.callFmt "Display" "TaggedBox" (boxV a) spec s = printed (M.cleanup es (user.display x {}) s)) := by
  haveI : InTable env := ⟨hc⟩
  obtain ⟨h1, h2, h3⟩ := C38_any_implementation hx hy
  refine ⟨_, sourceCrate_eq env user, ?_, ?_, ?_, ?_, fun spec => ?_, fun spec => ?_⟩
  · exact (Rust.t_eq env user hN 140 a b exp [] s).trans (by rw [h1])
  · exact (Rust.t_partialCmp env user hN 140 a b exp [] s).trans (by rw [h2])
  · exact (Rust.t_cmp env user hN 140 a b exp [] s).trans (by rw [h3])
  · refine (Rust.t_clone env user hN 140 a exp [] s).trans ?_
    rw [hx]
    simp only [M.cleanup, m_bind]
    cases user.clone x s <;> rfl
  · rw [Rust.f_box_Debug env user hN a spec s]
    simp only [TBox.debugFmt, appendFmt, m_bind]
    rw [hx]
    simp only [M.cleanup, m_bind]
    cases user.debug x {} s <;> rfl
  · rw [Rust.f_box_Display env user hN a spec s]
    simp only [TBox.displayFmt, appendFmt, m_bind]
    rw [hx]
    simp only [M.cleanup, m_bind]
    cases user.display x {} s <;> rfl

/-- **C81**, no value. An implementation that does not call the closure for the box `a`: `clone` panics with the message in the text, `eq` is false,
`partial_cmp` is `None`, `cmp` is `Equal`, nothing is printed. -/
theorem C81_skipped (env : Env) (hc : env.cfg ∈ table) (user : User E) (hN : Natural user.taggable) (s s' : State) (a b : TBox)
    (h : Skips user.taggable s a s') (exp : RT) :
    ∃ cr, sourceCrate env user = some cr ∧
      cr.callTrait "PartialEq" "TaggedBox" "eq" (some (boxV a)) [.refv (boxV b)] exp s = .ret (.bool false) [] s' ∧
      cr.callTrait "PartialOrd" "TaggedBox" "partial_cmp" (some (boxV a)) [.refv (boxV b)] exp s = .ret (optOrd none) [] s' ∧
      cr.callTrait "Ord" "TaggedBox" "cmp" (some (boxV a)) [.refv (boxV b)] exp s = .ret (.ordering .eq) [] s' ∧
      cr.callTrait "Clone" "TaggedBox" "clone" (some (boxV a)) [] exp s = .panic notFetched [] s' ∧
      (∀ spec, cr.callFmt "Debug" "TaggedBox" (boxV a) spec s = .ret (resV true, []) [] s') ∧
      (∀ spec, cr.callFmt "Display" "TaggedBox" (boxV a) spec s = .ret (resV true, []) [] s') := by
  haveI : InTable env := ⟨hc⟩
  obtain ⟨_, h1, h2, h3, h4, _⟩ := C49_skipping user.taggable h
  refine ⟨_, sourceCrate_eq env user, ?_, ?_, ?_, ?_, fun spec => ?_, fun spec => ?_⟩
  · exact (Rust.t_eq env user hN 140 a b exp [] s).trans (by rw [h1]; rfl)
  · exact (Rust.t_partialCmp env user hN 140 a b exp [] s).trans (by rw [h2]; rfl)
  · exact (Rust.t_cmp env user hN 140 a b exp [] s).trans (by rw [h3]; rfl)
  · refine (Rust.t_clone env user hN 140 a exp [] s).trans ?_
    rw [h]
    rfl
  · rw [Rust.f_box_Debug env user hN a spec s, (h4 _ _ _ _).1]
  · rw [Rust.f_box_Display env user hN a spec s, (h4 _ _ _ _).2]

/-- **C81**, the other formatting traits: of `TaggedPointer` and `TaggedBox`, run from the text, for all parameters. -/
theorem C81_fmt (env : Env) (hc : env.cfg ∈ table) (user : User E) (s : State) (spec : FmtSpec) (t : TPtr) (b : TBox) :
    ∃ cr, sourceCrate env user = some cr ∧
      (∀ r ∈ [("LowerHex", IntFmt.lowerHex), ("UpperHex", .upperHex), ("Octal", .octal), ("Binary", .binary)],
        cr.callFmt r.1 "TaggedPointer" (ptrV t) spec s = .ret (resV true, t.fmtNum env.cfg r.2 spec) [] s ∧
        cr.callFmt r.1 "TaggedBox" (boxV b) spec s = .ret (resV true, b.fmtNum env r.2 spec) [] s) ∧
      cr.callFmt "Pointer" "TaggedPointer" (ptrV t) spec s = .ret (resV true, t.fmtPointer env.cfg env.ptrBits spec) [] s ∧
      cr.callFmt "Debug" "TaggedPointer" (ptrV t) spec s = .ret (resV true, t.fmtDebug env.cfg env.ptrBits spec) [] s := by
  haveI : InTable env := ⟨hc⟩
  refine ⟨_, sourceCrate_eq env user, ?_, Rust.f_ptr_Pointer env user t spec s, Rust.f_ptr_Debug env user t spec s⟩
  simp only [List.forall_mem_cons]
  exact ⟨⟨Rust.f_ptr_LowerHex env user t spec s, Rust.f_box_LowerHex env user b spec s⟩,
    ⟨Rust.f_ptr_UpperHex env user t spec s, Rust.f_box_UpperHex env user b spec s⟩,
    ⟨Rust.f_ptr_Octal env user t spec s, Rust.f_box_Octal env user b spec s⟩,
    ⟨Rust.f_ptr_Binary env user t spec s, Rust.f_box_Binary env user b spec s⟩, by simp⟩

/-- **C81**, enums made by `tagged_box!`. The crate's text together with the code the macro generates for a declaration: for boxes that store `x` and `y`,
comparing and printing them does what the user's functions do on `x` and `y`, and `clone` boxes the user's clone of `x`. (`es`: the spurious destructor calls
of C32; none if the enum does not implement `Drop`, or no unit variant is involved.) -/
theorem C81_generated (env : Env) (user : User TB.Macro.EVal) {rc : TB.Macro.Rustc} {sn en : String} {hd : Bool} {ts : List TB.Macro.Tok}
    {decl : List TB.Macro.VariantDef} {P : TB.Macro.Program} (hc : env.cfg ∈ table) (hP : TB.Macro.Compiled rc env.cfg sn en hd ts decl P)
    (hu : user.taggable = TB.Macro.taggable env rc P) (s : State) (a b : TBox) (i j : Nat) (x y : TB.Macro.EVal)
    (ha : TB.Macro.Stores env rc decl s a i x) (hb : TB.Macro.Stores env rc decl s b j y) (exp : RT) :
    ∃ cr es es', sourceCrate env user = some cr ∧
      (hd = false ∨ x.payload ≠ .unit → es = []) ∧ (hd = false ∨ y.payload ≠ .unit → es' = []) ∧
      cr.callTrait "PartialEq" "TaggedBox" "eq" (some (boxV a)) [.refv (boxV b)] exp s = XOut.of .bool .kind [] (M.cleanup (es' ++ es) (user.eq x y) s) ∧
      cr.callTrait "PartialOrd" "TaggedBox" "partial_cmp" (some (boxV a)) [.refv (boxV b)] exp s =
        XOut.of optOrd .kind [] (M.cleanup (es' ++ es) (user.partialCmp x y) s) ∧
      cr.callTrait "Ord" "TaggedBox" "cmp" (some (boxV a)) [.refv (boxV b)] exp s = XOut.of .ordering .kind [] (M.cleanup (es' ++ es) (user.cmp x y) s) ∧
      cr.callTrait "Clone" "TaggedBox" "clone" (some (boxV a)) [] exp s =
        XOut.of boxV .kind [] ((M.cleanup es (user.clone x) >>= TB.Macro.containerFrom env rc P) s) ∧
      (∀ spec, cr.callFmt "Debug" "TaggedBox" (boxV a) spec s = printed (M.cleanup es (user.debug x {}) s)) ∧
      (∀ spec, cr.callFmt "Display" "TaggedBox" (boxV a) spec s = printed (M.cleanup es (user.display x {}) s)) := by
  obtain ⟨es, h1, _, h2⟩ := stores_presents hP ha
  obtain ⟨es', h3, _, h4⟩ := stores_presents hP hb
  rw [← hu] at h1 h3
  obtain ⟨cr, h, h5, h6, h7, h8, h9, h10⟩ := C81 env hc user (by rw [hu]; exact taggable_natural env rc P) s a b x y es es' h1 h3 exp
  rw [hu] at h8
  exact ⟨cr, es, es', h, h2, h4, h5, h6, h7, h8, h9, h10⟩

/-- The hypothesis `Natural` of C81 holds for every enum made by `tagged_box!`. -/
theorem C81_natural (env : Env) (rc : TB.Macro.Rustc) (P : TB.Macro.Program) : Natural (TB.Macro.taggable env rc P) := taggable_natural env rc P

/-- Two boxes with the same value, of the enum of the demo, compared by payload: the text of `eq` returns true. -/
example (user : User TB.Macro.EVal) (hu : user.taggable = TB.Macro.taggable (env60 true) TB.Macro.rcDemo TB.Macro.progMix)
    (he : user.eq = fun x y => pure (decide (x.payload.vals = y.payload.vals))) : ∃ a s1 b s2,
    TB.Macro.containerFrom (env60 true) TB.Macro.rcDemo TB.Macro.progMix ⟨"Pair", .tuple [[some 7#8], [some 1#8, some 2#8, some 3#8, some 4#8]]⟩ state0 = .ret a s1 ∧
    TB.Macro.containerFrom (env60 true) TB.Macro.rcDemo TB.Macro.progMix ⟨"Pair", .tuple [[some 7#8], [some 1#8, some 2#8, some 3#8, some 4#8]]⟩ s1 = .ret b s2 ∧
    a ≠ b ∧
    ∃ cr, sourceCrate (env60 true) user = some cr ∧ ∃ s3,
      cr.callTrait "PartialEq" "TaggedBox" "eq" (some (boxV a)) [.refv (boxV b)] .unknown s2 = .ret (.bool true) [] s3 := by
  refine ⟨_, _, _, _, rfl, rfl, by decide, _, sourceCrate_eq _ _, ?_⟩
  haveI : InTable (env60 true) := ⟨cfg60_mem⟩
  exact ⟨_, (Rust.t_eq (env60 true) user (by rw [hu]; exact taggable_natural _ _ _) 140 _ _ .unknown [] _).trans (by rw [hu, he]; rfl)⟩

end TB.Props

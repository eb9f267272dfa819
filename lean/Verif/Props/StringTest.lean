import Verif.Spec.StringTest
import Verif.Props.Examples

/-!
# The test `string_pointer`, run from its text (C94)
-/

set_option autoImplicit false
set_option linter.unusedSimpArgs false

namespace TB.Props

open TB TB.Macro TB.Rust TB.Rust.Code TB.Source TB.Spec

section
variable {E : Type} {env : Env} {user : User E} {s : State}

theorem tp_asPtr [InTable env] (p : TPtr) (t : RT) (exp : RT) (l : Locals E) (s : State) :
    tcall (src env user) "TaggedPointer" "as_ptr" [t] (some (ptrV p)) [] exp l s = .ret (.ptr t (p.asPtr env.cfg env.ptrBits)) l s :=
  tcall_of l (find_ptr_as_ptr env user) (Rust.asPtr env user 160 p t exp [] s) rfl

theorem bytes_wf (n : Nat) : (bytesLeaf n).shape.WF where
  align_pow := ⟨0, by omega, rfl⟩
  size_dvd := Nat.one_dvd _
  field := by
    intro f hf
    cases List.mem_singleton.1 hf
    exact ⟨⟨⟨0, by omega, rfl⟩, Nat.one_dvd _⟩, by simp [Leaf.shape, bytesLeaf], Nat.one_dvd _, Nat.dvd_refl _⟩
  disjoint := List.pairwise_singleton _ _

theorem utf8_has_bytes (cs : List Char) : (bytesLeaf (utf8 cs).length).shape.Has [utf8 cs] := by
  refine ⟨⟨rfl, ?_⟩, trivial⟩
  show (utf8 cs).all (·.isSome) = true
  refine List.all_eq_true.2 fun x hx => ?_
  obtain ⟨b, _, rfl⟩ := List.mem_map.1 hx
  rfl

theorem utf8_inj {cs ds : List Char} (e : utf8 cs = utf8 ds) : cs = ds := by
  have h1 : ∀ a b : UInt8, (some a.toBitVec : Option (BitVec 8)) = some b.toBitVec → a = b := fun a b e => UInt8.toBitVec_inj.1 (Option.some.inj e)
  have h2 := (List.map_inj_right h1).1 e
  have h3 : (String.ofList cs).toUTF8 = (String.ofList ds).toUTF8 := ByteArray.ext (Array.toList_inj.1 h2)
  have h4 : String.ofList cs = String.ofList ds := String.toByteArray_inj.1 h3
  exact String.ofList_injective h4

/-- A new string is in memory. -/
theorem newBuffer_spec (h : env.OK) (cs : List Char) (ha : stringAddr env s (utf8 cs).length ≠ 0) :
    ∃ s1, newBuffer env (utf8 cs) s = .ret (stringAddr env s (utf8 cs).length) s1 ∧
      bytesAt (stringAddr env s (utf8 cs).length) (utf8 cs).length s1 = .ret (utf8 cs) s1 ∧
      ∃ s2, freeStrings (E := E) [("string", .string (stringAddr env s (utf8 cs).length) (utf8 cs).length)] s1 = .ret () s2 ∧ s2.blocks = s.blocks := by
  have hw := bytes_wf (utf8 cs).length
  have hv := utf8_has_bytes cs
  by_cases hz : (utf8 cs).length = 0
  · have e : stringAddr env s (utf8 cs).length = 1 := by rw [stringAddr, if_pos hz]
    rw [e]
    have hn : utf8 cs = [] := List.length_eq_zero_iff.1 hz
    refine ⟨s, by rw [newBuffer, if_pos hz]; rfl, ?_, s, ?_, rfl⟩
    · rw [hn]; rfl
    · simp only [freeStrings, hz, if_true]
      rfl
  · have e : stringAddr env s (utf8 cs).length = env.alloc s (utf8 cs).length 1 := by rw [stringAddr, if_neg hz]
    rw [e] at ha ⊢
    generalize hA : env.alloc s (utf8 cs).length 1 = a at ha ⊢
    have hval : ∀ m t, validPtr { mem := m, blocks := ⟨a, (utf8 cs).length, 1⟩ :: s.blocks, trace := t } a (utf8 cs).length 1 = true := by
      intro m t
      rw [validPtr_iff]
      exact ⟨ha, Nat.mod_one _, Or.inr ⟨_, List.mem_cons_self, Nat.le_refl _, Nat.le_refl _⟩⟩
    refine ⟨boxedState s a (bytesLeaf (utf8 cs).length).shape [utf8 cs], ?_, ?_, ?_⟩
    · have hw' := ptrWrite_ret (sh := (bytesLeaf (utf8 cs).length).shape) (v := [utf8 cs]) (hval (overlay s.mem a (List.replicate (utf8 cs).length none)) (s.trace ++ [.alloc ⟨a, (utf8 cs).length, 1⟩]))
      simp only [newBuffer, hz, if_false, m_bind, allocM, hA, ha, hw', m_pure]
      rfl
    · have hr : ptrRead (bytesLeaf (utf8 cs).length).shape a (boxedState s a (bytesLeaf (utf8 cs).length).shape [utf8 cs]) = .ret [utf8 cs] _ :=
        ptrRead_ret_iff.2 ⟨rfl, hval _ _, (getVal_putVal hw hv _ _).symm, hv⟩
      simp only [bytesAt, m_bind, hr, m_pure, fieldBytes]
    · have hd : deallocM a (utf8 cs).length 1 (boxedState s a (bytesLeaf (utf8 cs).length).shape [utf8 cs]) = _ := if_pos List.mem_cons_self
      refine ⟨{ boxedState s a (bytesLeaf (utf8 cs).length).shape [utf8 cs] with
        blocks := (boxedState s a (bytesLeaf (utf8 cs).length).shape [utf8 cs]).blocks.erase ⟨a, (utf8 cs).length, 1⟩,
        trace := (boxedState s a (bytesLeaf (utf8 cs).length).shape [utf8 cs]).trace ++ [.dealloc ⟨a, (utf8 cs).length, 1⟩] }, ?_, ?_⟩
      · simp only [freeStrings, hz, if_false, m_bind, hd, m_pure]
      · simp [boxedState, bytesLeaf, Leaf.shape]

/-- The results of the test. -/
theorem string_pointer_run (h : env.OK) (t : String) (ha : stringAddr env s (utf8 (literalText t)).length ≠ 0) :
    (stringAddr env s (utf8 (literalText t)).length < 2 ^ env.cfg.POINTER_WIDTH → ∃ s', runString (src env user) (stringPointer t) s = .ret () [] s' ∧ s'.blocks = s.blocks) ∧
    (2 ^ env.cfg.POINTER_WIDTH ≤ stringAddr env s (utf8 (literalText t)).length → ∃ m s', runString (src env user) (stringPointer t) s = .panic m [] s') := by
  haveI : InTable env := ⟨h.cfg_mem⟩
  obtain ⟨s1, b1, b2, s2, b3, b4⟩ := newBuffer_spec (E := E) h (literalText t) ha
  have hlt : stringAddr env s (utf8 (literalText t)).length < 2 ^ env.ptrBits := by
    by_cases hz : (utf8 (literalText t)).length = 0
    · rw [stringAddr, if_pos hz]
      exact Nat.one_lt_two_pow (by rcases h.target with e | e <;> omega)
    · rw [stringAddr, if_neg hz] at ha ⊢
      have := (h.lawful s (utf8 (literalText t)).length 1 (by omega) ha).2.1
      omega
  have h64 : stringAddr env s (utf8 (literalText t)).length < 2 ^ 64 := by have := h.pow_le; omega
  generalize stringAddr env s (utf8 (literalText t)).length = a at *
  have e64 : (BitVec.ofNat 64 a).toNat = a := by rw [BitVec.toNat_ofNat, Nat.mod_eq_of_lt h64]
  have hd : env.cfg.MAX_DISCRIMINANT ≤ env.cfg.MAX_DISCRIMINANT := BitVec.le_refl _
  have hname : ∀ p, (ptrV p : V E).tyName = "TaggedPointer" := fun _ => rfl
  have hx : ∃ cs, utf8 cs = utf8 (literalText t) := ⟨_, rfl⟩
  have henv : (src env user).env = env := rfl
  constructor
  · intro hw
    have hp : BitVec.ofNat 64 a ≤ env.cfg.MAX_POINTER_VALUE := (h.sane.le_maxPtr_iff _).2 (by rw [e64]; exact hw)
    obtain ⟨h1, h2⟩ := parts_of (in_table (env := env)) hp hd
    have hn := tp_new_ret (user := user) hp hd
    have e : (⟨TPtr.storeDiscriminant env.cfg (BitVec.ofNat 64 a) env.cfg.MAX_DISCRIMINANT⟩ : TPtr).asPtr env.cfg env.ptrBits = a := by
      simp only [TPtr.asPtr, TPtr.asU64, h1]
      exact addr_back h64 hlt
    refine ⟨s2, ?_, b4⟩
    simp [runString, stringPointer, stringPointerWith, strStmts, strEv, strVar, lookup, asVal, bufferAddr, strMethod, strTy, rawParts, fromUtf8, strDeref, strSame, rs, henv, b1, b2, hn, h1, h2, hname, tp_asPtr, e, hx, X.mem,
      TPtr.asU64, TPtr.discriminant]
    have b3' : freeStrings (E := E) [("temp_str", .bytes (utf8 (literalText t))),
        ("ptr", .val (ptrV ⟨TPtr.storeDiscriminant env.cfg (BitVec.ofNat 64 a) env.cfg.MAX_DISCRIMINANT⟩)), ("discriminant", .val (dV env.cfg.MAX_DISCRIMINANT)),
        ("str_ptr", .val (.int .u64 (BitVec.ofNat 64 a))), ("string", .string a (utf8 (literalText t)).length)] s1 = .ret () s2 := b3
    rw [b3']
  · intro hw
    have hp : ¬ BitVec.ofNat 64 a ≤ env.cfg.MAX_POINTER_VALUE := fun hp => by
      have := (h.sane.le_maxPtr_iff _).1 hp
      rw [e64] at this
      exact absurd hw (Nat.not_le.2 this)
    have hne : ∀ w, TPtr.stripDiscriminant env.cfg w ≠ BitVec.ofNat 64 a := fun w hw' => by
      have h1 := h.sane.strip_toNat w
      rw [hw', e64] at h1
      have h2 := Nat.mod_lt w.toNat (Nat.two_pow_pos env.cfg.ptrWidth)
      exact absurd hw (Nat.not_le.2 (h1 ▸ h2))
    cases hg : env.debug with
    | true =>
      simp [runString, stringPointer, stringPointerWith, strStmts, strEv, strVar, lookup, asVal, bufferAddr, rs, henv, b1, tp_new, hg, hp, hd, X.mem]
    | false =>
      by_cases hf : TPtr.fetchDiscriminant env.cfg (TPtr.storeDiscriminant env.cfg (BitVec.ofNat 64 a) env.cfg.MAX_DISCRIMINANT) = env.cfg.MAX_DISCRIMINANT
      · simp [runString, stringPointer, stringPointerWith, strStmts, strEv, strVar, lookup, asVal, bufferAddr, strMethod, strSame, rs, henv, b1, tp_new, hg, hp, hd, X.mem, hname, TPtr.asU64, TPtr.discriminant, hf]
        rw [if_neg (hne _)]
        exact ⟨_, _, rfl⟩
      · simp [runString, stringPointer, stringPointerWith, strStmts, strEv, strVar, lookup, asVal, bufferAddr, strMethod, strSame, rs, henv, b1, tp_new, hg, hp, hd, X.mem, hname, TPtr.asU64, TPtr.discriminant, hf]

/-- The results of the test that compares with a literal. -/
theorem string_compare_run (h : env.OK) (t u : String) (ha : stringAddr env s (utf8 (literalText t)).length ≠ 0) :
    stringAddr env s (utf8 (literalText t)).length < 2 ^ env.cfg.POINTER_WIDTH →
    (literalText t = literalText u → ∃ s', runString (src env user) (stringPointerWith t (.lit u)) s = .ret () [] s' ∧ s'.blocks = s.blocks) ∧
    (literalText t ≠ literalText u → ∃ s', runString (src env user) (stringPointerWith t (.lit u)) s = .panic notEqual [] s') := by
  haveI : InTable env := ⟨h.cfg_mem⟩
  obtain ⟨s1, b1, b2, s2, b3, b4⟩ := newBuffer_spec (E := E) h (literalText t) ha
  have hlt : stringAddr env s (utf8 (literalText t)).length < 2 ^ env.ptrBits := by
    by_cases hz : (utf8 (literalText t)).length = 0
    · rw [stringAddr, if_pos hz]
      exact Nat.one_lt_two_pow (by rcases h.target with e | e <;> omega)
    · rw [stringAddr, if_neg hz] at ha ⊢
      have := (h.lawful s (utf8 (literalText t)).length 1 (by omega) ha).2.1
      omega
  have h64 : stringAddr env s (utf8 (literalText t)).length < 2 ^ 64 := by have := h.pow_le; omega
  generalize stringAddr env s (utf8 (literalText t)).length = a at *
  have e64 : (BitVec.ofNat 64 a).toNat = a := by rw [BitVec.toNat_ofNat, Nat.mod_eq_of_lt h64]
  have hd : env.cfg.MAX_DISCRIMINANT ≤ env.cfg.MAX_DISCRIMINANT := BitVec.le_refl _
  have hname : ∀ p, (ptrV p : V E).tyName = "TaggedPointer" := fun _ => rfl
  have hx : ∃ cs, utf8 cs = utf8 (literalText t) := ⟨_, rfl⟩
  have henv : (src env user).env = env := rfl
  intro hw
  have hp : BitVec.ofNat 64 a ≤ env.cfg.MAX_POINTER_VALUE := (h.sane.le_maxPtr_iff _).2 (by rw [e64]; exact hw)
  obtain ⟨h1, h2⟩ := parts_of (in_table (env := env)) hp hd
  have hn := tp_new_ret (user := user) hp hd
  have e : (⟨TPtr.storeDiscriminant env.cfg (BitVec.ofNat 64 a) env.cfg.MAX_DISCRIMINANT⟩ : TPtr).asPtr env.cfg env.ptrBits = a := by
    simp only [TPtr.asPtr, TPtr.asU64, h1]
    exact addr_back h64 hlt
  constructor
  · intro hs
    have hs : utf8 (literalText u) = utf8 (literalText t) := by rw [hs]
    refine ⟨s2, ?_, b4⟩
    simp [runString, stringPointer, stringPointerWith, strStmts, strEv, strVar, lookup, asVal, bufferAddr, strMethod, strTy, rawParts, fromUtf8, strSame, rs, henv, b1, b2, hn, h1, h2, hname, tp_asPtr, e, hx, hs, X.mem,
    TPtr.asU64, TPtr.discriminant]
    have b3' : freeStrings (E := E) [("temp_str", .bytes (utf8 (literalText t))),
        ("ptr", .val (ptrV ⟨TPtr.storeDiscriminant env.cfg (BitVec.ofNat 64 a) env.cfg.MAX_DISCRIMINANT⟩)), ("discriminant", .val (dV env.cfg.MAX_DISCRIMINANT)),
        ("str_ptr", .val (.int .u64 (BitVec.ofNat 64 a))), ("string", .string a (utf8 (literalText t)).length)] s1 = .ret () s2 := b3
    rw [b3']
  · intro hs
    have hs : ¬ utf8 (literalText t) = utf8 (literalText u) := fun e => hs (utf8_inj e)
    simp [runString, stringPointer, stringPointerWith, strStmts, strEv, strVar, lookup, asVal, bufferAddr, strMethod, strTy, rawParts, fromUtf8, strSame, rs, henv, b1, b2, hn, h1, h2, hname, tp_asPtr, e, hx, hs, X.mem,
    TPtr.asU64, TPtr.discriminant]

theorem string_pointer_oom (t : String) (ha : stringAddr env s (utf8 (literalText t)).length = 0) :
    ∃ m s', runString (src env user) (stringPointer t) s = .panic m [] s' := by
  have hz : (utf8 (literalText t)).length ≠ 0 := fun hz => by
    rw [stringAddr, if_pos hz] at ha
    cases ha
  rw [stringAddr, if_neg hz] at ha
  have hn : newBuffer env (utf8 (literalText t)) s = .panic .nullAlloc (s.log [.allocNull (utf8 (literalText t)).length 1]) := by
    simp only [newBuffer, hz, if_false, m_bind, allocM, ha, if_true, m_panic]
  have henv : (src env user).env = env := rfl
  simp [runString, stringPointer, stringPointerWith, strStmts, strEv, rs, henv, hn, X.mem]

/-- Assertions about the contents: if the test compares what it reads with a literal, it passes exactly if this is the text of the string. -/
theorem C94_compare {cr : Crate E} (hcr : sourceCrate env user = some cr) (h : env.OK) (t u : String) (h0 : stringAddr env s (utf8 (literalText t)).length ≠ 0)
    (hw : stringAddr env s (utf8 (literalText t)).length < 2 ^ env.cfg.POINTER_WIDTH) :
    (literalText t = literalText u → ∃ s', runString cr (stringPointerWith t (.lit u)) s = .ret () [] s' ∧ s'.blocks = s.blocks) ∧
    (literalText t ≠ literalText u → ∃ s', runString cr (stringPointerWith t (.lit u)) s = .panic notEqual [] s') := by
  rw [sourceCrate_eq] at hcr
  cases hcr
  exact string_compare_run h t u h0 hw

/-- **C94.** The test `string_pointer` of `src/tagged_pointer.rs`, from its text, with any text in its string: it passes, and frees all that it has allocated, exactly if the
allocator has memory and the buffer of the string is at an address below `2 ^ POINTER_WIDTH`. -/
theorem C94 {cr : Crate E} (hcr : sourceCrate env user = some cr) (h : env.OK) :
    (∃ f, testNamed "string_pointer" = some f ∧ f.hasAttr "test" = true ∧ f.hasAttr "should_panic" = false ∧ f.body = stringPointer "\"Hello world!\"") ∧
    ∀ t : String,
      (stringAddr env s (utf8 (literalText t)).length ≠ 0 ∧ stringAddr env s (utf8 (literalText t)).length < 2 ^ env.cfg.POINTER_WIDTH →
        ∃ s', runString cr (stringPointer t) s = .ret () [] s' ∧ s'.blocks = s.blocks) ∧
      (stringAddr env s (utf8 (literalText t)).length = 0 ∨ 2 ^ env.cfg.POINTER_WIDTH ≤ stringAddr env s (utf8 (literalText t)).length →
        ∃ m s', runString cr (stringPointer t) s = .panic m [] s') := by
  rw [sourceCrate_eq] at hcr
  cases hcr
  refine ⟨⟨_, test_of rfl, rfl, rfl, rfl⟩, fun t => ⟨fun ⟨h0, hw⟩ => (string_pointer_run h t h0).1 hw, ?_⟩⟩
  by_cases h0 : stringAddr env s (utf8 (literalText t)).length = 0
  · exact fun _ => string_pointer_oom t h0
  · exact fun hw => (string_pointer_run h t h0).2 (hw.resolve_left h0)

end

/-- The text of the test, in UTF-8: 12 bytes. -/
example : literalText "\"Hello world!\"" = "Hello world!".toList := by decide

/-- With an allocator that starts at 4096, the test passes. -/
example : ∃ cr s', sourceCrate (env60 true) userMix = some cr ∧ runString cr (stringPointer "\"Hello world!\"") state0 = .ret () [] s' := by
  obtain ⟨s', h, _⟩ := ((C94 (s := state0) (sourceCrate_eq (env60 true) userMix) (env60_ok true)).2 "\"Hello world!\"").1 ⟨by decide, by decide⟩
  exact ⟨_, s', sourceCrate_eq _ _, h⟩

/-- With one that starts at `2 ^ 60`, it fails, in release builds too. -/
example : ∃ cr m s', sourceCrate (env60high false) userMix = some cr ∧ runString cr (stringPointer "\"Hello world!\"") state0 = .panic m [] s' := by
  obtain ⟨m, s', h⟩ := ((C94 (s := state0) (sourceCrate_eq (env60high false) userMix) (env60high_ok false)).2 "\"Hello world!\"").2 (.inr (by decide))
  exact ⟨_, m, s', sourceCrate_eq _ _, h⟩

end TB.Props

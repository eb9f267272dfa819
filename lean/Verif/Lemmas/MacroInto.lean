import Verif.Lemmas.MacroRun

/-! # Behaviour of the generated `into_tagged_box` (no property theorems here) -/

set_option autoImplicit false

namespace TB.Macro

variable {rc : Rustc} {env : Env} {sn en : String} {hd : Bool} {decl : List VariantDef}

/-- What storing a value amounts to. -/
def storeOf (env : Env) (rc : Rustc) (f : Fields) (p : Payload) (n : env.cfg.Discr) : M TBox :=
  match f.shape rc with
  | none => pure (TBox.dangling env env.enumAlign n)
  | some sh => TBox.new env sh p.vals n

/-- The number of variant `i` as generated. -/
def numOf (env : Env) (i : Nat) : env.cfg.Discr := asDiscr env (BitVec.ofNat 8 i)

theorem numOf_toNat (h8 : env.cfg.discrBits = 8) (i : Nat) : (numOf env i).toNat = i % 256 := by
  rw [numOf, asDiscr_toNat h8, BitVec.toNat_ofNat]

theorem intoArm_other {e : EVal} {d : VariantDef} (h : e.variant ≠ d.name) (P : Program) :
    (intoArmOf d).run env rc P e = none := by
  obtain ⟨v, f⟩ := d
  match f with
  | .unit => simp [intoArmOf, IntoArm.run, h]
  | .tuple [] => simp [intoArmOf, IntoArm.run, h]
  | .tuple [t] => simp [intoArmOf, IntoArm.run, h]
  | .tuple (t :: t' :: ts) => simp [intoArmOf, IntoArm.run, h]
  | .record ms => simp [intoArmOf, IntoArm.run, h]

theorem armNames_take {n : Nat} (h : n ≤ 32) : (armNames.take n).Nodup ∧ (armNames.take n).length = n :=
  ⟨armNames_nodup.sublist (List.take_sublist _ _), by
    rw [List.length_take]; exact Nat.min_eq_left (by simpa [armNames] using h)⟩

theorem intoArm_own (hn : (decl.map (·.name)).Nodup)
    (hms : ∀ d ∈ decl, ∀ ms, d.fields = .record ms → (ms.map (·.1)).Nodup)
    (har : ArityOK decl) {i : Nat} {e : EVal} {d : VariantDef}
    (hdi : decl[i]? = some d) (hv : e.variant = d.name) (hf : HasFields rc d.fields e.payload) :
    (intoArmOf d).run env rc (programOf sn en hd decl) e = some (storeOf env rc d.fields e.payload (numOf env i)) := by
  have hmem := List.mem_of_getElem? hdi
  have hctr : counterU8 (programOf sn en hd decl) d.name = BitVec.ofNat 8 i := counterU8_get hn hdi
  obtain ⟨v, f⟩ := d
  obtain ⟨ev, p⟩ := e
  simp only at hv hf hctr
  subst hv
  match f, p, hf with
  | .unit, .unit, _ => simp [intoArmOf, IntoArm.run, storeOf, Fields.shape, hctr, numOf]
  | .tuple [], .tuple [], _ => simp [intoArmOf, IntoArm.run, storeOf, Fields.shape, hctr, numOf]
  | .tuple [t], .tuple [x], _ =>
    simp [intoArmOf, IntoArm.run, storeOf, Fields.shape, hctr, numOf, Payload.vals, lookupVar]
  | .tuple [t], .tuple (_ :: _ :: _), hf => cases hf.2
  | .tuple (t :: t' :: ts), .tuple vs, hf =>
    have h32 := har _ hmem _ rfl
    obtain ⟨a1, a2⟩ := armNames_take h32
    have hl := hasTypes_length hf
    simp only [intoArmOf, IntoArm.run, storeOf, Fields.shape, hctr, numOf, Payload.vals, if_true]
    rw [byName_zip a1 (by rw [a2, hl])]
    rfl
  | .record ms, .record fs, hf =>
    have hm := hms _ hmem ms rfl
    have hl : (ms.map (·.1)).length = (fs.map (·.2)).length := by rw [← hf.1]; simp
    simp only [intoArmOf, IntoArm.run, storeOf, Fields.shape, hctr, numOf, Payload.vals, if_true]
    have e1 : byName (ms.map (·.1)) fs = fs.map (·.2) := by
      rw [← hf.1]; exact byName_self (by rw [hf.1]; exact hm)
    rw [e1, byName_zip hm hl, byName_zip hm hl, structShape,
      show (ms.map (·.2)).map rc.leaf = ms.map (fun m => rc.leaf m.2) by simp]

theorem firstInto_eq {i : Nat} {e : EVal} {d : VariantDef} (hn : (decl.map (·.name)).Nodup)
    (hdi : decl[i]? = some d) (hv : e.variant = d.name) (P : Program) {m : M TBox}
    (hr : (intoArmOf d).run env rc P e = some m) :
    firstInto env rc P e (decl.map intoArmOf) = m := by
  have hmem := List.mem_of_getElem? hdi
  clear hdi
  induction decl with
  | nil => cases hmem
  | cons x xs ih =>
    rw [List.map_cons, List.nodup_cons] at hn
    rw [List.map_cons, firstInto]
    rcases List.mem_cons.1 hmem with rfl | hmem
    · rw [hr]
    · have : e.variant ≠ x.name := fun he => hn.1 (List.mem_map.2 ⟨d, hmem, by rw [← hv, he]⟩)
      rw [intoArm_other this]
      exact ih hn.2 hmem

/-- Destructors run by converting a value: the enum's own `Drop`. -/
def convertDrops (hasDrop : Bool) (e : EVal) : List Event := if hasDrop then [.dropEnum e.variant] else []

theorem intoTaggedBox_eq (hn : (decl.map (·.name)).Nodup)
    (hms : ∀ d ∈ decl, ∀ ms, d.fields = .record ms → (ms.map (·.1)).Nodup)
    (har : ArityOK decl) {i : Nat} {e : EVal} {d : VariantDef}
    (hdi : decl[i]? = some d) (hv : e.variant = d.name) (hf : HasFields rc d.fields e.payload) :
    intoTaggedBox env rc (programOf sn en hd decl) e =
      M.cleanup (convertDrops hd e) (storeOf env rc d.fields e.payload (numOf env i)) := by
  show M.cleanup _ (firstInto env rc _ e (decl.map intoArmOf)) = _
  rw [firstInto_eq hn hdi hv _ (intoArm_own hn hms har hdi hv hf)]
  rfl

/-! ## `cleanup` -/

theorem cleanup_ret {α : Type} {es : List Event} {m : M α} {s s' : State} {a : α} (h : m s = .ret a s') :
    M.cleanup es m s = .ret a (s'.log es) := by simp only [M.cleanup, h]

theorem cleanup_panic {α : Type} {es : List Event} {m : M α} {s s' : State} {k} (h : m s = .panic k s') :
    M.cleanup es m s = .panic k (s'.log es) := by simp only [M.cleanup, h]

theorem cleanup_ret_inv {α : Type} {es : List Event} {m : M α} {s s' : State} {a : α} (h : M.cleanup es m s = .ret a s') :
    ∃ s₁, m s = .ret a s₁ ∧ s' = s₁.log es := by
  unfold M.cleanup at h
  split at h
  · cases h; exact ⟨_, ‹_›, rfl⟩
  · cases h
  · cases h

theorem log_nil (s : State) : s.log [] = s := by simp [State.log]

theorem cleanup_nil {α : Type} (m : M α) : M.cleanup [] m = m := by
  funext s
  unfold M.cleanup
  split <;> simp_all [log_nil]

/-! ## Storing -/

theorem dangling_parts (h : env.OK) (n : env.cfg.Discr) :
    (TBox.dangling env env.enumAlign n).asPtr env = env.enumAlign ∧
    ((TBox.dangling env env.enumAlign n).discriminant env).toNat = n.toNat % 2 ^ env.cfg.freeBits := by
  obtain ⟨p1, p2, p3⟩ := align_lt h h.enumAlign_pow
  have hlt : env.enumAlign < 2 ^ 64 := Nat.lt_of_lt_of_le p2 h.pow_le
  have e : (BitVec.ofNat 64 env.enumAlign).toNat = env.enumAlign := by rw [BitVec.toNat_ofNat, Nat.mod_eq_of_lt hlt]
  constructor
  · simp only [TBox.asPtr, TPtr.asPtr, TBox.dangling, TPtr.dangling, BitVec.toNat_setWidth, h.sane.strip_store, e]
    rw [Nat.mod_eq_of_lt p3, Nat.mod_eq_of_lt p2]
  · simp only [TBox.discriminant, TPtr.discriminant, TBox.dangling, TPtr.dangling, h.sane.fetch_store, e]
    rw [Nat.div_eq_of_lt p3, Nat.zero_or]

/-- The value stored is really there, in the state after the conversion. -/
theorem storeOf_spec (h : env.OK) (hrc : rc.OK) {s : State} (hi : HeapInv env s) {f : Fields} {p : Payload}
    (hp : HasFields rc f p) (n : env.cfg.Discr) :
    (∃ b s', storeOf env rc f p n s = .ret b s' ∧ HeapInv env s' ∧ Extends s s' ∧
      (env.DiscrFits n → (env.debug = true ∨ env.InRange) → b.discriminant env = n ∧
        ∀ sh, f.shape rc = some sh → Holds env s' b sh p.vals n) ∧
      ((f.shape rc = none ∧ s' = s) ∨
       ∃ sh, f.shape rc = some sh ∧ ((sh.size = 0 ∧ s' = s.log (dropEvents sh p.vals)) ∨
         (0 < sh.size ∧ env.alloc s sh.size sh.align ≠ 0 ∧
           s' = boxedState s (env.alloc s sh.size sh.align) sh p.vals)))) ∨
    (∃ sh, f.shape rc = some sh ∧ 0 < sh.size ∧ env.alloc s sh.size sh.align = 0 ∧
      storeOf env rc f p n s =
        .panic .nullAlloc ((s.log [.allocNull sh.size sh.align]).log (dropEvents sh p.vals))) ∨
    (∃ sh, f.shape rc = some sh ∧ 0 < sh.size ∧ env.debug = true ∧ env.alloc s sh.size sh.align ≠ 0 ∧ ∃ k,
      storeOf env rc f p n s = .panic k (boxedState s (env.alloc s sh.size sh.align) sh p.vals) ∧
      ((k = .discriminant ∧ ¬ env.DiscrOK n) ∨
       (k = .pointer ∧ env.DiscrOK n ∧ ¬ env.alloc s sh.size sh.align < 2 ^ env.cfg.ptrWidth))) := by
  unfold storeOf
  cases hsh : f.shape rc with
  | none =>
    left
    refine ⟨_, s, rfl, hi, Extends.refl _, fun hd _ => ⟨?_, fun sh hx => by cases hx⟩, Or.inl ⟨rfl, rfl⟩⟩
    apply BitVec.eq_of_toNat_eq
    rw [(dangling_parts h n).2]
    exact Nat.mod_eq_of_lt hd
  | some sh =>
    rcases new_spec h hi (shape_wf hrc hsh) (shape_has hp hsh) n with
      ⟨b, s', e, hi', he, hh, hs⟩ | ⟨h1, h2, h3⟩ | ⟨h1, h2, h3, h4⟩
    · left
      refine ⟨b, s', e, hi', he, fun hd ho => ⟨(hh hd ho).discr, fun sh' hx => by cases hx; exact hh hd ho⟩,
        Or.inr ⟨sh, rfl, hs⟩⟩
    · right; left
      exact ⟨sh, rfl, h1, h2, h3⟩
    · right; right
      exact ⟨sh, rfl, h1, h2, h3, h4⟩

/-- If `storeOf` returns, so is the situation above. -/
theorem storeOf_ret (h : env.OK) (hrc : rc.OK) {s s' : State} (hi : HeapInv env s) {f : Fields} {p : Payload}
    (hp : HasFields rc f p) {n : env.cfg.Discr} {b : TBox} (hr : storeOf env rc f p n s = .ret b s') :
    HeapInv env s' ∧ Extends s s' ∧
      (env.DiscrFits n → (env.debug = true ∨ env.InRange) → b.discriminant env = n ∧
        ∀ sh, f.shape rc = some sh → Holds env s' b sh p.vals n) := by
  rcases storeOf_spec h hrc hi hp n with ⟨b', s'', e, h1, h2, h3, _⟩ | ⟨_, _, _, _, e⟩ | ⟨_, _, _, _, _, _, e, _⟩
  · rw [e] at hr; cases hr; exact ⟨h1, h2, h3⟩
  · rw [e] at hr; cases hr
  · rw [e] at hr; cases hr

theorem numOf_fits (h8 : env.cfg.discrBits = 8) {i : Nat} (hi : i < 2 ^ env.cfg.freeBits) : env.DiscrFits (numOf env i) := by
  show (numOf env i).toNat < _
  rw [numOf_toNat h8]
  exact Nat.lt_of_le_of_lt (Nat.mod_le _ _) hi

theorem freeBits_le (h : env.OK) (h8 : env.cfg.discrBits = 8) : 2 ^ env.cfg.freeBits ≤ 256 := by
  have key : ∀ c ∈ table, c.discrBits = 8 → 2 ^ c.freeBits ≤ 256 := by decide
  exact key _ h.cfg_mem h8

theorem maxDiscr_u8 (h : env.OK) (h8 : env.cfg.discrBits = 8) : env.cfg.maxDiscr + 1 = 2 ^ env.cfg.freeBits := by
  have key : ∀ c ∈ table, c.discrBits = 8 → c.maxDiscr + 1 = 2 ^ c.freeBits := by decide
  exact key _ h.cfg_mem h8

theorem numOf_ok (h : env.OK) (h8 : env.cfg.discrBits = 8) {i : Nat} (hi : i < 2 ^ env.cfg.freeBits) :
    env.DiscrOK (numOf env i) := by
  show _ ≤ _
  rw [h.sane.le_maxDiscr_iff, numOf_toNat h8]
  have := maxDiscr_u8 h h8
  have := Nat.mod_le i 256
  omega

/-- The box made from a value stores it. -/
theorem into_stores (h : env.OK) (hrc : rc.OK) (h8 : env.cfg.discrBits = 8) (hn : (decl.map (·.name)).Nodup)
    (hms : ∀ d ∈ decl, ∀ ms, d.fields = .record ms → (ms.map (·.1)).Nodup) (har : ArityOK decl)
    {i : Nat} {e : EVal} (hv : IsValue rc decl i e) {s s' : State} (hi : HeapInv env s) {b : TBox}
    (hr : intoTaggedBox env rc (programOf sn en hd decl) e s = .ret b s') :
    HeapInv env s' ∧ Extends s s' ∧
      (i < 2 ^ env.cfg.freeBits → (env.debug = true ∨ env.InRange) → Stores env rc decl s' b i e) := by
  obtain ⟨d, hdi, hvn, hf⟩ := hv
  rw [intoTaggedBox_eq hn hms har hdi hvn hf] at hr
  obtain ⟨s₁, hr', rfl⟩ := cleanup_ret_inv hr
  obtain ⟨h1, h2, h3⟩ := storeOf_ret h hrc hi hf hr'
  refine ⟨h1.log _, h2.trans (Extends.log _ _), fun hlt ho => ?_⟩
  obtain ⟨h4, h5⟩ := h3 (numOf_fits h8 hlt) ho
  have h256 := freeBits_le h h8
  refine ⟨⟨d, hdi, hvn, hf⟩, ?_, fun d' hdi' sh hsh => ?_⟩
  · rw [h4, numOf_toNat h8]; omega
  · rw [hdi] at hdi'; cases hdi'
    rw [h4]
    exact (h5 sh hsh).log (shape_wf hrc hsh) _

/-- The discriminant of the box made, also when the number does not fit. -/
theorem storeOf_discr (h : env.OK) (hrc : rc.OK) {s s' : State} (hi : HeapInv env s) {f : Fields} {p : Payload}
    (hp : HasFields rc f p) {n : env.cfg.Discr} {b : TBox} (ho : env.debug = true ∨ env.InRange)
    (hr : storeOf env rc f p n s = .ret b s') :
    (b.discriminant env).toNat = n.toNat % 2 ^ env.cfg.freeBits := by
  unfold storeOf at hr
  cases hsh : f.shape rc with
  | none =>
    rw [hsh] at hr
    cases hr
    exact (dangling_parts h n).2
  | some sh =>
    rw [hsh] at hr
    change TBox.new env sh p.vals n s = _ at hr
    have hw := shape_wf hrc hsh
    by_cases hz : sh.size = 0
    · rw [new_zst hz] at hr
      cases hr
      obtain ⟨p1, p2, p3⟩ := align_lt h hw.align_pow
      have hlt : sh.align < 2 ^ 64 := Nat.lt_of_lt_of_le p2 h.pow_le
      simp only [TBox.discriminant, TPtr.discriminant, TBox.dangling, TPtr.dangling, h.sane.fetch_store]
      rw [BitVec.toNat_ofNat, Nat.mod_eq_of_lt hlt, Nat.div_eq_of_lt p3, Nat.zero_or]
    · by_cases ha : env.alloc s sh.size sh.align = 0
      · rw [new_null hz ha] at hr; cases hr
      · rw [new_alloc h hz ha] at hr
        obtain ⟨l1, l2, l3⟩ := h.lawful s sh.size sh.align (by omega) ha
        have hlt64 : env.alloc s sh.size sh.align < 2 ^ 64 := by have := h.pow_le; omega
        have eofn : (BitVec.ofNat 64 (env.alloc s sh.size sh.align)).toNat = env.alloc s sh.size sh.align := by
          rw [BitVec.toNat_ofNat, Nat.mod_eq_of_lt hlt64]
        rcases TPtr.new_cases env.cfg env.debug (BitVec.ofNat 64 (env.alloc s sh.size sh.align)) n with
          ⟨e, hx⟩ | ⟨_, ⟨e, _⟩ | ⟨e, _⟩⟩
        · rw [e] at hr
          cases hr
          have hrange : env.alloc s sh.size sh.align < 2 ^ env.cfg.ptrWidth := by
            rcases ho with hdbg | hin
            · have := (h.sane.le_maxPtr_iff _).1 (hx hdbg).2
              rwa [eofn] at this
            · exact hin _ _ _
          simp only [TBox.discriminant, TPtr.discriminant, h.sane.fetch_store, eofn]
          rw [Nat.div_eq_of_lt hrange, Nat.zero_or]
        · rw [e] at hr; cases hr
        · rw [e] at hr; cases hr

/-- A box with a non-zero-sized payload gets a block of its own. -/
theorem storeOf_fresh (h : env.OK) (hrc : rc.OK) {s s' : State} {f : Fields} {p : Payload} {n : env.cfg.Discr} {b : TBox}
    (hd : env.DiscrFits n) (ho : env.debug = true ∨ env.InRange) (hr : storeOf env rc f p n s = .ret b s')
    {sh : Shape} (hsh : f.shape rc = some sh) (hz : 0 < sh.size) :
    (⟨b.asPtr env, sh.size, sh.align⟩ : Block) ∉ s.blocks ∧
      ∀ blk ∈ s.blocks, Block.Disjoint ⟨b.asPtr env, sh.size, sh.align⟩ blk := by
  have hz' : sh.size ≠ 0 := by omega
  unfold storeOf at hr
  rw [hsh] at hr
  change TBox.new env sh p.vals n s = _ at hr
  by_cases ha : env.alloc s sh.size sh.align = 0
  · rw [new_null hz' ha] at hr; cases hr
  · rw [new_alloc h hz' ha] at hr
    obtain ⟨l1, l2, l3⟩ := h.lawful s sh.size sh.align hz ha
    have hlt : env.alloc s sh.size sh.align < 2 ^ env.ptrBits := by omega
    have hlt64 : env.alloc s sh.size sh.align < 2 ^ 64 := by have := h.pow_le; omega
    have eofn : (BitVec.ofNat 64 (env.alloc s sh.size sh.align)).toNat = env.alloc s sh.size sh.align := by
      rw [BitVec.toNat_ofNat, Nat.mod_eq_of_lt hlt64]
    rcases TPtr.new_cases env.cfg env.debug (BitVec.ofNat 64 (env.alloc s sh.size sh.align)) n with
      ⟨e, hx⟩ | ⟨_, ⟨e, _⟩ | ⟨e, _⟩⟩
    · rw [e] at hr
      cases hr
      have hrange : env.alloc s sh.size sh.align < 2 ^ env.cfg.ptrWidth := by
        rcases ho with hdbg | hin
        · have := (h.sane.le_maxPtr_iff _).1 (hx hdbg).2
          rwa [eofn] at this
        · exact hin _ _ _
      obtain ⟨e1, _⟩ := store_parts h hlt hrange hd
      rw [e1]
      refine ⟨fun hm => ?_, l3⟩
      have := l3 _ hm
      simp only [Block.Disjoint] at this
      omega
    · rw [e] at hr; cases hr
    · rw [e] at hr; cases hr

theorem into_fresh (h : env.OK) (hrc : rc.OK) (h8 : env.cfg.discrBits = 8) (hn : (decl.map (·.name)).Nodup)
    (hms : ∀ d ∈ decl, ∀ ms, d.fields = .record ms → (ms.map (·.1)).Nodup) (har : ArityOK decl)
    {i : Nat} {e : EVal} {d : VariantDef} (hdi : decl[i]? = some d) (hv : IsValue rc decl i e) {s s' : State} {b : TBox}
    (hlt : i < 2 ^ env.cfg.freeBits) (ho : env.debug = true ∨ env.InRange)
    (hr : intoTaggedBox env rc (programOf sn en hd decl) e s = .ret b s') {sh : Shape} (hsh : d.fields.shape rc = some sh)
    (hz : 0 < sh.size) :
    (⟨b.asPtr env, sh.size, sh.align⟩ : Block) ∉ s.blocks ∧
      ∀ blk ∈ s.blocks, Block.Disjoint ⟨b.asPtr env, sh.size, sh.align⟩ blk := by
  obtain ⟨d', hdi', hvn, hf⟩ := hv
  rw [hdi] at hdi'; cases hdi'
  rw [intoTaggedBox_eq hn hms har hdi hvn hf] at hr
  obtain ⟨s₁, hr', rfl⟩ := cleanup_ret_inv hr
  exact storeOf_fresh h hrc (numOf_fits h8 hlt) ho hr' hsh hz

end TB.Macro

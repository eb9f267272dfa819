import Verif.DemoMacro

/-!
# Properties of enums and containers generated by `tagged_box!`

`Compiled rc env.cfg sn en hd ts decl P` says: the macro invocation with the variant tokens `ts` compiles, the tokens declare the
variants `decl`, and `P` is the generated code. `IsValue rc decl i e`: `e` is a value of the `i`-th variant.
-/

set_option autoImplicit false

namespace TB.Props

open TB.Macro

variable {env : Env} {rc : Rustc} {sn en : String} {hd : Bool} {ts : List Tok} {decl : List VariantDef} {P : Program}

/-! ## C28 -/

/-- **C28.** The `i`-th declared variant is stored under discriminant `i`; and whatever box the generated functions are given,
the value they produce is of the variant whose position is the box's discriminant. (`ref_from_tagged_box` is the third
conjunct: its result depends on the callback only through such values.) -/
theorem C28_numbering (h : env.OK) (hrc : rc.OK) (hc : Compiled rc env.cfg sn en hd ts decl P) :
    (∀ i e s b s', IsValue rc decl i e → i < 2 ^ env.cfg.freeBits → (env.debug = true ∨ env.InRange) → HeapInv env s →
      containerFrom env rc P e s = .ret b s' → (b.discriminant env).toNat = i) ∧
    (∀ b s e s', containerIntoInner env rc P b s = .ret e s' ∨ fromTaggedBox env rc P b s = .ret e s' →
      decl[(b.discriminant env).toNat]?.map (·.name) = some e.variant) ∧
    (∀ b (β : Type) (f g : EVal → M β),
      (∀ e, decl[(b.discriminant env).toNat]?.map (·.name) = some e.variant → f e = g e) →
      (taggable env rc P).refFrom b f = (taggable env rc P).refFrom b g) := by
  obtain ⟨hw, rfl⟩ := hc.wf
  refine ⟨fun i e s b s' hv hlt ho hi hr => ?_, fun b s e s' hr => ?_, fun b β f g hfg => ?_⟩
  · exact ((into_stores h hrc hw.u8 hw.names hw.members hw.arity hv hi hr).2.2 hlt ho).discr
  · have : ∃ c, firstRead env rc (programOf sn en hd decl) b (decl.map (readArmOf c)) s = .ret e s' := by
      rcases hr with hr | hr
      · exact ⟨true, hr⟩
      · exact ⟨false, hr⟩
    obtain ⟨c, hr⟩ := this
    rw [firstRead_eq hw.u8 hw.names] at hr
    split at hr
    · rename_i d hd'
      rw [hd', Option.map_some, readArm_variant hr]
      rfl
    · cases hr
  · show firstRef env rc _ b f (decl.map refArmOf) = firstRef env rc _ b g (decl.map refArmOf)
    rw [firstRef_eq hw.u8 hw.names, firstRef_eq hw.u8 hw.names]
    split
    · rename_i d hd'
      funext s
      simp only [M.bind_def]
      split
      · rename_i p s' hr
        have := refArm_variant hr
        rw [hfg p.1 (by rw [hd', Option.map_some, this]; rfl)]
      · rfl
      · rfl
    · rfl

/-- Non-vacuity: a declaration with all kinds of variants, at the default width. -/
example : Compiled rcDemo (env60 true).cfg "Container" "Item" false toksMix declMix progMix ∧
    IsValue rcDemo declMix 1 ⟨"Pair", .tuple [[some 7#8], [some 1#8, some 2#8, some 3#8, some 4#8]]⟩ ∧
    ∃ b s', containerFrom (env60 true) rcDemo progMix
      ⟨"Pair", .tuple [[some 7#8], [some 1#8, some 2#8, some 3#8, some 4#8]]⟩ state0 = .ret b s' ∧
      (b.discriminant (env60 true)).toNat = 1 :=
  ⟨mix_compiled true, ⟨_, rfl, rfl, ⟨rfl, by decide⟩, ⟨rfl, by decide⟩, trivial⟩, _, _, rfl, rfl⟩

/-! ## C29 -/

/-- **C29.** For every value of a declared enum whose variant number fits the discriminant, `Container::from` either panics, and
then only because the allocator returned null or (debug builds) an address outside the reserved width, leaving what was on the heap as it was,
or returns a container from which `into_inner` returns exactly that value, then and in every later state in which the heap blocks alive now are
alive and unchanged. -/
theorem C29_container_roundtrip (h : env.OK) (hrc : rc.OK) (hc : Compiled rc env.cfg sn en hd ts decl P)
    {i : Nat} {e : EVal} (hv : IsValue rc decl i e) (hlt : i < 2 ^ env.cfg.freeBits)
    (ho : env.debug = true ∨ env.InRange) {s : State} (hi : HeapInv env s) :
    (∃ b s', containerFrom env rc P e s = .ret b s' ∧ HeapInv env s' ∧ Extends s s' ∧
      ∀ s'', Extends s' s'' → containerIntoInner env rc P b s'' = .ret e s'') ∨
    (∃ s', containerFrom env rc P e s = .panic .nullAlloc s' ∧ HeapInv env s' ∧ Extends s s' ∧ s'.blocks = s.blocks ∧
      ∃ size align, env.alloc s size align = 0 ∧ .allocNull size align ∈ s'.trace.drop s.trace.length) ∨
    (∃ s', containerFrom env rc P e s = .panic .pointer s' ∧ HeapInv env s' ∧ Extends s s' ∧ env.debug = true ∧
      ∃ size align, 2 ^ env.cfg.ptrWidth ≤ env.alloc s size align) := by
  obtain ⟨hw, rfl⟩ := hc.wf
  obtain ⟨d, hdi, hvn, hf⟩ := id hv
  have heq := intoTaggedBox_eq (env := env) (sn := sn) (en := en) (hd := hd) hw.names hw.members hw.arity hdi hvn hf
  rcases storeOf_spec h hrc hi hf (numOf env i) with ⟨b, s', e1, _⟩ | ⟨sh, h1, h2, h3, e1⟩ | ⟨sh, h1, h2, h3, h4, k, e1, h5⟩
  · left
    have hr : containerFrom env rc (programOf sn en hd decl) e s = .ret b (s'.log (convertDrops hd e)) := by
      show intoTaggedBox env rc _ e s = _
      rw [heq]; exact cleanup_ret e1
    obtain ⟨i1, i2, i3⟩ := into_stores h hrc hw.u8 hw.names hw.members hw.arity hv hi hr
    refine ⟨b, _, hr, i1, i2, fun s'' he => ?_⟩
    exact containerIntoInner_stores hw.u8 hw.names hw.members ((i3 hlt ho).mono hrc he)
  · right; left
    refine ⟨_, by show intoTaggedBox env rc _ e s = _; rw [heq]; exact cleanup_panic e1, ((hi.log _).log _).log _,
      ((Extends.log _ _).trans (Extends.log _ _)).trans (Extends.log _ _), rfl, sh.size, sh.align, h3, ?_⟩
    simp [State.log]
  · right; right
    rcases h5 with ⟨_, h5⟩ | ⟨rfl, _, h5⟩
    · exact absurd (numOf_ok h hw.u8 hlt) h5
    · exact ⟨_, by show intoTaggedBox env rc _ e s = _; rw [heq]; exact cleanup_panic e1, (boxedState_inv h hi (by omega) h4).log _,
        (boxedState_extends h (shape_wf hrc h1) (shape_has hf h1) (by omega) h4).trans (Extends.log _ _), h3, sh.size, sh.align, by omega⟩

/-- Non-vacuity: the round trip of a two-field variant, executed. -/
example : ∃ b s', containerFrom (env60 false) rcDemo progMix
      ⟨"Rec", .record [("x", List.replicate 8 (some 9#8)), ("y", [some 1#8])]⟩ state0 = .ret b s' ∧
    containerIntoInner (env60 false) rcDemo progMix b s' =
      .ret ⟨"Rec", .record [("x", List.replicate 8 (some 9#8)), ("y", [some 1#8])]⟩ s' :=
  ⟨_, _, rfl, rfl⟩

/-! ## C30 -/

/-- **C30** in part: `from_tagged_box(into_tagged_box(e))` is `e`, then and in every later state that keeps the heap, for values of
unit, single-field, empty-tuple and struct variants, and for values of other tuple variants provided rustc lays out the tuple
type `(T, ..)` like the `repr(C)` structure. Missing: multi-field tuple variants without the layout assumption, for which the
claim is false (`C30_refuted`). -/
theorem C30_partial (h : env.OK) (hrc : rc.OK) (hc : Compiled rc env.cfg sn en hd ts decl P)
    {i : Nat} {e : EVal} {d : VariantDef} (hdi : decl[i]? = some d) (hv : IsValue rc decl i e)
    (hlt : i < 2 ^ env.cfg.freeBits) (ho : env.debug = true ∨ env.InRange)
    (ha : ∀ tys, d.fields = .tuple tys → 2 ≤ tys.length → env.tuple (tys.map rc.leaf) = reprC (tys.map rc.leaf))
    {s : State} (hi : HeapInv env s) {b : TBox} {s' : State} (hr : intoTaggedBox env rc P e s = .ret b s') :
    ∀ s'', Extends s' s'' → fromTaggedBox env rc P b s'' = .ret e s'' := by
  obtain ⟨hw, rfl⟩ := hc.wf
  intro s'' he
  refine fromTaggedBox_stores hw.u8 hw.names hw.members
    (((into_stores h hrc hw.u8 hw.names hw.members hw.arity hv hi hr).2.2 hlt ho).mono hrc he) hdi ?_
  intro t t' ts hf
  exact ha _ hf (by simp)

/-- **C30** as stated is false: for `Pair(u8, u32)`, with the tuple layout that rustc chooses (the `u32` first), reading back with the
safe function `from_tagged_box` is undefined behaviour, in debug and release builds; the container's `into_inner` returns
the value. -/
theorem C30_refuted : ∃ (env : Env) (rc : Rustc) (ts : List Tok) (decl : List VariantDef) (P : Program) (e : EVal) (b : TBox)
    (s' : State), env.OK ∧ env.InRange ∧ rc.OK ∧ Compiled rc env.cfg "Container" "Item" false ts decl P ∧ IsValue rc decl 1 e ∧
    intoTaggedBox env rc P e state0 = .ret b s' ∧ fromTaggedBox env rc P b s' = .ub .badValue ∧
    containerIntoInner env rc P b s' = .ret e s' :=
  ⟨env60rev true, rcDemo, toksMix, declMix, progMix,
    ⟨"Pair", .tuple [[some 7#8], [some 1#8, some 2#8, some 3#8, some 4#8]]⟩, _, _, env60rev_ok _, env60rev_inRange _, rcDemo_ok,
    mix_compiled true, ⟨_, rfl, rfl, ⟨rfl, by decide⟩, ⟨rfl, by decide⟩, trivial⟩, rfl, rfl, rfl⟩

/-! ## C31 -/

/-- **C31.** For a box made from `e`, now and in every later state that keeps the heap, `ref_from_tagged_box(&b, f)` calls `f` exactly
once, with `e`, in the current state, and ends as `f` does, with `f`'s final state; the only thing it may add is the enum's own
destructor (see C32), and nothing at all if the enum has none. -/
theorem C31_ref_presents (h : env.OK) (hrc : rc.OK) (hc : Compiled rc env.cfg sn en hd ts decl P)
    {i : Nat} {e : EVal} (hv : IsValue rc decl i e) (hlt : i < 2 ^ env.cfg.freeBits) (ho : env.debug = true ∨ env.InRange)
    {s : State} (hi : HeapInv env s) {b : TBox} {s' : State} (hr : intoTaggedBox env rc P e s = .ret b s') :
    ∀ s'', Extends s' s'' → ∃ es, Presents (taggable env rc P) s'' b e es ∧ (hd = false → es = []) ∧
      (es = [] ∨ es = [.dropEnum e.variant]) := by
  obtain ⟨hw, rfl⟩ := hc.wf
  intro s'' he
  obtain ⟨d, hdi, hvn, hf⟩ := id hv
  refine ⟨observeDrops hd d, presents_stores hw.u8 hw.names hw.members
    (((into_stores h hrc hw.u8 hw.names hw.members hw.arity hv hi hr).2.2 hlt ho).mono hrc he) hdi, fun h0 => ?_, ?_⟩
  · subst h0; unfold observeDrops; split <;> rfl
  · unfold observeDrops
    rw [hvn]
    split
    · cases hd
      · exact Or.inl rfl
      · exact Or.inr rfl
    · exact Or.inl rfl

/-- Non-vacuity: observing a two-field variant with a callback that returns what it is given. -/
example : ∃ b s', intoTaggedBox (env60 true) rcDemo progMix
      ⟨"Pair", .tuple [[some 7#8], [some 1#8, some 2#8, some 3#8, some 4#8]]⟩ state0 = .ret b s' ∧
    (taggable (env60 true) rcDemo progMix).refFrom b (fun e => pure e) s' =
      .ret (some ⟨"Pair", .tuple [[some 7#8], [some 1#8, some 2#8, some 3#8, some 4#8]]⟩) s' :=
  ⟨_, _, rfl, rfl⟩

/-! ## C32 -/

/-- **C32** in part: if the enum does not implement `Drop`, or the variant is not a unit variant, observing a box runs no destructor
besides what the callback itself does, also if the callback panics: the outcome and final state are exactly the callback's.
Missing: unit variants of enums that implement `Drop`, for which the claim is false (`C32_refuted`). -/
theorem C32_partial (h : env.OK) (hrc : rc.OK) (hc : Compiled rc env.cfg sn en hd ts decl P)
    {i : Nat} {e : EVal} {d : VariantDef} (hdi : decl[i]? = some d) (hv : IsValue rc decl i e)
    (hlt : i < 2 ^ env.cfg.freeBits) (ho : env.debug = true ∨ env.InRange) (hu : hd = false ∨ d.fields ≠ .unit)
    {s : State} (hi : HeapInv env s) {b : TBox} {s' : State} (hr : intoTaggedBox env rc P e s = .ret b s')
    {s'' : State} (he : Extends s' s'') (β : Type) (f : EVal → M β) :
    (taggable env rc P).refFrom b f s'' = match f e s'' with
      | .ret r t => .ret (some r) t
      | .panic k t => .panic k t
      | .ub k => .ub k := by
  obtain ⟨hw, rfl⟩ := hc.wf
  have hp := presents_stores (sn := sn) (en := en) (hd := hd) hw.u8 hw.names hw.members
    (((into_stores h hrc hw.u8 hw.names hw.members hw.arity hv hi hr).2.2 hlt ho).mono hrc he) hdi
  have h0 : observeDrops hd d = [] := by
    unfold observeDrops
    rcases hu with rfl | hu
    · split <;> rfl
    · split
      · rename_i e; exact absurd e hu
      · rfl
  rw [hp, h0, cleanup_nil, M.bind_def]
  cases f e s'' <;> rfl

/-- **C32** as stated is false: an enum with a `Drop` implementation has it run each time a unit variant is merely observed, also if
the callback panics. -/
theorem C32_refuted : ∃ (env : Env) (rc : Rustc) (ts : List Tok) (decl : List VariantDef) (P : Program) (e : EVal) (b : TBox)
    (s' : State), env.OK ∧ env.InRange ∧ rc.OK ∧ Compiled rc env.cfg "Container" "Item" true ts decl P ∧ IsValue rc decl 0 e ∧
    intoTaggedBox env rc P e state0 = .ret b s' ∧
    (taggable env rc P).refFrom b (fun _ => (pure () : M Unit)) s' = .ret (some ()) (s'.log [.dropEnum e.variant]) ∧
    (taggable env rc P).refFrom b (fun _ => (M.panic (.user 0) : M Unit)) s' = .panic (.user 0) (s'.log [.dropEnum e.variant]) :=
  ⟨env60 true, rcDemo, toksUnits 2, declUnits 2, _, ⟨unitName 0, .unit⟩, _, _, env60_ok _, env60_inRange _, rcDemo_ok,
    units_compiled rfl true (by decide), units_value (by decide), rfl, rfl, rfl⟩

/-! ## C33 -/

/-- **C33.** A value that was converted is read back as itself if and only if its variant's number fits the discriminant bits. -/
theorem C33_capacity (h : env.OK) (hrc : rc.OK) (hc : Compiled rc env.cfg sn en hd ts decl P)
    {i : Nat} {e : EVal} (hv : IsValue rc decl i e) (ho : env.debug = true ∨ env.InRange)
    {s : State} (hi : HeapInv env s) {b : TBox} {s' : State} (hr : containerFrom env rc P e s = .ret b s') :
    (∃ s'', containerIntoInner env rc P b s' = .ret e s'') ↔ i < 2 ^ env.cfg.DISCRIMINANT_BITS := by
  obtain ⟨d, hdi, hvn, hf⟩ := id hv
  constructor
  · rintro ⟨s'', hx⟩
    have h1 := (C28_numbering h hrc hc).2.1 b s' e s'' (Or.inl hx)
    obtain ⟨hw, rfl⟩ := hc.wf
    have hlt := discr_lt h b
    cases hg : decl[(b.discriminant env).toNat]? with
    | none => rw [hg] at h1; cases h1
    | some d' =>
      rw [hg] at h1
      simp only [Option.map_some, Option.some.injEq] at h1
      have e1 : (decl.map (·.name)).idxOf d'.name = (b.discriminant env).toNat := idxOf_get hw.names (by simp [hg])
      have e2 : (decl.map (·.name)).idxOf d.name = i := idxOf_get hw.names (by simp [hdi])
      rw [h1, hvn, e2] at e1
      rw [e1]
      exact hlt
  · intro hlt
    rcases C29_container_roundtrip h hrc hc hv hlt ho hi with ⟨b', t, e1, _, _, e2⟩ | ⟨t, e1, _⟩ | ⟨t, e1, _⟩
    · rw [e1] at hr; cases hr
      exact ⟨_, e2 _ (Extends.refl _)⟩
    · rw [e1] at hr; cases hr
    · rw [e1] at hr; cases hr

/-- Memory for the payload of the `i`-th variant can be had in `s`. -/
def RoomFor (env : Env) (rc : Rustc) (decl : List VariantDef) (i : Nat) (s : State) : Prop :=
  ∀ d sh, decl[i]? = some d → d.fields.shape rc = some sh → env.alloc s sh.size sh.align ≠ 0

/-- **C33.** An enum whose variants all have values for which there can be memory round-trips all its values, from every heap in which there is memory
for them, if and only if it has at most `2^DISCRIMINANT_BITS` variants. -/
theorem C33_enum (h : env.OK) (hrc : rc.OK) (hc : Compiled rc env.cfg sn en hd ts decl P) (ho : env.InRange)
    (hne : ∀ i < decl.length, ∃ e s, IsValue rc decl i e ∧ HeapInv env s ∧ RoomFor env rc decl i s) :
    (∀ i e s, IsValue rc decl i e → HeapInv env s → RoomFor env rc decl i s →
      ∃ b s' s'', containerFrom env rc P e s = .ret b s' ∧ containerIntoInner env rc P b s' = .ret e s'') ↔
    decl.length ≤ 2 ^ env.cfg.DISCRIMINANT_BITS := by
  constructor
  · intro H
    refine Nat.not_lt.1 fun hlt => ?_
    obtain ⟨e, s, hv, hi, hr⟩ := hne _ hlt
    obtain ⟨b, s', s'', e1, e2⟩ := H _ e s hv hi hr
    exact absurd ((C33_capacity h hrc hc hv (Or.inr ho) hi e1).1 ⟨s'', e2⟩) (Nat.lt_irrefl _)
  · intro hl i e s hv hi hr
    have hlt : i < 2 ^ env.cfg.DISCRIMINANT_BITS := by
      obtain ⟨d, hdi, _⟩ := hv
      exact Nat.lt_of_lt_of_le (List.getElem?_eq_some_iff.1 hdi).1 hl
    obtain ⟨hw, rfl⟩ := hc.wf
    obtain ⟨d, hdi, hvn, hf⟩ := id hv
    have heq := intoTaggedBox_eq (env := env) (sn := sn) (en := en) (hd := hd) hw.names hw.members hw.arity hdi hvn hf
    rcases C29_container_roundtrip h hrc hc hv hlt (Or.inr ho) hi with ⟨b, s', e1, _, _, e2⟩ | ⟨s', e1, _⟩ | ⟨s', e1, _, _, _, sz, al, h3⟩
    · exact ⟨b, s', s', e1, e2 s' (Extends.refl _)⟩
    · exfalso
      have e1' : intoTaggedBox env rc (programOf sn en hd decl) e s = .panic .nullAlloc s' := e1
      rw [heq] at e1'
      rcases storeOf_spec h hrc hi hf (numOf env i) with ⟨_, _, e3, _⟩ | ⟨sh, hsh, _, h0, _⟩ | ⟨sh, hsh, _, _, _, k, e3, hk⟩
      · rw [cleanup_ret e3] at e1'; cases e1'
      · exact hr d sh hdi hsh h0
      · rw [cleanup_panic e3] at e1'
        cases e1'
        rcases hk with ⟨hk, _⟩ | ⟨hk, _⟩ <;> cases hk
    · exact absurd (ho s sz al) (Nat.not_lt.2 h3)

/-- Corollary: with at most `2^DISCRIMINANT_BITS` variants everything round-trips. -/
theorem C33_all_fit {n : Nat} (hn : decl.length ≤ 2 ^ n) {i : Nat} {e : EVal} (hv : IsValue rc decl i e) : i < 2 ^ n := by
  obtain ⟨d, hdi, _⟩ := hv
  have := (List.getElem?_eq_some_iff.1 hdi).1
  omega

/-- Non-vacuity on both sides of the border, at the default width (4 bits). -/
example : (∃ b s', containerFrom (env60 true) rcDemo (programOf "Container" "Item" false (declUnits 17)) ⟨unitName 15, .unit⟩ state0
      = .ret b s') ∧
    (∃ b s', containerFrom (env60 true) rcDemo (programOf "Container" "Item" false (declUnits 17)) ⟨unitName 16, .unit⟩ state0
      = .ret b s') := ⟨⟨_, _, rfl⟩, ⟨_, _, rfl⟩⟩

/-- Every variant of these enums has a value, and needs no memory: at the default width 16 of them are fine and 17 are not. -/
example (debug : Bool) {n : Nat} (hn : 0 < n) :
    (∀ i e s, IsValue rcDemo (declUnits n) i e → HeapInv (env60 debug) s → RoomFor (env60 debug) rcDemo (declUnits n) i s →
      ∃ b s' s'', containerFrom (env60 debug) rcDemo (programOf "Container" "Item" true (declUnits n)) e s = .ret b s' ∧
        containerIntoInner (env60 debug) rcDemo (programOf "Container" "Item" true (declUnits n)) b s' = .ret e s'') ↔ n ≤ 16 := by
  have h := C33_enum (env60_ok debug) rcDemo_ok (units_compiled (cfg := (env60 debug).cfg) rfl true hn) (env60_inRange debug) fun i hi =>
    ⟨_, state0, units_value (by simpa [declUnits] using hi), state0_inv _, fun d sh h1 h2 => by
      obtain ⟨j, _, rfl⟩ := List.mem_map.1 (List.mem_of_getElem? h1)
      cases h2⟩
  rwa [show (declUnits n).length = n by simp [declUnits]] at h

/-! ## C34 -/

/-- **C34** in part: in a debug build, converting a value whose variant's number `i` exceeds the discriminant bits, but not a byte, and whose
payload is not zero-sized, panics. Missing: unit variants, empty tuple variants, zero-sized payloads, release builds, and numbers
above 255, for all of which the claim is false (`C34_refuted`, `C34_wraps`). -/
theorem C34_partial (h : env.OK) (hc : Compiled rc env.cfg sn en hd ts decl P)
    {i : Nat} {e : EVal} {d : VariantDef} (hdi : decl[i]? = some d) (hv : IsValue rc decl i e)
    (hge : 2 ^ env.cfg.DISCRIMINANT_BITS ≤ i) (h256 : i < 256) (hdbg : env.debug = true)
    {sh : Shape} (hsh : d.fields.shape rc = some sh) (hz : 0 < sh.size) (s : State) :
    ∃ k s', containerFrom env rc P e s = .panic k s' ∧ (k = .nullAlloc ∨ k = .discriminant) := by
  obtain ⟨hw, rfl⟩ := hc.wf
  obtain ⟨d', hdi', hvn, hf⟩ := hv
  rw [hdi] at hdi'; cases hdi'
  have heq := intoTaggedBox_eq (env := env) (sn := sn) (en := en) (hd := hd) hw.names hw.members hw.arity hdi hvn hf
  have hbad : ¬ env.DiscrOK (numOf env i) := by
    show ¬ _ ≤ _
    rw [h.sane.le_maxDiscr_iff, numOf_toNat hw.u8]
    have := maxDiscr_u8 h hw.u8
    have : i % 256 = i := Nat.mod_eq_of_lt h256
    have : 2 ^ env.cfg.freeBits ≤ i := hge
    omega
  show ∃ k s', intoTaggedBox env rc _ e s = _ ∧ _
  rw [heq]
  have hst : storeOf env rc d.fields e.payload (numOf env i) = TBox.new env sh e.payload.vals (numOf env i) := by
    unfold storeOf; rw [hsh]
  rw [hst]
  by_cases ha : env.alloc s sh.size sh.align = 0
  · exact ⟨_, _, cleanup_panic (new_null (by omega) ha), Or.inl rfl⟩
  · have hn := new_alloc h (v := e.payload.vals) (d := numOf env i) (s := s) (by omega) ha
    have : TPtr.new env.cfg env.debug (BitVec.ofNat 64 (env.alloc s sh.size sh.align)) (numOf env i) = .error .discriminant := by
      rcases TPtr.new_cases env.cfg env.debug (BitVec.ofNat 64 (env.alloc s sh.size sh.align)) (numOf env i) with
        ⟨_, h2⟩ | ⟨_, ⟨h2, _⟩ | ⟨_, h2, _⟩⟩
      · exact absurd (h2 hdbg).1 hbad
      · exact h2
      · exact absurd h2 hbad
    rw [this] at hn
    exact ⟨_, _, cleanup_panic hn, Or.inr rfl⟩

/-- What happens otherwise, for every declaration: if the conversion returns, the number is stored modulo `2^DISCRIMINANT_BITS`, so
a variant whose number does not fit is silently taken for the one numbered `i mod 2^DISCRIMINANT_BITS`. -/
theorem C34_wraps (h : env.OK) (hrc : rc.OK) (hc : Compiled rc env.cfg sn en hd ts decl P)
    {i : Nat} {e : EVal} (hv : IsValue rc decl i e) (ho : env.debug = true ∨ env.InRange)
    {s : State} (hi : HeapInv env s) {b : TBox} {s' : State} (hr : containerFrom env rc P e s = .ret b s') :
    (b.discriminant env).toNat = i % 2 ^ env.cfg.DISCRIMINANT_BITS := by
  obtain ⟨hw, rfl⟩ := hc.wf
  obtain ⟨d, hdi, hvn, hf⟩ := hv
  have hr' : intoTaggedBox env rc (programOf sn en hd decl) e s = .ret b s' := hr
  rw [intoTaggedBox_eq hw.names hw.members hw.arity hdi hvn hf] at hr'
  obtain ⟨s₁, hr₁, _⟩ := cleanup_ret_inv hr'
  rw [storeOf_discr h hrc hi hf ho hr₁, numOf_toNat hw.u8]
  have key : ∀ c ∈ table, c.discrBits = 8 → 2 ^ c.freeBits ∣ 256 := by decide
  exact Nat.mod_mod_of_dvd _ (key _ h.cfg_mem hw.u8)

/-- **C34** as stated is false: with one payload variant and 16 unit variants at the default width, in debug and release builds, the last
unit variant converts without complaint, and reading it back is undefined behaviour, using safe functions only; with 17 unit
variants it is read back as the first one. -/
theorem C34_refuted (debug : Bool) :
    (∃ b s', containerFrom (env60 debug) rcDemo (programOf "Container" "Item" false (declNum 16)) ⟨unitName 15, .unit⟩ state0
        = .ret b s' ∧
      containerIntoInner (env60 debug) rcDemo (programOf "Container" "Item" false (declNum 16)) b s' = .ub .badPointer ∧
      fromTaggedBox (env60 debug) rcDemo (programOf "Container" "Item" false (declNum 16)) b s' = .ub .badPointer) ∧
    Compiled rcDemo (env60 debug).cfg "Container" "Item" false (toksNum 16) (declNum 16)
      (programOf "Container" "Item" false (declNum 16)) ∧
    IsValue rcDemo (declNum 16) 16 ⟨unitName 15, .unit⟩ ∧
    (∃ b s', containerFrom (env60 debug) rcDemo (programOf "Container" "Item" false (declUnits 17)) ⟨unitName 16, .unit⟩ state0
        = .ret b s' ∧
      containerIntoInner (env60 debug) rcDemo (programOf "Container" "Item" false (declUnits 17)) b s' =
        .ret ⟨unitName 0, .unit⟩ s') ∧
    Compiled rcDemo (env60 debug).cfg "Container" "Item" false (toksUnits 17) (declUnits 17)
      (programOf "Container" "Item" false (declUnits 17)) ∧
    IsValue rcDemo (declUnits 17) 16 ⟨unitName 16, .unit⟩ :=
  ⟨by cases debug <;> exact ⟨_, _, rfl, rfl, rfl⟩, num_compiled rfl 16 (by decide), ⟨⟨unitName 15, .unit⟩, rfl, rfl, trivial⟩,
    by cases debug <;> exact ⟨_, _, rfl, rfl⟩, units_compiled rfl false (by decide), units_value (by decide)⟩

/-! ## C35 -/

/-- **C35.** On a box whose discriminant is not the number of a variant, all three readers panic, in the state they were called in (no
memory is touched, nothing is dropped), and the callback is not called. -/
theorem C35_unknown_discriminant (hc : Compiled rc env.cfg sn en hd ts decl P) (b : TBox)
    (hb : decl.length ≤ (b.discriminant env).toNat) (s : State) :
    containerIntoInner env rc P b s = .panic .noVariant s ∧
    fromTaggedBox env rc P b s = .panic .noVariant s ∧
    ∀ (β : Type) (f : EVal → M β), (taggable env rc P).refFrom b f s = .panic .noVariant s := by
  obtain ⟨hw, rfl⟩ := hc.wf
  have hnone : decl[(b.discriminant env).toNat]? = none := List.getElem?_eq_none hb
  refine ⟨?_, ?_, fun β f => ?_⟩
  · show firstRead env rc _ b (decl.map (readArmOf true)) s = _
    rw [firstRead_eq hw.u8 hw.names, hnone]; rfl
  · show firstRead env rc _ b (decl.map (readArmOf false)) s = _
    rw [firstRead_eq hw.u8 hw.names, hnone]; rfl
  · show firstRef env rc _ b f (decl.map refArmOf) s = _
    rw [firstRef_eq hw.u8 hw.names, hnone]; rfl

/-- Non-vacuity: discriminant 9 on an enum with 4 variants. -/
example : declMix.length ≤ ((TBox.dangling (env60 true) 8 (9#8 : BitVec 8)).discriminant (env60 true)).toNat := by decide

/-! ## C36 -/

/-- **C36** in part: on boxes made by the generated `into_tagged_box` of the same enum, with variant numbers that fit and the tuple layout
assumption of C30, the safe `from_tagged_box` has no undefined behaviour. Missing: boxes made by other safe means, for which the claim is
false (`C36_refuted`). -/
theorem C36_partial (h : env.OK) (hrc : rc.OK) (hc : Compiled rc env.cfg sn en hd ts decl P)
    {i : Nat} {e : EVal} {d : VariantDef} (hdi : decl[i]? = some d) (hv : IsValue rc decl i e)
    (hlt : i < 2 ^ env.cfg.freeBits) (ho : env.debug = true ∨ env.InRange)
    (ha : ∀ tys, d.fields = .tuple tys → 2 ≤ tys.length → env.tuple (tys.map rc.leaf) = reprC (tys.map rc.leaf))
    {s : State} (hi : HeapInv env s) :
    match intoTaggedBox env rc P e s with
    | .ret b s' => ∀ s'', Extends s' s'' → ∀ k, fromTaggedBox env rc P b s'' ≠ .ub k
    | .panic _ _ => True
    | .ub _ => False := by
  rcases C29_container_roundtrip h hrc hc hv hlt ho hi with ⟨b, s', e1, _, _, _⟩ | ⟨s', e1, _⟩ | ⟨s', e1, _⟩
  · have e1' : intoTaggedBox env rc P e s = .ret b s' := e1
    rw [e1']
    intro s'' he k
    rw [C30_partial h hrc hc hdi hv hlt ho ha hi e1' s'' he]
    exact fun hx => by cases hx
  · have e1' : intoTaggedBox env rc P e s = .panic .nullAlloc s' := e1
    rw [e1']; trivial
  · have e1' : intoTaggedBox env rc P e s = .panic .pointer s' := e1
    rw [e1']; trivial

/-- **C36** as stated is false: `TaggedBox::<Item>::new::<u8>(0, 2)` and `Item::from_tagged_box` are both safe; for `Item::Heap(Owned)` (variant 2)
the second reads a pointer out of a one-byte allocation. Likewise for `TaggedBox::<Item>::dangling`. -/
theorem C36_refuted (debug : Bool) : Compiled rcDemo (env60 debug).cfg "Container" "Item" false toksMix declMix progMix ∧
    (∃ b s', TBox.new (env60 debug) u8L.shape [[some 0#8]] (2#8 : BitVec 8) state0 = .ret b s' ∧
      fromTaggedBox (env60 debug) rcDemo progMix b s' = .ub .badPointer) ∧
    fromTaggedBox (env60 debug) rcDemo progMix (TBox.dangling (env60 debug) 8 (2#8 : BitVec 8)) state0 = .ub .badPointer :=
  ⟨mix_compiled debug, by cases debug <;> exact ⟨_, _, rfl, rfl⟩, by cases debug <;> rfl⟩

/-! ## C48 -/

/-- **C48.** If the callback given to `ref_from_tagged_box` panics, the panic propagates; as long as the callback itself has not touched the
heap blocks that were alive, the box can be observed again with the same result, and taken apart. Nothing has been freed, and nothing
dropped except as in C32. -/
theorem C48_panicking_observer (h : env.OK) (hrc : rc.OK) (hc : Compiled rc env.cfg sn en hd ts decl P)
    {i : Nat} {e : EVal} {d : VariantDef} (hdi : decl[i]? = some d) (hv : IsValue rc decl i e)
    (hlt : i < 2 ^ env.cfg.freeBits) (ho : env.debug = true ∨ env.InRange)
    {s : State} (hi : HeapInv env s) {b : TBox} {s' : State} (hr : intoTaggedBox env rc P e s = .ret b s')
    (β : Type) (f : EVal → M β) {k : PanicKind} {t : State} (hf : f e s' = .panic k t) (ht : Extends s' t) :
    ∃ t', (taggable env rc P).refFrom b f s' = .panic k t' ∧ t'.mem = t.mem ∧ t'.blocks = t.blocks ∧
      (hd = false ∨ d.fields ≠ .unit → t' = t) ∧
      containerIntoInner env rc P b t' = .ret e t' ∧
      ∃ es, Presents (taggable env rc P) t' b e es := by
  obtain ⟨es, hp, h0, h1⟩ := C31_ref_presents h hrc hc hv hlt ho hi hr s' (Extends.refl _)
  have hpan : (taggable env rc P).refFrom b f s' = .panic k (t.log es) := by
    rw [hp]; exact cleanup_panic (M.bind_of_panic hf)
  have hext : Extends s' (t.log es) := ht.trans (Extends.log _ _)
  refine ⟨t.log es, hpan, rfl, rfl, fun hu => ?_, ?_, ?_⟩
  · have := C32_partial h hrc hc hdi hv hlt ho hu hi hr (Extends.refl s') β f
    rw [hf, hpan] at this
    injection this
  · rcases C29_container_roundtrip h hrc hc hv hlt ho hi with ⟨b', s1, e1, _, _, e2⟩ | ⟨s1, e1, _⟩ | ⟨s1, e1, _⟩
    · have e1' : intoTaggedBox env rc P e s = .ret b' s1 := e1
      rw [e1'] at hr; cases hr
      exact e2 _ hext
    · have e1' : intoTaggedBox env rc P e s = .panic .nullAlloc s1 := e1
      rw [e1'] at hr; cases hr
    · have e1' : intoTaggedBox env rc P e s = .panic .pointer s1 := e1
      rw [e1'] at hr; cases hr
  · obtain ⟨es', hp', _⟩ := C31_ref_presents h hrc hc hv hlt ho hi hr _ hext
    exact ⟨es', hp'⟩

end TB.Props

import Verif.Props.Box
import Verif.Props.Observe

/-!
# Boxes made by `tagged_box!` used through the functions of `TaggedBox`

`Item::into_tagged_box` returns a `TaggedBox<Item>`, on which `as_ref::<U>`, `as_mut_ref::<U>`, `into_box::<U>`, .. can be called with a
type `U` of the caller's choice. Here `U` is the payload type of the variant: the type of the field of a tuple variant with one field,
otherwise a `repr(C)` structure of the caller's with the same fields in the same order (`Fields.shape`).
-/

set_option autoImplicit false

namespace TB.Props

open TB.Macro

variable {env : Env} {rc : Rustc} {sn en : String} {hd : Bool} {ts : List Tok} {decl : List VariantDef} {P : Program}

/-! ## C70 -/

/-- **C70**, making: `Item::V(x).into_tagged_box()` is `TaggedBox::<Item>::new::<U>(x, i)` for the `i`-th variant, for all heaps, also where
these panic; only the enum's own destructor, if it has one, runs in addition. -/
theorem C70_make (h : env.OK) (hc : Compiled rc env.cfg sn en hd ts decl P) {i : Nat} {e : EVal}
    (hv : IsValue rc decl i e) (hlt : i < 2 ^ env.cfg.DISCRIMINANT_BITS) {d : VariantDef} (hdi : decl[i]? = some d) {sh : Shape}
    (hsh : d.fields.shape rc = some sh) {n : env.cfg.Discr} (hn : n.toNat = i) (s : State) :
    intoTaggedBox env rc P e s =
      match TBox.new env sh e.payload.vals n s with
      | .ret b s' => .ret b (s'.log (enumDtor hd e))
      | .panic k s' => .panic k (s'.log (enumDtor hd e))
      | .ub k => .ub k := by
  obtain ⟨hw, rfl⟩ := hc.wf
  obtain ⟨d', hdi', hvn, hf⟩ := hv
  rw [hdi] at hdi'; cases hdi'
  have hlt' : i < 2 ^ env.cfg.freeBits := hlt
  have h256 := freeBits_le h hw.u8
  have : n = numOf env i := by
    apply BitVec.eq_of_toNat_eq
    rw [numOf_toNat hw.u8, hn]
    omega
  rw [intoTaggedBox_eq hw.names hw.members hw.arity hdi hvn hf, storeOf, hsh, this]
  simp only
  cases hr : TBox.new env sh e.payload.vals (numOf env i) s with
  | ret b s' => exact cleanup_ret hr
  | panic k s' => exact cleanup_panic hr
  | ub k => unfold M.cleanup; rw [hr]

/-- The same the other way round: a box made by `TaggedBox::<Item>::new::<U>(x, i)` is one whose value is `Item::V(x)`. -/
theorem C70_make_raw (h : env.OK) (hrc : rc.OK) (hc : Compiled rc env.cfg sn en hd ts decl P) {i : Nat} {e : EVal}
    (hv : IsValue rc decl i e) (hlt : i < 2 ^ env.cfg.DISCRIMINANT_BITS) (ho : env.debug = true ∨ env.InRange) {d : VariantDef}
    (hdi : decl[i]? = some d) {sh : Shape} (hsh : d.fields.shape rc = some sh) {n : env.cfg.Discr} (hn : n.toNat = i) {s s₁ s₂ : State}
    (hi : HeapInv env s) {b : TBox} (hr : TBox.new env sh e.payload.vals n s = .ret b s₁) (he : Extends s₁ s₂) :
    containerIntoInner env rc P b s₂ = .ret e s₂ ∧ Presents (taggable env rc P) s₂ b e [] ∧
      ((∀ t t' ts', d.fields ≠ .tuple (t :: t' :: ts')) → fromTaggedBox env rc P b s₂ = .ret e s₂) := by
  obtain ⟨hw, rfl⟩ := hc.wf
  have hv' := hv
  obtain ⟨d', hdi', hvn, hf⟩ := hv
  rw [hdi] at hdi'; cases hdi'
  have hlt' : i < 2 ^ env.cfg.freeBits := hlt
  have hst : Stores env rc decl s₂ b i e := by
    rcases new_spec h hi (shape_wf hrc hsh) (shape_has hf hsh) n with ⟨b', s', e1, _, _, hh, _⟩ | ⟨_, _, e1⟩ | ⟨_, _, _, k, e1, _⟩ <;>
      rw [e1] at hr <;> cases hr
    have H := (hh (show n.toNat < _ by omega) ho).mono (shape_wf hrc hsh) he
    refine ⟨hv', by rw [H.discr, hn], fun d' hd' sh' hs' => ?_⟩
    rw [hdi] at hd'; cases hd'
    rw [hsh] at hs'; cases hs'
    rw [H.discr]; exact H
  refine ⟨containerIntoInner_stores hw.u8 hw.names hw.members hst, ?_, fun hnt => ?_⟩
  · have := presents_stores (sn := sn) (en := en) (hd := hd) hw.u8 hw.names hw.members hst hdi
    have e0 : observeDrops hd d = [] := by
      unfold observeDrops
      cases hf' : d.fields with
      | unit => rw [hf'] at hsh; cases hsh
      | tuple _ => rfl
      | record _ => rfl
    rwa [e0] at this
  · exact fromTaggedBox_stores hw.u8 hw.names hw.members hst hdi fun t t' ts' hx => absurd hx (hnt t t' ts')

/-- **C70**, reading and changing: in a box made by `into_tagged_box` (and as long as nobody else changed it), `as_ref::<U>`, `as_ptr`,
`into_inner::<U>` and the `Box` of `into_box::<U>` give the payload; after a payload `e'` of the same variant was assigned through
`as_mut_ref::<U>` (destroying the old one, once) or written through `as_mut_ptr`, the generated functions give the enum value with the
new payload, and no other container has changed. (`from_tagged_box` only where `C30` does not spoil it.) -/
theorem C70_access (h : env.OK) (hrc : rc.OK) (hc : Compiled rc env.cfg sn en hd ts decl P) {i : Nat} {e e' : EVal}
    (hv : IsValue rc decl i e) (hv' : IsValue rc decl i e') (hlt : i < 2 ^ env.cfg.DISCRIMINANT_BITS)
    (ho : env.debug = true ∨ env.InRange) {d : VariantDef} (hdi : decl[i]? = some d) {sh : Shape} (hsh : d.fields.shape rc = some sh)
    {s s₁ s₂ : State} (hi : HeapInv env s) (hi₂ : HeapInv env s₂) {b : TBox} (hr : intoTaggedBox env rc P e s = .ret b s₁)
    (he : Extends s₁ s₂) :
    b.asRef env sh s₂ = .ret e.payload.vals s₂ ∧ ptrRead sh (b.asPtr env) s₂ = .ret e.payload.vals s₂ ∧
    b.intoInner env sh s₂ = .ret e.payload.vals s₂ ∧ (b.intoBox env).deref sh s₂ = .ret e.payload.vals s₂ ∧
    ∀ assign : Bool, ∃ s₃,
      (if assign then b.asMutRefAssign env sh e'.payload.vals s₂ else b.asMutPtrWrite env sh e'.payload.vals s₂) = .ret b s₃ ∧
      HeapInv env s₃ ∧ s₃.blocks = s₂.blocks ∧ s₃.trace = s₂.trace ++ (if assign then fieldDtors rc decl e else []) ∧
      (∀ s₄, Extends s₃ s₄ → containerIntoInner env rc P b s₄ = .ret e' s₄ ∧ Presents (taggable env rc P) s₄ b e' [] ∧
        ((∀ t t' ts', d.fields ≠ .tuple (t :: t' :: ts')) → fromTaggedBox env rc P b s₄ = .ret e' s₄)) ∧
      (∀ b₂ i₂ e₂, Stores env rc decl s₂ b₂ i₂ e₂ → b.asPtr env ≠ b₂.asPtr env → containerIntoInner env rc P b₂ s₃ = .ret e₂ s₃) := by
  obtain ⟨hw, rfl⟩ := hc.wf
  have hlt' : i < 2 ^ env.cfg.freeBits := hlt
  have hst : Stores env rc decl s₂ b i e :=
    ((into_stores h hrc hw.u8 hw.names hw.members hw.arity hv hi hr).2.2 hlt' ho).mono hrc he
  have H := hst.2.2 d hdi sh hsh
  have hwf := shape_wf hrc hsh
  obtain ⟨d', hdi', hvn', hf'⟩ := id hv'
  rw [hdi] at hdi'; cases hdi'
  obtain ⟨d', hdi', hvn, hf⟩ := id hv
  rw [hdi] at hdi'; cases hdi'
  have hhas := shape_has hf' hsh
  have hz : observeDrops hd d = [] := by
    unfold observeDrops
    cases hf' : d.fields with
    | unit => rw [hf'] at hsh; cases hsh
    | tuple _ => rfl
    | record _ => rfl
  have after : ∀ {s₃ : State}, Holds env s₃ b sh e'.payload.vals (b.discriminant env) → ∀ s₄, Extends s₃ s₄ →
      containerIntoInner env rc (programOf sn en hd decl) b s₄ = .ret e' s₄ ∧
        Presents (taggable env rc (programOf sn en hd decl)) s₄ b e' [] ∧
        ((∀ t t' ts', d.fields ≠ .tuple (t :: t' :: ts')) → fromTaggedBox env rc (programOf sn en hd decl) b s₄ = .ret e' s₄) := by
    intro s₃ H3 s₄ he4
    have hst' : Stores env rc decl s₄ b i e' := by
      refine ⟨hv', hst.2.1, fun d' hd' sh' hs' => ?_⟩
      rw [hdi] at hd'; cases hd'
      rw [hsh] at hs'; cases hs'
      exact H3.mono hwf he4
    refine ⟨containerIntoInner_stores hw.u8 hw.names hw.members hst', ?_, fun hnt => ?_⟩
    · have := presents_stores (sn := sn) (en := en) (hd := hd) hw.u8 hw.names hw.members hst' hdi
      rwa [hz] at this
    · exact fromTaggedBox_stores hw.u8 hw.names hw.members hst' hdi fun t t' ts' hx => absurd hx (hnt t t' ts')
  refine ⟨H.read, H.read, H.read, H.read, fun assign => ?_⟩
  have others : ∀ {s₃ : State}, (∀ {b₂ : TBox} {sh₂ : Shape} {v₂ : Val} {d₂ : env.cfg.Discr}, sh₂.WF → Holds env s₂ b₂ sh₂ v₂ d₂ →
      b.asPtr env ≠ b₂.asPtr env → Holds env s₃ b₂ sh₂ v₂ d₂) →
      ∀ b₂ i₂ e₂, Stores env rc decl s₂ b₂ i₂ e₂ → b.asPtr env ≠ b₂.asPtr env →
        containerIntoInner env rc (programOf sn en hd decl) b₂ s₃ = .ret e₂ s₃ := by
    intro s₃ hh b₂ i₂ e₂ h2 hne
    exact containerIntoInner_stores hw.u8 hw.names hw.members
      ⟨h2.1, h2.2.1, fun d₂ hd₂ sh₂ hs₂ => hh (shape_wf hrc hs₂) (h2.2.2 d₂ hd₂ sh₂ hs₂) hne⟩
  cases assign with
  | true =>
    have e1 := asMutRefAssign_ret (v' := e'.payload.vals) H
    refine ⟨_, e1, ⟨hi₂.block, hi₂.disjoint⟩, rfl, ?_, after ((H.log hwf _).written hwf hhas), others ?_⟩
    · rw [if_pos rfl, fieldDtors_eq hw.names hdi hvn hsh]; rfl
    · intro b₂ sh₂ v₂ d₂ hw₂ h₂ hne
      exact ((C17_noninterference h hi₂ hwf hw₂ h₂ hhas).2.2 H (.inl hne)).1 _ _ e1
  | false =>
    have e1 := asMutPtrWrite_ret (v' := e'.payload.vals) H
    refine ⟨_, e1, ⟨hi₂.block, hi₂.disjoint⟩, rfl, ?_, after (H.written hwf hhas), others ?_⟩
    · exact (List.append_nil _).symm
    · intro b₂ sh₂ v₂ d₂ hw₂ h₂ hne
      exact ((C17_noninterference h hi₂ hwf hw₂ h₂ hhas).2.2 H (.inl hne)).2.1 _ _ e1

/-- **C70**, giving back: unlike anything the macro generates (`C20`), `into_box::<U>` on a box made by `into_tagged_box` gives the
memory back: the block that `into_tagged_box` allocated, and only that, is freed when the `Box` is dropped (after the destructors of
the fields, each once) or its value moved out; no other container changes. If nothing happens in between, the heap is as
before. For payloads that occupy memory. -/
theorem C70_release (h : env.OK) (hrc : rc.OK) (hc : Compiled rc env.cfg sn en hd ts decl P) {i : Nat} {e : EVal}
    (hv : IsValue rc decl i e) (hlt : i < 2 ^ env.cfg.DISCRIMINANT_BITS)
    (ho : env.debug = true ∨ env.InRange) {d : VariantDef} (hdi : decl[i]? = some d) {sh : Shape} (hsh : d.fields.shape rc = some sh)
    (hz : 0 < sh.size) {s s₁ s₂ : State} (hi : HeapInv env s) (hi₂ : HeapInv env s₂) {b : TBox}
    (hr : intoTaggedBox env rc P e s = .ret b s₁) (he : Extends s₁ s₂) :
    ∃ blk : Block, s₁.blocks = blk :: s.blocks ∧ blk ∈ s₂.blocks ∧
      (∃ s₃, (b.intoBox env).drop sh s₂ = .ret () s₃ ∧ HeapInv env s₃ ∧ s₃.blocks = s₂.blocks.erase blk ∧
        s₃.trace = s₂.trace ++ fieldDtors rc decl e ++ [.dealloc blk] ∧
        ∀ b₂ i₂ e₂, Stores env rc decl s₂ b₂ i₂ e₂ → b.asPtr env ≠ b₂.asPtr env → containerIntoInner env rc P b₂ s₃ = .ret e₂ s₃) ∧
      (∃ s₃, (b.intoBox env).intoValue sh s₂ = .ret e.payload.vals s₃ ∧ HeapInv env s₃ ∧ s₃.blocks = s₂.blocks.erase blk ∧
        s₃.trace = s₂.trace ++ [.dealloc blk] ∧
        ∀ b₂ i₂ e₂, Stores env rc decl s₂ b₂ i₂ e₂ → b.asPtr env ≠ b₂.asPtr env → containerIntoInner env rc P b₂ s₃ = .ret e₂ s₃) ∧
      (s₂ = s₁ → s₂.blocks.erase blk = s.blocks) := by
  have hc' := hc
  obtain ⟨hw, rfl⟩ := hc.wf
  have hlt' : i < 2 ^ env.cfg.freeBits := hlt
  have hst₁ : Stores env rc decl s₁ b i e := (into_stores h hrc hw.u8 hw.names hw.members hw.arity hv hi hr).2.2 hlt' ho
  have hst : Stores env rc decl s₂ b i e := hst₁.mono hrc he
  have H := hst.2.2 d hdi sh hsh
  have H₁ := hst₁.2.2 d hdi sh hsh
  have hwf := shape_wf hrc hsh
  obtain ⟨d', hdi', hvn, hf⟩ := id hv
  rw [hdi] at hdi'; cases hdi'
  have hhas := shape_has hf hsh
  have h256 := freeBits_le h hw.u8
  have hn : (numOf env i).toNat = i := by rw [numOf_toNat hw.u8]; omega
  have hmk := C70_make h hc' hv hlt hdi hsh hn s
  rw [hr] at hmk
  have hdr : b.discriminant env = numOf env i := by
    apply BitVec.eq_of_toNat_eq
    rw [hst.2.1, hn]
  have hfits : env.DiscrFits (numOf env i) := numOf_fits hw.u8 hlt'
  have hok : numOf env i ≤ env.cfg.MAX_DISCRIMINANT := numOf_ok h hw.u8 hlt'
  rw [hdr] at H
  cases hnew : TBox.new env sh e.payload.vals (numOf env i) s with
  | panic k s' => rw [hnew] at hmk; cases hmk
  | ub k => rw [hnew] at hmk; cases hmk
  | ret b' s' =>
    rw [hnew] at hmk
    simp only [Out.ret.injEq] at hmk
    obtain ⟨rfl, rfl⟩ := hmk
    obtain ⟨blk, _, hb1, _, _, s₃, hd1, hd2, _, hd4, hmem, _, hd7⟩ := (C19_into_box_frees_own h hi hwf hhas hok ho hnew hi₂ H).1 hz
    have hz' : sh.size ≠ 0 := by omega
    have hblk : blk = ⟨b.asPtr env, sh.size, sh.align⟩ := by
      have e1 := boxDrop_ret H
      rw [hd1, if_neg hz'] at e1
      injection e1 with _ e1
      rw [e1] at hd2
      have := List.append_cancel_left hd2
      simp only [List.cons.injEq, Event.dealloc.injEq, and_true] at this
      exact this.symm
    have others : ∀ {s₃ : State}, (∀ {b₂ : TBox} {sh₂ : Shape} {v₂ : Val} {d₂ : env.cfg.Discr}, sh₂.WF → Holds env s₂ b₂ sh₂ v₂ d₂ →
        b.asPtr env ≠ b₂.asPtr env → Holds env s₃ b₂ sh₂ v₂ d₂) →
        ∀ b₂ i₂ e₂, Stores env rc decl s₂ b₂ i₂ e₂ → b.asPtr env ≠ b₂.asPtr env →
          containerIntoInner env rc (programOf sn en hd decl) b₂ s₃ = .ret e₂ s₃ := by
      intro s₃ hh b₂ i₂ e₂ h2 hne
      exact containerIntoInner_stores hw.u8 hw.names hw.members
        ⟨h2.1, h2.2.1, fun d₂ hd₂ sh₂ hs₂ => hh (shape_wf hrc hs₂) (h2.2.2 d₂ hd₂ sh₂ hs₂) hne⟩
    refine ⟨blk, hb1, hmem, ⟨s₃, hd1, hd7, hd4, ?_, others fun hw₂ h₂ hne => ?_⟩, ?_, fun hs => ?_⟩
    · rw [hd2, fieldDtors_eq hw.names hdi hvn hsh]
    · exact ((C17_noninterference h hi₂ hwf hw₂ h₂ hhas).2.2 H (.inl hne)).2.2.2.2.1 _ _ hd1
    · have e1 := boxIntoValue_ret H
      rw [if_neg hz'] at e1
      refine ⟨_, e1, freedState_inv hi₂ _, by rw [hblk]; rfl, by rw [hblk]; rfl, others fun hw₂ h₂ hne => ?_⟩
      exact ((C17_noninterference h hi₂ hwf hw₂ h₂ hhas).2.2 H (.inl hne)).2.2.2.2.2 _ _ e1
    · rw [hs]
      show (s'.blocks).erase blk = _
      rw [hb1, List.erase_cons_head]

/-- Non-vacuity: `Heap(Owned)` of the demo declaration: make, assign through `as_mut_ref`, look, give back. -/
example : ∃ b s₁ s₂ s₃, intoTaggedBox (env60 true) rcDemo progMix ⟨"Heap", .tuple [List.replicate 8 (some 1#8)]⟩ state0 = .ret b s₁ ∧
    b.asMutRefAssign (env60 true) ownedL.shape [List.replicate 8 (some 2#8)] s₁ = .ret b s₂ ∧
    containerIntoInner (env60 true) rcDemo progMix b s₂ = .ret ⟨"Heap", .tuple [List.replicate 8 (some 2#8)]⟩ s₂ ∧
    (b.intoBox (env60 true)).drop ownedL.shape s₂ = .ret () s₃ ∧ s₃.blocks = [] ∧
    s₃.trace = [.alloc ⟨4096, 8, 8⟩, .drop 5 (List.replicate 8 (some 1#8)), .drop 5 (List.replicate 8 (some 2#8)),
      .dealloc ⟨4096, 8, 8⟩] ∧
    declMix[2]?.bind (fun d => d.fields.shape rcDemo) = some ownedL.shape ∧
    IsValue rcDemo declMix 2 ⟨"Heap", .tuple [List.replicate 8 (some 2#8)]⟩ ∧ 2 < 2 ^ (env60 true).cfg.DISCRIMINANT_BITS :=
  ⟨_, _, _, _, rfl, rfl, rfl, rfl, rfl, rfl, rfl, ⟨_, rfl, rfl, ⟨rfl, by decide⟩, trivial⟩, by decide⟩

end TB.Props

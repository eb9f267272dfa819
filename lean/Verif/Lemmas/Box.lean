import Verif.Spec.Box
import Verif.Lemmas.Word
import Verif.Lemmas.Mem
import Verif.Lemmas.Layout

/-! # Helper lemmas about `TaggedBox` operations (no property theorems here) -/

set_option autoImplicit false

namespace TB

theorem Extends.refl (s : State) : Extends s s := ⟨fun _ h => h, fun _ _ _ _ _ => rfl, List.prefix_refl _⟩

theorem Extends.trans {s s' s'' : State} (h : Extends s s') (h' : Extends s' s'') : Extends s s'' :=
  ⟨fun b hb => h'.blocks b (h.blocks b hb),
   fun b hb i h1 h2 => by rw [h'.bytes b (h.blocks b hb) i h1 h2, h.bytes b hb i h1 h2],
   h.trace.trans h'.trace⟩

theorem Extends.log (s : State) (es : List Event) : Extends s (s.log es) :=
  ⟨fun _ h => h, fun _ _ _ _ _ => rfl, List.prefix_append _ _⟩

theorem HeapInv.log {env : Env} {s : State} (h : HeapInv env s) (es : List Event) : HeapInv env (s.log es) :=
  ⟨h.block, h.disjoint⟩

/-! ## Words -/

theorem Env.OK.sane {env : Env} (h : env.OK) : env.cfg.Sane := sane_of_mem h.cfg_mem

theorem Env.OK.ptrBits_le {env : Env} (h : env.OK) : env.ptrBits ≤ 64 := by
  rcases h.target with e | e <;> omega

theorem Env.OK.pow_le {env : Env} (h : env.OK) : (2:Nat) ^ env.ptrBits ≤ 2 ^ 64 :=
  Nat.pow_le_pow_right (by omega) h.ptrBits_le

/-- The discriminant fits the free bits. -/
def Env.DiscrFits (env : Env) (d : env.cfg.Discr) : Prop := d.toNat < 2 ^ env.cfg.freeBits

theorem Env.DiscrOK.fits {env : Env} (h : env.OK) {d : env.cfg.Discr} (hd : env.DiscrOK d) : env.DiscrFits d :=
  Nat.lt_of_le_of_lt ((h.sane.le_maxDiscr_iff d).1 hd) h.sane.max_lt

/-- Word built by a store of in-range parts. -/
theorem store_parts {env : Env} (h : env.OK) {a : Nat} {d : env.cfg.Discr} (ha : a < 2 ^ env.ptrBits)
    (hr : a < 2 ^ env.cfg.ptrWidth) (hd : env.DiscrFits d) :
    (⟨⟨TPtr.storeDiscriminant env.cfg (BitVec.ofNat 64 a) d⟩⟩ : TBox).asPtr env = a ∧
    (⟨⟨TPtr.storeDiscriminant env.cfg (BitVec.ofNat 64 a) d⟩⟩ : TBox).discriminant env = d := by
  have hs := h.sane
  have ha64 : a < 2 ^ 64 := Nat.lt_of_lt_of_le ha h.pow_le
  have e : (BitVec.ofNat 64 a).toNat = a := by rw [BitVec.toNat_ofNat, Nat.mod_eq_of_lt ha64]
  constructor
  · simp only [TBox.asPtr, TPtr.asPtr, BitVec.toNat_setWidth, hs.strip_store, e]
    rw [Nat.mod_eq_of_lt hr, Nat.mod_eq_of_lt ha]
  · apply BitVec.eq_of_toNat_eq
    simp only [TBox.discriminant, TPtr.discriminant, hs.fetch_store, e]
    rw [Nat.div_eq_of_lt hr, Nat.zero_or]
    exact Nat.mod_eq_of_lt hd

theorem asMutPtr_eq (env : Env) (b : TBox) : b.asMutPtr env = b.asPtr env := rfl

theorem TPtr.new_cases (c : Config) (debug : Bool) (p : BitVec 64) (d : c.Discr) :
    (TPtr.new c debug p d = .ok ⟨TPtr.storeDiscriminant c p d⟩ ∧
      (debug = true → d ≤ c.MAX_DISCRIMINANT ∧ p ≤ c.MAX_POINTER_VALUE)) ∨
    (debug = true ∧ ((TPtr.new c debug p d = .error .discriminant ∧ ¬ d ≤ c.MAX_DISCRIMINANT) ∨
      (TPtr.new c debug p d = .error .pointer ∧ d ≤ c.MAX_DISCRIMINANT ∧ ¬ p ≤ c.MAX_POINTER_VALUE))) := by
  unfold TPtr.new
  cases debug
  · left; simp
  · by_cases h1 : d ≤ c.MAX_DISCRIMINANT
    · by_cases h2 : p ≤ c.MAX_POINTER_VALUE
      · left; simp [h1, h2]
      · right; simp [h1, h2]
    · right; simp [h1]

/-- Width of every pointer setting covers the alignment of every type. -/
theorem align_lt {env : Env} (h : env.OK) {al : Nat} (ha : ∃ k, k ≤ 29 ∧ al = 2 ^ k) :
    0 < al ∧ al < 2 ^ env.ptrBits ∧ al < 2 ^ env.cfg.ptrWidth := by
  obtain ⟨k, hk, rfl⟩ := ha
  refine ⟨Nat.two_pow_pos _, Nat.pow_lt_pow_right (by omega) ?_, Nat.pow_lt_pow_right (by omega) ?_⟩
  · rcases h.target with e | e <;> omega
  · have := h.sane.ptr_ge; omega

/-! ## `new` -/

/-- State after a successful allocation of a block for `sh` at `a` and the write of `v`. -/
def boxedState (s : State) (a : Nat) (sh : Shape) (v : Val) : State :=
  { mem := putVal (overlay s.mem a (List.replicate sh.size none)) a sh v,
    blocks := ⟨a, sh.size, sh.align⟩ :: s.blocks,
    trace := s.trace ++ [.alloc ⟨a, sh.size, sh.align⟩] }

theorem new_zst {env : Env} {sh : Shape} {v : Val} {d : env.cfg.Discr} {s : State} (hz : sh.size = 0) :
    TBox.new env sh v d s = .ret (TBox.dangling env sh.align d) (s.log (dropEvents sh v)) := by
  simp only [TBox.new, hz, if_true, M.bind_def]; rfl

theorem new_null {env : Env} {sh : Shape} {v : Val} {d : env.cfg.Discr} {s : State} (hz : sh.size ≠ 0)
    (ha : env.alloc s sh.size sh.align = 0) :
    TBox.new env sh v d s = .panic .nullAlloc ((s.log [.allocNull sh.size sh.align]).log (dropEvents sh v)) := by
  simp only [TBox.new, hz, if_false, M.bind_def, allocM, ha, if_true]; rfl

theorem new_alloc {env : Env} (h : env.OK) {sh : Shape} {v : Val} {d : env.cfg.Discr} {s : State}
    (hz : sh.size ≠ 0) (ha : env.alloc s sh.size sh.align ≠ 0) :
    TBox.new env sh v d s =
      match TPtr.new env.cfg env.debug (BitVec.ofNat 64 (env.alloc s sh.size sh.align)) d with
      | .ok t => .ret ⟨t⟩ (boxedState s (env.alloc s sh.size sh.align) sh v)
      | .error k => .panic k (boxedState s (env.alloc s sh.size sh.align) sh v) := by
  obtain ⟨l1, l2, l3⟩ := h.lawful s sh.size sh.align (by omega) ha
  have hlt : env.alloc s sh.size sh.align < 2 ^ 64 := by have := h.pow_le; omega
  have hne : ¬ (BitVec.ofNat 64 (env.alloc s sh.size sh.align) = 0#64) := by
    intro e
    have := congrArg BitVec.toNat e
    rw [BitVec.toNat_ofNat, Nat.mod_eq_of_lt hlt] at this
    exact ha this
  have hv : validPtr { mem := overlay s.mem (env.alloc s sh.size sh.align) (List.replicate sh.size none),
                       blocks := ⟨env.alloc s sh.size sh.align, sh.size, sh.align⟩ :: s.blocks,
                       trace := s.trace ++ [.alloc ⟨env.alloc s sh.size sh.align, sh.size, sh.align⟩] }
      (env.alloc s sh.size sh.align) sh.size sh.align = true := by
    rw [validPtr_iff]
    exact ⟨ha, Nat.mod_eq_zero_of_dvd l1, Or.inr ⟨_, List.mem_cons_self, Nat.le_refl _, Nat.le_refl _⟩⟩
  simp only [TBox.new, hz, if_false, M.bind_def, allocM, ha, hne, ptrWrite_ret hv]
  cases TPtr.new env.cfg env.debug (BitVec.ofNat 64 (env.alloc s sh.size sh.align)) d <;> rfl

theorem boxedState_extends {env : Env} (h : env.OK) {s : State}
    {sh : Shape} (hw : sh.WF) {v : Val} (hv : sh.Has v) (hz : sh.size ≠ 0)
    (ha : env.alloc s sh.size sh.align ≠ 0) : Extends s (boxedState s (env.alloc s sh.size sh.align) sh v) := by
  obtain ⟨l1, l2, l3⟩ := h.lawful s sh.size sh.align (by omega) ha
  refine ⟨fun b hb => List.mem_cons_of_mem _ hb, fun b hb i h1 h2 => ?_, List.prefix_append _ _⟩
  have hd := l3 b hb
  simp only [Block.Disjoint] at hd
  show putVal _ _ _ _ i = _
  rw [putVal_out hw hv (by omega), overlay_out (by simp; omega)]

theorem boxedState_inv {env : Env} (h : env.OK) {s : State} (hi : HeapInv env s)
    {sh : Shape} {v : Val} (hz : sh.size ≠ 0)
    (ha : env.alloc s sh.size sh.align ≠ 0) : HeapInv env (boxedState s (env.alloc s sh.size sh.align) sh v) := by
  obtain ⟨l1, l2, l3⟩ := h.lawful s sh.size sh.align (by omega) ha
  constructor
  · intro b hb
    simp only [boxedState, List.mem_cons] at hb
    rcases hb with rfl | hb
    · exact ⟨ha, by show 0 < sh.size; omega, l2, l1⟩
    · exact hi.block b hb
  · simp only [boxedState, List.pairwise_cons]
    exact ⟨l3, hi.disjoint⟩

theorem boxedState_read {env : Env} (h : env.OK) {s : State}
    {sh : Shape} (hw : sh.WF) {v : Val} (hv : sh.Has v) (hz : sh.size ≠ 0)
    (ha : env.alloc s sh.size sh.align ≠ 0) :
    ptrRead sh (env.alloc s sh.size sh.align) (boxedState s (env.alloc s sh.size sh.align) sh v) =
      .ret v (boxedState s (env.alloc s sh.size sh.align) sh v) := by
  obtain ⟨l1, l2, l3⟩ := h.lawful s sh.size sh.align (by omega) ha
  rw [ptrRead_ret_iff]
  refine ⟨rfl, ?_, (getVal_putVal hw hv _ _).symm, hv⟩
  rw [validPtr_iff]
  exact ⟨ha, Nat.mod_eq_zero_of_dvd l1, Or.inr ⟨_, List.mem_cons_self, Nat.le_refl _, Nat.le_refl _⟩⟩

theorem fieldsHave_zero : ∀ {fs : List (Nat × Leaf)} {v : Val} (m : Nat → MByte) (a : Nat), FieldsHave fs v →
    (∀ f ∈ fs, f.2.size = 0) → fs.map (fun f => readBytes m (a + f.1) f.2.size) = v
  | [], [], _, _, _, _ => rfl
  | [], _ :: _, _, _, h, _ => by cases h
  | _ :: _, [], _, _, h, _ => by cases h
  | f :: fs, x :: xs, m, a, h, hz => by
    simp only [List.map_cons]
    congr 1
    · have h0 := hz f List.mem_cons_self
      have hx : x.length = 0 := by rw [h.1.1, h0]
      rw [h0, List.eq_nil_of_length_eq_zero hx]; rfl
    · exact fieldsHave_zero m a h.2 (fun g hg => hz g (List.mem_cons_of_mem _ hg))

/-- Reading a zero-sized value at any non-null aligned address. -/
theorem ptrRead_zst {sh : Shape} (hw : sh.WF) {v : Val} (hv : sh.Has v) (hz : sh.size = 0) {a : Nat} (ha : a ≠ 0)
    (hal : sh.align ∣ a) (s : State) : ptrRead sh a s = .ret v s := by
  rw [ptrRead_ret_iff]
  refine ⟨rfl, ?_, (fieldsHave_zero _ _ hv ?_).symm, hv⟩
  · rw [validPtr_iff]; exact ⟨ha, Nat.mod_eq_zero_of_dvd hal, Or.inl hz⟩
  · intro f hf
    have := (hw.field f hf).2.1
    omega

/-- Complete case analysis of `new`. -/
theorem new_spec {env : Env} (h : env.OK) {s : State} (hi : HeapInv env s) {sh : Shape} (hw : sh.WF) {v : Val}
    (hv : sh.Has v) (d : env.cfg.Discr) :
    (∃ b s', TBox.new env sh v d s = .ret b s' ∧ HeapInv env s' ∧ Extends s s' ∧
      (env.DiscrFits d → (env.debug = true ∨ env.InRange) → Holds env s' b sh v d) ∧
      ((sh.size = 0 ∧ s' = s.log (dropEvents sh v)) ∨
       (0 < sh.size ∧ env.alloc s sh.size sh.align ≠ 0 ∧
         s' = boxedState s (env.alloc s sh.size sh.align) sh v))) ∨
    (0 < sh.size ∧ env.alloc s sh.size sh.align = 0 ∧
      TBox.new env sh v d s =
        .panic .nullAlloc ((s.log [.allocNull sh.size sh.align]).log (dropEvents sh v))) ∨
    (0 < sh.size ∧ env.debug = true ∧ env.alloc s sh.size sh.align ≠ 0 ∧ ∃ k,
      TBox.new env sh v d s = .panic k (boxedState s (env.alloc s sh.size sh.align) sh v) ∧
      ((k = .discriminant ∧ ¬ env.DiscrOK d) ∨
       (k = .pointer ∧ env.DiscrOK d ∧ ¬ env.alloc s sh.size sh.align < 2 ^ env.cfg.ptrWidth))) := by
  by_cases hz : sh.size = 0
  · left
    refine ⟨_, _, new_zst hz, hi.log _, Extends.log _ _, fun hd _ => ?_, Or.inl ⟨hz, rfl⟩⟩
    obtain ⟨p1, p2, p3⟩ := align_lt h hw.align_pow
    obtain ⟨e1, e2⟩ := store_parts h p2 p3 hd
    refine ⟨e2, ?_, fun hp => absurd hz (by omega)⟩
    show ptrRead sh ((TBox.dangling env sh.align d).asPtr env) _ = _
    have e1' : (TBox.dangling env sh.align d).asPtr env = sh.align := e1
    rw [e1']
    exact ptrRead_zst hw hv hz (by omega) (Nat.dvd_refl _) _
  · by_cases ha : env.alloc s sh.size sh.align = 0
    · right; left; exact ⟨by omega, ha, new_null hz ha⟩
    · obtain ⟨l1, l2, l3⟩ := h.lawful s sh.size sh.align (by omega) ha
      have hlt : env.alloc s sh.size sh.align < 2 ^ env.ptrBits := by omega
      have hlt64 : env.alloc s sh.size sh.align < 2 ^ 64 := Nat.lt_of_lt_of_le hlt h.pow_le
      have eofn : (BitVec.ofNat 64 (env.alloc s sh.size sh.align)).toNat = env.alloc s sh.size sh.align := by
        rw [BitVec.toNat_ofNat, Nat.mod_eq_of_lt hlt64]
      have hn := new_alloc h (v := v) (d := d) hz ha
      rcases TPtr.new_cases env.cfg env.debug (BitVec.ofNat 64 (env.alloc s sh.size sh.align)) d with
        ⟨e, hr⟩ | ⟨hdbg, ⟨e, hr⟩ | ⟨e, hr1, hr2⟩⟩
      · left
        rw [e] at hn
        refine ⟨_, _, hn, boxedState_inv h hi hz ha, boxedState_extends h hw hv hz ha, fun hd hor => ?_,
          Or.inr ⟨by omega, ha, rfl⟩⟩
        have hrange : env.alloc s sh.size sh.align < 2 ^ env.cfg.ptrWidth := by
          rcases hor with hdbg | hin
          · have := (h.sane.le_maxPtr_iff _).1 (hr hdbg).2
            rwa [eofn] at this
          · exact hin _ _ _
        obtain ⟨e1, e2⟩ := store_parts h hlt hrange hd
        refine ⟨e2, ?_, fun _ => ?_⟩
        · show ptrRead sh ((⟨⟨TPtr.storeDiscriminant env.cfg _ d⟩⟩ : TBox).asPtr env) _ = _
          rw [e1]
          exact boxedState_read h hw hv hz ha
        · rw [e1]; exact List.mem_cons_self
      · right; right
        rw [e] at hn
        exact ⟨by omega, hdbg, ha, _, hn, Or.inl ⟨rfl, hr⟩⟩
      · right; right
        rw [e] at hn
        refine ⟨by omega, hdbg, ha, _, hn, Or.inr ⟨rfl, hr1, ?_⟩⟩
        rw [h.sane.le_maxPtr_iff, eofn] at hr2
        exact hr2

/-! ## Boxes that hold a value -/

namespace Holds

variable {env : Env} {s : State} {b : TBox} {sh : Shape} {v : Val} {d : env.cfg.Discr}

theorem has (hb : Holds env s b sh v d) : sh.Has v := (ptrRead_ret_iff.1 hb.read).2.2.2

theorem valid (hb : Holds env s b sh v d) : validPtr s (b.asPtr env) sh.size sh.align = true :=
  (ptrRead_ret_iff.1 hb.read).2.1

theorem ptrRead (hb : Holds env s b sh v d) : TB.ptrRead sh (b.asPtr env) s = .ret v s := hb.read

/-- Preserved when the box's own block (if any) survives with the same bytes. -/
theorem frame (hw : sh.WF) (hb : Holds env s b sh v d) {s' : State}
    (hblk : 0 < sh.size → (⟨b.asPtr env, sh.size, sh.align⟩ : Block) ∈ s'.blocks)
    (hm : ∀ i, b.asPtr env ≤ i → i < b.asPtr env + sh.size → s'.mem i = s.mem i) : Holds env s' b sh v d := by
  refine ⟨hb.discr, ?_, hblk⟩
  have hr := ptrRead_ret_iff.1 hb.read
  show TB.ptrRead sh (b.asPtr env) s' = _
  rw [ptrRead_ret_iff]
  refine ⟨rfl, ?_, ?_, hb.has⟩
  · have := validPtr_iff.1 hb.valid
    rw [validPtr_iff]
    refine ⟨this.1, this.2.1, ?_⟩
    by_cases hz : sh.size = 0
    · exact Or.inl hz
    · exact Or.inr ⟨_, hblk (by omega), Nat.le_refl _, Nat.le_refl _⟩
  · rw [hr.2.2.1]
    exact getVal_congr hw (fun i h1 h2 => (hm i h1 h2).symm)

theorem mono (hw : sh.WF) (hb : Holds env s b sh v d) {s' : State} (he : Extends s s') : Holds env s' b sh v d := by
  refine hb.frame hw (fun hz => he.blocks _ (hb.own hz)) (fun i h1 h2 => ?_)
  exact he.bytes _ (hb.own (by omega)) i h1 h2

theorem log (hw : sh.WF) (hb : Holds env s b sh v d) (es : List Event) : Holds env (s.log es) b sh v d :=
  hb.mono hw (Extends.log _ _)

end Holds

/-- Two live blocks of a well-formed heap are equal or disjoint. -/
theorem HeapInv.eq_or_disjoint {env : Env} {s : State} (hi : HeapInv env s) {x y : Block} (hx : x ∈ s.blocks)
    (hy : y ∈ s.blocks) : x = y ∨ x.Disjoint y := by
  have key : ∀ l : List Block, l.Pairwise Block.Disjoint → x ∈ l → y ∈ l → x = y ∨ x.Disjoint y := by
    intro l
    induction l with
    | nil => intro _ h; cases h
    | cons z zs ih =>
      intro hp h1 h2
      rw [List.pairwise_cons] at hp
      rw [List.mem_cons] at h1 h2
      rcases h1 with rfl | h1 <;> rcases h2 with rfl | h2
      · exact Or.inl rfl
      · exact Or.inr (hp.1 _ h2)
      · have := hp.1 _ h1
        right; exact Or.symm this
      · exact ih hp.2 h1 h2
  exact key _ hi.disjoint hx hy

/-- A block occurs once in a well-formed heap. -/
theorem HeapInv.nodup {env : Env} {s : State} (hi : HeapInv env s) : s.blocks.Nodup := by
  have key : ∀ l : List Block, (∀ b ∈ l, 0 < b.size) → l.Pairwise Block.Disjoint → l.Nodup := by
    intro l
    induction l with
    | nil => intro _ _; exact List.nodup_nil
    | cons z zs ih =>
      intro hs hp
      rw [List.pairwise_cons] at hp
      rw [List.nodup_cons]
      refine ⟨fun hz => ?_, ih (fun b hb => hs b (List.mem_cons_of_mem _ hb)) hp.2⟩
      have h1 := hp.1 _ hz
      have h2 := hs z List.mem_cons_self
      simp only [Block.Disjoint] at h1
      omega
  exact key _ (fun b hb => (hi.block b hb).2.1) hi.disjoint

/-- State after freeing a block. -/
def freedState (s : State) (blk : Block) : State :=
  { s with blocks := s.blocks.erase blk, trace := s.trace ++ [.dealloc blk] }

theorem freedState_inv {env : Env} {s : State} (hi : HeapInv env s) (blk : Block) :
    HeapInv env (freedState s blk) :=
  ⟨fun b hb => hi.block b (List.mem_of_mem_erase hb), hi.disjoint.sublist List.erase_sublist⟩

theorem deallocM_ret {s : State} {a size align : Nat} (h : (⟨a, size, align⟩ : Block) ∈ s.blocks) :
    deallocM a size align s = .ret () (freedState s ⟨a, size, align⟩) := by
  simp [deallocM, h, freedState]

/-- State after overwriting the value of a box. -/
def writtenState (s : State) (a : Nat) (sh : Shape) (v : Val) : State := { s with mem := putVal s.mem a sh v }

theorem writtenState_inv {env : Env} {s : State} (hi : HeapInv env s) {a : Nat} {sh : Shape} {v : Val} :
    HeapInv env (writtenState s a sh v) := ⟨hi.block, hi.disjoint⟩

theorem Holds.written {env : Env} {s : State} {b : TBox} {sh : Shape} {v v' : Val} {d : env.cfg.Discr}
    (hw : sh.WF) (hb : Holds env s b sh v d) (hv : sh.Has v') :
    Holds env (writtenState s (b.asPtr env) sh v') b sh v' d := by
  refine ⟨hb.discr, ?_, hb.own⟩
  show TB.ptrRead sh (b.asPtr env) _ = _
  rw [ptrRead_ret_iff]
  exact ⟨rfl, hb.valid, (getVal_putVal hw hv _ _).symm, hv⟩

/-- Two boxes with different addresses (or a zero-sized value) occupy disjoint bytes. -/
theorem Holds.bytes_disjoint {env : Env} {s : State} (hi : HeapInv env s) {b₁ b₂ : TBox} {sh₁ sh₂ : Shape}
    {v₁ v₂ : Val} {d₁ d₂ : env.cfg.Discr} (h₁ : Holds env s b₁ sh₁ v₁ d₁) (h₂ : Holds env s b₂ sh₂ v₂ d₂)
    (hne : b₁.asPtr env ≠ b₂.asPtr env ∨ sh₁.size = 0 ∨ sh₂.size = 0) (i : Nat)
    (ha : b₁.asPtr env ≤ i ∧ i < b₁.asPtr env + sh₁.size) :
    i < b₂.asPtr env ∨ b₂.asPtr env + sh₂.size ≤ i := by
  rcases hne with hne | hz | hz
  · by_cases hz : sh₂.size = 0
    · omega
    · have o1 := h₁.own (by omega)
      have o2 := h₂.own (by omega)
      rcases hi.eq_or_disjoint o1 o2 with e | hd
      · exact absurd (congrArg Block.base e) hne
      · simp only [Block.Disjoint] at hd
        omega
  · omega
  · omega

theorem asMutRefAssign_ret {env : Env} {s : State} {b : TBox} {sh : Shape} {v v' : Val} {d : env.cfg.Discr}
    (hb : Holds env s b sh v d) :
    b.asMutRefAssign env sh v' s = .ret b (writtenState (s.log (dropEvents sh v)) (b.asPtr env) sh v') := by
  have h1 : ptrRead sh (b.boxed.asMutPtr env.cfg env.ptrBits) s = .ret v s := hb.read
  have h2 : validPtr (s.log (dropEvents sh v)) (b.boxed.asMutPtr env.cfg env.ptrBits) sh.size sh.align = true := hb.valid
  simp only [TBox.asMutRefAssign, M.bind_def, h1, dropVal, M.log, ptrWrite_ret h2]
  rfl

theorem asMutPtrWrite_ret {env : Env} {s : State} {b : TBox} {sh : Shape} {v v' : Val} {d : env.cfg.Discr}
    (hb : Holds env s b sh v d) :
    b.asMutPtrWrite env sh v' s = .ret b (writtenState s (b.asPtr env) sh v') := by
  have h2 : validPtr s (b.asMutPtr env) sh.size sh.align = true := hb.valid
  simp only [TBox.asMutPtrWrite, M.bind_def, ptrWrite_ret h2]
  rfl

theorem boxDrop_ret {env : Env} {s : State} {b : TBox} {sh : Shape} {v : Val} {d : env.cfg.Discr}
    (hb : Holds env s b sh v d) :
    (b.intoBox env).drop sh s = .ret ()
      (if sh.size = 0 then s.log (dropEvents sh v)
       else freedState (s.log (dropEvents sh v)) ⟨b.asPtr env, sh.size, sh.align⟩) := by
  have h1 : ptrRead sh (b.intoBox env).addr s = .ret v s := hb.read
  simp only [RBox.drop, M.bind_def, h1, dropVal, M.log]
  by_cases hz : sh.size = 0
  · simp only [hz, if_true]; rfl
  · have : (⟨(b.intoBox env).addr, sh.size, sh.align⟩ : Block) ∈ (s.log (dropEvents sh v)).blocks :=
      hb.own (by omega)
    simp only [hz, if_false, deallocM_ret this]
    rfl

theorem boxIntoValue_ret {env : Env} {s : State} {b : TBox} {sh : Shape} {v : Val} {d : env.cfg.Discr}
    (hb : Holds env s b sh v d) :
    (b.intoBox env).intoValue sh s = .ret v
      (if sh.size = 0 then s else freedState s ⟨b.asPtr env, sh.size, sh.align⟩) := by
  have h1 : ptrRead sh (b.intoBox env).addr s = .ret v s := hb.read
  simp only [RBox.intoValue, M.bind_def, h1]
  by_cases hz : sh.size = 0
  · simp only [hz, if_true]; rfl
  · have : (⟨(b.intoBox env).addr, sh.size, sh.align⟩ : Block) ∈ s.blocks := hb.own (by omega)
    simp only [hz, if_false, M.bind_def, deallocM_ret this]
    rfl

end TB

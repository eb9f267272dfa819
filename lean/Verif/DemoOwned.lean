import Verif.DemoMacro
import Verif.Lemmas.Owned

/-!
# A payload that owns memory

`Item::Heap(Owned)` of `declMix` with `Owned = Box<u8>`: eight bytes that hold the address of a one-byte block. The user code of the
demonstration allocates (and aborts if there is no memory), follows the pointer, and frees.
-/

set_option autoImplicit false

namespace TB.Macro

/-- An address as the eight bytes of a pointer (little endian). -/
def addrBytes (a : Nat) : List MByte := (List.range 8).map fun i => some (BitVec.ofNat 8 (a / 256 ^ i))

/-- The address in eight bytes. -/
def bytesAddr (bs : List MByte) : Nat := bs.foldr (fun b n => (b.getD 0#8).toNat + 256 * n) 0

theorem bytesAddr_addrBytes {a : Nat} (h : a < 2 ^ 64) : bytesAddr (addrBytes a) = a := by
  simp only [addrBytes, bytesAddr, List.range, List.range.loop, List.map, List.foldr, Option.getD, BitVec.toNat_ofNat]
  omega

theorem addrBytes_valid {a : Nat} (h : a < 2 ^ 64) (h0 : a ≠ 0) : ownedL.Has (addrBytes a) := by
  refine ⟨rfl, ?_⟩
  have h1 : (addrBytes a).all (·.isSome) = true := by simp [addrBytes]
  have h2 : addrBytes a ≠ List.replicate 8 (some 0#8) := by
    intro e
    have := bytesAddr_addrBytes h
    rw [e] at this
    exact h0 (this.symm.trans (by decide))
  show ((addrBytes a).all (·.isSome) && !decide (addrBytes a = List.replicate 8 (some 0#8))) = true
  rw [h1, decide_eq_false h2]
  rfl

/-- `Item::Heap(p)` with `p` pointing to `a`. -/
def heapAt (a : Nat) : EVal := ⟨"Heap", .tuple [addrBytes a]⟩

/-- What items stand for: `Heap(b)` for the byte in the box, other items for themselves. -/
abbrev Item := Sum (BitVec 8) EVal

def ownItem : Ownership Item where
  own s F e x := match x with
    | .inl v => ∃ a, e = heapAt a ∧ a ≠ 0 ∧ a < 2 ^ 64 ∧ F = [⟨a, 1, 1⟩] ∧ (⟨a, 1, 1⟩ : Block) ∈ s.blocks ∧ s.mem a = some v
    | .inr e' => e = e' ∧ e.variant ≠ "Heap" ∧ F = []

theorem ownItem_lawful : ownItem.Lawful where
  live := by
    rintro s F e (v | e') h b hb
    · obtain ⟨a, _, _, _, rfl, h5, _⟩ := h
      cases List.mem_singleton.1 hb
      exact h5
    · obtain ⟨_, _, rfl⟩ := h
      cases hb
  frame := by
    rintro s s' F e (v | e') h hk
    · obtain ⟨a, h1, h2, h3, rfl, h5, h6⟩ := h
      obtain ⟨k1, k2⟩ := hk _ (List.mem_singleton.2 rfl)
      exact ⟨a, h1, h2, h3, rfl, k1, (k2 a (Nat.le_refl _) (Nat.lt_succ_self _)).trans h6⟩
    · exact h

/-! ## User code -/

/-- `Box::new(v)`: abort if there is no memory. -/
def boxNew (env : Env) (v : BitVec 8) : M EVal := do
  let a ← allocM env 1 1
  if a = 0 then M.panic .abort else do
    ptrWrite u8L.shape a [[some v]]
    pure (heapAt a)

/-- The pointer in an item, if it has one. -/
def itemPtr (e : EVal) : Option Nat :=
  match e with
  | ⟨"Heap", .tuple [bs]⟩ => some (bytesAddr bs)
  | _ => none

/-- Follow the pointer. -/
def itemByte (e : EVal) : M Item :=
  match itemPtr e with
  | some a => do
    let v ← ptrRead u8L.shape a
    match v with
    | [[some b]] => pure (.inl b)
    | _ => M.panic .abort
  | none => pure (.inr e)

/-- Derived `clone`: a deep copy. -/
def itemClone (env : Env) (e : EVal) : M EVal := do
  let x ← itemByte e
  match x with
  | .inl v => boxNew env v
  | .inr e => pure e

/-- Derived `eq`: compares the bytes, not the pointers. -/
def itemEq (e e' : EVal) : M Bool := do
  let x ← itemByte e
  let y ← itemByte e'
  pure (decide (x = y))

/-- `drop(item)` by the client: frees the box. -/
def itemFree (e : EVal) : M Unit :=
  match itemPtr e with
  | some a => deallocM a 1 1
  | none => pure ()

/-- The destructor of `Box<u8>` (type 5). -/
def itemBody (id : Nat) (v : List MByte) : M Unit := if id = 5 then deallocM (bytesAddr v) 1 1 else pure ()

/-- `*b = v` in an item. -/
def itemSet (v : BitVec 8) (e : EVal) : M (EVal × Unit) :=
  match itemPtr e with
  | some a => do ptrWrite u8L.shape a [[some v]]; pure (e, ())
  | none => pure (e, ())

/-! ## It meets the requirements -/

variable {env : Env} {s : State} {F : List Block} {e : EVal}

theorem heapAt_value {a : Nat} (h : a < 2 ^ 64) (h0 : a ≠ 0) : IsEnumValue rcDemo declMix (heapAt a) :=
  ⟨2, _, rfl, rfl, addrBytes_valid h h0, trivial⟩

theorem itemPtr_heap {a : Nat} (h : a < 2 ^ 64) : itemPtr (heapAt a) = some a := by
  show some (bytesAddr (addrBytes a)) = _
  rw [bytesAddr_addrBytes h]

theorem itemPtr_other (h : e.variant ≠ "Heap") : itemPtr e = none := by
  unfold itemPtr
  split
  · exact absurd rfl h
  · rfl

theorem itemByte_run {x : Item} (h : ownItem.own s F e x) : itemByte e s = .ret x s := by
  cases x with
  | inl v =>
    obtain ⟨a, rfl, h2, h3, rfl, h5, h6⟩ := h
    have hr : ptrRead u8L.shape a s = .ret [[some v]] s := by
      rw [ptrRead_ret_iff]
      refine ⟨rfl, ?_, ?_, ?_⟩
      · rw [validPtr_iff]
        exact ⟨h2, Nat.mod_one _, .inr ⟨_, h5, Nat.le_refl _, Nat.le_refl _⟩⟩
      · show [[some v]] = [[s.mem (a + 0 + 0)]]
        rw [Nat.add_zero, h6]
      · exact ⟨⟨rfl, rfl⟩, trivial⟩
    simp only [itemByte, itemPtr_heap h3]
    exact M.bind_of_ret hr
  | inr e' =>
    obtain ⟨rfl, h2, rfl⟩ := h
    simp only [itemByte, itemPtr_other h2]
    rfl

theorem u8_shape_wf : u8L.shape.WF where
  align_pow := u8L_wf.align_pow
  size_dvd := u8L_wf.size_dvd
  field := by
    intro f hf
    cases List.mem_singleton.1 hf
    exact ⟨u8L_wf, Nat.le_refl _, Nat.dvd_zero _, Nat.dvd_refl _⟩
  disjoint := List.pairwise_singleton _ _

/-- Writing the byte of a block of one byte. -/
theorem byteWrite {a : Nat} (h0 : a ≠ 0) (hb : (⟨a, 1, 1⟩ : Block) ∈ s.blocks) (v : BitVec 8) :
    ptrWrite u8L.shape a [[some v]] s = .ret () { s with mem := putVal s.mem a u8L.shape [[some v]] } :=
  ptrWrite_ret (validPtr_iff.2 ⟨h0, Nat.mod_one _, .inr ⟨_, hb, Nat.le_refl _, Nat.le_refl _⟩⟩)

theorem byte_has (v : BitVec 8) : u8L.shape.Has [[some v]] := ⟨⟨rfl, rfl⟩, trivial⟩

theorem putVal_byte (m : Nat → MByte) (a : Nat) (v : BitVec 8) : putVal m a u8L.shape [[some v]] a = some v := by
  have := getVal_putVal u8_shape_wf (byte_has v) m a
  simpa [getVal, Leaf.shape, readBytes, u8L, intLeaf, List.range_succ] using this

theorem boxNew_null (v : BitVec 8) (ha : env.alloc s 1 1 = 0) : boxNew env v s = .panic .abort (s.log [.allocNull 1 1]) := by
  have h1 : allocM env 1 1 s = .ret 0 (s.log [.allocNull 1 1]) := by simp only [allocM, ha, if_true]
  unfold boxNew
  rw [M.bind_of_ret h1]
  rfl

theorem boxNew_some (v : BitVec 8) (ha : env.alloc s 1 1 ≠ 0) :
    boxNew env v s = .ret (heapAt (env.alloc s 1 1)) (boxedState s (env.alloc s 1 1) u8L.shape [[some v]]) := by
  have h1 : allocM env 1 1 s = .ret (env.alloc s 1 1) (State.mk (overlay s.mem (env.alloc s 1 1) (List.replicate 1 none))
      (⟨env.alloc s 1 1, 1, 1⟩ :: s.blocks) (s.trace ++ [Event.alloc ⟨env.alloc s 1 1, 1, 1⟩])) := by
    simp only [allocM, if_neg ha]
  unfold boxNew
  rw [M.bind_of_ret h1]
  simp only [if_neg ha]
  rw [M.bind_of_ret (byteWrite ha List.mem_cons_self v)]
  rfl

/-- `Box::new` makes a new value, or aborts. -/
theorem boxNew_ends (h : env.OK) (hi : HeapInv env s) (v : BitVec 8) :
    Ends env [] s (boxNew env v s) (.ok (.inl v)) (fun s' e x => NewVal rcDemo declMix ownItem s s' e x) := by
  by_cases ha : env.alloc s 1 1 = 0
  · refine ⟨s.log [.allocNull 1 1], hi.log _, (Extends.log _ _).trace, .inl ⟨boxNew_null v ha, 1, 1, ?_⟩⟩
    simp [State.log]
  · obtain ⟨l1, l2, l3⟩ := h.lawful s 1 1 (by omega) ha
    have hlt : env.alloc s 1 1 < 2 ^ 64 := by have := h.pow_le; omega
    have hE := boxedState_extends h (s := s) u8_shape_wf (byte_has v) (by decide) ha
    refine ⟨_, boxedState_inv h hi (sh := u8L.shape) (v := [[some v]]) (by decide) ha, hE.trace,
      .inr ⟨.of_extends _ hE, ?_, _, boxNew_some v ha, [⟨env.alloc s 1 1, 1, 1⟩], ⟨heapAt_value hlt ha, env.alloc s 1 1, rfl, ha, hlt, rfl,
        List.mem_cons_self, putVal_byte _ _ _⟩, ?_⟩⟩
    · exact dtors_boxed ..
    · intro b hb hs
      cases List.mem_singleton.1 hb
      have := l3 _ hs
      simp only [Block.Disjoint] at this
      omega

theorem ends_pure {α γ : Type} {env : Env} {s : State} {F : List Block} (hi : HeapInv env s) {a : α} {c : γ}
    {good : State → α → γ → Prop} (hg : good s a c) : Ends env F s (.ret a s) (.ok c) good :=
  ⟨s, hi, List.prefix_refl _, .inr ⟨.of_extends _ (Extends.refl _), dtors_refl _, a, rfl, hg⟩⟩

/-- `Item::Heap(Box::new(v))` -/
def makeHeap (env : Env) (v : BitVec 8) : MakeFn Item := ⟨boxNew env v, .ok (.inl v)⟩

theorem makeHeap_ok (h : env.OK) (v : BitVec 8) : (makeHeap env v).OK env rcDemo declMix ownItem :=
  fun _ hi => boxNew_ends h hi v

def cloneItem (env : Env) : CloneFn Item := ⟨itemClone env, .ok⟩

theorem cloneItem_ok (h : env.OK) : (cloneItem env).OK env rcDemo declMix ownItem := by
  intro s F e x hi hv
  have hb := itemByte_run hv.2
  show Ends env [] s (itemClone env e s) (.ok x) _
  cases x with
  | inl v =>
    rw [show itemClone env e s = boxNew env v s from M.bind_of_ret hb]
    exact boxNew_ends h hi v
  | inr e' =>
    obtain ⟨rfl, h2, h3⟩ := hv.2
    rw [show itemClone env e s = .ret e s from M.bind_of_ret hb]
    exact ends_pure hi ⟨[], ⟨hv.1, rfl, h2, rfl⟩, by simp⟩

def eqItem : Look2Fn Item Bool := ⟨itemEq, fun x y => .ok (decide (x = y))⟩

theorem eqItem_ok : eqItem.OK env rcDemo declMix ownItem := by
  intro s F e x F' e' x' hi hv hv'
  have hr : itemEq e e' s = .ret (decide (x = x')) s := by
    unfold itemEq
    rw [M.bind_of_ret (itemByte_run hv.2), M.bind_of_ret (itemByte_run hv'.2)]
    rfl
  show Ends env [] s (itemEq e e' s) _ _
  rw [hr]
  exact ends_pure hi rfl

/-- Look at an item. -/
def lookItem : LookFn Item Item := ⟨itemByte, .ok⟩

theorem lookItem_ok : lookItem.OK env rcDemo declMix ownItem := by
  intro s F e x hi hv
  show Ends env [] s (itemByte e s) _ _
  rw [itemByte_run hv.2]
  exact ends_pure hi rfl

theorem freed_changes {blk : Block} (hi : HeapInv env s) :
    ChangesOnly [blk] s { s with blocks := s.blocks.erase blk, trace := s.trace ++ [.dealloc blk] } where
  others b hb hn := ⟨(hi.nodup.mem_erase_iff).2 ⟨fun e => hn (List.mem_singleton.2 e), hb⟩, fun _ _ _ => rfl⟩
  trace := List.prefix_append _ _

theorem itemFree_run {x : Item} (hi : HeapInv env s) (hv : ownItem.own s F e x) :
    ∃ s', itemFree e s = .ret () s' ∧ HeapInv env s' ∧ ChangesOnly F s s' ∧ dtorsBetween s s' = [] := by
  cases x with
  | inl v =>
    obtain ⟨a, rfl, h2, h3, rfl, h5, h6⟩ := hv
    simp only [itemFree, itemPtr_heap h3]
    exact ⟨_, deallocM_ret h5, freedState_inv hi _, freed_changes hi, by simp [dtorsBetween, freedState, Event.isDtor]⟩
  | inr e' =>
    obtain ⟨rfl, h2, rfl⟩ := hv
    simp only [itemFree, itemPtr_other h2]
    exact ⟨s, rfl, hi, .of_extends _ (Extends.refl _), dtors_refl _⟩

/-- `drop(item)` -/
def freeItem : TakeFn Item Item := ⟨fun e => do itemFree e; pure (.inr ⟨"Tag", .unit⟩), fun _ => .ok (.inr ⟨"Tag", .unit⟩)⟩

theorem freeItem_ok : freeItem.OK env rcDemo declMix ownItem := by
  intro s F e x hi hv
  obtain ⟨s', h1, h2, h3, h4⟩ := itemFree_run hi hv.2
  exact ⟨s', h2, h3.trace, .inr ⟨h3, h4, _, M.bind_of_ret h1, rfl⟩⟩

/-- `if let Item::Heap(b) = &mut item { **b = v }` -/
def setItem (v : BitVec 8) : ModifyFn Item Item :=
  ⟨fun e => do let r ← itemSet v e; pure (r.1, .inr ⟨"Tag", .unit⟩), fun x => (match x with | .inl _ => .inl v | .inr e => .inr e, .inr ⟨"Tag", .unit⟩)⟩

theorem setItem_ok (v : BitVec 8) : (setItem v).OK env rcDemo declMix ownItem := by
  intro s F e x hi hv
  cases x with
  | inl w =>
    obtain ⟨hval, a, rfl, h2, h3, rfl, h5, h6⟩ := hv
    have hr : itemSet v (heapAt a) s = .ret (heapAt a, ()) { s with mem := putVal s.mem a u8L.shape [[some v]] } := by
      simp only [itemSet, itemPtr_heap h3]
      exact M.bind_of_ret (byteWrite h2 h5 v)
    have hr' : (setItem v).run (heapAt a) s = .ret (heapAt a, .inr ⟨"Tag", .unit⟩)
      { s with mem := putVal s.mem a u8L.shape [[some v]] } := M.bind_of_ret hr
    refine ⟨{ s with mem := putVal s.mem a u8L.shape [[some v]] }, ⟨hi.block, hi.disjoint⟩, List.prefix_refl _,
      .inr ⟨⟨fun b hb hn => ⟨hb, fun i k1 k2 => ?_⟩, List.prefix_refl _⟩, by simp [dtorsBetween], _, hr', rfl, [⟨a, 1, 1⟩],
        ⟨hval, a, rfl, h2, h3, rfl, h5, putVal_byte _ _ _⟩, fun b hb => .inl hb⟩⟩
    refine putVal_out u8_shape_wf (byte_has v) ?_
    have hd := hi.eq_or_disjoint hb h5
    rcases hd with hd | hd
    · exact absurd (List.mem_singleton.2 hd) hn
    · simp only [Block.Disjoint] at hd
      show i < a ∨ a + 1 ≤ i
      omega
  | inr e' =>
    obtain ⟨hval, rfl, h2, rfl⟩ := hv
    have hr : itemSet v e s = .ret (e, ()) s := by simp only [itemSet, itemPtr_other h2]; rfl
    show Ends env [] s ((setItem v).run e s) (.ok ((Sum.inr e, Sum.inr ⟨"Tag", .unit⟩) : Item × Item)) _
    rw [show (setItem v).run e s = .ret (e, .inr ⟨"Tag", .unit⟩) s from M.bind_of_ret hr]
    exact ends_pure hi ⟨rfl, [], ⟨hval, rfl, h2, rfl⟩, by simp⟩

theorem setItem_inPlace (v : BitVec 8) : (setItem v).InPlace := by
  intro e s r s' h
  obtain ⟨q, s₁, h1, h2⟩ := M.bind_ret_inv h
  cases h2
  show q.1 = e
  cases hp : itemPtr e with
  | some a =>
    simp only [itemSet, hp] at h1
    obtain ⟨_, _, _, h3⟩ := M.bind_ret_inv h1
    cases h3; rfl
  | none =>
    simp only [itemSet, hp] at h1
    cases h1; rfl

/-- `if let Item::Heap(c) = &item { c.set(Box::new(v)) }` with a payload `Cell<Box<u8>>`: a new box; the old one is dropped. -/
def swapItem (env : Env) (v : BitVec 8) : ModifyFn Item Item :=
  ⟨fun e => match itemPtr e with
    | some _ => do
      let n ← boxNew env v
      itemFree e
      pure (n, .inr ⟨"Tag", .unit⟩)
    | none => pure (e, .inr ⟨"Tag", .unit⟩),
   fun x => (match x with | .inl _ => .inl v | .inr e => .inr e, .inr ⟨"Tag", .unit⟩)⟩

theorem swapItem_ok (h : env.OK) (v : BitVec 8) : (swapItem env v).OK env rcDemo declMix ownItem := by
  intro s F e x hi hv
  cases x with
  | inl w =>
    have hp : ∃ a, itemPtr e = some a := by
      obtain ⟨a, rfl, _, h3, _⟩ := hv.2
      exact ⟨a, itemPtr_heap h3⟩
    obtain ⟨a, hp⟩ := hp
    have hrun : ∀ s, (swapItem env v).run e s = (do
      let n ← boxNew env v
      itemFree e
      pure (n, (.inr ⟨"Tag", .unit⟩ : Item)) : M (EVal × Item)) s := fun s => by simp only [swapItem, hp]
    rw [hrun]
    obtain ⟨s₁, ht, ⟨h1, h2⟩ | ⟨hi₁, hC, hd, ⟨n, y, hy, h2, F', h3, h4⟩ | ⟨k, hk, _⟩⟩⟩ := (boxNew_ends h hi v).cases
    · exact ⟨s₁, (by have := boxNew_ends h hi v; obtain ⟨s₂, k1, k2, ⟨k3, _⟩ | ⟨_, _, n, k3, _⟩⟩ := this
                     · rw [h1] at k3; cases k3; exact k1
                     · rw [h1] at k3; cases k3), ht, .inl ⟨M.bind_of_panic h1, h2⟩⟩
    · cases hy
      have hlive := ownItem_lawful.live hv.2
      have hv₁ : ownItem.own s₁ F e (.inl w) := ownItem_lawful.frame hv.2
        (hC.keeps fun b hb => ⟨hlive b hb, by simp⟩)
      obtain ⟨s₂, f1, f2, f3, f4⟩ := itemFree_run hi₁ hv₁
      have hk : Keeps F' s₁ s₂ := f3.keeps fun b hb => ⟨ownItem_lawful.live h3.2 b hb, fun hx => h4 b hb (hlive b hx)⟩
      refine ⟨s₂, f2, ht.trans f3.trace, .inr ⟨?_, by rw [dtors_trans ht f3.trace, hd, f4]; rfl, (n, .inr ⟨"Tag", .unit⟩), ?_, rfl, F',
        ⟨h3.1, ownItem_lawful.frame h3.2 hk⟩, fun b hb => .inr (h4 b hb)⟩⟩
      · exact (ChangesOnly.of_extends F hC.extends).trans f3 (fun b hb => .inl hb)
      · rw [M.bind_of_ret h2, M.bind_of_ret f1]; rfl
    · cases hk
  | inr e' =>
    obtain ⟨hval, rfl, h2, rfl⟩ := hv
    have hrun : (swapItem env v).run e s = .ret (e, .inr ⟨"Tag", .unit⟩) s := by
      simp only [swapItem, itemPtr_other h2]; rfl
    rw [hrun]
    exact ends_pure hi ⟨rfl, [], ⟨hval, rfl, h2, rfl⟩, by simp⟩

/-! ## Destructors -/

theorem item_noZst : NoZeroSizedDtors rcDemo declMix := by
  rintro e ⟨i, d, hd, hn, hf⟩ hz
  exfalso
  match i, hd with
  | 0, hd => cases hd; simp [zeroSized, declMix, hn, Fields.shape] at hz
  | 1, hd => cases hd; revert hz; rw [zeroSized, hn]; decide
  | 2, hd => cases hd; revert hz; rw [zeroSized, hn]; decide
  | 3, hd => cases hd; revert hz; rw [zeroSized, hn]; decide
  | _ + 4, hd => cases hd

theorem item_drop : DropOK env rcDemo declMix ownItem itemBody := by
  intro s F e x hi hv
  cases x with
  | inl v =>
    obtain ⟨_, a, rfl, h2, h3, rfl, h5, h6⟩ := hv
    have hd : fieldDtors rcDemo declMix (heapAt a) = [.drop 5 (addrBytes a)] := rfl
    have hr : itemBody 5 (addrBytes a) s = deallocM a 1 1 s := by
      show deallocM (bytesAddr (addrBytes a)) 1 1 s = _
      rw [bytesAddr_addrBytes h3]
    refine ⟨_, ?_, freedState_inv hi _, freed_changes hi⟩
    rw [hd]
    exact M.bind_of_ret (hr.trans (deallocM_ret h5))
  | inr e' =>
    obtain ⟨⟨i, d, hdi, hn, hf⟩, rfl, h2, rfl⟩ := hv
    have hd : fieldDtors rcDemo declMix e = [] := by
      obtain ⟨ev, ep⟩ := e
      match i, hdi with
      | 0, hdi => cases hdi; cases hn; rfl
      | 1, hdi =>
        cases hdi; cases hn
        match ep, hf with
        | .tuple [_, _], _ => rfl
      | 2, hdi => cases hdi; exact absurd hn h2
      | 3, hdi =>
        cases hdi; cases hn
        match ep, hf with
        | .record [_, _], _ => rfl
      | _ + 4, hdi => cases hdi
    rw [hd]
    exact ⟨s, rfl, hi, .of_extends _ (Extends.refl _)⟩

end TB.Macro

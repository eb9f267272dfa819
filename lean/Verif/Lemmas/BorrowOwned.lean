import Verif.Spec.BorrowOwned
import Verif.Lemmas.Borrow

/-! # Simulation proof for containers with boxes in them (helper lemmas) -/

set_option autoImplicit false

namespace TB

/-! ## Addresses in memory -/

theorem addrEnc_succ (n a : Nat) : addrEnc (n + 1) a = some (BitVec.ofNat 8 a) :: addrEnc n (a / 256) := by
  simp only [addrEnc, List.range_succ_eq_map, List.map_cons, List.map_map]
  congr 1
  · simp
  · refine List.map_congr_left (fun i _ => ?_)
    simp only [Function.comp, Nat.succ_eq_add_one]
    rw [Nat.div_div_eq_div_mul, Nat.pow_succ, Nat.mul_comm]

theorem addrDec_enc : ∀ (n a : Nat), addrDec (addrEnc n a) = a % 256 ^ n
  | 0, a => by simp [addrEnc, addrDec, Nat.mod_one]
  | n + 1, a => by
    have ih := addrDec_enc n (a / 256)
    rw [addrEnc_succ]
    have : addrDec (some (BitVec.ofNat 8 a) :: addrEnc n (a / 256)) = a % 256 + 256 * addrDec (addrEnc n (a / 256)) := by
      simp [addrDec]
    rw [this, ih, Nat.pow_succ, Nat.mul_comm (256 ^ n), Nat.mod_mul]

theorem addrEnc_length (n a : Nat) : (addrEnc n a).length = n := by simp [addrEnc]

theorem addrEnc_some (n a : Nat) : (addrEnc n a).all (·.isSome) = true := by simp [addrEnc]

section
variable {env : Env}

theorem ptrLeaf_wf (ok : env.OK) : (ptrLeaf env).WF := by
  refine ⟨?_, Nat.dvd_refl _⟩
  rcases ok.target with h | h
  · exact ⟨2, by omega, by simp [ptrLeaf, h]⟩
  · exact ⟨3, by omega, by simp [ptrLeaf, h]⟩

theorem pow_ptrBits (ok : env.OK) : 256 ^ (env.ptrBits / 8) = 2 ^ env.ptrBits := by
  rcases ok.target with h | h <;> rw [h]

theorem ptrSize_pos (ok : env.OK) : 0 < env.ptrBits / 8 := by
  rcases ok.target with h | h <;> rw [h] <;> decide

theorem addr_roundtrip (ok : env.OK) {a : Nat} (h : a < 2 ^ env.ptrBits) : addrDec (addrEnc (env.ptrBits / 8) a) = a := by
  rw [addrDec_enc, pow_ptrBits ok, Nat.mod_eq_of_lt h]

theorem addr_has (ok : env.OK) {a : Nat} (h : a < 2 ^ env.ptrBits) (h0 : a ≠ 0) :
    (ptrLeaf env).shape.Has [addrEnc (env.ptrBits / 8) a] := by
  refine ⟨⟨addrEnc_length _ _, ?_⟩, trivial⟩
  show ((addrEnc (env.ptrBits / 8) a).all (·.isSome) && !decide (addrDec (addrEnc (env.ptrBits / 8) a) = 0)) = true
  rw [addrEnc_some, addr_roundtrip ok h]
  simp [h0]

/-! ## Frames -/

/-- What a step that only touches the bytes in `P` leaves alone. -/
structure Apart (s : State) (β : Borrows) (s' : State) (β' : Borrows) (P : Nat → Prop) : Prop where
  mem : ∀ j, ¬ P j → s'.mem j = s.mem j
  stk : ∀ j, ¬ P j → β'.stk j = β.stk j
  ptrs : ∀ j, ¬ P j → β'.ptrs j = β.ptrs j
  blocks : ∀ b ∈ s.blocks, (∀ j, b.base ≤ j → j < b.base + b.size → ¬ P j) → b ∈ s'.blocks
  next : β.next ≤ β'.next
  exposed : ∀ e ∈ β.exposed, e ∈ β'.exposed

theorem Apart.trans {s s' s'' : State} {β β' β'' : Borrows} {P : Nat → Prop} (h : Apart s β s' β' P) (h' : Apart s' β' s'' β'' P) :
    Apart s β s'' β'' P where
  mem := fun j hj => (h'.mem j hj).trans (h.mem j hj)
  stk := fun j hj => (h'.stk j hj).trans (h.stk j hj)
  ptrs := fun j hj => (h'.ptrs j hj).trans (h.ptrs j hj)
  blocks := fun b hb hp => h'.blocks b (h.blocks b hb hp) hp
  next := Nat.le_trans h.next h'.next
  exposed := fun e he => h'.exposed e (h.exposed e he)

/-- A box with value `v` in it; its bytes have, above the box's own item, the items `top`. -/
structure OwnAt (s : State) (β : Borrows) (U : Shape) (v : Val) (q : BPtr) (top : List Item) : Prop where
  wf : U.WF
  read : ptrRead U q.addr s = .ret v s
  block : 0 < U.size → (⟨q.addr, U.size, U.align⟩ : Block) ∈ s.blocks
  stk : 0 < U.size → ∃ t base, q.tag = .of t ∧ ((∀ it ∈ base, it.tag ≠ t) ∧ ∀ a ∈ top, ∀ it ∈ (⟨t, .unique⟩ : Item) :: base, it.tag ≠ a.tag) ∧
    (∀ it ∈ top ++ ⟨t, .unique⟩ :: base, it.tag < β.next) ∧
    ∀ j, q.addr ≤ j → j < q.addr + U.size → β.stk j = top ++ ⟨t, .unique⟩ :: base

theorem OwnAt.frame {s s' : State} {β β' : Borrows} {U : Shape} {v : Val} {q : BPtr} {top : List Item} {P : Nat → Prop}
    (h : OwnAt s β U v q top) (hf : Apart s β s' β' P) (hp : ∀ j, q.addr ≤ j → j < q.addr + U.size → ¬ P j) : OwnAt s' β' U v q top := by
  refine ⟨h.wf, ?_, fun hz => hf.blocks _ (h.block hz) hp, fun hz => ?_⟩
  · have hb := h.read
    rw [ptrRead_ret_iff] at hb ⊢
    obtain ⟨-, h1, h2, h3⟩ := hb
    refine ⟨rfl, ?_, ?_, h3⟩
    · rw [validPtr_iff] at h1 ⊢
      refine ⟨h1.1, h1.2.1, ?_⟩
      by_cases hz : U.size = 0
      · exact Or.inl hz
      · exact Or.inr ⟨_, hf.blocks _ (h.block (by omega)) hp, Nat.le_refl _, Nat.le_refl _⟩
    · rw [h2]; exact getVal_congr h.wf (fun i h1 h2 => (hf.mem i (hp i h1 h2)).symm)
  · obtain ⟨t, base, e1, e2, e3, e4⟩ := h.stk hz
    exact ⟨t, base, e1, e2, fun it hit => Nat.lt_of_lt_of_le (e3 it hit) hf.next, fun j h1 h2 => (hf.stk j (hp j h1 h2)).trans (e4 j h1 h2)⟩

theorem OwnAt.log {s : State} {β : Borrows} {U : Shape} {v : Val} {q : BPtr} {top : List Item} (h : OwnAt s β U v q top) (es : List Event) :
    OwnAt (s.log es) β U v q top :=
  h.frame (P := fun _ => False) ⟨fun _ _ => rfl, fun _ _ => rfl, fun _ _ => rfl, fun _ hb _ => hb, Nat.le_refl _, fun _ he => he⟩
    (fun _ _ _ => not_false)

theorem OwnAt.valid {s : State} {β : Borrows} {U : Shape} {v : Val} {q : BPtr} {top : List Item} (h : OwnAt s β U v q top) :
    validPtr s q.addr U.size U.align = true := (ptrRead_ret_iff.1 h.read).2.1

theorem OwnAt.has {s : State} {β : Borrows} {U : Shape} {v : Val} {q : BPtr} {top : List Item} (h : OwnAt s β U v q top) :
    U.Has v := (ptrRead_ret_iff.1 h.read).2.2.2

theorem OwnAt.ne_zero {s : State} {β : Borrows} {U : Shape} {v : Val} {q : BPtr} {top : List Item} (h : OwnAt s β U v q top) :
    q.addr ≠ 0 := (validPtr_iff.1 h.valid).1

/-- Reading and writing through a box nothing lies above. -/
theorem OwnAt.accesses {s : State} {β : Borrows} {U : Shape} {v : Val} {q : BPtr} (h : OwnAt s β U v q []) :
    β.access (readStack (β.grants q.tag)) q.addr U.size = some β ∧ β.access (writeStack (β.grants q.tag)) q.addr U.size = some β := by
  by_cases hz : U.size = 0
  · exact ⟨Borrows.access_same (fun i h1 h2 => absurd h2 (by omega)), Borrows.access_same (fun i h1 h2 => absurd h2 (by omega))⟩
  · obtain ⟨t, base, e1, e2, e3, e4⟩ := h.stk (by omega)
    rw [e1]
    have : ∀ i, q.addr ≤ i → i < q.addr + U.size → ∃ st, β.stk i = ⟨t, .unique⟩ :: st ∧ ∀ it ∈ st, it.tag ≠ t :=
      fun i h1 h2 => ⟨base, e4 i h1 h2, e2.1⟩
    exact ⟨read_top this, write_top this⟩

theorem writeStack_top_app {g : Nat → Bool} {b : Item} (hg : g b.tag = true) (hw : b.perm.writes = true) {st : List Item} :
    ∀ {pre : List Item}, (∀ it ∈ pre, g it.tag = false) → writeStack g (pre ++ b :: st) = some (b :: st)
  | [], _ => writeStack_top hg hw
  | x :: pre, h => by
    simp only [List.cons_append, writeStack, h x List.mem_cons_self, Bool.false_and]
    exact writeStack_top_app hg hw (fun it hit => h it (List.mem_cons_of_mem _ hit))

/-- The bytes of the box. -/
def BPtr.Covers (q : BPtr) (U : Shape) (j : Nat) : Prop := q.addr ≤ j ∧ j < q.addr + U.size

/-- Making a further unique pointer from a box. -/
theorem OwnAt.retag {s : State} {β : Borrows} {U : Shape} {v : Val} {q : BPtr} {top : List Item} (h : OwnAt s β U v q top) :
    ∃ β', retagMut U q s β = .ret ⟨q.addr, .of β.next⟩ s β' ∧ β'.next = β.next + 1 ∧ β'.exposed = β.exposed ∧ β'.ptrs = β.ptrs ∧
      Apart s β s β' (q.Covers U) ∧ OwnAt s β' U v q [⟨β.next, .unique⟩] ∧ OwnAt s β' U v ⟨q.addr, .of β.next⟩ [] ∧
      (∀ j, q.Covers U j → ∃ rest, β.stk j = top ++ rest ∧ β'.stk j = ⟨β.next, .unique⟩ :: rest ∧ ∀ a ∈ top, ∀ it ∈ rest, it.tag ≠ a.tag) := by
  obtain ⟨β1, a1, n1, x1, s1, o1, p1⟩ : ∃ β1, β.access (writeStack (β.grants q.tag)) q.addr U.size = some β1 ∧ β1.next = β.next ∧
      β1.exposed = β.exposed ∧ (0 < U.size → ∃ t base, q.tag = .of t ∧ (∀ it ∈ base, it.tag ≠ t) ∧ (∀ it ∈ (⟨t, .unique⟩ : Item) :: base, it.tag < β.next) ∧
        (∀ j, q.addr ≤ j → j < q.addr + U.size → β1.stk j = ⟨t, .unique⟩ :: base ∧ β.stk j = top ++ ⟨t, .unique⟩ :: base) ∧
        ∀ a ∈ top, ∀ it ∈ (⟨t, .unique⟩ : Item) :: base, it.tag ≠ a.tag) ∧
      (∀ j, ¬ q.Covers U j → β1.stk j = β.stk j) ∧ β1.ptrs = β.ptrs := by
    by_cases hz : U.size = 0
    · exact ⟨β, Borrows.access_same (fun i h1 h2 => absurd h2 (by omega)), rfl, rfl, fun hp => absurd hz (by omega), fun _ _ => rfl, rfl⟩
    · obtain ⟨t, base, e1, ⟨e2, e5⟩, e3, e4⟩ := h.stk (by omega)
      have key : ∀ i, q.addr ≤ i → i < q.addr + U.size → writeStack (β.grants q.tag) (β.stk i) = some (⟨t, .unique⟩ :: base) := by
        intro i h1 h2
        rw [e4 i h1 h2, e1]
        refine writeStack_top_app (by simp [Borrows.grants]) rfl (fun it hit => ?_)
        have := e5 it hit _ List.mem_cons_self
        simp only [Borrows.grants, decide_eq_false_iff_not]
        exact this
      obtain ⟨β1, a1, n1, x1, s1, o1⟩ := Borrows.access_some (fun i h1 h2 => ⟨_, key i h1 h2⟩)
      refine ⟨β1, a1, n1, x1, fun _ => ⟨t, base, e1, e2,
        fun it hit => e3 it (List.mem_append_right _ hit), fun j h1 h2 => ⟨?_, e4 j h1 h2⟩, e5⟩, o1, Borrows.access_ptrs a1⟩
      have := s1 j h1 h2
      rw [key j h1 h2] at this
      exact (Option.some.inj this).symm
  have hr := retagMut_ret a1 h.valid
  rw [n1] at hr
  refine ⟨_, hr, by show β1.next + 1 = _; rw [n1], x1, p1, ⟨fun _ _ => rfl, fun j hj => ?_, fun _ _ => by rw [show (β1.push .unique q.addr U.size).ptrs = β1.ptrs from rfl, p1],
    fun _ hb _ => hb, by show _ ≤ β1.next + 1; omega, fun e he => by show e ∈ β1.exposed; rw [x1]; exact he⟩, ?_, ?_, ?_⟩
  · rw [push_stk_out hj]; exact o1 j hj
  · refine ⟨h.wf, h.read, h.block, fun hz => ?_⟩
    obtain ⟨t, base, e1, e2, e3, e4, e5⟩ := s1 hz
    refine ⟨t, base, e1, ⟨e2, ?_⟩, ?_, fun j h1 h2 => ?_⟩
    · intro a ha it hit
      rw [List.mem_singleton] at ha
      subst ha
      exact Nat.ne_of_lt (e3 it hit)
    · intro it hit
      show it.tag < β1.next + 1
      rw [n1]
      rcases List.mem_cons.1 hit with rfl | hit
      · exact Nat.lt_succ_self _
      · exact Nat.lt_succ_of_lt (e3 it hit)
    · rw [push_stk h1 h2, (e4 j h1 h2).1, n1]; rfl
  · refine ⟨h.wf, h.read, h.block, fun hz => ?_⟩
    obtain ⟨t, base, e1, e2, e3, e4, e5⟩ := s1 hz
    refine ⟨β.next, ⟨t, .unique⟩ :: base, rfl, ⟨?_, fun a ha => by cases ha⟩, ?_, fun j h1 h2 => ?_⟩
    · intro it hit
      exact Nat.ne_of_lt (e3 it hit)
    · intro it hit
      show it.tag < β1.next + 1
      rw [n1]
      rcases List.mem_cons.1 hit with rfl | hit
      · exact Nat.lt_succ_self _
      · exact Nat.lt_succ_of_lt (e3 it hit)
    · show (β1.push .unique q.addr U.size).stk j = _
      rw [push_stk h1 h2, (e4 j h1 h2).1, n1]; rfl
  · intro j hj
    obtain ⟨t, base, e1, e2, e3, e4, e5⟩ := s1 (by have := hj.1; have := hj.2; omega)
    refine ⟨⟨t, .unique⟩ :: base, (e4 j hj.1 hj.2).2, ?_, e5⟩
    rw [push_stk hj.1 hj.2, (e4 j hj.1 hj.2).1, n1]

/-! ## Slots -/

/-- The memory of a container: a block with the address of the box in it. -/
structure SlotAt (env : Env) (s : State) (β : Borrows) (A : Nat) (q : BPtr) : Prop where
  read : ptrRead (ptrLeaf env).shape A s = .ret [addrEnc (env.ptrBits / 8) q.addr] s
  block : (⟨A, env.ptrBits / 8, env.ptrBits / 8⟩ : Block) ∈ s.blocks
  small : q.addr < 2 ^ env.ptrBits
  tag : β.ptrs A = q.tag
  stk : ∀ j, A ≤ j → j < A + env.ptrBits / 8 → ∃ e ∈ β.exposed, β.stk j = [⟨e, .sharedRW⟩]

theorem SlotAt.frame (ok : env.OK) {s s' : State} {β β' : Borrows} {A : Nat} {q : BPtr} {P : Nat → Prop} (h : SlotAt env s β A q)
    (hf : Apart s β s' β' P) (hp : ∀ j, A ≤ j → j < A + env.ptrBits / 8 → ¬ P j) : SlotAt env s' β' A q := by
  have hb := hf.blocks _ h.block hp
  refine ⟨?_, hb, h.small, ?_, fun j h1 h2 => ?_⟩
  · have hr := h.read
    rw [ptrRead_ret_iff] at hr ⊢
    obtain ⟨-, h1, h2, h3⟩ := hr
    refine ⟨rfl, ?_, ?_, h3⟩
    · rw [validPtr_iff] at h1 ⊢
      exact ⟨h1.1, h1.2.1, Or.inr ⟨_, hb, Nat.le_refl _, Nat.le_refl _⟩⟩
    · rw [h2]; exact getVal_congr (ptrLeaf_wf ok).shape (fun i h1 h2 => (hf.mem i (hp i h1 h2)).symm)
  · rw [hf.ptrs A (hp A (Nat.le_refl _) (by have := ptrSize_pos ok; omega))]; exact h.tag
  · obtain ⟨e, he, hs⟩ := h.stk j h1 h2
    exact ⟨e, hf.exposed e he, (hf.stk j (hp j h1 h2)).trans hs⟩

/-- Reading the box out of a container. -/
theorem readBoxB_ret (ok : env.OK) {s : State} {β : Borrows} {A : Nat} {q : BPtr} {U : Shape} {v : Val} {top : List Item}
    (hs : SlotAt env s β A q) (h : OwnAt s β U v q top) :
    ∃ β', readBoxB env U ⟨A, .wild⟩ s β = .ret ⟨⟨q.addr, .of β.next⟩⟩ s β' ∧ β'.next = β.next + 1 ∧ β'.exposed = β.exposed ∧ β'.ptrs = β.ptrs ∧
      Apart s β s β' (q.Covers U) ∧ OwnAt s β' U v q [⟨β.next, .unique⟩] ∧ OwnAt s β' U v ⟨q.addr, .of β.next⟩ [] ∧
      (∀ j, q.Covers U j → ∃ rest, β.stk j = top ++ rest ∧ β'.stk j = ⟨β.next, .unique⟩ :: rest ∧ ∀ a ∈ top, ∀ it ∈ rest, it.tag ≠ a.tag) := by
  obtain ⟨β', hr, rest⟩ := h.retag
  refine ⟨β', ?_, rest⟩
  have ha : β.access (readStack (β.grants .wild)) A (ptrLeaf env).shape.size = some β := by
    refine Borrows.access_same (fun i h1 h2 => ?_)
    obtain ⟨e, he, hst⟩ := hs.stk i h1 h2
    rw [hst]
    exact readStack_top (by simp [Borrows.grants, he]) rfl
  have e1 := readB_ret (p := ⟨A, .wild⟩) ha hs.read
  have e2 : addrDec (([addrEnc (env.ptrBits / 8) q.addr] : Val)[0]?.getD []) = q.addr := addr_roundtrip ok hs.small
  simp only [readBoxB, MB.bind_def, e1, storedTag, hs.tag, e2]
  rw [show (⟨q.addr, q.tag⟩ : BPtr) = q from rfl, hr]
  rfl

/-! ## Making and dropping -/

/-- The state after the allocator has handed out a block. -/
def allocdState (s : State) (A n al : Nat) : State where
  mem := overlay s.mem A (List.replicate n none)
  blocks := ⟨A, n, al⟩ :: s.blocks
  trace := s.trace ++ [.alloc ⟨A, n, al⟩]

theorem allocB_allocd {s : State} {β : Borrows} {n al A : Nat} (hA : env.alloc s n al = A) (ha : A ≠ 0) :
    allocB env n al s β = .ret ⟨A, .of β.next⟩ (allocdState s A n al) { β.reset [⟨β.next, .sharedRW⟩] A n with next := β.next + 1 } := by
  subst hA
  exact allocB_ret ha

/-- `Box::new`. -/
theorem BBox.newB_spec (ok : env.OK) {s : State} (hi : HeapInv env s) {β : Borrows} {U : Shape} (hw : U.WF) {v : Val} (hv : U.Has v) :
    (∃ q s' β', BBox.newB env U v s β = .ret ⟨q⟩ s' β' ∧ HeapInv env s' ∧ OwnAt s' β' U v q [] ∧ β'.exposed = β.exposed ∧
      Apart s β s' β' (q.Covers U) ∧ q.addr < 2 ^ env.ptrBits ∧ (∀ b ∈ s.blocks, 0 < U.size → Block.Disjoint ⟨q.addr, U.size, U.align⟩ b) ∧
      dropsBetween s s' = []) ∨
    BBox.newB env U v s β = .panic .abort (s.log [.allocNull U.size U.align]) β := by
  by_cases hz : U.size = 0
  · left
    obtain ⟨p1, p2, _⟩ := align_lt ok hw.align_pow
    refine ⟨⟨U.align, .wild⟩, s, β, by rw [BBox.newB, if_pos hz]; rfl, hi,
      ⟨hw, ptrRead_zst hw hv hz (Nat.ne_of_gt p1) (Nat.dvd_refl _) _, fun h => absurd hz (by omega), fun h => absurd hz (by omega)⟩, rfl,
      ⟨fun _ _ => rfl, fun _ _ => rfl, fun _ _ => rfl, fun _ hb _ => hb, Nat.le_refl _, fun _ he => he⟩, p2, fun _ _ h => absurd hz (by omega),
      dropsBetween_refl s⟩
  · by_cases ha : env.alloc s U.size U.align = 0
    · right
      rw [BBox.newB, if_neg hz]
      simp only [MB.bind_def, allocB, MB.lift, allocM, ha, if_true]
      rfl
    · left
      obtain ⟨l1, l2, l3⟩ := ok.lawful s U.size U.align (by omega) ha
      generalize hA : env.alloc s U.size U.align = A at *
      have hv1 : validPtr (allocdState s A U.size U.align) A U.size U.align = true := by
        rw [validPtr_iff]
        exact ⟨ha, Nat.mod_eq_zero_of_dvd l1, Or.inr ⟨_, List.mem_cons_self, Nat.le_refl _, Nat.le_refl _⟩⟩
      have hstk : ∀ i, A ≤ i → i < A + U.size →
          ({ β.reset [⟨β.next, .sharedRW⟩] A U.size with next := β.next + 1 } : Borrows).stk i = [⟨β.next, .sharedRW⟩] :=
        fun i h1 h2 => if_pos ⟨h1, h2⟩
      have hacc : ({ β.reset [⟨β.next, .sharedRW⟩] A U.size with next := β.next + 1 } : Borrows).access
          (writeStack (({ β.reset [⟨β.next, .sharedRW⟩] A U.size with next := β.next + 1 } : Borrows).grants (.of β.next))) A U.size =
          some { β.reset [⟨β.next, .sharedRW⟩] A U.size with next := β.next + 1 } := by
        refine Borrows.access_same (fun i h1 h2 => ?_)
        rw [hstk i h1 h2]
        exact writeStack_top (by simp [Borrows.grants]) rfl
      have hwr := writeB_ret (p := ⟨A, .of β.next⟩) (v := v) hacc hv1
      have hstate : writtenState (allocdState s A U.size U.align) A U v = boxedState s A U v := rfl
      rw [hstate] at hwr
      have hread := boxedState_read ok hw hv hz (s := s) (by rw [hA]; exact ha)
      rw [hA] at hread
      have hrt := retagMut_ret (p := ⟨A, .of β.next⟩) hacc (ptrRead_ret_iff.1 hread).2.1
      have hmem : ∀ j, ¬ (A ≤ j ∧ j < A + U.size) → (boxedState s A U v).mem j = s.mem j := by
        intro j hj
        show putVal _ _ _ _ j = _
        rw [putVal_out hw hv (by omega), overlay_out (by simp; omega)]
      refine ⟨⟨A, .of (β.next + 1)⟩, boxedState s A U v,
        ({ β.reset [⟨β.next, .sharedRW⟩] A U.size with next := β.next + 1 } : Borrows).push .unique A U.size, ?_, by rw [← hA]; exact boxedState_inv ok hi hz (by rw [hA]; exact ha),
        ⟨hw, hread, fun _ => List.mem_cons_self, fun _ => ?_⟩, ?_, ?_, ?_, fun b hb _ => l3 b hb, ?_⟩
      · have e1 := allocB_allocd (β := β) hA ha
        rw [BBox.newB, if_neg hz]
        simp only [MB.bind_def, e1, ha, if_false, hwr, hrt]
        rfl
      · refine ⟨β.next + 1, [⟨β.next, .sharedRW⟩], rfl, ⟨fun it hit => ?_, fun a h => by cases h⟩, fun it hit => ?_, fun j h1 h2 => ?_⟩
        · rw [List.mem_singleton] at hit; subst hit; exact Nat.ne_of_lt (Nat.lt_succ_self _)
        · show it.tag < β.next + 1 + 1
          simp only [List.nil_append, List.mem_cons, List.not_mem_nil, or_false] at hit
          rcases hit with rfl | rfl
          · exact Nat.lt_succ_self _
          · exact Nat.lt_succ_of_lt (Nat.lt_succ_self _)
        · show (Borrows.push _ .unique A U.size).stk j = _
          rw [push_stk h1 h2, hstk j h1 h2]; rfl
      · rfl
      · refine ⟨hmem, fun j hj => ?_, fun _ _ => rfl, fun b hb _ => List.mem_cons_of_mem _ hb, ?_, fun _ he => he⟩
        · rw [push_stk_out hj]; exact if_neg hj
        · show β.next ≤ β.next + 1 + 1; omega
      · show A < _; omega
      · simp [dropsBetween, boxedState, Event.isDrop]

/-- The state and borrow state after a container has been set up at `A` for the box `q`. -/
def slotState (env : Env) (s : State) (A : Nat) (q : BPtr) : State :=
  boxedState s A (ptrLeaf env).shape [addrEnc (env.ptrBits / 8) q.addr]

def slotBorrows (env : Env) (β : Borrows) (A : Nat) (q : BPtr) : Borrows :=
  { newBorrows β A (env.ptrBits / 8) with ptrs := fun a => if a = A then q.tag else β.ptrs a }

theorem slot_facts (ok : env.OK) {s : State} (hi : HeapInv env s) {β : Borrows} {q : BPtr} (hq : q.addr < 2 ^ env.ptrBits) (h0 : q.addr ≠ 0)
    {A : Nat} (hA : env.alloc s (env.ptrBits / 8) (env.ptrBits / 8) = A) (ha : A ≠ 0) :
    HeapInv env (slotState env s A q) ∧ SlotAt env (slotState env s A q) (slotBorrows env β A q) A q ∧
    Apart s β (slotState env s A q) (slotBorrows env β A q) (fun j => A ≤ j ∧ j < A + env.ptrBits / 8) ∧ A < 2 ^ env.ptrBits ∧
    (∀ b ∈ s.blocks, Block.Disjoint ⟨A, env.ptrBits / 8, env.ptrBits / 8⟩ b) ∧ dropsBetween s (slotState env s A q) = [] := by
  have hp := ptrSize_pos ok
  have hw := (ptrLeaf_wf ok).shape
  have hv := addr_has ok hq h0
  have hz : (ptrLeaf env).shape.size ≠ 0 := Nat.ne_of_gt hp
  obtain ⟨l1, l2, l3⟩ := ok.lawful s (env.ptrBits / 8) (env.ptrBits / 8) hp (by rw [hA]; exact ha)
  have hA' : env.alloc s (ptrLeaf env).shape.size (ptrLeaf env).shape.align = A := hA
  have ha' : env.alloc s (ptrLeaf env).shape.size (ptrLeaf env).shape.align ≠ 0 := by rw [hA']; exact ha
  have hinv := boxedState_inv (v := [addrEnc (env.ptrBits / 8) q.addr]) ok hi hz ha'
  have hread := boxedState_read ok hw hv hz ha'
  rw [hA'] at hinv hread
  rw [hA] at l1 l2 l3
  refine ⟨hinv, ⟨hread, List.mem_cons_self, hq, if_pos rfl, fun j h1 h2 => ⟨β.next, List.mem_cons_self, if_pos ⟨h1, h2⟩⟩⟩,
    ⟨fun j hj => ?_, fun j hj => if_neg hj, fun j hj => if_neg (fun e => hj ⟨by omega, by omega⟩), fun b hb _ => List.mem_cons_of_mem _ hb,
      Nat.le_succ _, fun e he => List.mem_cons_of_mem _ (List.mem_cons_of_mem _ he)⟩, by omega, l3, ?_⟩
  · show putVal _ _ _ _ j = _
    have hj' : ¬ (A ≤ j ∧ j < A + (ptrLeaf env).shape.size) := hj
    rw [putVal_out hw hv (by omega), overlay_out (by simp; omega)]
  · simp [dropsBetween, slotState, boxedState, Event.isDrop]

/-- Dropping a box. -/
theorem OwnAt.drop {s : State} (hi : HeapInv env s) {β : Borrows} {U : Shape} {v : Val} {q : BPtr} (h : OwnAt s β U v q []) :
    ∃ s' β', BBox.drop U ⟨q⟩ s β = .ret () s' β' ∧ HeapInv env s' ∧ β'.exposed = β.exposed ∧ β'.next = β.next ∧ Apart s β s' β' (q.Covers U) ∧
      dropsBetween s s' = dropEvents U v := by
  have e := BBox.drop_ret h.accesses.1 h.accesses.2 h.read h.block
  by_cases hz : U.size = 0
  · rw [if_pos hz, if_pos hz] at e
    exact ⟨_, _, e, hi.log _, rfl, rfl, ⟨fun _ _ => rfl, fun _ _ => rfl, fun _ _ => rfl, fun _ hb _ => hb, Nat.le_refl _, fun _ he => he⟩,
      dropsBetween_log rfl⟩
  · rw [if_neg hz, if_neg hz] at e
    refine ⟨_, _, e, freedState_inv (hi.log _) _, rfl, rfl, ⟨fun _ _ => rfl, fun j hj => if_neg hj, fun _ _ => rfl, fun b hb hp => ?_, Nat.le_refl _,
      fun _ he => he⟩, dropsBetween_log_free rfl⟩
    refine (List.mem_erase_of_ne ?_).2 hb
    rintro rfl
    exact hp q.addr (Nat.le_refl _) (by show q.addr < q.addr + U.size; omega) ⟨Nat.le_refl _, by omega⟩

/-- Putting a box into a container. -/
theorem newBoxB_spec (ok : env.OK) (hr : env.debug = true ∨ env.InRange) {s : State} (hi : HeapInv env s) {β : Borrows} {U : Shape} {v : Val} {q : BPtr}
    (h : OwnAt s β U v q []) {d : env.cfg.Discr} (hd : env.DiscrOK d) :
    (∃ A b, env.alloc s (env.ptrBits / 8) (env.ptrBits / 8) = A ∧ A ≠ 0 ∧
      TBox.newBoxB env U ⟨q⟩ d s β = .ret b (slotState env s A q) (slotBorrows env β A q) ∧ b.asPtr env = A ∧ b.discriminant env = d) ∨
    (∃ A, env.alloc s (env.ptrBits / 8) (env.ptrBits / 8) = A ∧ A ≠ 0 ∧ env.debug = true ∧
      TBox.newBoxB env U ⟨q⟩ d s β = .panic .pointer (slotState env s A q) (slotBorrows env β A q)) ∨
    (∃ s' β', TBox.newBoxB env U ⟨q⟩ d s β = .panic .nullAlloc s' β' ∧ HeapInv env s' ∧ β'.exposed = β.exposed ∧ β'.next = β.next ∧
      Apart s β s' β' (q.Covers U) ∧ dropsBetween s s' = dropEvents U v) := by
  have hp := ptrSize_pos ok
  by_cases ha : env.alloc s (env.ptrBits / 8) (env.ptrBits / 8) = 0
  · right; right
    obtain ⟨s', β', e, i1, i2, i3, i4, i5⟩ := (h.log [.allocNull (env.ptrBits / 8) (env.ptrBits / 8)]).drop (hi.log _)
    refine ⟨s', β', ?_, i1, i2, i3, ⟨i4.mem, i4.stk, i4.ptrs, i4.blocks, i4.next, i4.exposed⟩, ?_⟩
    · have e1 : allocB env (ptrLeaf env).size (ptrLeaf env).align s β =
          .ret ⟨0, .wild⟩ (s.log [.allocNull (env.ptrBits / 8) (env.ptrBits / 8)]) β := by
        have ha' : env.alloc s (ptrLeaf env).size (ptrLeaf env).align = 0 := ha
        simp only [allocB, MB.bind_def, MB.lift, allocM, ha', if_true]
        rfl
      simp only [TBox.newBoxB, MB.bind_def, e1, exposeB]
      rw [if_pos trivial]
      simp only [MB.bind_def, e]
      rfl
    · have : dropsBetween s s' = dropsBetween (s.log [.allocNull (env.ptrBits / 8) (env.ptrBits / 8)]) s' := by
        have e := BBox.drop_ret (h.log [.allocNull (env.ptrBits / 8) (env.ptrBits / 8)]).accesses.1
          (h.log [.allocNull (env.ptrBits / 8) (env.ptrBits / 8)]).accesses.2
          (h.log [.allocNull (env.ptrBits / 8) (env.ptrBits / 8)]).read (h.log [.allocNull (env.ptrBits / 8) (env.ptrBits / 8)]).block
        rename_i e0
        rw [e] at e0
        have hs' := (BOut.ret.inj e0).2.1
        rw [← hs']
        split <;> simp [dropsBetween, State.log, freedState, List.filter_append, dropEvents_filter, Event.isDrop]
      rw [this]; exact i5
  · obtain ⟨l1, l2, l3⟩ := ok.lawful s (env.ptrBits / 8) (env.ptrBits / 8) hp ha
    generalize hA : env.alloc s (env.ptrBits / 8) (env.ptrBits / 8) = A at *
    have hlt : A < 2 ^ 64 := by have := ok.pow_le; omega
    have eofn : (BitVec.ofNat 64 A).toNat = A := by rw [BitVec.toNat_ofNat, Nat.mod_eq_of_lt hlt]
    have hne : ¬ (BitVec.ofNat 64 A = 0#64) := by
      intro e
      have := congrArg BitVec.toNat e
      rw [eofn] at this
      exact ha this
    have main : TBox.newBoxB env U ⟨q⟩ d s β = match TPtr.new env.cfg env.debug (BitVec.ofNat 64 A) d with
        | .ok t => .ret ⟨t⟩ (slotState env s A q) (slotBorrows env β A q)
        | .error k => .panic k (slotState env s A q) (slotBorrows env β A q) := by
      have e1 := allocB_allocd (β := β) (n := (ptrLeaf env).size) (al := (ptrLeaf env).align) hA ha
      have hv1 : validPtr (allocdState s A (ptrLeaf env).size (ptrLeaf env).align) A (ptrLeaf env).shape.size (ptrLeaf env).shape.align = true := by
        rw [validPtr_iff]
        exact ⟨ha, Nat.mod_eq_zero_of_dvd l1, Or.inr ⟨_, List.mem_cons_self, Nat.le_refl _, Nat.le_refl _⟩⟩
      have hacc : ({ β.reset [⟨β.next, .sharedRW⟩] A (ptrLeaf env).size with next := β.next + 1, exposed := β.next :: β.exposed } : Borrows).access
          (writeStack (({ β.reset [⟨β.next, .sharedRW⟩] A (ptrLeaf env).size with
            next := β.next + 1, exposed := β.next :: β.exposed } : Borrows).grants (.of β.next))) A (ptrLeaf env).shape.size =
          some { β.reset [⟨β.next, .sharedRW⟩] A (ptrLeaf env).size with next := β.next + 1, exposed := β.next :: β.exposed } := by
        refine Borrows.access_same (fun i h1 h2 => ?_)
        have e : (β.reset [⟨β.next, .sharedRW⟩] A (ptrLeaf env).size).stk i = [⟨β.next, .sharedRW⟩] := if_pos ⟨h1, h2⟩
        show writeStack _ ((β.reset [⟨β.next, .sharedRW⟩] A (ptrLeaf env).size).stk i) = some
          ((β.reset [⟨β.next, .sharedRW⟩] A (ptrLeaf env).size).stk i)
        rw [e]
        exact writeStack_top (by simp [Borrows.grants]) rfl
      have hw := writeB_ret (p := ⟨A, .of β.next⟩) (v := [addrEnc (env.ptrBits / 8) q.addr]) hacc hv1
      simp only [TBox.newBoxB, MB.bind_def, e1, exposeB, hne, if_false, writeBoxB]
      rw [show (β.reset [⟨β.next, .sharedRW⟩] A (ptrLeaf env).size).exposed = β.exposed from rfl, hw]
      simp only [MB.borrows]
      cases TPtr.new env.cfg env.debug (BitVec.ofNat 64 A) d <;> rfl
    rcases TPtr.new_cases env.cfg env.debug (BitVec.ofNat 64 A) d with ⟨e, hx⟩ | ⟨hdbg, ⟨e, hx⟩ | ⟨e, _, hx⟩⟩
    · left
      rw [e] at main
      have hrange : A < 2 ^ env.cfg.ptrWidth := by
        rcases hr with hdbg | hin
        · have := (ok.sane.le_maxPtr_iff _).1 (hx hdbg).2
          rwa [eofn] at this
        · rw [← hA]; exact hin _ _ _
      obtain ⟨e1, e2⟩ := store_parts ok (by omega : A < 2 ^ env.ptrBits) hrange (hd.fits ok)
      exact ⟨A, _, rfl, ha, main, e1, e2⟩
    · exact absurd hd hx
    · right; left
      rw [e] at main
      exact ⟨A, rfl, ha, hdbg, main⟩

/-! ## The simulation -/

/-- Whose block starts at an address: the memory of container `h`, the box in container `h`, the box of value `o`. -/
inductive Role where
  | none
  | slot (h : Nat)
  | inside (h : Nat)
  | loose (o : Nat)
deriving DecidableEq

/-- The references given to the closures that run on container `h`. -/
def CallsOK (β : Borrows) (seen : List BoxVal) (x : OState) (h i : Nat) (U : Shape) (q : BPtr) (top : List Item) : Prop :=
  ∀ k, x.Running k h → ∃ t, seen[k]? = some (i, ⟨⟨q.addr, .of t⟩⟩) ∧ t < β.next ∧ (x.Latest k → top = [⟨t, .unique⟩]) ∧
    (¬ x.Latest k → ∀ j, q.Covers U j → ∀ it ∈ β.stk j, it.tag ≠ t)

/-- Container `h` holds what the specification says. -/
def ContRel (env : Env) (Us : List Shape) (s : State) (β : Borrows) (role : Nat → Role) (t : WTables) (x : OState) (h i : Nat) (v : Val) : Prop :=
  ∃ b U q top, t.handles[h]? = some (some b) ∧ Us[i]? = some U ∧ (b.discriminant env).toNat = i ∧ SlotAt env s β (b.asPtr env) q ∧
    OwnAt s β U v q top ∧ role (b.asPtr env) = .slot h ∧ (0 < U.size → role q.addr = .inside h) ∧ CallsOK β t.seen x h i U q top

/-- Value `o` is what the specification says. -/
def ValRel (env : Env) (Us : List Shape) (s : State) (β : Borrows) (role : Nat → Role) (t : WTables) (o i : Nat) (v : Val) : Prop :=
  ∃ U q, t.vals[o]? = some (some (i, ⟨q⟩)) ∧ Us[i]? = some U ∧ q.addr < 2 ^ env.ptrBits ∧ OwnAt s β U v q [] ∧ (0 < U.size → role q.addr = .loose o)

/-- Machine and specification agree. -/
structure WSim (env : Env) (Us : List Shape) (c : WState) (x : OState) (role : Nat → Role) : Prop where
  heap : HeapInv env c.s
  exposed : ∀ e ∈ c.β.exposed, e < c.β.next
  lenC : c.t.handles.length = x.conts.length
  lenV : c.t.vals.length = x.vals.length
  lenS : c.t.seen.length = x.calls.length
  cont : ∀ h i v, x.In h i v → ContRel env Us c.s c.β role c.t x h i v
  running : ∀ k h, x.Running k h → ∃ i v, x.In h i v
  val : ∀ o i v, x.Out o i v → ValRel env Us c.s c.β role c.t o i v

/-- Blocks with roles in `R` keep them, and lie outside `P`. -/
def Keeps (s : State) (role role' : Nat → Role) (P : Nat → Prop) (R : Role → Prop) : Prop :=
  ∀ b ∈ s.blocks, R (role b.base) → role' b.base = role b.base ∧ ∀ j, b.base ≤ j → j < b.base + b.size → ¬ P j

/-- The calls on container `h` are the same as before. -/
def CallsKeep (t t' : WTables) (x x' : OState) (h : Nat) : Prop :=
  ∀ k, x'.Running k h → x.Running k h ∧ (x'.Latest k ↔ x.Latest k) ∧ t'.seen[k]? = t.seen[k]?

theorem CallsKeep.of_eq {t t' : WTables} {x x' : OState} (h : Nat) (h1 : x'.calls = x.calls) (h2 : t'.seen = t.seen) : CallsKeep t t' x x' h := by
  intro k hk
  refine ⟨?_, ?_, by rw [h2]⟩
  · rw [OState.Running, ← h1]; exact hk
  · simp only [OState.Latest, h1]

theorem ContRel.frame (ok : env.OK) {Us : List Shape} {s s' : State} {β β' : Borrows} {role role' : Nat → Role} {t t' : WTables} {x x' : OState}
    {h i : Nat} {v : Val} {P : Nat → Prop} {R : Role → Prop} (H : ContRel env Us s β role t x h i v) (hf : Apart s β s' β' P) (hk : Keeps s role role' P R)
    (h1 : R (.slot h)) (h2 : R (.inside h)) (ht : t'.handles[h]? = t.handles[h]?) (hc : CallsKeep t t' x x' h) :
    ContRel env Us s' β' role' t' x' h i v := by
  obtain ⟨b, U, q, top, e1, e2, e3, e4, e5, e6, e7, e8⟩ := H
  have k1 := hk _ e4.block (by rw [show (⟨b.asPtr env, env.ptrBits / 8, env.ptrBits / 8⟩ : Block).base = b.asPtr env from rfl, e6]; exact h1)
  have k2 : 0 < U.size → role' q.addr = role q.addr ∧ ∀ j, q.addr ≤ j → j < q.addr + U.size → ¬ P j :=
    fun hz => hk _ (e5.block hz) (by rw [show (⟨q.addr, U.size, U.align⟩ : Block).base = q.addr from rfl, e7 hz]; exact h2)
  have k3 : ∀ j, q.Covers U j → ¬ P j := fun j hj => (k2 (by have := hj.1; have := hj.2; omega)).2 j hj.1 hj.2
  refine ⟨b, U, q, top, ht.trans e1, e2, e3, e4.frame ok hf k1.2, e5.frame hf (fun j a b => k3 j ⟨a, b⟩), k1.1.trans e6, fun hz => (k2 hz).1.trans (e7 hz), ?_⟩
  intro k hrun
  obtain ⟨r1, r2, r3⟩ := hc k hrun
  obtain ⟨tk, f1, f2, f3, f4⟩ := e8 k r1
  refine ⟨tk, r3.trans f1, Nat.lt_of_lt_of_le f2 hf.next, fun hl => f3 (r2.1 hl), fun hl j hj => ?_⟩
  rw [hf.stk j (k3 j hj)]
  exact f4 (fun hl' => hl (r2.2 hl')) j hj

theorem ValRel.frame {Us : List Shape} {s s' : State} {β β' : Borrows} {role role' : Nat → Role} {t t' : WTables}
    {o i : Nat} {v : Val} {P : Nat → Prop} {R : Role → Prop} (H : ValRel env Us s β role t o i v) (hf : Apart s β s' β' P) (hk : Keeps s role role' P R)
    (h1 : R (.loose o)) (ht : t'.vals[o]? = t.vals[o]?) : ValRel env Us s' β' role' t' o i v := by
  obtain ⟨U, q, e1, e2, e3, e5, e7⟩ := H
  have k2 : 0 < U.size → role' q.addr = role q.addr ∧ ∀ j, q.addr ≤ j → j < q.addr + U.size → ¬ P j :=
    fun hz => hk _ (e5.block hz) (by rw [show (⟨q.addr, U.size, U.align⟩ : Block).base = q.addr from rfl, e7 hz]; exact h1)
  exact ⟨U, q, ht.trans e1, e2, e3, e5.frame hf (fun j a b => (k2 (by omega)).2 j a b), fun hz => (k2 hz).1.trans (e7 hz)⟩

/-- Touching only the bytes of a box. -/
theorem keeps_box {s : State} (hi : HeapInv env s) {role : Nat → Role} {U : Shape} {q : BPtr} {r : Role}
    (hb : 0 < U.size → (⟨q.addr, U.size, U.align⟩ : Block) ∈ s.blocks) (hr : 0 < U.size → role q.addr = r) {role' : Nat → Role}
    (he : ∀ a, role a ≠ r → role' a = role a) : Keeps s role role' (q.Covers U) (· ≠ r) := by
  intro b hm hR
  refine ⟨he _ hR, fun j h1 h2 hj => ?_⟩
  have hz : 0 < U.size := by have := hj.1; have := hj.2; omega
  rcases hi.eq_or_disjoint hm (hb hz) with e | hd
  · exact hR (by rw [e]; exact hr hz)
  · have := hj.1; have := hj.2
    simp only [Block.Disjoint] at hd
    omega

/-- Touching only new memory. -/
theorem keeps_new {s : State} (hi : HeapInv env s) {role role' : Nat → Role} {A n al : Nat} {R : Role → Prop}
    (hd : ∀ b ∈ s.blocks, 0 < n → Block.Disjoint ⟨A, n, al⟩ b) (he : ∀ a, a ≠ A ∨ n = 0 → R (role a) → role' a = role a) :
    Keeps s role role' (fun j => A ≤ j ∧ j < A + n) R := by
  intro b hm hR
  have hp := (hi.block b hm).2.1
  refine ⟨he _ ?_ hR, fun j h1 h2 hj => ?_⟩
  · by_cases hn : n = 0
    · exact Or.inr hn
    · left
      have := hd b hm (by omega)
      simp only [Block.Disjoint] at this
      omega
  · have := hd b hm (by omega)
    simp only [Block.Disjoint] at this
    omega

theorem Apart.refl (s : State) (β : Borrows) : Apart s β s β (fun _ => False) :=
  ⟨fun _ _ => rfl, fun _ _ => rfl, fun _ _ => rfl, fun _ hb _ => hb, Nat.le_refl _, fun _ he => he⟩

theorem keeps_refl (s : State) (role : Nat → Role) : Keeps s role role (fun _ => False) (fun _ => True) :=
  fun _ _ _ => ⟨rfl, fun _ _ _ => not_false⟩

theorem getElem?_append_inv {α : Type} {l : List α} {a b : α} {k : Nat} (h : (l ++ [a])[k]? = some b) :
    l[k]? = some b ∨ (k = l.length ∧ b = a) := by
  by_cases hk : k < l.length
  · rw [List.getElem?_append_left hk] at h; exact Or.inl h
  · rw [List.getElem?_append_right (by omega)] at h
    by_cases h0 : k - l.length = 0
    · rw [h0] at h
      exact Or.inr ⟨by omega, (Option.some.inj h).symm⟩
    · rw [List.getElem?_eq_none (by simp; omega)] at h; cases h

theorem getElem?_set_inv {α : Type} {l : List (Option α)} {b : α} {k m : Nat} (h : (l.set m none)[k]? = some (some b)) :
    k ≠ m ∧ l[k]? = some (some b) := by
  by_cases hk : m = k
  · subst hk
    rw [List.getElem?_set] at h
    split at h
    · split at h <;> cases h
    · exact absurd rfl ‹_›
  · rw [List.getElem?_set_ne hk] at h
    exact ⟨fun e => hk e.symm, h⟩

/-- Discriminants of the variants. -/
theorem variant_discr {n i : Nat} (hn : n ≤ env.cfg.MAX_DISCRIMINANT.toNat + 1) (hi : i < n) :
    env.DiscrOK (BitVec.ofNat _ i) ∧ (BitVec.ofNat env.cfg.discrBits i).toNat = i := by
  have h1 := env.cfg.MAX_DISCRIMINANT.isLt
  have e : (BitVec.ofNat env.cfg.discrBits i).toNat = i := by rw [BitVec.toNat_ofNat, Nat.mod_eq_of_lt (by omega)]
  exact ⟨by rw [Env.DiscrOK, BitVec.le_def, e]; omega, e⟩

/-- The closure of the latest call can be read. -/
theorem OwnAt.look {s : State} {β : Borrows} {U : Shape} {v : Val} {q : BPtr} {t : Nat} (h : OwnAt s β U v q [⟨t, .unique⟩]) :
    readB U ⟨q.addr, .of t⟩ s β = .ret v s β := by
  refine readB_ret (p := ⟨q.addr, .of t⟩) (Borrows.access_same (fun i h1 h2 => ?_)) h.read
  obtain ⟨_, base, _, _, _, e4⟩ := h.stk (by have : i < q.addr + U.size := h2; have : q.addr ≤ i := h1; omega)
  rw [e4 i h1 h2]
  exact readStack_top (by simp [Borrows.grants]) rfl

/-- An earlier one cannot. -/
theorem look_dead {s : State} {β : Borrows} {U : Shape} {a t : Nat} (hz : 0 < U.size) (h : ∀ it ∈ β.stk a, it.tag ≠ t) :
    readB U ⟨a, .of t⟩ s β = .aliasing := by
  have : readStack (β.grants (.of t)) (β.stk a) = none :=
    readStack_none fun it hit hg => absurd (Eq.symm (of_decide_eq_true hg)) (h it hit)
  simp only [readB, MB.bind_def, MB.borrows, Borrows.access_none (Nat.le_refl a) (Nat.lt_add_of_pos_right hz) this]

variable {Us : List Shape} {c : WState} {x : OState} {role : Nat → Role}

theorem join_of {α : Type} {l : List (Option α)} {k : Nat} {a : α} (h : l[k]? = some (some a)) : l[k]?.join = some a := by rw [h]; rfl

theorem stepWithW_ret {α : Type} {m : MB α} {ok' : α → Res env × WTables} {bad : WTables} {a : α} {s' : State} {β' : Borrows}
    (h : m c.s c.β = .ret a s' β') : stepWithW env c m ok' bad = some (((ok' a).1, dropsBetween c.s s'), ⟨s', β', (ok' a).2⟩) := by
  rw [stepWithW, h]

theorem stepWithW_panic {α : Type} {m : MB α} {ok' : α → Res env × WTables} {bad : WTables} {k : PanicKind} {s' : State} {β' : Borrows}
    (h : m c.s c.β = .panic k s' β') : stepWithW env c m ok' bad = some ((.panicked k, dropsBetween c.s s'), ⟨s', β', bad⟩) := by
  rw [stepWithW, h]

theorem lt_of_getElem?_some {α : Type} {l : List α} {k : Nat} {a : α} (h : l[k]? = some a) : k < l.length := (List.getElem?_eq_some_iff.1 h).1

theorem WSim.make (ok : env.OK) (hU : ∀ U ∈ Us, U.WF) (S : WSim env Us c x role) {i : Nat} {v : Val} (hc : ContractO Us x (.make i v)) :
    ∃ o c' x' role', stepW env Us c (.make i v) = some (o, c') ∧ SpecNextO env Us x (.make i v) o x' ∧ WSim env Us c' x' role' := by
  obtain ⟨U, hUi, hv⟩ := hc
  have hw := hU U (List.mem_of_getElem? hUi)
  have hstep : stepW env Us c (.make i v) = stepWithW env c (BBox.newB env U v)
      (fun b => (.handle c.t.vals.length, { c.t with vals := c.t.vals ++ [some (i, b)] })) c.t := by
    simp only [stepW, hUi, Option.bind_some]
  rcases BBox.newB_spec ok S.heap (β := c.β) hw hv with ⟨q, s', β', e, i1, i2, i3, i4, i5, i6, i7⟩ | e
  · have hk : Keeps c.s role (fun a => if a = q.addr ∧ 0 < U.size then .loose x.vals.length else role a) (q.Covers U) (fun _ => True) :=
      keeps_new (al := U.align) S.heap i6 (fun a ha _ => if_neg (fun h => by rcases ha with ha | ha; exact ha h.1; omega))
    refine ⟨_, _, { x with vals := x.vals ++ [some (i, v)] },
      fun a => if a = q.addr ∧ 0 < U.size then .loose x.vals.length else role a, hstep.trans (stepWithW_ret e),
      Or.inl ⟨by rw [i7, S.lenV], rfl⟩, i1, ?_, S.lenC, by simp [S.lenV], S.lenS, ?_, S.running, ?_⟩
    · intro e he
      rw [i3] at he
      exact Nat.lt_of_lt_of_le (S.exposed e he) i4.next
    · intro h i v hin
      exact (S.cont h i v hin).frame ok i4 hk trivial trivial rfl (CallsKeep.of_eq h rfl rfl)
    · intro o j w ho
      rcases getElem?_append_inv ho with ho | ⟨rfl, hb⟩
      · refine (S.val o j w ho).frame i4 hk trivial ?_
        rw [List.getElem?_append_left (by rw [S.lenV]; exact lt_of_getElem?_some ho)]
      · cases hb
        refine ⟨U, q, ?_, hUi, i5, i2, fun hz => if_pos ⟨rfl, hz⟩⟩
        show (c.t.vals ++ [some (i, (⟨q⟩ : BBox))])[x.vals.length]? = _
        rw [← S.lenV]; simp
  · refine ⟨_, _, x, role, hstep.trans (stepWithW_panic e), Or.inr ⟨?_, rfl⟩,
      S.heap.log _, S.exposed, S.lenC, S.lenV, S.lenS, ?_, S.running, ?_⟩
    · simp [dropsBetween, State.log, Event.isDrop]
    · intro h i v hin
      exact (S.cont h i v hin).frame ok ⟨fun _ _ => rfl, fun _ _ => rfl, fun _ _ => rfl, fun _ hb _ => hb, Nat.le_refl _, fun _ he => he⟩
        (keeps_refl c.s role) trivial trivial rfl (CallsKeep.of_eq h rfl rfl)
    · intro o j w ho
      exact (S.val o j w ho).frame ⟨fun _ _ => rfl, fun _ _ => rfl, fun _ _ => rfl, fun _ hb _ => hb, Nat.le_refl _, fun _ he => he⟩
        (keeps_refl c.s role) trivial rfl

theorem WSim.put (ok : env.OK) (hr : env.debug = true ∨ env.InRange) (hn : Us.length ≤ env.cfg.MAX_DISCRIMINANT.toNat + 1) (S : WSim env Us c x role) {o : Nat}
    (hc : ContractO Us x (.put o)) :
    ∃ r c' x' role', stepW env Us c (.put o) = some (r, c') ∧ SpecNextO env Us x (.put o) r x' ∧ WSim env Us c' x' role' := by
  obtain ⟨i, v, ho⟩ := hc
  obtain ⟨U, q, e1, e2, e3, e5, e7⟩ := S.val o i v ho
  obtain ⟨hd, hdi⟩ := variant_discr hn (lt_of_getElem?_some e2)
  have hstep : stepW env Us c (.put o) = stepWithW env c (TBox.newBoxB env U ⟨q⟩ (BitVec.ofNat _ i))
        (fun b => (.handle c.t.handles.length, { c.t with handles := c.t.handles ++ [some b], vals := c.t.vals.set o none }))
        { c.t with vals := c.t.vals.set o none } := by
    simp only [stepW, join_of e1, Option.bind_some, boxesFrom, e2, Option.getD_some]
  have hvals : ∀ o' j w, (x.vals.set o none)[o']? = some (some (j, w)) → o' ≠ o ∧ x.Out o' j w := fun o' j w h => getElem?_set_inv h
  have hne : ∀ {o'}, o' ≠ o → (c.t.vals.set o none)[o']? = c.t.vals[o']? := fun h => List.getElem?_set_ne (Ne.symm h)
  rcases newBoxB_spec ok hr S.heap e5 hd with ⟨A, b, hA, ha, e, hb1, hb2⟩ | ⟨A, hA, ha, hdbg, e⟩ | ⟨s', β', e, i1, i2, i3, i4, i5⟩
  · obtain ⟨j1, j2, j3, j4, j5, j6⟩ := slot_facts ok S.heap (β := c.β) e3 e5.ne_zero hA ha
    have hne0 : 0 < U.size → q.addr ≠ A := fun hz => by
      have := j5 _ (e5.block hz)
      have hp := ptrSize_pos ok
      simp only [Block.Disjoint] at this
      omega
    have hk : Keeps c.s role (fun a => if a = A then .slot x.conts.length else if role a = .loose o then .inside x.conts.length else role a)
        (fun j => A ≤ j ∧ j < A + env.ptrBits / 8) (· ≠ .loose o) :=
      keeps_new (al := env.ptrBits / 8) S.heap (fun b hb _ => j5 b hb) (fun a ha hR => by
        have hp := ptrSize_pos ok
        rw [if_neg (by rcases ha with ha | ha; exact ha; omega), if_neg hR])
    refine ⟨_, _, { x with conts := x.conts ++ [some (i, v)], vals := x.vals.set o none },
      fun a => if a = A then .slot x.conts.length else if role a = .loose o then .inside x.conts.length else role a, hstep.trans (stepWithW_ret e),
      ⟨i, v, U, ho, e2, Or.inl ⟨by rw [j6, S.lenC], rfl⟩⟩, j1, ?_, by simp [S.lenC], by simp [S.lenV], S.lenS, ?_, ?_, ?_⟩
    · intro e he
      show e < c.β.next + 1
      rcases List.mem_cons.1 he with rfl | he
      · exact Nat.lt_succ_self _
      · rcases List.mem_cons.1 he with rfl | he
        · exact Nat.lt_succ_self _
        · exact Nat.lt_succ_of_lt (S.exposed e he)
    · intro h j w hin
      rcases getElem?_append_inv hin with hin | ⟨rfl, hb⟩
      · refine (S.cont h j w hin).frame ok j3 hk (by simp) (by simp) ?_ (CallsKeep.of_eq h rfl rfl)
        exact List.getElem?_append_left (by rw [S.lenC]; exact lt_of_getElem?_some hin)
      · cases hb
        refine ⟨b, U, q, [], ?_, e2, by rw [hb2]; exact hdi, by rw [hb1]; exact j2, e5.frame j3 (fun j h1 h2 hj => ?_),
          by rw [hb1]; exact if_pos rfl, fun hz => (if_neg (hne0 hz)).trans (if_pos (e7 hz)), fun k hk => ?_⟩
        · show (c.t.handles ++ [some b])[x.conts.length]? = _
          rw [← S.lenC]; simp
        · have := j5 _ (e5.block (by omega))
          simp only [Block.Disjoint] at this
          omega
        · obtain ⟨i', v', hin'⟩ := S.running k _ hk
          exact absurd (lt_of_getElem?_some hin') (Nat.lt_irrefl _)
    · intro k h hk
      obtain ⟨i', v', hin'⟩ := S.running k h hk
      exact ⟨i', v', (List.getElem?_append_left (lt_of_getElem?_some hin')).trans hin'⟩
    · intro o' j w ho'
      obtain ⟨hne', ho'⟩ := hvals o' j w ho'
      exact (S.val o' j w ho').frame j3 hk (fun e => hne' (Role.loose.inj e)) (hne hne')
  · obtain ⟨j1, j2, j3, j4, j5, j6⟩ := slot_facts ok S.heap (β := c.β) e3 e5.ne_zero hA ha
    have hk : Keeps c.s role role (fun j => A ≤ j ∧ j < A + env.ptrBits / 8) (fun _ => True) :=
      keeps_new (al := env.ptrBits / 8) S.heap (fun b hb _ => j5 b hb) (fun _ _ _ => rfl)
    refine ⟨_, _, { x with vals := x.vals.set o none }, role, hstep.trans (stepWithW_panic e),
      ⟨i, v, U, ho, e2, Or.inr (Or.inr ⟨hdbg, by rw [j6], rfl⟩)⟩, j1, ?_, S.lenC, by simp [S.lenV], S.lenS, ?_, S.running, ?_⟩
    · intro e he
      show e < c.β.next + 1
      rcases List.mem_cons.1 he with rfl | he
      · exact Nat.lt_succ_self _
      · rcases List.mem_cons.1 he with rfl | he
        · exact Nat.lt_succ_self _
        · exact Nat.lt_succ_of_lt (S.exposed e he)
    · intro h j w hin
      exact (S.cont h j w hin).frame ok j3 hk trivial trivial rfl (CallsKeep.of_eq h rfl rfl)
    · intro o' j w ho'
      obtain ⟨hne', ho'⟩ := hvals o' j w ho'
      exact (S.val o' j w ho').frame j3 hk trivial (hne hne')
  · have hk : Keeps c.s role role (q.Covers U) (· ≠ .loose o) := keeps_box S.heap e5.block e7 (fun _ _ => rfl)
    refine ⟨_, _, { x with vals := x.vals.set o none }, role, hstep.trans (stepWithW_panic e),
      ⟨i, v, U, ho, e2, Or.inr (Or.inl ⟨by rw [i5], rfl⟩)⟩, i1, ?_, S.lenC, by simp [S.lenV], S.lenS, ?_, S.running, ?_⟩
    · intro e he
      show e < β'.next
      rw [i3]
      exact S.exposed e (by rw [← i2]; exact he)
    · intro h j w hin
      exact (S.cont h j w hin).frame ok i4 hk (by simp) (by simp) rfl (CallsKeep.of_eq h rfl rfl)
    · intro o' j w ho'
      obtain ⟨hne', ho'⟩ := hvals o' j w ho'
      exact (S.val o' j w ho').frame i4 hk (fun e => hne' (Role.loose.inj e)) (hne hne')

theorem boxesRef_eq {b : TBox} {i : Nat} {U : Shape} (h : (b.discriminant env).toNat = i) (hU : Us[i]? = some U) {s s' : State} {β β' : Borrows} {q : BBox}
    (e : readBoxB env U ⟨b.asPtr env, .wild⟩ s β = .ret q s' β') : boxesRef env Us b s β = .ret (i, q) s' β' := by
  have e' : readBoxB env U (b.asPtrB env) s β = .ret q s' β' := e
  simp only [boxesRef, h, hU, MB.bind_def, e']
  rfl

theorem boxesInner_eq {b : TBox} {i : Nat} {U : Shape} (h : (b.discriminant env).toNat = i) (hU : Us[i]? = some U) {s s' : State} {β β' : Borrows}
    {q : BBox} (e : readBoxB env U ⟨b.asPtr env, .wild⟩ s β = .ret q s' β') : boxesInner env Us b s β = .ret (i, q) s' β' := by
  have e' : readBoxB env U (b.asMutPtrB env) s β = .ret q s' β' := e
  simp only [boxesInner, h, hU, MB.bind_def, e']
  rfl

/-- Calls before a new one. -/
theorem latest_append {x : OState} {h k h' : Nat} {b : Bool} (hk : x.calls[k]? = some (h', b)) :
    ({ x with calls := x.calls ++ [(h, true)] } : OState).Latest k ↔ x.Latest k ∧ h' ≠ h := by
  have hlt := lt_of_getElem?_some hk
  have hk' : (x.calls ++ [(h, true)])[k]? = some (h', b) := (List.getElem?_append_left hlt).trans hk
  constructor
  · intro H
    refine ⟨fun k' e e' h1 h2 h3 => H k' e e' h1 ((List.getElem?_append_left hlt).trans h2)
      ((List.getElem?_append_left (lt_of_getElem?_some h3)).trans h3), fun hh => ?_⟩
    exact H x.calls.length _ (h, true) hlt hk' (by simp) hh.symm
  · rintro ⟨H, hh⟩ k' e e' h1 h2 h3
    have h2' : (x.calls ++ [(h, true)])[k]? = some e := h2
    rw [hk'] at h2'
    cases h2'
    rcases getElem?_append_inv h3 with h3 | ⟨_, h3⟩
    · exact H k' _ e' h1 hk h3
    · cases h3; exact Ne.symm hh

theorem WSim.enter (ok : env.OK) (S : WSim env Us c x role) {h : Nat} (hc : ContractO Us x (.enter h)) :
    ∃ r c' x' role', stepW env Us c (.enter h) = some (r, c') ∧ SpecNextO env Us x (.enter h) r x' ∧ WSim env Us c' x' role' := by
  obtain ⟨i, v, hin⟩ := hc
  obtain ⟨b, U, q, top, e1, e2, e3, e4, e5, e6, e7, e8⟩ := S.cont h i v hin
  obtain ⟨β', r1, r2, r3, r4, r5, r6, r7, r8⟩ := readBoxB_ret ok e4 e5
  have hstep : stepW env Us c (.enter h) = stepWithW env c (boxesRef env Us b)
      (fun e => (.handle e.1, { c.t with seen := c.t.seen ++ [e] })) c.t := by
    simp only [stepW, join_of e1, Option.bind_some]
  have hk : Keeps c.s role role (q.Covers U) (· ≠ .inside h) := keeps_box S.heap e5.block e7 (fun _ _ => rfl)
  have hslot : ∀ j, b.asPtr env ≤ j → j < b.asPtr env + env.ptrBits / 8 → ¬ q.Covers U j :=
    (hk _ e4.block (by show role (b.asPtr env) ≠ _; rw [e6]; simp)).2
  refine ⟨_, _, { x with calls := x.calls ++ [(h, true)] }, role, hstep.trans (stepWithW_ret (boxesRef_eq e3 e2 r1)),
    ⟨i, v, hin, by rw [dropsBetween_refl], rfl⟩, S.heap, ?_, S.lenC, S.lenV, by simp [S.lenS], ?_, ?_, ?_⟩
  · intro e he
    show e < β'.next
    have he' : e ∈ β'.exposed := he
    rw [r3] at he'
    have := S.exposed e he'
    omega
  · intro h' i' v' hin'
    by_cases hh : h' = h
    · subst hh
      have : some (some (i, v)) = some (some (i', v')) := hin.symm.trans hin'
      cases this
      refine ⟨b, U, q, _, e1, e2, e3, e4.frame ok r5 hslot, r6, e6, e7, fun k hrun => ?_⟩
      rcases getElem?_append_inv hrun with hrun | ⟨rfl, _⟩
      · obtain ⟨t, f1, f2, f3, f4⟩ := e8 k hrun
        have hnl : ¬ ({ x with calls := x.calls ++ [(h', true)] } : OState).Latest k :=
          fun hl => ((latest_append hrun).1 hl).2 rfl
        refine ⟨t, (List.getElem?_append_left (lt_of_getElem?_some f1)).trans f1, by show t < β'.next; omega, fun hl => absurd hl hnl,
          fun _ j hj it hit => ?_⟩
        obtain ⟨rest, g1, g2, g3⟩ := r8 j hj
        have hit' : it ∈ β'.stk j := hit
        rw [g2] at hit'
        rcases List.mem_cons.1 hit' with rfl | hit'
        · exact Ne.symm (Nat.ne_of_lt f2)
        · by_cases hl : x.Latest k
          · have := f3 hl
            exact g3 ⟨t, .unique⟩ (by rw [this]; exact List.mem_cons_self) it hit'
          · exact f4 hl j hj it (by rw [g1]; exact List.mem_append_right _ hit')
      · refine ⟨c.β.next, ?_, by show _ < β'.next; omega, fun _ => rfl, fun hnl => absurd ?_ hnl⟩
        · show (c.t.seen ++ [(i, (⟨⟨q.addr, .of c.β.next⟩⟩ : BBox))])[x.calls.length]? = _
          rw [← S.lenS]; simp
        · intro k' a a' h1 _ h3
          have := lt_of_getElem?_some h3
          simp at this
          omega
    · refine (S.cont h' i' v' hin').frame ok r5 hk (by simp) (by simp [hh]) rfl (fun k hrun => ?_)
      rcases getElem?_append_inv hrun with hrun | ⟨_, hb⟩
      · refine ⟨hrun, ⟨fun hl => ((latest_append hrun).1 hl).1, fun hl => (latest_append hrun).2 ⟨hl, hh⟩⟩, ?_⟩
        exact List.getElem?_append_left (by rw [S.lenS]; exact lt_of_getElem?_some hrun)
      · cases hb; exact absurd rfl hh
  · intro k h' hrun
    rcases getElem?_append_inv hrun with hrun | ⟨_, hb⟩
    · exact S.running k h' hrun
    · cases hb; exact ⟨i, v, hin⟩
  · intro o j w ho
    exact (S.val o j w ho).frame r5 hk (by simp) rfl

theorem WSim.take (ok : env.OK) (S : WSim env Us c x role) {h : Nat} (hc : ContractO Us x (.take h)) :
    ∃ r c' x' role', stepW env Us c (.take h) = some (r, c') ∧ SpecNextO env Us x (.take h) r x' ∧ WSim env Us c' x' role' := by
  obtain ⟨⟨i, v, hin⟩, hfree⟩ := hc
  obtain ⟨b, U, q, top, e1, e2, e3, e4, e5, e6, e7, e8⟩ := S.cont h i v hin
  obtain ⟨β', r1, r2, r3, r4, r5, r6, r7, r8⟩ := readBoxB_ret ok e4 e5
  have hstep : stepW env Us c (.take h) = stepWithW env c (boxesInner env Us b)
      (fun e => (.handle e.1, { c.t with handles := c.t.handles.set h none, vals := c.t.vals ++ [some e] }))
        { c.t with handles := c.t.handles.set h none } := by
    simp only [stepW, join_of e1, Option.bind_some]
  have hk : Keeps c.s role (fun a => if role a = .inside h then .loose x.vals.length else role a) (q.Covers U) (· ≠ .inside h) :=
    keeps_box S.heap e5.block e7 (fun _ ha => if_neg ha)
  refine ⟨_, _, { x with conts := x.conts.set h none, vals := x.vals ++ [some (i, v)] },
    fun a => if role a = .inside h then .loose x.vals.length else role a, hstep.trans (stepWithW_ret (boxesInner_eq e3 e2 r1)),
    ⟨i, v, hin, by rw [dropsBetween_refl], rfl⟩, S.heap, ?_, by simp [S.lenC], by simp [S.lenV], S.lenS, ?_, ?_, ?_⟩
  · intro e he
    show e < β'.next
    have he' : e ∈ β'.exposed := he
    rw [r3] at he'
    have := S.exposed e he'
    omega
  · intro h' i' v' hin'
    obtain ⟨hh, hin'⟩ := getElem?_set_inv hin'
    exact (S.cont h' i' v' hin').frame ok r5 hk (by simp) (by simp [hh]) (List.getElem?_set_ne (Ne.symm hh)) (CallsKeep.of_eq h' rfl rfl)
  · intro k h' hrun
    obtain ⟨i', v', hin'⟩ := S.running k h' hrun
    refine ⟨i', v', (List.getElem?_set_ne ?_).trans hin'⟩
    rintro rfl
    exact hfree k hrun
  · intro o j w ho
    rcases getElem?_append_inv ho with ho | ⟨rfl, hb⟩
    · refine (S.val o j w ho).frame r5 hk (by simp) ?_
      exact List.getElem?_append_left (by rw [S.lenV]; exact lt_of_getElem?_some ho)
    · cases hb
      refine ⟨U, ⟨q.addr, .of c.β.next⟩, ?_, e2, e4.small, r7, fun hz => if_pos (e7 hz)⟩
      show (c.t.vals ++ [some (i, (⟨⟨q.addr, .of c.β.next⟩⟩ : BBox))])[x.vals.length]? = _
      rw [← S.lenV]; simp

theorem WSim.step (ok : env.OK) (hr : env.debug = true ∨ env.InRange) (hU : ∀ U ∈ Us, U.WF) (hn : Us.length ≤ env.cfg.MAX_DISCRIMINANT.toNat + 1)
    (S : WSim env Us c x role) (op : WOp) (hc : ContractO Us x op) (hl : ∀ k, op = .look k → x.Latest k) :
    ∃ r c' x' role', stepW env Us c op = some (r, c') ∧ SpecNextO env Us x op r x' ∧ WSim env Us c' x' role' := by
  cases op with
  | make i v => exact S.make ok hU hc
  | put o => exact S.put ok hr hn hc
  | enter h => exact S.enter ok hc
  | look k =>
    obtain ⟨h, hrun⟩ := hc
    obtain ⟨i, v, hin⟩ := S.running k h hrun
    obtain ⟨b, U, q, top, e1, e2, e3, e4, e5, e6, e7, e8⟩ := S.cont h i v hin
    obtain ⟨t, f1, f2, f3, f4⟩ := e8 k hrun
    rw [f3 (hl k rfl)] at e5
    have hstep : stepW env Us c (.look k) = stepWithW env c (readB U ⟨q.addr, .of t⟩) (fun v => (.val v, c.t)) c.t := by
      simp only [stepW, f1, Option.bind_some, e2]
    exact ⟨_, _, x, role, hstep.trans (stepWithW_ret e5.look), ⟨h, i, v, hrun, hin, by rw [dropsBetween_refl], rfl⟩, S⟩
  | leave k =>
    obtain ⟨h, hrun⟩ := hc
    have hkeep : ∀ (k' : Nat) (e : Nat × Bool), (x.calls.set k (h, false))[k']? = some e → ∃ b, x.calls[k']? = some (e.1, b) := by
      intro k' e he
      by_cases hk : k = k'
      · subst hk
        rw [List.getElem?_set_self (lt_of_getElem?_some hrun)] at he
        cases he
        exact ⟨_, hrun⟩
      · rw [List.getElem?_set_ne hk] at he
        exact ⟨e.2, he⟩
    have hkeep' : ∀ (k' : Nat) (e : Nat × Bool), x.calls[k']? = some e → ∃ b, (x.calls.set k (h, false))[k']? = some (e.1, b) := by
      intro k' e he
      by_cases hk : k = k'
      · subst hk
        have : some e = some (h, true) := he.symm.trans hrun
        cases this
        exact ⟨false, List.getElem?_set_self (lt_of_getElem?_some hrun)⟩
      · exact ⟨e.2, (List.getElem?_set_ne hk).trans he⟩
    have hrun' : ∀ k' h', ({ x with calls := x.calls.set k (h, false) } : OState).Running k' h' → x.Running k' h' := by
      intro k' h' hr'
      by_cases hk : k = k'
      · subst hk
        have he : (x.calls.set k (h, false))[k]? = some (h', true) := hr'
        rw [List.getElem?_set_self (lt_of_getElem?_some hrun)] at he
        cases he
      · exact (List.getElem?_set_ne hk).symm.trans hr'
    have hlat : ∀ k', ({ x with calls := x.calls.set k (h, false) } : OState).Latest k' ↔ x.Latest k' := by
      intro k'
      constructor
      · intro H k'' e e' h1 h2 h3
        obtain ⟨b, h2'⟩ := hkeep' k' e h2
        obtain ⟨b', h3'⟩ := hkeep' k'' e' h3
        exact H k'' (e.1, b) (e'.1, b') h1 h2' h3'
      · intro H k'' e e' h1 h2 h3
        obtain ⟨b, h2'⟩ := hkeep k' e h2
        obtain ⟨b', h3'⟩ := hkeep k'' e' h3
        exact H k'' (e.1, b) (e'.1, b') h1 h2' h3'
    have hstep : stepW env Us c (.leave k) = stepWithW env c (Pure.pure ()) (fun _ => (.unit, c.t)) c.t := rfl
    refine ⟨_, _, { x with calls := x.calls.set k (h, false) }, role, hstep.trans (stepWithW_ret rfl),
      ⟨h, hrun, by rw [dropsBetween_refl], rfl⟩, S.heap, S.exposed, S.lenC, S.lenV, by simp [S.lenS], ?_, ?_, S.val⟩
    · intro h' i v hin
      exact (S.cont h' i v hin).frame ok (Apart.refl _ _) (keeps_refl _ _) trivial trivial rfl
        (fun k' hr' => ⟨hrun' k' h' hr', hlat k', rfl⟩)
    · exact fun k' h' hr' => S.running k' h' (hrun' k' h' hr')
  | take h => exact S.take ok hc
  | drop h =>
    obtain ⟨⟨i, v, hin⟩, hfree⟩ := hc
    obtain ⟨b, U, q, top, e1, _⟩ := S.cont h i v hin
    have hstep : stepW env Us c (.drop h) = stepWithW env c (Pure.pure ()) (fun _ => (.unit, { c.t with handles := c.t.handles.set h none })) c.t := by
      simp only [stepW, join_of e1, Option.bind_some]
    refine ⟨_, _, { x with conts := x.conts.set h none }, role, hstep.trans (stepWithW_ret rfl), ⟨by rw [dropsBetween_refl], rfl⟩,
      S.heap, S.exposed, by simp [S.lenC], S.lenV, S.lenS, ?_, ?_, S.val⟩
    · intro h' i' v' hin'
      obtain ⟨hh, hin'⟩ := getElem?_set_inv hin'
      exact (S.cont h' i' v' hin').frame ok (Apart.refl _ _) (keeps_refl _ _) trivial trivial (List.getElem?_set_ne (Ne.symm hh))
        (CallsKeep.of_eq h' rfl rfl)
    · intro k h' hrun
      obtain ⟨i', v', hin'⟩ := S.running k h' hrun
      refine ⟨i', v', (List.getElem?_set_ne ?_).trans hin'⟩
      rintro rfl
      exact hfree k hrun
  | get o =>
    obtain ⟨i, v, ho⟩ := hc
    obtain ⟨U, q, e1, e2, e3, e5, e7⟩ := S.val o i v ho
    have hstep : stepW env Us c (.get o) = stepWithW env c (readB U q) (fun v => (.val v, c.t)) c.t := by
      simp only [stepW, join_of e1, Option.bind_some, e2]
    exact ⟨_, _, x, role, hstep.trans (stepWithW_ret (readB_ret e5.accesses.1 e5.read)), ⟨i, v, ho, by rw [dropsBetween_refl], rfl⟩, S⟩
  | set o v' =>
    obtain ⟨i, v, U', ho, hU', hv'⟩ := hc
    obtain ⟨U, q, e1, e2, e3, e5, e7⟩ := S.val o i v ho
    have : U' = U := Option.some.inj (hU'.symm.trans e2)
    rw [this] at hv'
    have hstep : stepW env Us c (.set o v') = stepWithW env c (assignB U q v') (fun _ => (.unit, c.t)) c.t := by
      simp only [stepW, join_of e1, Option.bind_some, e2]
    have hk : Keeps c.s role role (q.Covers U) (· ≠ .loose o) := keeps_box S.heap e5.block e7 (fun _ _ => rfl)
    have hap : Apart c.s c.β (writtenState (c.s.log (dropEvents U v)) q.addr U v') c.β (q.Covers U) :=
      ⟨fun j hj => putVal_out e5.wf hv' (by simp only [BPtr.Covers] at hj; omega), fun _ _ => rfl, fun _ _ => rfl, fun _ hb _ => hb, Nat.le_refl _,
        fun _ he => he⟩
    refine ⟨_, _, { x with vals := x.vals.set o (some (i, v')) }, role, hstep.trans (stepWithW_ret (assignB_ret e5.accesses.1 e5.accesses.2 e5.read)),
      ⟨i, v, U, ho, e2, by rw [dropsBetween_log (sh := U) (v := v) rfl], rfl⟩, writtenState_inv (S.heap.log _), S.exposed, S.lenC, by simp [S.lenV],
      S.lenS, ?_, S.running, ?_⟩
    · intro h j w hin
      exact (S.cont h j w hin).frame ok hap hk (by simp) (by simp) rfl (CallsKeep.of_eq h rfl rfl)
    · intro o' j w ho'
      by_cases hoo : o = o'
      · subst hoo
        have : (x.vals.set o (some (i, v')))[o]? = some (some (j, w)) := ho'
        rw [List.getElem?_set_self (lt_of_getElem?_some ho)] at this
        cases this
        refine ⟨U, q, e1, e2, e3, ⟨e5.wf, ?_, e5.block, e5.stk⟩, e7⟩
        rw [ptrRead_ret_iff]
        exact ⟨rfl, e5.valid, (getVal_putVal e5.wf hv' _ _).symm, hv'⟩
      · exact (S.val o' j w ((List.getElem?_set_ne hoo).symm.trans ho')).frame hap hk (fun e => hoo (Role.loose.inj e).symm) rfl
  | free o =>
    obtain ⟨i, v, ho⟩ := hc
    obtain ⟨U, q, e1, e2, e3, e5, e7⟩ := S.val o i v ho
    obtain ⟨s', β', e, i1, i2, i3, i4, i5⟩ := e5.drop S.heap
    have hstep : stepW env Us c (.free o) = stepWithW env c (BBox.drop U ⟨q⟩)
        (fun _ => (.unit, { c.t with vals := c.t.vals.set o none })) { c.t with vals := c.t.vals.set o none } := by
      simp only [stepW, join_of e1, Option.bind_some, e2]
    have hk : Keeps c.s role role (q.Covers U) (· ≠ .loose o) := keeps_box S.heap e5.block e7 (fun _ _ => rfl)
    refine ⟨_, _, { x with vals := x.vals.set o none }, role, hstep.trans (stepWithW_ret e),
      ⟨i, v, U, ho, e2, by rw [i5], rfl⟩, i1, ?_, S.lenC, by simp [S.lenV], S.lenS, ?_, S.running, ?_⟩
    · intro e he
      show e < β'.next
      rw [i3]
      exact S.exposed e (by rw [← i2]; exact he)
    · intro h j w hin
      exact (S.cont h j w hin).frame ok i4 hk (by simp) (by simp) rfl (CallsKeep.of_eq h rfl rfl)
    · intro o' j w ho'
      obtain ⟨hne, ho'⟩ := getElem?_set_inv ho'
      exact (S.val o' j w ho').frame i4 hk (fun e => hne (Role.loose.inj e)) (List.getElem?_set_ne (Ne.symm hne))

/-- A client that keeps the rule. -/
theorem run_wsim (ok : env.OK) (hr : env.debug = true ∨ env.InRange) (hU : ∀ U ∈ Us, U.WF) (hn : Us.length ≤ env.cfg.MAX_DISCRIMINANT.toNat + 1)
    {s : State} (hi : HeapInv env s) {β : Borrows} (hβ : ∀ e ∈ β.exposed, e < β.next) {p : WClient env} (hp : AcceptedO Us p) (hl : LatestOnly Us p) :
    ∀ n, ∃ os c x role, runClientW env Us p s β n = some (os, c) ∧ OReach Us p os x ∧ WSim env Us c x role
  | 0 => ⟨[], ⟨s, β, ⟨[], [], []⟩⟩, ⟨[], [], []⟩, fun _ => .none, rfl, .start, hi, hβ, rfl, rfl, rfl,
      fun h i v hh => by simp [OState.In] at hh, fun k h hh => by simp [OState.Running] at hh, fun o i v hh => by simp [OState.Out] at hh⟩
  | n + 1 => by
    obtain ⟨os, c, x, role, e, hreach, S⟩ := run_wsim ok hr hU hn hi hβ hp hl n
    cases hop : p os with
    | none => exact ⟨os, c, x, role, by simp [runClientW, e, hop], hreach, S⟩
    | some op =>
      obtain ⟨o, c', x', role', h1, h2, h3⟩ := S.step ok hr hU hn op (hp os x op hreach hop)
        (fun k hk => hl os x k hreach (hk ▸ hop))
      exact ⟨os ++ [o], c', x', role', by simp [runClientW, e, hop, h1], hreach.next hop h2, h3⟩

/-- Without nesting every running call is the latest on its container. -/
theorem nested_latest {p : WClient env} (hn : NeverNested Us p) {os : List (Obs env)} {x : OState} (hr : OReach Us p os x) :
    ∀ k h, x.Running k h → x.Latest k := by
  induction hr with
  | start => intro k h hh; simp [OState.Running] at hh
  | @next os x op o x' hreach hop hnext ih =>
    cases op with
    | make i v => rcases hnext with ⟨_, rfl⟩ | ⟨_, rfl⟩ <;> exact ih
    | put o => obtain ⟨i, v, U, _, _, ⟨_, rfl⟩ | ⟨_, rfl⟩ | ⟨_, _, rfl⟩⟩ := hnext <;> exact ih
    | enter h =>
      obtain ⟨i, v, _, _, rfl⟩ := hnext
      intro k h' hrun
      rcases getElem?_append_inv hrun with hr' | ⟨rfl, _⟩
      · refine (latest_append hr').2 ⟨ih k h' hr', ?_⟩
        rintro rfl
        exact hn os x _ hreach hop k hr'
      · intro k' a a' h1 _ h3
        have := lt_of_getElem?_some h3
        simp at this
        omega
    | look k => obtain ⟨_, _, _, _, _, _, rfl⟩ := hnext; exact ih
    | leave k =>
      obtain ⟨h, hrun, _, rfl⟩ := hnext
      intro k1 h1 hr1 k2 a a' hlt ha ha'
      have hold : x.Running k1 h1 := by
        by_cases hk : k = k1
        · subst hk
          have he : (x.calls.set k (h, false))[k]? = some (h1, true) := hr1
          rw [List.getElem?_set_self (lt_of_getElem?_some hrun)] at he
          cases he
        · exact (List.getElem?_set_ne hk).symm.trans hr1
      have e : some a = some (h1, true) := ha.symm.trans hr1
      cases e
      by_cases hk : k = k2
      · subst hk
        have he : (x.calls.set k (h, false))[k]? = some a' := ha'
        rw [List.getElem?_set_self (lt_of_getElem?_some hrun)] at he
        cases he
        exact ih k1 h1 hold k (h1, true) (h, true) hlt hold hrun
      · exact ih k1 h1 hold k2 _ _ hlt hold ((List.getElem?_set_ne hk).symm.trans ha')
    | take h => obtain ⟨_, _, _, _, rfl⟩ := hnext; exact ih
    | drop h => obtain ⟨_, rfl⟩ := hnext; exact ih
    | get o => obtain ⟨_, _, _, _, rfl⟩ := hnext; exact ih
    | set o v => obtain ⟨_, _, _, _, _, _, rfl⟩ := hnext; exact ih
    | free o => obtain ⟨_, _, _, _, _, _, rfl⟩ := hnext; exact ih

/-- Reading in the closure of an earlier call. -/
theorem WSim.dead (S : WSim env Us c x role) {k h i : Nat} {v : Val} {U : Shape} (hrun : x.Running k h) (hin : x.In h i v) (hUi : Us[i]? = some U)
    (hz : 0 < U.size) (hl : ¬ x.Latest k) : stepW env Us c (.look k) = none := by
  obtain ⟨b, U', q, top, e1, e2, e3, e4, e5, e6, e7, e8⟩ := S.cont h i v hin
  have : some U = some U' := hUi.symm.trans e2
  cases this
  obtain ⟨t, f1, f2, f3, f4⟩ := e8 k hrun
  have e := look_dead (s := c.s) (β := c.β) (U := U) (a := q.addr) (t := t) hz (f4 hl q.addr ⟨Nat.le_refl _, by omega⟩)
  simp only [stepW, f1, Option.bind_some, e2, stepWithW, e]

end

end TB

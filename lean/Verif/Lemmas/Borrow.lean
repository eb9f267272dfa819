import Verif.Spec.Borrow
import Verif.Lemmas.History

/-! # Simulation proof for clients that hold references (helper lemmas) -/

set_option autoImplicit false

namespace TB

/-! ## Stacks -/

theorem readStack_some {g : Nat → Bool} : ∀ {st : List Item} {it : Item}, it ∈ st → g it.tag = true → it.perm.reads = true →
    ∃ st', readStack g st = some st'
  | [], _, h, _, _ => by cases h
  | x :: st, it, h, hg, hr => by
    simp only [readStack]
    split
    · exact ⟨_, rfl⟩
    · rename_i hn
      rcases List.mem_cons.1 h with rfl | h
      · simp [hg, hr] at hn
      · obtain ⟨st', e⟩ := readStack_some h hg hr
        exact ⟨_, by rw [e]; rfl⟩

theorem readStack_keeps {g : Nat → Bool} : ∀ {st st' : List Item} {it : Item}, readStack g st = some st' → it ∈ st →
    it.perm ≠ .unique → it ∈ st'
  | [], _, _, _, h, _ => by cases h
  | x :: st, st', it, e, h, hn => by
    simp only [readStack] at e
    split at e
    · cases e; exact h
    · obtain ⟨st1, e1, rfl⟩ := Option.map_eq_some_iff.1 e
      rcases List.mem_cons.1 h with rfl | h
      · rw [if_neg hn]; exact List.mem_cons_self
      · exact List.mem_cons_of_mem _ (readStack_keeps e1 h hn)

/-- Every item after a read is an item from before, or a disabled one with an old tag. -/
theorem readStack_from {g : Nat → Bool} : ∀ {st st' : List Item} {it : Item}, readStack g st = some st' → it ∈ st' →
    it ∈ st ∨ ∃ it0 ∈ st, it0.tag = it.tag ∧ it0.perm = .unique
  | [], _, _, e, _ => by cases e
  | x :: st, st', it, e, h => by
    simp only [readStack] at e
    split at e
    · cases e; exact Or.inl h
    · obtain ⟨st1, e1, rfl⟩ := Option.map_eq_some_iff.1 e
      rcases List.mem_cons.1 h with h | h
      · split at h
        · rename_i hu
          subst h
          exact Or.inr ⟨x, List.mem_cons_self, rfl, hu⟩
        · subst h; exact Or.inl List.mem_cons_self
      · rcases readStack_from e1 h with h | ⟨i0, h, h1, h2⟩
        · exact Or.inl (List.mem_cons_of_mem _ h)
        · exact Or.inr ⟨i0, List.mem_cons_of_mem _ h, h1, h2⟩

theorem readStack_top {g : Nat → Bool} {it : Item} {st : List Item} (hg : g it.tag = true) (hr : it.perm.reads = true) :
    readStack g (it :: st) = some (it :: st) := by
  simp [readStack, hg, hr]

theorem writeStack_some {g : Nat → Bool} : ∀ {st : List Item} {it : Item}, it ∈ st → g it.tag = true → it.perm.writes = true →
    ∃ it' st', writeStack g st = some (it' :: st') ∧ g it'.tag = true ∧ it'.perm.writes = true ∧ ∀ x ∈ it' :: st', x ∈ st
  | [], _, h, _, _ => by cases h
  | x :: st, it, h, hg, hr => by
    simp only [writeStack]
    split
    · rename_i hx
      simp only [Bool.and_eq_true] at hx
      exact ⟨x, st, rfl, hx.1, hx.2, fun _ h => h⟩
    · rename_i hn
      rcases List.mem_cons.1 h with rfl | h
      · simp [hg, hr] at hn
      · obtain ⟨it', st', e, h1, h2, h3⟩ := writeStack_some h hg hr
        exact ⟨it', st', e, h1, h2, fun y hy => List.mem_cons_of_mem _ (h3 y hy)⟩

theorem writeStack_top {g : Nat → Bool} {it : Item} {st : List Item} (hg : g it.tag = true) (hr : it.perm.writes = true) :
    writeStack g (it :: st) = some (it :: st) := by
  simp [writeStack, hg, hr]

/-- A read keeps the bottom item, if shared, and the tags. -/
theorem readStack_shape {g : Nat → Bool} {b : Item} (hb : b.perm ≠ .unique) : ∀ {pre st' : List Item},
    readStack g (pre ++ [b]) = some st' → ∃ pre', st' = pre' ++ [b] ∧ pre'.map Item.tag = pre.map Item.tag
  | [], st', e => by
    simp only [List.nil_append, readStack] at e
    split at e
    · cases e; exact ⟨[], rfl, rfl⟩
    · cases e
  | x :: pre, st', e => by
    simp only [List.cons_append, readStack] at e
    split at e
    · cases e; exact ⟨x :: pre, rfl, rfl⟩
    · obtain ⟨st1, e1, rfl⟩ := Option.map_eq_some_iff.1 e
      obtain ⟨pre', rfl, h⟩ := readStack_shape hb e1
      refine ⟨(if x.perm = .unique then ⟨x.tag, .disabled⟩ else x) :: pre', rfl, ?_⟩
      rw [List.map_cons, List.map_cons, h]
      split <;> rfl

/-- A write through the bottom item leaves only that. -/
theorem writeStack_bottom {g : Nat → Bool} {b : Item} (hg : g b.tag = true) (hw : b.perm.writes = true) : ∀ {pre : List Item},
    (∀ it ∈ pre, g it.tag = false) → writeStack g (pre ++ [b]) = some [b]
  | [], _ => writeStack_top hg hw
  | x :: pre, h => by
    simp only [List.cons_append, writeStack, h x List.mem_cons_self, Bool.false_and]
    exact writeStack_bottom hg hw (fun it hit => h it (List.mem_cons_of_mem _ hit))

/-- No usable item, no access. -/
theorem readStack_none {g : Nat → Bool} : ∀ {st : List Item}, (∀ it ∈ st, g it.tag = true → it.perm.reads = false) → readStack g st = none
  | [], _ => rfl
  | x :: st, h => by
    have h1 : (g x.tag && x.perm.reads) = false := by
      cases hg : g x.tag with
      | false => rfl
      | true => rw [h x List.mem_cons_self hg]; rfl
    simp only [readStack, h1, readStack_none (fun it hit => h it (List.mem_cons_of_mem _ hit))]
    rfl

theorem writeStack_none {g : Nat → Bool} : ∀ {st : List Item}, (∀ it ∈ st, g it.tag = true → it.perm.writes = false) → writeStack g st = none
  | [], _ => rfl
  | x :: st, h => by
    have h1 : (g x.tag && x.perm.writes) = false := by
      cases hg : g x.tag with
      | false => rfl
      | true => rw [h x List.mem_cons_self hg]; rfl
    simp only [writeStack, h1, writeStack_none (fun it hit => h it (List.mem_cons_of_mem _ hit))]
    rfl

/-! ## Accesses to ranges -/

theorem Borrows.access_none {β : Borrows} {f : List Item → Option (List Item)} {a n i : Nat} (h1 : a ≤ i) (h2 : i < a + n)
    (h : f (β.stk i) = none) : β.access f a n = none := by
  rw [Borrows.access, if_neg]
  intro hall
  rw [List.all_eq_true] at hall
  have := hall (i - a) (List.mem_range.2 (by omega))
  rw [show a + (i - a) = i by omega, h] at this
  cases this

theorem Borrows.access_some {β : Borrows} {f : List Item → Option (List Item)} {a n : Nat}
    (h : ∀ i, a ≤ i → i < a + n → ∃ st, f (β.stk i) = some st) :
    ∃ β', β.access f a n = some β' ∧ β'.next = β.next ∧ β'.exposed = β.exposed ∧
      (∀ i, a ≤ i → i < a + n → f (β.stk i) = some (β'.stk i)) ∧ (∀ i, ¬ (a ≤ i ∧ i < a + n) → β'.stk i = β.stk i) := by
  have hall : (List.range n).all (fun i => (f (β.stk (a + i))).isSome) = true := by
    rw [List.all_eq_true]
    intro i hi
    rw [List.mem_range] at hi
    obtain ⟨st, e⟩ := h (a + i) (by omega) (by omega)
    simp [e]
  refine ⟨{ β with stk := fun i => if a ≤ i ∧ i < a + n then (f (β.stk i)).getD [] else β.stk i },
    by rw [Borrows.access, if_pos hall], rfl, rfl, ?_, ?_⟩
  · intro i h1 h2
    obtain ⟨st, e⟩ := h i h1 h2
    show _ = some (if a ≤ i ∧ i < a + n then (f (β.stk i)).getD [] else β.stk i)
    rw [if_pos ⟨h1, h2⟩, e]; rfl
  · intro i hi
    show (if a ≤ i ∧ i < a + n then (f (β.stk i)).getD [] else β.stk i) = _
    rw [if_neg hi]

/-- An access that changes no stack changes nothing. -/
theorem Borrows.access_same {β : Borrows} {f : List Item → Option (List Item)} {a n : Nat}
    (h : ∀ i, a ≤ i → i < a + n → f (β.stk i) = some (β.stk i)) : β.access f a n = some β := by
  have hall : (List.range n).all (fun i => (f (β.stk (a + i))).isSome) = true := by
    rw [List.all_eq_true]
    intro i hi
    rw [List.mem_range] at hi
    simp [h (a + i) (by omega) (by omega)]
  have hs : (fun i => if a ≤ i ∧ i < a + n then (f (β.stk i)).getD [] else β.stk i) = β.stk := by
    funext i
    by_cases hi : a ≤ i ∧ i < a + n
    · rw [if_pos hi, h i hi.1 hi.2]; rfl
    · rw [if_neg hi]
  rw [Borrows.access, if_pos hall, hs]

/-- An access does not change the pointers in memory. -/
theorem Borrows.access_ptrs {β β' : Borrows} {f : List Item → Option (List Item)} {a n : Nat} (h : β.access f a n = some β') :
    β'.ptrs = β.ptrs := by
  rw [Borrows.access] at h
  split at h
  · cases h; rfl
  · cases h

/-! ## Bytes of boxes -/

/-- The stack of a byte that belongs to a box. -/
structure ByteOK (β : Borrows) (i : Nat) : Prop where
  /-- the box can still get at it, through the item at the bottom and no other -/
  bottom : ∃ pre e, e ∈ β.exposed ∧ β.stk i = pre ++ [⟨e, .sharedRW⟩] ∧ ∀ it ∈ pre, it.tag ∉ β.exposed
  fresh : ∀ it ∈ β.stk i, it.tag < β.next

theorem ByteOK.base {β : Borrows} {i : Nat} (h : ByteOK β i) : ∃ e ∈ β.exposed, (⟨e, .sharedRW⟩ : Item) ∈ β.stk i := by
  obtain ⟨pre, e, he, hs, _⟩ := h.bottom
  exact ⟨e, he, by rw [hs]; simp⟩

theorem ByteOK.only {β : Borrows} {i : Nat} (h : ByteOK β i) : ∀ it ∈ β.stk i, it.tag ∈ β.exposed → it.perm = .sharedRW := by
  obtain ⟨pre, e, he, hs, hp⟩ := h.bottom
  intro it hit hx
  rw [hs, List.mem_append, List.mem_singleton] at hit
  rcases hit with hit | rfl
  · exact absurd hx (hp it hit)
  · rfl

/-- Reading keeps a byte in order. -/
theorem ByteOK.read {β β' : Borrows} {i : Nat} {g : Nat → Bool} (h : ByteOK β i) (e : readStack g (β.stk i) = some (β'.stk i))
    (e1 : β'.next = β.next) (e2 : β'.exposed = β.exposed) : ByteOK β' i := by
  obtain ⟨pre, t, ht, hs, hp⟩ := h.bottom
  have e' := e
  rw [hs] at e
  obtain ⟨pre', hs', hm⟩ := readStack_shape (by simp) e
  refine ⟨⟨pre', t, e2 ▸ ht, hs', ?_⟩, ?_⟩
  · intro it hit
    have : it.tag ∈ pre.map Item.tag := hm ▸ List.mem_map_of_mem hit
    obtain ⟨it0, h0, h1⟩ := List.mem_map.1 this
    rw [e2, ← h1]
    exact hp it0 h0
  · intro it hit
    rw [e1]
    rcases readStack_from e' hit with hm | ⟨i0, hm, ht, _⟩
    · exact h.fresh it hm
    · rw [← ht]; exact h.fresh i0 hm

/-- The condition a live reference puts on a byte. -/
def RefByte (β : Borrows) (t : Nat) (isMut : Bool) (i : Nat) : Prop :=
  match isMut with
  | false => (⟨t, .sharedRO⟩ : Item) ∈ β.stk i ∧ ∀ it ∈ β.stk i, it.tag = t → it.perm = .sharedRO
  | true => ∃ st, β.stk i = ⟨t, .unique⟩ :: st ∧ ∀ it ∈ st, it.tag ≠ t

/-- What an access through the box at one byte may do to the borrow state of that byte. -/
structure ByteStep (β β' : Borrows) (i : Nat) : Prop where
  ok : ByteOK β' i
  /-- shared references survive -/
  keeps : ∀ t, RefByte β t false i → RefByte β' t false i

theorem RefByte.read {β β' : Borrows} {i t : Nat} {g : Nat → Bool} (h : RefByte β t false i)
    (e : readStack g (β.stk i) = some (β'.stk i)) : RefByte β' t false i := by
  refine ⟨readStack_keeps e h.1 (by simp), fun it hit ht => ?_⟩
  rcases readStack_from e hit with hm | ⟨i0, hm, h1, h2⟩
  · exact h.2 it hm ht
  · have := h.2 i0 hm (h1.trans ht)
    rw [h2] at this; cases this

theorem exposed_lt {β : Borrows} {t : Nat} (hx : ∀ e ∈ β.exposed, e < β.next) (ht : β.next ≤ t) : t ∉ β.exposed :=
  fun h => absurd (hx t h) (by omega)

/-- Reading through the integer. -/
theorem read_wild {β : Borrows} {a n : Nat} (h : ∀ i, a ≤ i → i < a + n → ByteOK β i) :
    ∃ β', β.access (readStack (β.grants .wild)) a n = some β' ∧ β'.next = β.next ∧ β'.exposed = β.exposed ∧
      (∀ i, a ≤ i → i < a + n → ByteStep β β' i) ∧ (∀ i, ¬ (a ≤ i ∧ i < a + n) → β'.stk i = β.stk i) := by
  obtain ⟨β', e, e1, e2, h1, h2⟩ := Borrows.access_some (β := β) (f := readStack (β.grants .wild)) (a := a) (n := n) (by
    intro i hi hj
    obtain ⟨t, ht, hm⟩ := (h i hi hj).base
    exact readStack_some hm (by simp [Borrows.grants, ht]) rfl)
  exact ⟨β', e, e1, e2, fun i hi hj => ⟨(h i hi hj).read (h1 i hi hj) e1 e2, fun t hm => hm.read (h1 i hi hj)⟩, h2⟩

/-- Reading through a shared reference. -/
theorem read_shared {β : Borrows} {a n t : Nat} (h : ∀ i, a ≤ i → i < a + n → ByteOK β i)
    (ht : ∀ i, a ≤ i → i < a + n → RefByte β t false i) :
    ∃ β', β.access (readStack (β.grants (.of t))) a n = some β' ∧ β'.next = β.next ∧ β'.exposed = β.exposed ∧
      (∀ i, a ≤ i → i < a + n → ByteStep β β' i) ∧ (∀ i, ¬ (a ≤ i ∧ i < a + n) → β'.stk i = β.stk i) := by
  obtain ⟨β', e, e1, e2, h1, h2⟩ := Borrows.access_some (β := β) (f := readStack (β.grants (.of t))) (a := a) (n := n) (by
    intro i hi hj
    exact readStack_some (ht i hi hj).1 (by simp [Borrows.grants]) rfl)
  exact ⟨β', e, e1, e2, fun i hi hj => ⟨(h i hi hj).read (h1 i hi hj) e1 e2, fun t hm => hm.read (h1 i hi hj)⟩, h2⟩

/-- Writing through the integer. -/
theorem write_wild {β : Borrows} {a n : Nat} (h : ∀ i, a ≤ i → i < a + n → ByteOK β i) :
    ∃ β', β.access (writeStack (β.grants .wild)) a n = some β' ∧ β'.next = β.next ∧ β'.exposed = β.exposed ∧
      (∀ i, a ≤ i → i < a + n → ByteOK β' i) ∧ (∀ i, ¬ (a ≤ i ∧ i < a + n) → β'.stk i = β.stk i) ∧
      (∀ i, a ≤ i → i < a + n → ∃ e ∈ β.exposed, β'.stk i = [⟨e, .sharedRW⟩]) := by
  have key : ∀ i, a ≤ i → i < a + n → ∃ e ∈ β.exposed, e < β.next ∧
      writeStack (β.grants .wild) (β.stk i) = some [⟨e, .sharedRW⟩] := by
    intro i hi hj
    obtain ⟨pre, t, ht, hs, hp⟩ := (h i hi hj).bottom
    refine ⟨t, ht, (h i hi hj).fresh ⟨t, .sharedRW⟩ (by rw [hs]; simp), ?_⟩
    rw [hs]
    exact writeStack_bottom (by simp [Borrows.grants, ht]) rfl (fun it hit => by simp [Borrows.grants, hp it hit])
  obtain ⟨β', e, e1, e2, h1, h2⟩ := Borrows.access_some (β := β) (f := writeStack (β.grants .wild)) (a := a) (n := n)
    (fun i hi hj => by obtain ⟨_, _, _, e⟩ := key i hi hj; exact ⟨_, e⟩)
  have h3 : ∀ i, a ≤ i → i < a + n → ∃ e ∈ β.exposed, e < β.next ∧ β'.stk i = [⟨e, .sharedRW⟩] := by
    intro i hi hj
    obtain ⟨t, ht, hlt, e3⟩ := key i hi hj
    have := h1 i hi hj
    rw [e3] at this
    exact ⟨t, ht, hlt, (Option.some.inj this).symm⟩
  refine ⟨β', e, e1, e2, fun i hi hj => ?_, h2, fun i hi hj => ?_⟩
  · obtain ⟨t, ht, hlt, hs⟩ := h3 i hi hj
    refine ⟨⟨[], t, e2 ▸ ht, hs, fun it hit => by cases hit⟩, fun it hit => ?_⟩
    rw [hs, List.mem_singleton] at hit
    subst hit
    rw [e1]
    exact hlt
  · obtain ⟨t, ht, _, hs⟩ := h3 i hi hj
    exact ⟨t, ht, hs⟩

/-- Pushing a new tag. -/
theorem push_ok {β : Borrows} {a n : Nat} {perm : Perm} (hx : ∀ e ∈ β.exposed, e < β.next) {i : Nat} (h : ByteOK β i) :
    ByteOK (β.push perm a n) i := by
  have hs : (β.push perm a n).stk i = if a ≤ i ∧ i < a + n then ⟨β.next, perm⟩ :: β.stk i else β.stk i := rfl
  refine ⟨?_, ?_⟩
  · obtain ⟨pre, e, he, hm, hp⟩ := h.bottom
    rw [hs]
    split
    · refine ⟨⟨β.next, perm⟩ :: pre, e, he, by rw [hm]; rfl, fun it hit => ?_⟩
      rcases List.mem_cons.1 hit with rfl | hit
      · exact fun he => absurd (hx _ he) (Nat.lt_irrefl _)
      · exact hp it hit
    · exact ⟨pre, e, he, hm, hp⟩
  · intro it hit
    show it.tag < β.next + 1
    rw [hs] at hit
    split at hit
    · rcases List.mem_cons.1 hit with rfl | hm
      · exact Nat.lt_succ_self _
      · exact Nat.lt_succ_of_lt (h.fresh it hm)
    · exact Nat.lt_succ_of_lt (h.fresh it hit)

/-- A byte is untouched by a change elsewhere. -/
theorem ByteOK.frame {β β' : Borrows} {i : Nat} (h : ByteOK β i) (hs : β'.stk i = β.stk i) (hn : β.next ≤ β'.next)
    (h1 : ∀ e ∈ β.exposed, e ∈ β'.exposed) (h2 : ∀ e ∈ β'.exposed, e ∈ β.exposed ∨ β.next ≤ e) : ByteOK β' i := by
  refine ⟨?_, ?_⟩
  · obtain ⟨pre, e, he, hm, hp⟩ := h.bottom
    refine ⟨pre, e, h1 e he, hs ▸ hm, fun it hit hx => ?_⟩
    rcases h2 _ hx with hx | hx
    · exact hp it hit hx
    · exact absurd (h.fresh it (by rw [hm]; exact List.mem_append_left _ hit)) (by omega)
  · intro it hit
    exact Nat.lt_of_lt_of_le (h.fresh it (hs ▸ hit)) hn

/-! ## The functions -/

section
variable {env : Env}

theorem MB.bind_def {α γ} (m : MB α) (f : α → MB γ) (s : State) (β : Borrows) :
    (m >>= f) s β = match m s β with
      | .ret a s' β' => f a s' β'
      | .panic k s' β' => .panic k s' β'
      | .ub k => .ub k
      | .aliasing => .aliasing := rfl

@[simp] theorem MB.pure_apply {α} (x : α) (s : State) (β : Borrows) : (Pure.pure x : MB α) s β = .ret x s β := rfl

theorem readB_ret {sh : Shape} {p : BPtr} {s : State} {β β' : Borrows} {v : Val}
    (h : β.access (readStack (β.grants p.tag)) p.addr sh.size = some β') (hr : ptrRead sh p.addr s = .ret v s) :
    readB sh p s β = .ret v s β' := by
  simp only [readB, MB.bind_def, MB.borrows, h, MB.lift, hr]

theorem writeB_ret {sh : Shape} {p : BPtr} {s : State} {β β' : Borrows} {v : Val}
    (h : β.access (writeStack (β.grants p.tag)) p.addr sh.size = some β') (hr : validPtr s p.addr sh.size sh.align = true) :
    writeB sh p v s β = .ret () (writtenState s p.addr sh v) β' := by
  simp only [writeB, MB.bind_def, MB.borrows, h, MB.lift, ptrWrite_ret hr]
  rfl

theorem retagRef_ret {sh : Shape} {p : BPtr} {s : State} {β β' : Borrows}
    (h : β.access (readStack (β.grants p.tag)) p.addr sh.size = some β') (hr : validPtr s p.addr sh.size sh.align = true) :
    retagRef sh p s β = .ret ⟨p.addr, .of β'.next⟩ s (β'.push .sharedRO p.addr sh.size) := by
  simp only [retagRef, checkB, MB.bind_def, MB.borrows, h, MB.lift, hr, if_true, MB.push]
  rfl

theorem retagMut_ret {sh : Shape} {p : BPtr} {s : State} {β β' : Borrows}
    (h : β.access (writeStack (β.grants p.tag)) p.addr sh.size = some β') (hr : validPtr s p.addr sh.size sh.align = true) :
    retagMut sh p s β = .ret ⟨p.addr, .of β'.next⟩ s (β'.push .unique p.addr sh.size) := by
  simp only [retagMut, checkB, MB.bind_def, MB.borrows, h, MB.lift, hr, if_true, MB.push]
  rfl

theorem push_grants (β : Borrows) (perm : Perm) (a n : Nat) (p : PTag) : (β.push perm a n).grants p = β.grants p := by
  cases p <;> rfl

theorem push_stk {β : Borrows} {perm : Perm} {a n i : Nat} (h1 : a ≤ i) (h2 : i < a + n) :
    (β.push perm a n).stk i = ⟨β.next, perm⟩ :: β.stk i := if_pos ⟨h1, h2⟩

theorem push_stk_out {β : Borrows} {perm : Perm} {a n i : Nat} (h : ¬ (a ≤ i ∧ i < a + n)) :
    (β.push perm a n).stk i = β.stk i := if_neg h

/-- The reader of a tag just pushed. -/
theorem read_pushed (β : Borrows) (perm : Perm) (hp : perm.reads = true) (a n : Nat) :
    (β.push perm a n).access (readStack ((β.push perm a n).grants (.of β.next))) a n = some (β.push perm a n) := by
  refine Borrows.access_same (fun i h1 h2 => ?_)
  rw [push_stk h1 h2]
  exact readStack_top (by simp [Borrows.grants]) hp

theorem write_pushed (β : Borrows) (a n : Nat) :
    (β.push .unique a n).access (writeStack ((β.push .unique a n).grants (.of β.next))) a n = some (β.push .unique a n) := by
  refine Borrows.access_same (fun i h1 h2 => ?_)
  rw [push_stk h1 h2]
  exact writeStack_top (by simp [Borrows.grants]) rfl

/-- Reading and writing through a `&mut` that is on top changes no stack. -/
theorem read_top {β : Borrows} {a n t : Nat} (h : ∀ i, a ≤ i → i < a + n → ∃ st, β.stk i = ⟨t, .unique⟩ :: st ∧ ∀ it ∈ st, it.tag ≠ t) :
    β.access (readStack (β.grants (.of t))) a n = some β := by
  refine Borrows.access_same (fun i h1 h2 => ?_)
  obtain ⟨st, e, _⟩ := h i h1 h2
  rw [e]
  exact readStack_top (by simp [Borrows.grants]) rfl

theorem write_top {β : Borrows} {a n t : Nat} (h : ∀ i, a ≤ i → i < a + n → ∃ st, β.stk i = ⟨t, .unique⟩ :: st ∧ ∀ it ∈ st, it.tag ≠ t) :
    β.access (writeStack (β.grants (.of t))) a n = some β := by
  refine Borrows.access_same (fun i h1 h2 => ?_)
  obtain ⟨st, e, _⟩ := h i h1 h2
  rw [e]
  exact writeStack_top (by simp [Borrows.grants]) rfl

theorem assignB_ret {sh : Shape} {p : BPtr} {s : State} {β : Borrows} {v v' : Val}
    (h1 : β.access (readStack (β.grants p.tag)) p.addr sh.size = some β)
    (h2 : β.access (writeStack (β.grants p.tag)) p.addr sh.size = some β) (hr : ptrRead sh p.addr s = .ret v s) :
    assignB sh p v' s β = .ret () (writtenState (s.log (dropEvents sh v)) p.addr sh v') β := by
  have hv : validPtr (s.log (dropEvents sh v)) p.addr sh.size sh.align = true := (ptrRead_ret_iff.1 hr).2.1
  simp only [assignB, MB.bind_def, readB_ret h1 hr, MB.lift, dropVal, M.log, writeB_ret h2 hv]

theorem deallocB_ret {p : BPtr} {size align : Nat} {s : State} {β : Borrows}
    (h2 : β.access (writeStack (β.grants p.tag)) p.addr size = some β) (hm : (⟨p.addr, size, align⟩ : Block) ∈ s.blocks) :
    deallocB p size align s β = .ret () (freedState s ⟨p.addr, size, align⟩) (β.reset [] p.addr size) := by
  simp only [deallocB, MB.bind_def, MB.borrows, h2, MB.lift, deallocM_ret hm]

theorem BBox.drop_ret {sh : Shape} {p : BPtr} {s : State} {β : Borrows} {v : Val}
    (h1 : β.access (readStack (β.grants p.tag)) p.addr sh.size = some β)
    (h2 : β.access (writeStack (β.grants p.tag)) p.addr sh.size = some β) (hr : ptrRead sh p.addr s = .ret v s)
    (hm : 0 < sh.size → (⟨p.addr, sh.size, sh.align⟩ : Block) ∈ s.blocks) :
    BBox.drop sh ⟨p⟩ s β = .ret () (if sh.size = 0 then s.log (dropEvents sh v)
       else freedState (s.log (dropEvents sh v)) ⟨p.addr, sh.size, sh.align⟩)
      (if sh.size = 0 then β else β.reset [] p.addr sh.size) := by
  simp only [BBox.drop, MB.bind_def, readB_ret h1 hr, MB.lift, dropVal, M.log]
  by_cases hz : sh.size = 0
  · simp only [hz, if_true]; rfl
  · have hm' : (⟨p.addr, sh.size, sh.align⟩ : Block) ∈ (s.log (dropEvents sh v)).blocks := hm (by omega)
    simp only [hz, if_false]
    exact deallocB_ret h2 hm'

theorem BBox.intoValue_ret {sh : Shape} {p : BPtr} {s : State} {β : Borrows} {v : Val}
    (h1 : β.access (readStack (β.grants p.tag)) p.addr sh.size = some β)
    (h2 : β.access (writeStack (β.grants p.tag)) p.addr sh.size = some β) (hr : ptrRead sh p.addr s = .ret v s)
    (hm : 0 < sh.size → (⟨p.addr, sh.size, sh.align⟩ : Block) ∈ s.blocks) :
    BBox.intoValue sh ⟨p⟩ s β = .ret v (if sh.size = 0 then s else freedState s ⟨p.addr, sh.size, sh.align⟩)
      (if sh.size = 0 then β else β.reset [] p.addr sh.size) := by
  simp only [BBox.intoValue, MB.bind_def, readB_ret h1 hr]
  by_cases hz : sh.size = 0
  · simp only [hz, if_true]; rfl
  · simp only [hz, if_false, MB.bind_def, deallocB_ret h2 (hm (by omega))]
    rfl

/-- The borrow state after a successful `new`. -/
def newBorrows (β : Borrows) (a n : Nat) : Borrows :=
  { β.reset [⟨β.next, .sharedRW⟩] a n with next := β.next + 1, exposed := β.next :: β.next :: β.exposed }

theorem newB_zst {sh : Shape} {v : Val} {d : env.cfg.Discr} {s : State} {β : Borrows} (hz : sh.size = 0) :
    TBox.newB env sh v d s β = .ret (TBox.dangling env sh.align d) (s.log (dropEvents sh v)) β := by
  simp only [TBox.newB, hz, if_true, MB.bind_def]; rfl

theorem newB_null {sh : Shape} {v : Val} {d : env.cfg.Discr} {s : State} {β : Borrows} (hz : sh.size ≠ 0)
    (ha : env.alloc s sh.size sh.align = 0) :
    TBox.newB env sh v d s β = .panic .nullAlloc ((s.log [.allocNull sh.size sh.align]).log (dropEvents sh v)) β := by
  simp only [TBox.newB, hz, if_false, MB.bind_def, allocB, MB.lift, allocM, ha, if_true]; rfl

theorem allocB_ret {size align : Nat} {s : State} {β : Borrows} (ha : env.alloc s size align ≠ 0) :
    allocB env size align s β = .ret ⟨env.alloc s size align, .of β.next⟩
      { mem := overlay s.mem (env.alloc s size align) (List.replicate size none),
        blocks := ⟨env.alloc s size align, size, align⟩ :: s.blocks,
        trace := s.trace ++ [.alloc ⟨env.alloc s size align, size, align⟩] }
      { β.reset [⟨β.next, .sharedRW⟩] (env.alloc s size align) size with next := β.next + 1 } := by
  simp only [allocB, MB.bind_def, MB.lift, allocM, ha, if_false]
  rfl

theorem newB_alloc (h : env.OK) {sh : Shape} {v : Val} {d : env.cfg.Discr} {s : State} {β : Borrows}
    (hz : sh.size ≠ 0) (ha : env.alloc s sh.size sh.align ≠ 0) :
    TBox.newB env sh v d s β =
      match TPtr.new env.cfg env.debug (BitVec.ofNat 64 (env.alloc s sh.size sh.align)) d with
      | .ok t => .ret ⟨t⟩ (boxedState s (env.alloc s sh.size sh.align) sh v) (newBorrows β (env.alloc s sh.size sh.align) sh.size)
      | .error k => .panic k (boxedState s (env.alloc s sh.size sh.align) sh v)
          (newBorrows β (env.alloc s sh.size sh.align) sh.size) := by
  obtain ⟨l1, l2, l3⟩ := h.lawful s sh.size sh.align (by omega) ha
  have hlt : env.alloc s sh.size sh.align < 2 ^ 64 := by have := h.pow_le; omega
  have hne : ¬ (BitVec.ofNat 64 (env.alloc s sh.size sh.align) = 0#64) := by
    intro e
    have := congrArg BitVec.toNat e
    rw [BitVec.toNat_ofNat, Nat.mod_eq_of_lt hlt] at this
    exact ha this
  have hv : validPtr { mem := overlay s.mem (env.alloc s sh.size sh.align) (List.replicate sh.size none),
                       blocks := ⟨env.alloc s sh.size sh.align, sh.size, sh.align⟩ :: s.blocks,
                       trace := s.trace ++ [.alloc ⟨env.alloc s sh.size sh.align, sh.size, sh.align⟩] }
      (env.alloc s sh.size sh.align) sh.size sh.align = true := by
    rw [validPtr_iff]
    exact ⟨ha, Nat.mod_eq_zero_of_dvd l1, Or.inr ⟨_, List.mem_cons_self, Nat.le_refl _, Nat.le_refl _⟩⟩
  have hacc : (({ β.reset [⟨β.next, .sharedRW⟩] (env.alloc s sh.size sh.align) sh.size with
      next := β.next + 1, exposed := β.next :: β.exposed } : Borrows)).access
      (writeStack (({ β.reset [⟨β.next, .sharedRW⟩] (env.alloc s sh.size sh.align) sh.size with
        next := β.next + 1, exposed := β.next :: β.exposed } : Borrows).grants (.of β.next)))
      (env.alloc s sh.size sh.align) sh.size = some
      ({ β.reset [⟨β.next, .sharedRW⟩] (env.alloc s sh.size sh.align) sh.size with
        next := β.next + 1, exposed := β.next :: β.exposed } : Borrows) := by
    refine Borrows.access_same (fun i h1 h2 => ?_)
    have e : (β.reset [⟨β.next, .sharedRW⟩] (env.alloc s sh.size sh.align) sh.size).stk i = [⟨β.next, .sharedRW⟩] :=
      if_pos ⟨h1, h2⟩
    show writeStack _ ((β.reset [⟨β.next, .sharedRW⟩] (env.alloc s sh.size sh.align) sh.size).stk i) = some
      ((β.reset [⟨β.next, .sharedRW⟩] (env.alloc s sh.size sh.align) sh.size).stk i)
    rw [e]
    exact writeStack_top (by simp [Borrows.grants]) rfl
  have hw := writeB_ret (p := ⟨env.alloc s sh.size sh.align, .of β.next⟩) (v := v) hacc hv
  simp only [TBox.newB, hz, if_false, MB.bind_def, allocB_ret ha, exposeB, hne]
  rw [show (β.reset [⟨β.next, .sharedRW⟩] (env.alloc s sh.size sh.align) sh.size).exposed = β.exposed from rfl, hw]
  cases TPtr.new env.cfg env.debug (BitVec.ofNat 64 (env.alloc s sh.size sh.align)) d <;> rfl

/-! ## The simulation -/

/-- Borrow state and references agree with the specification. -/
structure BInv (β : Borrows) (xs : List (Cell × Nat)) (refs : List (Option (BPtr × Shape))) (srefs : List (Option SRef)) : Prop where
  exposed : ∀ e ∈ β.exposed, e < β.next
  cells : ∀ x ∈ xs, x.1.live = true → ∀ i, x.2 ≤ i → i < x.2 + x.1.sh.size → ByteOK β i
  len : refs.length = srefs.length
  refd : ∀ (r : Nat) (ρ : SRef), srefs[r]? = some (some ρ) → ∃ x t, xs[ρ.loc]? = some x ∧ x.1.live = true ∧
    refs[r]? = some (some (⟨x.2, .of t⟩, x.1.sh)) ∧ ∀ i, x.2 ≤ i → i < x.2 + x.1.sh.size → RefByte β t ρ.isMut i

variable {s0 : State} {c : CState} {a : AState env} {xs : List (Cell × Nat)}

/-- Bytes of two different live locations do not overlap. -/
theorem Sim.disjoint (S : Sim env s0 c a xs) {i j : Nat} {x y : Cell × Nat} (hx : xs[i]? = some x) (hy : xs[j]? = some y)
    (hne : i ≠ j) (lx : x.1.live = true) (ly : y.1.live = true) {k : Nat} (h1 : x.2 ≤ k) (h2 : k < x.2 + x.1.sh.size) :
    ¬ (y.2 ≤ k ∧ k < y.2 + y.1.sh.size) := by
  intro h3
  have zx : 0 < x.1.sh.size := by omega
  have zy : 0 < y.1.sh.size := by omega
  have o1 := (S.live x (List.mem_of_getElem? hx) lx).own zx
  have o2 := (S.live y (List.mem_of_getElem? hy) ly).own zy
  rcases S.inv.eq_or_disjoint o1 o2 with e | hd
  · exact S.addr_ne hx hy hne lx ly zx zy (congrArg Block.base e)
  · simp only [Block.Disjoint] at hd
    omega

/-- An access to one location; `cell'` is what the location holds afterwards (same type, same place). -/
theorem BInv.touch {β β' : Borrows} {refs : List (Option (BPtr × Shape))} {srefs : List (Option SRef)} (B : BInv β xs refs srefs)
    (S : Sim env s0 c a xs) {loc : Nat} {x : Cell × Nat} {v' : Val} {live' : Bool} (hx : xs[loc]? = some x) (hl : x.1.live = true)
    (hn : β.next ≤ β'.next) (hex : β'.exposed = β.exposed)
    (hout : ∀ i, ¬ (x.2 ≤ i ∧ i < x.2 + x.1.sh.size) → β'.stk i = β.stk i)
    (hin : live' = true → ∀ i, x.2 ≤ i → i < x.2 + x.1.sh.size → ByteOK β' i)
    (hrefs : ∀ (r : Nat) (ρ : SRef) (t : Nat), srefs[r]? = some (some ρ) → ρ.loc = loc →
      live' = true ∧ ∀ i, x.2 ≤ i → i < x.2 + x.1.sh.size → RefByte β t ρ.isMut i → RefByte β' t ρ.isMut i) :
    BInv β' (xs.set loc (⟨x.1.sh, v', live'⟩, x.2)) refs srefs where
  exposed := fun e he => Nat.lt_of_lt_of_le (B.exposed e (hex ▸ he)) hn
  cells := by
    intro y hy ly i h1 h2
    rcases mem_set_ne hy with rfl | ⟨j, hj, ej⟩
    · exact hin ly i h1 h2
    · exact (B.cells y (List.mem_of_getElem? ej) ly i h1 h2).frame
        (hout i (S.disjoint ej hx hj ly hl h1 h2)) hn (fun e he => hex ▸ he) (fun e he => Or.inl (hex ▸ he))
  len := B.len
  refd := by
    intro r ρ hr
    obtain ⟨y, t, h1, h2, h3, h4⟩ := B.refd r ρ hr
    by_cases e : loc = ρ.loc
    · obtain ⟨hlv, hk⟩ := hrefs r ρ t hr e.symm
      have hyx : y = x := by rw [← e, hx] at h1; exact (Option.some.inj h1).symm
      subst hyx
      refine ⟨(⟨y.1.sh, v', live'⟩, y.2), t, ?_, hlv, h3, fun i h5 h6 => hk i h5 h6 (h4 i h5 h6)⟩
      rw [← e, List.getElem?_set_self (List.getElem?_eq_some_iff.1 hx).1]
    · refine ⟨y, t, by rw [List.getElem?_set_ne e]; exact h1, h2, h3, fun i h5 h6 => ?_⟩
      have hd := hout i (S.disjoint h1 hx (Ne.symm e) h2 hl h5 h6)
      have := h4 i h5 h6
      unfold RefByte at this ⊢
      rw [hd]
      exact this

/-- As `touch`, the store unchanged. -/
theorem BInv.touch' {β β' : Borrows} {refs : List (Option (BPtr × Shape))} {srefs : List (Option SRef)} (B : BInv β xs refs srefs)
    (S : Sim env s0 c a xs) {loc : Nat} {x : Cell × Nat} (hx : xs[loc]? = some x) (hl : x.1.live = true)
    (hn : β.next ≤ β'.next) (hex : β'.exposed = β.exposed)
    (hout : ∀ i, ¬ (x.2 ≤ i ∧ i < x.2 + x.1.sh.size) → β'.stk i = β.stk i)
    (hin : ∀ i, x.2 ≤ i → i < x.2 + x.1.sh.size → ByteOK β' i)
    (hrefs : ∀ (r : Nat) (ρ : SRef) (t : Nat), srefs[r]? = some (some ρ) → ρ.loc = loc →
      ∀ i, x.2 ≤ i → i < x.2 + x.1.sh.size → RefByte β t ρ.isMut i → RefByte β' t ρ.isMut i) : BInv β' xs refs srefs := by
  have := B.touch (v' := x.1.val) (live' := true) S hx hl hn hex hout (fun _ => hin)
    (fun r ρ t h1 h2 => ⟨rfl, hrefs r ρ t h1 h2⟩)
  have e : ((⟨x.1.sh, x.1.val, true⟩, x.2) : Cell × Nat) = x := by
    obtain ⟨⟨sh, v, l⟩, ad⟩ := x
    simp only at hl
    subst hl
    rfl
  rw [e, set_same hx] at this
  exact this

/-- A location appended at memory whose stacks have been set up by the allocator. -/
theorem BInv.alloc {β β' : Borrows} {refs : List (Option (BPtr × Shape))} {srefs : List (Option SRef)} (B : BInv β xs refs srefs)
    {y : Cell × Nat} (hn : β.next < β'.next) (hex : ∀ e, e ∈ β'.exposed ↔ e = β.next ∨ e ∈ β.exposed)
    (hout : ∀ i, ¬ (y.2 ≤ i ∧ i < y.2 + y.1.sh.size) → β'.stk i = β.stk i)
    (hin : ∀ i, y.2 ≤ i → i < y.2 + y.1.sh.size → β'.stk i = [⟨β.next, .sharedRW⟩])
    (hd : ∀ x ∈ xs, x.1.live = true → ∀ i, x.2 ≤ i → i < x.2 + x.1.sh.size → ¬ (y.2 ≤ i ∧ i < y.2 + y.1.sh.size)) :
    BInv β' (xs ++ [y]) refs srefs where
  exposed := by
    intro e he
    rcases (hex e).1 he with rfl | he
    · exact hn
    · exact Nat.lt_trans (B.exposed e he) hn
  cells := by
    intro x hx lx i h1 h2
    rw [List.mem_append, List.mem_singleton] at hx
    rcases hx with hx | rfl
    · exact (B.cells x hx lx i h1 h2).frame (hout i (hd x hx lx i h1 h2)) (Nat.le_of_lt hn)
        (fun e he => (hex e).2 (Or.inr he)) (fun e he => by
          rcases (hex e).1 he with rfl | he
          · exact Or.inr (Nat.le_refl _)
          · exact Or.inl he)
    · have e := hin i h1 h2
      refine ⟨⟨[], β.next, (hex _).2 (Or.inl rfl), e, fun it hit => by cases hit⟩, ?_⟩
      intro it hit
      rw [e, List.mem_singleton] at hit
      subst hit
      exact hn
  len := B.len
  refd := by
    intro r ρ hr
    obtain ⟨x, t, h1, h2, h3, h4⟩ := B.refd r ρ hr
    refine ⟨x, t, ?_, h2, h3, fun i h5 h6 => ?_⟩
    · rw [List.getElem?_append_left (List.getElem?_eq_some_iff.1 h1).1]; exact h1
    · have hd' := hout i (hd x (List.mem_of_getElem? h1) h2 i h5 h6)
      have := h4 i h5 h6
      unfold RefByte at this ⊢
      rw [hd']
      exact this

/-- A location without memory appended. -/
theorem BInv.zst {β : Borrows} {refs : List (Option (BPtr × Shape))} {srefs : List (Option SRef)} (B : BInv β xs refs srefs)
    {y : Cell × Nat} (hz : y.1.sh.size = 0) : BInv β (xs ++ [y]) refs srefs where
  exposed := B.exposed
  cells := by
    intro x hx lx i h1 h2
    rw [List.mem_append, List.mem_singleton] at hx
    rcases hx with hx | rfl
    · exact B.cells x hx lx i h1 h2
    · omega
  len := B.len
  refd := by
    intro r ρ hr
    obtain ⟨x, t, h1, h2, h3, h4⟩ := B.refd r ρ hr
    exact ⟨x, t, by rw [List.getElem?_append_left (List.getElem?_eq_some_iff.1 h1).1]; exact h1, h2, h3, h4⟩

/-- A reference appended. -/
theorem BInv.push {β : Borrows} {refs : List (Option (BPtr × Shape))} {srefs : List (Option SRef)} (B : BInv β xs refs srefs)
    {ρ : SRef} {x : Cell × Nat} {t : Nat} (h1 : xs[ρ.loc]? = some x) (h2 : x.1.live = true)
    (h4 : ∀ i, x.2 ≤ i → i < x.2 + x.1.sh.size → RefByte β t ρ.isMut i) :
    BInv β xs (refs ++ [some (⟨x.2, .of t⟩, x.1.sh)]) (srefs ++ [some ρ]) where
  exposed := B.exposed
  cells := B.cells
  len := by simp [B.len]
  refd := by
    intro r ρ' hr
    rw [List.getElem?_append] at hr ⊢
    rw [B.len]
    split at hr
    · rename_i hlt
      rw [if_pos hlt]
      exact B.refd r ρ' hr
    · rename_i hlt
      rw [if_neg hlt]
      rw [List.getElem?_singleton] at hr ⊢
      split at hr
      · rename_i h0
        cases hr
        rw [if_pos h0]
        exact ⟨x, t, h1, h2, rfl, h4⟩
      · cases hr

/-- A reference given up. -/
theorem BInv.done {β : Borrows} {refs : List (Option (BPtr × Shape))} {srefs : List (Option SRef)} (B : BInv β xs refs srefs)
    (k : Nat) : BInv β xs (refs.set k none) (srefs.set k none) where
  exposed := B.exposed
  cells := B.cells
  len := by simp [B.len]
  refd := by
    intro r ρ hr
    rw [List.getElem?_set] at hr ⊢
    split at hr
    · split at hr <;> cases hr
    · rename_i hne
      rw [if_neg hne]
      exact B.refd r ρ hr

/-- Reading a location through its boxes. -/
theorem BInv.readWild {β : Borrows} {refs : List (Option (BPtr × Shape))} {srefs : List (Option SRef)} (B : BInv β xs refs srefs)
    (S : Sim env s0 c a xs) {loc : Nat} {x : Cell × Nat} (hx : xs[loc]? = some x) (hl : x.1.live = true)
    (hm : ∀ ρ, some ρ ∈ srefs → ρ.loc = loc → ρ.isMut = false) :
    ∃ β', β.access (readStack (β.grants .wild)) x.2 x.1.sh.size = some β' ∧ BInv β' xs refs srefs := by
  obtain ⟨β', e, e1, e2, h1, h2⟩ := read_wild (β := β) (a := x.2) (n := x.1.sh.size) (B.cells x (List.mem_of_getElem? hx) hl)
  refine ⟨β', e, B.touch' S hx hl (Nat.le_of_eq e1.symm) e2 h2 (fun i hi hj => (h1 i hi hj).ok) ?_⟩
  intro r ρ t hr hloc i hi hj hb
  have := hm ρ (List.mem_of_getElem? hr) hloc
  rw [this] at hb ⊢
  exact (h1 i hi hj).keeps t hb

/-- Reading a location through a shared reference. -/
theorem BInv.readShared {β : Borrows} {refs : List (Option (BPtr × Shape))} {srefs : List (Option SRef)} (B : BInv β xs refs srefs)
    (S : Sim env s0 c a xs) {loc t : Nat} {x : Cell × Nat} (hx : xs[loc]? = some x) (hl : x.1.live = true)
    (ht : ∀ i, x.2 ≤ i → i < x.2 + x.1.sh.size → RefByte β t false i)
    (hm : ∀ ρ, some ρ ∈ srefs → ρ.loc = loc → ρ.isMut = false) :
    ∃ β', β.access (readStack (β.grants (.of t))) x.2 x.1.sh.size = some β' ∧ BInv β' xs refs srefs := by
  obtain ⟨β', e, e1, e2, h1, h2⟩ := read_shared (β := β) (a := x.2) (n := x.1.sh.size) (B.cells x (List.mem_of_getElem? hx) hl) ht
  refine ⟨β', e, B.touch' S hx hl (Nat.le_of_eq e1.symm) e2 h2 (fun i hi hj => (h1 i hi hj).ok) ?_⟩
  intro r ρ t hr hloc i hi hj hb
  have := hm ρ (List.mem_of_getElem? hr) hloc
  rw [this] at hb ⊢
  exact (h1 i hi hj).keeps t hb

/-- Pushing a shared reference. -/
theorem BInv.pushShared {β : Borrows} {refs : List (Option (BPtr × Shape))} {srefs : List (Option SRef)} (B : BInv β xs refs srefs)
    (S : Sim env s0 c a xs) {loc : Nat} {x : Cell × Nat} (hx : xs[loc]? = some x) (hl : x.1.live = true)
    (hm : ∀ ρ, some ρ ∈ srefs → ρ.loc = loc → ρ.isMut = false) : BInv (β.push .sharedRO x.2 x.1.sh.size) xs refs srefs := by
  refine B.touch' S hx hl (Nat.le_succ _) rfl (fun i hi => push_stk_out hi)
    (fun i hi hj => push_ok B.exposed (B.cells x (List.mem_of_getElem? hx) hl i hi hj)) ?_
  intro r ρ t hr hloc i hi hj hb
  have := hm ρ (List.mem_of_getElem? hr) hloc
  rw [this] at hb ⊢
  have hlt := (B.cells x (List.mem_of_getElem? hx) hl i hi hj).fresh _ hb.1
  refine ⟨by rw [push_stk hi hj]; exact List.mem_cons_of_mem _ hb.1, fun it hit ht => ?_⟩
  rw [push_stk hi hj] at hit
  rcases List.mem_cons.1 hit with rfl | hit
  · rfl
  · exact hb.2 it hit ht

/-- Writing a location through its boxes, when no reference to it is live. -/
theorem BInv.writeWild {β : Borrows} {refs : List (Option (BPtr × Shape))} {srefs : List (Option SRef)} (B : BInv β xs refs srefs)
    (S : Sim env s0 c a xs) {loc : Nat} {x : Cell × Nat} (hx : xs[loc]? = some x) (hl : x.1.live = true)
    (hm : ∀ ρ, some ρ ∈ srefs → ρ.loc ≠ loc) :
    ∃ β', β.access (writeStack (β.grants .wild)) x.2 x.1.sh.size = some β' ∧ BInv β' xs refs srefs := by
  obtain ⟨β', e, e1, e2, h1, h2, _⟩ := write_wild (β := β) (a := x.2) (n := x.1.sh.size) (B.cells x (List.mem_of_getElem? hx) hl)
  refine ⟨β', e, B.touch' S hx hl (Nat.le_of_eq e1.symm) e2 h2 h1 ?_⟩
  intro r ρ t hr hloc
  exact absurd hloc (hm ρ (List.mem_of_getElem? hr))

/-- Pushing a unique reference, when no reference is live. -/
theorem BInv.pushUnique {β : Borrows} {refs : List (Option (BPtr × Shape))} {srefs : List (Option SRef)} (B : BInv β xs refs srefs)
    (S : Sim env s0 c a xs) {loc : Nat} {x : Cell × Nat} (hx : xs[loc]? = some x) (hl : x.1.live = true)
    (hm : ∀ ρ, some ρ ∈ srefs → ρ.loc ≠ loc) : BInv (β.push .unique x.2 x.1.sh.size) xs refs srefs := by
  refine B.touch' S hx hl (Nat.le_succ _) rfl (fun i hi => push_stk_out hi)
    (fun i hi hj => push_ok B.exposed (B.cells x (List.mem_of_getElem? hx) hl i hi hj)) ?_
  intro r ρ t hr hloc
  exact absurd hloc (hm ρ (List.mem_of_getElem? hr))

/-- The value of a location changed. -/
theorem BInv.value {β : Borrows} {refs : List (Option (BPtr × Shape))} {srefs : List (Option SRef)} (B : BInv β xs refs srefs)
    (S : Sim env s0 c a xs) {loc ad : Nat} {sh : Shape} {v v' : Val} (hx : xs[loc]? = some (⟨sh, v, true⟩, ad)) :
    BInv β (xs.set loc (⟨sh, v', true⟩, ad)) refs srefs :=
  B.touch (x := (⟨sh, v, true⟩, ad)) S hx rfl (Nat.le_refl _) rfl (fun _ _ => rfl)
    (fun _ => B.cells _ (List.mem_of_getElem? hx) rfl) (fun _ _ _ _ _ => ⟨rfl, fun _ _ _ h => h⟩)

/-- A location freed. -/
theorem BInv.free {β : Borrows} {refs : List (Option (BPtr × Shape))} {srefs : List (Option SRef)} (B : BInv β xs refs srefs)
    (S : Sim env s0 c a xs) {loc ad : Nat} {sh : Shape} {v : Val} (hx : xs[loc]? = some (⟨sh, v, true⟩, ad))
    (hm : ∀ ρ, some ρ ∈ srefs → ρ.loc ≠ loc) :
    BInv (if sh.size = 0 then β else β.reset [] ad sh.size) (xs.set loc (⟨sh, v, false⟩, ad)) refs srefs := by
  have h0 : ∀ β', β'.next = β.next → β'.exposed = β.exposed →
      (∀ i, ¬ (ad ≤ i ∧ i < ad + sh.size) → β'.stk i = β.stk i) → BInv β' (xs.set loc (⟨sh, v, false⟩, ad)) refs srefs := by
    intro β' e1 e2 e3
    refine B.touch (x := (⟨sh, v, true⟩, ad)) S hx rfl (Nat.le_of_eq e1.symm) e2 e3 (fun h => by cases h) ?_
    intro r ρ t hr hloc
    exact absurd hloc (hm ρ (List.mem_of_getElem? hr))
  split
  · exact h0 β rfl rfl (fun _ _ => rfl)
  · exact h0 _ rfl rfl (fun i hi => if_neg hi)

/-- Where there are two references to one location, they are shared. -/
def Alone (srefs : List (Option SRef)) : Prop :=
  ∀ (r r' : Nat) (ρ ρ' : SRef), srefs[r]? = some (some ρ) → srefs[r']? = some (some ρ') → r ≠ r' → ρ.loc = ρ'.loc → ρ.isMut = false

theorem Alone.push {srefs : List (Option SRef)} (A : Alone srefs) {ρ : SRef}
    (h : ∀ ρ', some ρ' ∈ srefs → ρ'.loc = ρ.loc → ρ'.isMut = false ∧ ρ.isMut = false) : Alone (srefs ++ [some ρ]) := by
  intro r r' ρ1 ρ2 h1 h2 hne hloc
  rw [List.getElem?_append] at h1 h2
  split at h1 <;> split at h2
  · exact A r r' ρ1 ρ2 h1 h2 hne hloc
  · rw [List.getElem?_singleton] at h2
    split at h2
    · cases h2
      exact (h ρ1 (List.mem_of_getElem? h1) hloc).1
    · cases h2
  · rw [List.getElem?_singleton] at h1
    split at h1
    · cases h1
      exact (h ρ2 (List.mem_of_getElem? h2) hloc.symm).2
    · cases h1
  · rw [List.getElem?_singleton] at h1 h2
    split at h1
    · split at h2
      · omega
      · cases h2
    · cases h1

theorem Alone.done {srefs : List (Option SRef)} (A : Alone srefs) (k : Nat) : Alone (srefs.set k none) := by
  intro r r' ρ1 ρ2 h1 h2 hne hloc
  rw [List.getElem?_set] at h1 h2
  split at h1
  · split at h1 <;> cases h1
  · split at h2
    · split at h2 <;> cases h2
    · exact A r r' ρ1 ρ2 h1 h2 hne hloc

/-- Simulation relation for clients with references. -/
structure BSim (env : Env) (s0 : State) (c : BState) (x : RState env) (xs : List (Cell × Nat)) : Prop where
  sim : Sim env s0 ⟨c.s, c.handles⟩ x.a xs
  inv : BInv c.β xs c.refs x.refs
  alone : Alone x.refs

theorem stepWithB_ret {α : Type} {c : BState} {m : MB α} {f : α → Res env × Tables} {y : α} {s' : State} {β' : Borrows}
    (h : m c.s c.β = .ret y s' β') :
    stepWithB c m f = some (((f y).1, dropsBetween c.s s'), ⟨s', β', (f y).2.1, (f y).2.2⟩) := by
  simp only [stepWithB, h]

theorem stepWithB_panic {α : Type} {c : BState} {m : MB α} {f : α → Res env × Tables} {k : PanicKind} {s' : State} {β' : Borrows}
    (h : m c.s c.β = .panic k s' β') :
    stepWithB c m f = some ((.panicked k, dropsBetween c.s s'), ⟨s', β', c.handles, c.refs⟩) := by
  simp only [stepWithB, h]

theorem stepWithB_pure {α : Type} {c : BState} {f : α → Res env × Tables} {y : α} :
    stepWithB c (pure y) f = some (((f y).1, []), ⟨c.s, c.β, (f y).2.1, (f y).2.2⟩) := by
  rw [stepWithB_ret (MB.pure_apply y c.s c.β), dropsBetween_refl]

/-- The simulation step. -/
theorem BSim.step (ok : env.OK) (hr : env.debug = true ∨ env.InRange) {c : BState} {x : RState env} (T : BSim env s0 c x xs)
    (op : BOp env) (hc : ContractB x op) (he : Exclusive x op) :
    ∃ o c' x' xs', stepB env c op = some (o, c') ∧ SpecNextB x op o x' ∧ BSim env s0 c' x' xs' := by
  obtain ⟨S, B, A⟩ := T
  cases op with
  | base op =>
    cases op with
    | new sh v d =>
      obtain ⟨hw, hv, hd⟩ := hc
      by_cases hz : sh.size = 0
      · have e := newB_zst (env := env) (sh := sh) (v := v) (d := d) (s := c.s) (β := c.β) hz
        obtain ⟨p1, p2, p3⟩ := align_lt ok hw.align_pow
        have S1 := (S.zst hw hv hz).log (dropEvents sh v)
        have S2 := S1.push (loc := x.a.cells.length) (d := d) (x := (⟨sh, v, true⟩, sh.align)) (by
          rw [← S.cells, List.length_map, List.getElem?_append_right (Nat.le_refl _)]; simp) ⟨p2, p3⟩ hd
        refine ⟨_, _, _, _, stepWithB_ret e, ⟨_, Or.inl ⟨?_, rfl⟩, rfl⟩, ⟨S2, B.zst hz, A⟩⟩
        rw [dropsBetween_log (sh := sh) (v := v) rfl, if_pos hz, ← S.hlen]
      · by_cases ha : env.alloc c.s sh.size sh.align = 0
        · have e := newB_null (env := env) (v := v) (d := d) (β := c.β) hz ha
          refine ⟨_, _, _, _, stepWithB_panic e, ⟨_, Or.inr (Or.inl ⟨by omega, ?_, rfl⟩), rfl⟩,
            ⟨(S.log [.allocNull sh.size sh.align]).log (dropEvents sh v), B, A⟩⟩
          have : dropsBetween c.s ((c.s.log [.allocNull sh.size sh.align]).log (dropEvents sh v)) = dropEvents sh v := by
            simp only [dropsBetween, State.log, List.append_assoc, List.drop_left, List.filter_append, dropEvents_filter]
            simp [Event.isDrop]
          rw [this]
        · have S1 := S.alloc ok hw hv hz ha
          obtain ⟨l1, l2, l3⟩ := ok.lawful c.s sh.size sh.align (by omega) ha
          have hlt : env.alloc c.s sh.size sh.align < 2 ^ env.ptrBits := by omega
          have hlt64 : env.alloc c.s sh.size sh.align < 2 ^ 64 := Nat.lt_of_lt_of_le hlt ok.pow_le
          have B1 : BInv (newBorrows c.β (env.alloc c.s sh.size sh.align) sh.size)
              (xs ++ [(⟨sh, v, true⟩, env.alloc c.s sh.size sh.align)]) c.refs x.refs := by
            refine B.alloc (Nat.lt_succ_self _) (fun e => ?_) (fun i hi => if_neg hi) (fun i h1 h2 => if_pos ⟨h1, h2⟩) ?_
            · simp [newBorrows]
            · intro y hy ly i h1 h2 h3
              have := l3 _ ((S.live y hy ly).own (by omega))
              simp only [Block.Disjoint] at this
              simp only at h3
              omega
          have e := newB_alloc ok (v := v) (d := d) (β := c.β) hz ha
          have hdb : dropsBetween c.s (boxedState c.s (env.alloc c.s sh.size sh.align) sh v) = [] := by
            simp [dropsBetween, boxedState, Event.isDrop]
          rcases TPtr.new_cases env.cfg env.debug (BitVec.ofNat 64 (env.alloc c.s sh.size sh.align)) d with
            ⟨e', hr'⟩ | ⟨hdbg, ⟨e', h⟩ | ⟨e', _, h⟩⟩
          · have hrange : env.alloc c.s sh.size sh.align < 2 ^ env.cfg.ptrWidth := by
              rcases hr with hdbg | hin
              · have := (ok.sane.le_maxPtr_iff _).1 (hr' hdbg).2
                rwa [BitVec.toNat_ofNat, Nat.mod_eq_of_lt hlt64] at this
              · exact hin _ _ _
            have S2 := S1.push (loc := x.a.cells.length) (d := d)
              (x := (⟨sh, v, true⟩, env.alloc c.s sh.size sh.align)) (by
                rw [← S.cells, List.length_map, List.getElem?_append_right (Nat.le_refl _)]; simp) ⟨hlt, hrange⟩ hd
            simp only [e'] at e
            refine ⟨_, _, _, _, stepWithB_ret e, ⟨_, Or.inl ⟨?_, rfl⟩, rfl⟩, ⟨S2, B1, A⟩⟩
            rw [hdb, if_neg hz, ← S.hlen]
          · exact absurd hd h
          · simp only [e'] at e
            refine ⟨_, _, _, _, stepWithB_panic e, ⟨_, Or.inr (Or.inr ⟨by omega, hdbg, ?_, rfl⟩), rfl⟩, ⟨S1, B1, A⟩⟩
            rw [hdb]
    | copy h =>
      obtain ⟨loc, d, hat⟩ := hc
      obtain ⟨y, hx, hg, ha, hd, _⟩ := S.at ok hat
      have hg' : c.get h = _ := hg
      refine ⟨_, ⟨c.s, c.β, _, c.refs⟩, _, _, ?_, ⟨_, ⟨loc, d, hat, rfl, rfl⟩, rfl⟩, ⟨S.push hx ha hd, B, A⟩⟩
      simp only [stepB, hg', Option.bind_some, stepWithB_pure, ← S.hlen, TBox.copy]
    | discr h =>
      obtain ⟨loc, d, hat⟩ := hc
      obtain ⟨y, hx, hg, ha, hd, _, e⟩ := S.at ok hat
      have hg' : c.get h = _ := hg
      refine ⟨_, _, _, _, ?_, ⟨_, ⟨loc, d, hat, rfl, rfl⟩, rfl⟩, ⟨S, B, A⟩⟩
      simp only [stepB, hg', Option.bind_some, stepWithB_pure, e]
    | ptrEq h h' =>
      obtain ⟨loc, d, loc', d', sh, sh', v, v', ht, ht', hz, hz'⟩ := hc
      obtain ⟨ad, hx, hg, hl, _, _, _, e⟩ := S.typed ok ht
      obtain ⟨ad', hx', hg', hl', _, _, _, e'⟩ := S.typed ok ht'
      have hg1 : c.get h = _ := hg
      have hg2 : c.get h' = _ := hg'
      refine ⟨_, _, _, _, ?_, ⟨_, ⟨loc, d, loc', d', ht.1, ht'.1, rfl, rfl⟩, rfl⟩, ⟨S, B, A⟩⟩
      have e1 : ((boxAt env ad d).asPtrB env).addr = ad := e
      have e2 : ((boxAt env ad' d').asPtrB env).addr = ad' := e'
      simp only [stepB, hg1, hg2, Option.bind_some, stepWithB_pure, e1, e2]
      by_cases hll : loc = loc'
      · subst hll
        rw [hx] at hx'; cases hx'
        simp
      · have := S.addr_ne hx hx' hll rfl rfl hz hz'
        have h2 : ad ≠ ad' := this
        simp [hll, h2]
    | read h sh =>
      obtain ⟨loc, d, v, ht⟩ := hc
      obtain ⟨ad, hx, hg, hl, _, _, H, e⟩ := S.typed ok ht
      have hg' : c.get h = _ := hg
      have hm := he.1 h List.mem_cons_self loc d ht.1
      obtain ⟨β', e1, B1⟩ := B.readWild S hx rfl hm
      have B2 := B1.pushShared S hx rfl hm
      have ep : (boxAt env ad d).asPtrB env = ⟨ad, .wild⟩ := congrArg (BPtr.mk · .wild) e
      have hval : validPtr c.s ad sh.size sh.align = true := (ptrRead_ret_iff.1 hl.read).2.1
      have r1 : (boxAt env ad d).asRefB env sh c.s c.β = .ret ⟨ad, .of β'.next⟩ c.s (β'.push .sharedRO ad sh.size) := by
        rw [TBox.asRefB, ep]
        exact retagRef_ret (p := ⟨ad, .wild⟩) e1 hval
      have r2 := readB_ret (sh := sh) (p := ⟨ad, .of β'.next⟩) (read_pushed β' .sharedRO rfl ad sh.size) hl.read
      refine ⟨_, ⟨c.s, β'.push .sharedRO ad sh.size, c.handles, c.refs⟩, _, _, ?_, ⟨_, ⟨loc, d, v, ht, rfl, rfl⟩, rfl⟩, ⟨S, B2, A⟩⟩
      have r3 : ((boxAt env ad d).asRefB env sh >>= readB sh) c.s c.β = .ret v c.s (β'.push .sharedRO ad sh.size) := by
        rw [MB.bind_def, r1]; exact r2
      simp only [stepB, hg', Option.bind_some, stepWithB_ret r3, dropsBetween_refl]
    | assign h sh v' =>
      obtain ⟨hv, loc, d, v, ht⟩ := hc
      obtain ⟨ad, hx, hg, hl, _, _, H, e⟩ := S.typed ok ht
      have hg' : c.get h = _ := hg
      have hm := he.2 h List.mem_cons_self loc d ht.1
      obtain ⟨β', e1, B1⟩ := B.writeWild S hx rfl hm
      have B2 := (B1.pushUnique S hx rfl hm).value (v' := v') S hx
      have ep : (boxAt env ad d).asMutPtrB env = ⟨ad, .wild⟩ := congrArg (BPtr.mk · .wild) e
      have hval : validPtr c.s ad sh.size sh.align = true := (ptrRead_ret_iff.1 hl.read).2.1
      have r1 : (boxAt env ad d).asMutRefB env sh c.s c.β = .ret ⟨ad, .of β'.next⟩ c.s (β'.push .unique ad sh.size) := by
        rw [TBox.asMutRefB, ep]
        exact retagMut_ret (p := ⟨ad, .wild⟩) e1 hval
      have r2 := assignB_ret (sh := sh) (p := ⟨ad, .of β'.next⟩) (v' := v') (read_pushed β' .unique rfl ad sh.size)
        (write_pushed β' ad sh.size) hl.read
      have r3 : ((boxAt env ad d).asMutRefB env sh >>= fun r => assignB sh r v') c.s c.β =
          .ret () (writtenState (c.s.log (dropEvents sh v)) ad sh v') (β'.push .unique ad sh.size) := by
        rw [MB.bind_def, r1]; exact r2
      have hdb : dropsBetween c.s (writtenState (c.s.log (dropEvents sh v)) ad sh v') = dropEvents sh v :=
        dropsBetween_log (sh := sh) (v := v) rfl
      refine ⟨_, ⟨writtenState (c.s.log (dropEvents sh v)) ad sh v', β'.push .unique ad sh.size, c.handles, c.refs⟩, _, _, ?_,
        ⟨_, ⟨loc, d, v, ht, rfl, rfl⟩, rfl⟩, ⟨(S.log (dropEvents sh v)).write hx hv, B2, A⟩⟩
      simp only [stepB, hg', Option.bind_some, stepWithB_ret r3, hdb]
    | write h sh v' =>
      obtain ⟨hv, loc, d, v, ht⟩ := hc
      obtain ⟨ad, hx, hg, hl, _, _, H, e⟩ := S.typed ok ht
      have hg' : c.get h = _ := hg
      have hm := he.2 h List.mem_cons_self loc d ht.1
      obtain ⟨β', e1, B1⟩ := B.writeWild S hx rfl hm
      have ep : (boxAt env ad d).asMutPtrB env = ⟨ad, .wild⟩ := congrArg (BPtr.mk · .wild) e
      have hval : validPtr c.s ad sh.size sh.align = true := (ptrRead_ret_iff.1 hl.read).2.1
      have r1 := writeB_ret (p := ⟨ad, .wild⟩) (v := v') e1 hval
      rw [← ep] at r1
      refine ⟨_, ⟨_, _, c.handles, c.refs⟩, _, _, ?_, ⟨_, ⟨loc, d, v, ht, rfl, rfl⟩, rfl⟩, ⟨S.write hx hv, B1.value S hx, A⟩⟩
      simp only [stepB, hg', Option.bind_some, stepWithB_ret r1]
      rw [ep]
      simp [dropsBetween, writtenState]
    | intoInner h sh =>
      obtain ⟨loc, d, v, ht⟩ := hc
      obtain ⟨ad, hx, hg, hl, _, _, H, e⟩ := S.typed ok ht
      have hg' : c.get h = _ := hg
      have hm := he.1 h List.mem_cons_self loc d ht.1
      obtain ⟨β', e1, B1⟩ := B.readWild S hx rfl hm
      have ep : (boxAt env ad d).asMutPtrB env = ⟨ad, .wild⟩ := congrArg (BPtr.mk · .wild) e
      have r1 : (boxAt env ad d).intoInnerB env sh c.s c.β = .ret v c.s β' := by
        rw [TBox.intoInnerB, ep]
        exact readB_ret (p := ⟨ad, .wild⟩) e1 hl.read
      refine ⟨_, ⟨c.s, _, _, c.refs⟩, _, _, ?_, ⟨_, ⟨loc, d, v, ht, rfl, rfl⟩, rfl⟩, ⟨S.consume h, B1, A⟩⟩
      simp only [stepB, hg', Option.bind_some, stepWithB_ret r1, dropsBetween_refl]
    | drop h =>
      obtain ⟨loc, d, hat⟩ := hc
      obtain ⟨y, hx, hg, ha, hd, _, e⟩ := S.at ok hat
      have hg' : c.get h = _ := hg
      refine ⟨_, ⟨c.s, _, _, c.refs⟩, _, _, ?_, ⟨_, ⟨rfl, rfl⟩, rfl⟩, ⟨S.consume h, B, A⟩⟩
      simp only [stepB, hg', Option.bind_some, stepWithB_pure]
    | rawRoundtrip h =>
      obtain ⟨loc, d, hat⟩ := hc
      obtain ⟨y, hx, hg, ha, hd, e, e'⟩ := S.at ok hat
      have hg' : c.get h = _ := hg
      have ep : (boxAt env y.2 d).intoRawB env = ⟨y.2, .wild⟩ := congrArg (BPtr.mk · .wild) e
      have r0 := fromRaw_boxAt ok ha hd c.s
      have r1 : TBox.fromRawB env ((boxAt env y.2 d).intoRawB env) ((boxAt env y.2 d).discriminant env) c.s c.β =
          .ret (boxAt env y.2 d) c.s c.β := by
        rw [ep, e']
        simp only [TBox.fromRaw, M.bind_def] at r0
        simp only [TBox.fromRawB, MB.bind_def, exposeB, MB.lift]
        cases ee : TPtr.new env.cfg env.debug (BitVec.ofNat 64 y.2) d with
        | ok t => rw [ee] at r0; cases r0; rfl
        | error k => rw [ee] at r0; cases r0
      refine ⟨_, _, _, _, ?_, ⟨_, ⟨rfl, rfl⟩, rfl⟩, ⟨S, B, A⟩⟩
      simp only [stepB, hg', Option.bind_some, stepWithB_ret r1, dropsBetween_refl]
      rw [set_same (get_some hg)]
    | boxDrop h sh =>
      obtain ⟨loc, d, v, ht⟩ := hc
      obtain ⟨ad, hx, hg, hl, _, _, H, e⟩ := S.typed ok ht
      have hg' : c.get h = _ := hg
      have hm := he.2 h List.mem_cons_self loc d ht.1
      obtain ⟨β', e1, B1⟩ := B.writeWild S hx rfl hm
      have B2 := (B1.pushUnique S hx rfl hm).free S hx hm
      have ep : (boxAt env ad d).intoRawB env = ⟨ad, .wild⟩ := congrArg (BPtr.mk · .wild) e
      have hval : validPtr c.s ad sh.size sh.align = true := (ptrRead_ret_iff.1 hl.read).2.1
      have r1 : (boxAt env ad d).intoBoxB env sh c.s c.β = .ret ⟨⟨ad, .of β'.next⟩⟩ c.s (β'.push .unique ad sh.size) := by
        rw [TBox.intoBoxB, ep, MB.bind_def, retagMut_ret (p := ⟨ad, .wild⟩) e1 hval]
        rfl
      have r2 := BBox.drop_ret (sh := sh) (p := ⟨ad, .of β'.next⟩) (read_pushed β' .unique rfl ad sh.size)
        (write_pushed β' ad sh.size) hl.read hl.own
      have r3 : ((boxAt env ad d).intoBoxB env sh >>= BBox.drop sh) c.s c.β =
          .ret () (if sh.size = 0 then c.s.log (dropEvents sh v) else freedState (c.s.log (dropEvents sh v)) ⟨ad, sh.size, sh.align⟩)
            (if sh.size = 0 then β'.push .unique ad sh.size else (β'.push .unique ad sh.size).reset [] ad sh.size) := by
        rw [MB.bind_def, r1]; exact r2
      have hdb : dropsBetween c.s (if sh.size = 0 then c.s.log (dropEvents sh v)
          else freedState (c.s.log (dropEvents sh v)) ⟨ad, sh.size, sh.align⟩) = dropEvents sh v := by
        by_cases hz : sh.size = 0
        · simp only [if_pos hz]
          rw [dropsBetween_log (sh := sh) (v := v) rfl]
        · simp only [if_neg hz]
          rw [dropsBetween_log_free (sh := sh) (v := v) (blk := ⟨ad, sh.size, sh.align⟩) rfl]
      refine ⟨_, ⟨if sh.size = 0 then c.s.log (dropEvents sh v)
          else freedState (c.s.log (dropEvents sh v)) ⟨ad, sh.size, sh.align⟩,
          if sh.size = 0 then β'.push .unique ad sh.size else (β'.push .unique ad sh.size).reset [] ad sh.size,
          c.handles.set h none, c.refs⟩, _, _, ?_, ⟨_, ⟨loc, d, v, ht, rfl, rfl⟩, rfl⟩,
        ⟨((S.log (dropEvents sh v)).free hx).consume h, B2, A⟩⟩
      simp only [stepB, hg', Option.bind_some, stepWithB_ret r3, hdb]
    | boxTake h sh =>
      obtain ⟨loc, d, v, ht⟩ := hc
      obtain ⟨ad, hx, hg, hl, _, _, H, e⟩ := S.typed ok ht
      have hg' : c.get h = _ := hg
      have hm := he.2 h List.mem_cons_self loc d ht.1
      obtain ⟨β', e1, B1⟩ := B.writeWild S hx rfl hm
      have B2 := (B1.pushUnique S hx rfl hm).free S hx hm
      have ep : (boxAt env ad d).intoRawB env = ⟨ad, .wild⟩ := congrArg (BPtr.mk · .wild) e
      have hval : validPtr c.s ad sh.size sh.align = true := (ptrRead_ret_iff.1 hl.read).2.1
      have r1 : (boxAt env ad d).intoBoxB env sh c.s c.β = .ret ⟨⟨ad, .of β'.next⟩⟩ c.s (β'.push .unique ad sh.size) := by
        rw [TBox.intoBoxB, ep, MB.bind_def, retagMut_ret (p := ⟨ad, .wild⟩) e1 hval]
        rfl
      have r2 := BBox.intoValue_ret (sh := sh) (p := ⟨ad, .of β'.next⟩) (read_pushed β' .unique rfl ad sh.size)
        (write_pushed β' ad sh.size) hl.read hl.own
      have r3 : ((boxAt env ad d).intoBoxB env sh >>= BBox.intoValue sh) c.s c.β =
          .ret v (if sh.size = 0 then c.s else freedState c.s ⟨ad, sh.size, sh.align⟩)
            (if sh.size = 0 then β'.push .unique ad sh.size else (β'.push .unique ad sh.size).reset [] ad sh.size) := by
        rw [MB.bind_def, r1]; exact r2
      have hdb : dropsBetween c.s (if sh.size = 0 then c.s else freedState c.s ⟨ad, sh.size, sh.align⟩) = [] := by
        by_cases hz : sh.size = 0
        · simp only [if_pos hz, dropsBetween_refl]
        · simp only [if_neg hz]
          simp [dropsBetween, freedState, Event.isDrop]
      refine ⟨_, ⟨if sh.size = 0 then c.s else freedState c.s ⟨ad, sh.size, sh.align⟩,
          if sh.size = 0 then β'.push .unique ad sh.size else (β'.push .unique ad sh.size).reset [] ad sh.size,
          c.handles.set h none, c.refs⟩, _, _, ?_, ⟨_, ⟨loc, d, v, ht, rfl, rfl⟩, rfl⟩,
        ⟨(S.free hx).consume h, B2, A⟩⟩
      simp only [stepB, hg', Option.bind_some, stepWithB_ret r3, hdb]
  | borrow h sh =>
    obtain ⟨loc, d, v, ht⟩ := hc
    obtain ⟨ad, hx, hg, hl, _, _, H, e⟩ := S.typed ok ht
    have hg' : c.get h = _ := hg
    have hm := he.1 h List.mem_cons_self loc d ht.1
    obtain ⟨β', e1, B1⟩ := B.readWild S hx rfl hm
    have B2 := B1.pushShared S hx rfl hm
    have ep : (boxAt env ad d).asPtrB env = ⟨ad, .wild⟩ := congrArg (BPtr.mk · .wild) e
    have hval : validPtr c.s ad sh.size sh.align = true := (ptrRead_ret_iff.1 hl.read).2.1
    have r1 : (boxAt env ad d).asRefB env sh c.s c.β = .ret ⟨ad, .of β'.next⟩ c.s (β'.push .sharedRO ad sh.size) := by
      rw [TBox.asRefB, ep]
      exact retagRef_ret (p := ⟨ad, .wild⟩) e1 hval
    have A' := A.push (ρ := ⟨h, loc, false⟩) (fun ρ' h1 h2 => ⟨hm ρ' h1 h2, rfl⟩)
    have B3 := B2.push (ρ := ⟨h, loc, false⟩) (t := β'.next) hx rfl (fun i h1 h2 => by
      refine ⟨by rw [push_stk h1 h2]; exact List.mem_cons_self, fun it hit ht => ?_⟩
      rw [push_stk h1 h2] at hit
      rcases List.mem_cons.1 hit with rfl | hit
      · rfl
      · exact absurd ht (Nat.ne_of_lt ((B1.cells _ (List.mem_of_getElem? hx) rfl i h1 h2).fresh it hit)))
    refine ⟨_, ⟨c.s, β'.push .sharedRO ad sh.size, c.handles, c.refs ++ [some (⟨ad, .of β'.next⟩, sh)]⟩, _, _, ?_,
      ⟨loc, d, v, ht, rfl, rfl⟩, ⟨S, B3, A'⟩⟩
    simp only [stepB, hg', Option.bind_some, stepWithB_ret r1, dropsBetween_refl, B.len]
  | borrowMut h sh =>
    obtain ⟨loc, d, v, ht⟩ := hc
    obtain ⟨ad, hx, hg, hl, _, _, H, e⟩ := S.typed ok ht
    have hg' : c.get h = _ := hg
    have hm := he.2 h List.mem_cons_self loc d ht.1
    obtain ⟨β', e1, B1⟩ := B.writeWild S hx rfl hm
    have B2 := B1.pushUnique S hx rfl hm
    have ep : (boxAt env ad d).asMutPtrB env = ⟨ad, .wild⟩ := congrArg (BPtr.mk · .wild) e
    have hval : validPtr c.s ad sh.size sh.align = true := (ptrRead_ret_iff.1 hl.read).2.1
    have r1 : (boxAt env ad d).asMutRefB env sh c.s c.β = .ret ⟨ad, .of β'.next⟩ c.s (β'.push .unique ad sh.size) := by
      rw [TBox.asMutRefB, ep]
      exact retagMut_ret (p := ⟨ad, .wild⟩) e1 hval
    have A' := A.push (ρ := ⟨h, loc, true⟩) (fun ρ' h1 h2 => absurd h2 (hm ρ' h1))
    have B3 := B2.push (ρ := ⟨h, loc, true⟩) (t := β'.next) hx rfl (fun i h1 h2 => by
      refine ⟨_, push_stk h1 h2, fun it hit => ?_⟩
      exact Nat.ne_of_lt ((B1.cells _ (List.mem_of_getElem? hx) rfl i h1 h2).fresh it hit))
    refine ⟨_, ⟨c.s, β'.push .unique ad sh.size, c.handles, c.refs ++ [some (⟨ad, .of β'.next⟩, sh)]⟩, _, _, ?_,
      ⟨loc, d, v, ht, rfl, rfl⟩, ⟨S, B3, A'⟩⟩
    simp only [stepB, hg', Option.bind_some, stepWithB_ret r1, dropsBetween_refl, B.len]
  | get r =>
    obtain ⟨ρ, hρ⟩ := hc
    obtain ⟨y, t, h1, h2, h3, h4⟩ := B.refd r ρ hρ
    have hg : c.ref r = some (⟨y.2, .of t⟩, y.1.sh) := by rw [BState.ref, h3]; rfl
    have hl := S.live y (List.mem_of_getElem? h1) h2
    have hcell : x.a.cells[ρ.loc]? = some ⟨y.1.sh, y.1.val, true⟩ := by
      rw [← S.cells, List.getElem?_map, h1, ← h2]; rfl
    cases hm : ρ.isMut with
    | true =>
      rw [hm] at h4
      have r1 := readB_ret (p := ⟨y.2, .of t⟩) (read_top h4) hl.read
      refine ⟨_, _, _, _, ?_, ⟨ρ, y.1.sh, y.1.val, ⟨hρ, hcell⟩, rfl, rfl⟩, ⟨S, B, A⟩⟩
      simp only [stepB, hg, Option.bind_some, stepWithB_ret r1, dropsBetween_refl]
    | false =>
      rw [hm] at h4
      obtain ⟨β', e1, B1⟩ := B.readShared S h1 h2 h4 (fun ρ' hl' hloc => by
        obtain ⟨k, hk⟩ := List.getElem?_of_mem hl'
        by_cases hkr : k = r
        · subst hkr
          rw [hρ] at hk
          cases hk
          exact hm
        · exact A k r ρ' ρ hk hρ hkr hloc)
      have r1 := readB_ret (p := ⟨y.2, .of t⟩) e1 hl.read
      refine ⟨_, ⟨c.s, β', c.handles, c.refs⟩, _, _, ?_, ⟨ρ, y.1.sh, y.1.val, ⟨hρ, hcell⟩, rfl, rfl⟩, ⟨S, B1, A⟩⟩
      simp only [stepB, hg, Option.bind_some, stepWithB_ret r1, dropsBetween_refl]
  | set r v' =>
    obtain ⟨ρ, cell, hρ, hm, hcell, hv⟩ := hc
    obtain ⟨y, t, h1, h2, h3, h4⟩ := B.refd r ρ hρ
    have hg : c.ref r = some (⟨y.2, .of t⟩, y.1.sh) := by rw [BState.ref, h3]; rfl
    obtain ⟨⟨sh, v, lv⟩, ad⟩ := y
    simp only at h2
    subst h2
    have hl := S.live _ (List.mem_of_getElem? h1) rfl
    have hcell' : x.a.cells[ρ.loc]? = some ⟨sh, v, true⟩ := by rw [← S.cells, List.getElem?_map, h1]; rfl
    rw [hcell'] at hcell
    cases hcell
    rw [hm] at h4
    have r1 := assignB_ret (p := ⟨ad, .of t⟩) (v' := v') (read_top h4) (write_top h4) hl.read
    have hdb : dropsBetween c.s (writtenState (c.s.log (dropEvents sh v)) ad sh v') = dropEvents sh v :=
      dropsBetween_log (sh := sh) (v := v) rfl
    refine ⟨_, ⟨writtenState (c.s.log (dropEvents sh v)) ad sh v', c.β, c.handles, c.refs⟩, _, _, ?_,
      ⟨ρ, sh, v, ⟨hρ, hcell'⟩, rfl, rfl⟩, ⟨(S.log (dropEvents sh v)).write h1 hv, B.value S h1, A⟩⟩
    simp only [stepB, hg, Option.bind_some, stepWithB_ret r1, hdb]
  | done r =>
    obtain ⟨ρ, hρ⟩ := hc
    obtain ⟨y, t, h1, h2, h3, h4⟩ := B.refd r ρ hρ
    have hg : c.ref r = some (⟨y.2, .of t⟩, y.1.sh) := by rw [BState.ref, h3]; rfl
    refine ⟨_, ⟨c.s, c.β, c.handles, c.refs.set r none⟩, _, _, ?_, ⟨rfl, rfl⟩, ⟨S, B.done r, A.done r⟩⟩
    simp only [stepB, hg, Option.bind_some, stepWithB_pure]

/-- Every run stays in the simulation. -/
theorem run_bsim (ok : env.OK) (hr : env.debug = true ∨ env.InRange) {s : State} (hi : HeapInv env s) {β : Borrows}
    (hβ : ∀ e ∈ β.exposed, e < β.next) {p : BClient env} (hp : WellBehavedB p) (hx : ExclusiveClient p) :
    ∀ n, ∃ os c x xs, runClientB env p s β n = some (os, c) ∧ BReach p os x ∧ BSim env s c x xs
  | 0 => ⟨[], ⟨s, β, [], []⟩, ⟨⟨[], []⟩, []⟩, [], rfl, .start, by
      refine ⟨⟨hi, rfl, ?_, List.Pairwise.nil, List.Perm.refl _, rfl, ?_, ?_⟩, ⟨hβ, ?_, rfl, ?_⟩, ?_⟩
      · intro x hx; cases hx
      · intro h hh; simp at hh
      · intro h loc d hh; simp [AState.At] at hh
      · intro x hx; cases hx
      · intro r ρ hh; simp at hh
      · intro r r' ρ ρ' hh; simp at hh⟩
  | n + 1 => by
    obtain ⟨os, c, x, xs, e, hreach, T⟩ := run_bsim ok hr hi hβ hp hx n
    cases hop : p os with
    | none => exact ⟨os, c, x, xs, by simp [runClientB, e, hop], hreach, T⟩
    | some op =>
      obtain ⟨o, c', x', xs', h1, h2, h3⟩ := T.step ok hr op (hp os x op hreach hop) (hx os x op hreach hop)
      exact ⟨os ++ [o], c', x', xs', by simp [runClientB, e, hop, h1], hreach.next hop h2, h3⟩

/-! ## Breaking the rule -/

/-- A reference that can no longer be used: its first byte has no usable item. -/
def Dead (β : Borrows) (t a : Nat) : Prop := readStack (β.grants (.of t)) (β.stk a) = none

theorem dead_of {β : Borrows} {t a : Nat} (h : ∀ it ∈ β.stk a, it.tag = t → it.perm.reads = false) : Dead β t a :=
  readStack_none fun it hit hg => h it hit (by simpa [Borrows.grants] using Eq.symm (of_decide_eq_true hg))

theorem Dead.use {c : BState} {r t a : Nat} {sh : Shape} (hz : 0 < sh.size) (h : Dead c.β t a)
    (hr : c.refs[r]? = some (some (⟨a, .of t⟩, sh))) : stepB env c (.get r) = none := by
  have hg : c.ref r = some (⟨a, .of t⟩, sh) := by rw [BState.ref, hr]; rfl
  have e : readB sh ⟨a, .of t⟩ c.s c.β = .aliasing := by
    simp only [readB, MB.bind_def, MB.borrows, Borrows.access_none (Nat.le_refl a) (Nat.lt_add_of_pos_right hz) h]
  simp only [stepB, hg, Option.bind_some, stepWithB, e]

/-- A shared reference cannot be written through. -/
theorem shared_write {β : Borrows} {t a n : Nat} (hz : 0 < n) (h : ∀ it ∈ β.stk a, it.tag = t → it.perm.writes = false) :
    β.access (writeStack (β.grants (.of t))) a n = none :=
  Borrows.access_none (Nat.le_refl a) (Nat.lt_add_of_pos_right hz)
    (writeStack_none fun it hit hg => h it hit (by simpa [Borrows.grants] using Eq.symm (of_decide_eq_true hg)))

theorem RefByte.hidden {β : Borrows} {t a : Nat} {m : Bool} (h : RefByte β t m a) (hb : ByteOK β a) : t ∉ β.exposed ∧ t < β.next := by
  cases m with
  | false => exact ⟨(fun hx => by have := hb.only _ h.1 hx; cases this), hb.fresh _ h.1⟩
  | true =>
    obtain ⟨st, e, _⟩ := h
    have hm : (⟨t, .unique⟩ : Item) ∈ β.stk a := by rw [e]; exact List.mem_cons_self
    exact ⟨(fun hx => by have := hb.only _ hm hx; cases this), hb.fresh _ hm⟩

theorem Dead.push {β : Borrows} {t a : Nat} {perm : Perm} {b n : Nat} (h : ∀ it ∈ β.stk a, it.tag = t → it.perm.reads = false)
    (ht : t < β.next) : Dead (β.push perm b n) t a := by
  refine dead_of fun it hit e => ?_
  have hs : (β.push perm b n).stk a = if b ≤ a ∧ a < b + n then ⟨β.next, perm⟩ :: β.stk a else β.stk a := rfl
  rw [hs] at hit
  split at hit
  · rcases List.mem_cons.1 hit with rfl | hit
    · exact absurd (show β.next = t from e) (by omega)
    · exact h it hit e
  · exact h it hit e

/-- Writing through a box kills every reference. -/
theorem write_kills {β : Borrows} {a n t : Nat} {m : Bool} (hz : 0 < n) (h : ∀ i, a ≤ i → i < a + n → ByteOK β i) (hr : RefByte β t m a) :
    ∃ β', β.access (writeStack (β.grants .wild)) a n = some β' ∧ t < β'.next ∧ ∀ it ∈ β'.stk a, it.tag = t → it.perm.reads = false := by
  obtain ⟨β', e, e1, _, _, _, h3⟩ := write_wild h
  have ha := h a (Nat.le_refl _) (Nat.lt_add_of_pos_right hz)
  obtain ⟨h4, h5⟩ := hr.hidden ha
  refine ⟨β', e, e1 ▸ h5, ?_⟩
  obtain ⟨k, hk, hs⟩ := h3 a (Nat.le_refl _) (Nat.lt_add_of_pos_right hz)
  intro it hit ht
  rw [hs, List.mem_singleton] at hit
  subst hit
  exact absurd (ht ▸ hk) h4

/-- Reading through a box kills a `&mut`. -/
theorem read_kills {β : Borrows} {a n t : Nat} (hz : 0 < n) (h : ∀ i, a ≤ i → i < a + n → ByteOK β i) (hr : RefByte β t true a) :
    ∃ β', β.access (readStack (β.grants .wild)) a n = some β' ∧ t < β'.next ∧ ∀ it ∈ β'.stk a, it.tag = t → it.perm.reads = false := by
  have ha := h a (Nat.le_refl _) (Nat.lt_add_of_pos_right hz)
  obtain ⟨h4, h5⟩ := hr.hidden ha
  obtain ⟨β', e, e1, _, h1, _⟩ := Borrows.access_some (β := β) (f := readStack (β.grants .wild)) (a := a) (n := n) (by
    intro i hi hj
    obtain ⟨t, ht, hm⟩ := (h i hi hj).base
    exact readStack_some hm (by simp [Borrows.grants, ht]) rfl)
  refine ⟨β', e, e1 ▸ h5, ?_⟩
  have h2 := h1 a (Nat.le_refl _) (Nat.lt_add_of_pos_right hz)
  obtain ⟨st, hs, hne⟩ := hr
  have hg : β.grants .wild t = false := by simp [Borrows.grants, h4]
  rw [hs] at h2
  simp only [readStack, hg, Bool.false_and] at h2
  obtain ⟨st1, e2, e3⟩ := Option.map_eq_some_iff.1 h2
  rw [← e3]
  intro it hit ht
  rcases List.mem_cons.1 hit with rfl | hit
  · rfl
  · rcases readStack_from e2 hit with hm | ⟨i0, hm, h6, _⟩
    · exact absurd ht (hne it hm)
    · exact absurd (h6.trans ht) (hne i0 hm)

/-- After an operation that breaks the rule, the reference is unusable. -/
theorem BSim.breaks (ok : env.OK) {c : BState} {x : RState env} (T : BSim env s0 c x xs)
    (op : BOp env) (hc : ContractB x op) {r : Nat} {ρ : SRef} {sh : Shape} {v : Val} (hρ : x.Refers r ρ sh v) (hz : 0 < sh.size)
    (hb : Breaks x op ρ) : ∃ o c', stepB env c op = some (o, c') ∧ stepB env c' (.get r) = none := by
  obtain ⟨S, B, A⟩ := T
  obtain ⟨y, t, h1, h2, h3, h4⟩ := B.refd r ρ hρ.1
  have hcell : x.a.cells[ρ.loc]? = some ⟨y.1.sh, y.1.val, true⟩ := by
    rw [← S.cells, List.getElem?_map, h1, ← h2]; rfl
  have hρ2 := hρ.2.symm.trans hcell
  obtain ⟨⟨sh2, v2, l'⟩, ad⟩ := y
  simp only [Option.some.injEq, Cell.mk.injEq] at hρ2
  obtain ⟨rfl, rfl, _⟩ := hρ2
  simp only at h2
  subst h2
  simp only at h1 h3 h4 hcell
  have hby := B.cells _ (List.mem_of_getElem? h1) rfl
  have hl := S.live _ (List.mem_of_getElem? h1) rfl
  have hval : validPtr c.s ad sh.size sh.align = true := (ptrRead_ret_iff.1 hl.read).2.1
  have h4' := h4 ad (Nat.le_refl _) (Nat.lt_add_of_pos_right hz)
  -- the handle of the operation is a box of this location
  have key : ∀ h sh' v', (∃ d, x.a.At h ρ.loc d) → ∀ loc d, x.a.Typed h loc d sh' v' → sh' = sh ∧ v' = v ∧
      c.get h = some (boxAt env ad d) ∧ (boxAt env ad d).asPtrB env = ⟨ad, .wild⟩ ∧ (boxAt env ad d).asMutPtrB env = ⟨ad, .wild⟩ := by
    intro h sh' v' hat loc d ht
    obtain ⟨d', hat⟩ := hat
    have : loc = ρ.loc := by
      have h5 := hat.symm.trans ht.1
      simp only [Option.some.injEq, Prod.mk.injEq] at h5
      exact h5.1.symm
    subst this
    obtain ⟨ad', hx, hg, _, _, _, _, e⟩ := S.typed ok ht
    rw [h1] at hx
    cases hx
    exact ⟨rfl, rfl, hg, congrArg (BPtr.mk · .wild) e, congrArg (BPtr.mk · .wild) e⟩
  rcases hb with ⟨hm, h, hh, hat⟩ | ⟨h, hh, hat⟩
  · rw [hm] at h4'
    obtain ⟨β', e1, hlt, hd⟩ := read_kills (n := sh.size) hz hby h4'
    have kill : ∀ (perm : Perm) (s' : State) (hs : List (Option TBox)) (rs : List (Option (BPtr × Shape))),
        rs[r]? = some (some (⟨ad, .of t⟩, sh)) → stepB env ⟨s', β'.push perm ad sh.size, hs, rs⟩ (.get r) = none := by
      intro perm s' hs rs hrs
      exact Dead.use hz (Dead.push hd hlt) hrs
    have rRef : ∀ d, (boxAt env ad d).asPtrB env = ⟨ad, .wild⟩ →
        (boxAt env ad d).asRefB env sh c.s c.β = .ret ⟨ad, .of β'.next⟩ c.s (β'.push .sharedRO ad sh.size) := by
      intro d ep
      rw [TBox.asRefB, ep]
      exact retagRef_ret (p := ⟨ad, .wild⟩) e1 hval
    cases op with
    | base op =>
      cases op with
      | read k sh1 =>
        obtain ⟨loc, d, v1, ht⟩ := hc
        cases List.mem_singleton.1 hh
        obtain ⟨rfl, rfl, hg, ep, _⟩ := key h _ _ hat _ _ ht
        have r2 := readB_ret (sh := sh1) (p := ⟨ad, .of β'.next⟩) (read_pushed β' .sharedRO rfl ad sh1.size) hl.read
        have r3 : ((boxAt env ad d).asRefB env sh1 >>= readB sh1) c.s c.β = .ret v1 c.s (β'.push .sharedRO ad sh1.size) := by
          rw [MB.bind_def, rRef d ep]; exact r2
        refine ⟨(.val v1, []), ⟨c.s, β'.push .sharedRO ad sh1.size, c.handles, c.refs⟩, ?_, kill _ _ _ _ h3⟩
        simp only [stepB, hg, Option.bind_some, stepWithB_ret r3, dropsBetween_refl]
      | intoInner k sh1 =>
        obtain ⟨loc, d, v1, ht⟩ := hc
        cases List.mem_singleton.1 hh
        obtain ⟨rfl, rfl, hg, _, ep⟩ := key h _ _ hat _ _ ht
        have r1 : (boxAt env ad d).intoInnerB env sh1 c.s c.β = .ret v1 c.s β' := by
          rw [TBox.intoInnerB, ep]
          exact readB_ret (p := ⟨ad, .wild⟩) e1 hl.read
        refine ⟨(.val v1, []), ⟨c.s, β', c.handles.set h none, c.refs⟩, ?_, Dead.use hz (dead_of hd) h3⟩
        simp only [stepB, hg, Option.bind_some, stepWithB_ret r1, dropsBetween_refl]
      | _ => cases hh
    | borrow k sh1 =>
      obtain ⟨loc, d, v1, ht⟩ := hc
      cases List.mem_singleton.1 hh
      obtain ⟨rfl, rfl, hg, ep, _⟩ := key h _ _ hat _ _ ht
      refine ⟨(.handle c.refs.length, []), ⟨c.s, β'.push .sharedRO ad sh1.size, c.handles, c.refs ++ [some (⟨ad, .of β'.next⟩, sh1)]⟩, ?_,
        kill _ _ _ _ ?_⟩
      · simp only [stepB, hg, Option.bind_some, stepWithB_ret (rRef d ep), dropsBetween_refl]
      · rw [List.getElem?_append_left (List.getElem?_eq_some_iff.1 h3).1]; exact h3
    | _ => cases hh
  · obtain ⟨β', e1, hlt, hd⟩ := write_kills (n := sh.size) hz hby h4'
    have kill : ∀ (perm : Perm) (s' : State) (hs : List (Option TBox)) (rs : List (Option (BPtr × Shape))),
        rs[r]? = some (some (⟨ad, .of t⟩, sh)) → stepB env ⟨s', β'.push perm ad sh.size, hs, rs⟩ (.get r) = none := by
      intro perm s' hs rs hrs
      exact Dead.use hz (Dead.push hd hlt) hrs
    have killFree : ∀ (s' : State) (hs : List (Option TBox)),
        stepB env ⟨s', if sh.size = 0 then β'.push .unique ad sh.size else (β'.push .unique ad sh.size).reset [] ad sh.size, hs, c.refs⟩
          (.get r) = none := by
      intro s' hs
      rw [if_neg (by omega)]
      refine Dead.use hz (dead_of fun it hit => ?_) h3
      have e : ((β'.push .unique ad sh.size).reset [] ad sh.size).stk ad = [] := if_pos ⟨Nat.le_refl _, by omega⟩
      rw [show (BState.mk s' ((β'.push .unique ad sh.size).reset [] ad sh.size) hs c.refs).β =
        (β'.push .unique ad sh.size).reset [] ad sh.size from rfl, e] at hit
      cases hit
    have rMut : ∀ p : BPtr, p = ⟨ad, .wild⟩ →
        retagMut sh p c.s c.β = .ret ⟨ad, .of β'.next⟩ c.s (β'.push .unique ad sh.size) := by
      intro p ep
      rw [ep]
      exact retagMut_ret (p := ⟨ad, .wild⟩) e1 hval
    cases op with
    | base op =>
      cases op with
      | assign k sh1 v' =>
        obtain ⟨hv, loc, d, v1, ht⟩ := hc
        cases List.mem_singleton.1 hh
        obtain ⟨rfl, rfl, hg, _, ep⟩ := key h _ _ hat _ _ ht
        have r2 := assignB_ret (sh := sh1) (p := ⟨ad, .of β'.next⟩) (v' := v') (read_pushed β' .unique rfl ad sh1.size)
          (write_pushed β' ad sh1.size) hl.read
        have r3 : ((boxAt env ad d).asMutRefB env sh1 >>= fun r => assignB sh1 r v') c.s c.β =
            .ret () (writtenState (c.s.log (dropEvents sh1 v1)) ad sh1 v') (β'.push .unique ad sh1.size) := by
          rw [MB.bind_def, TBox.asMutRefB, rMut _ ep]; exact r2
        refine ⟨_, _, Eq.trans ?_ (stepWithB_ret (f := fun _ => (.unit, c.handles, c.refs)) r3), kill _ _ _ _ h3⟩
        simp only [stepB, hg, Option.bind_some]
      | write k sh1 v' =>
        obtain ⟨hv, loc, d, v1, ht⟩ := hc
        cases List.mem_singleton.1 hh
        obtain ⟨rfl, rfl, hg, _, ep⟩ := key h _ _ hat _ _ ht
        have r1 := writeB_ret (p := ⟨ad, .wild⟩) (v := v') e1 hval
        rw [← ep] at r1
        refine ⟨_, _, Eq.trans ?_ (stepWithB_ret (f := fun _ => (.unit, c.handles, c.refs)) r1), Dead.use hz (dead_of hd) h3⟩
        simp only [stepB, hg, Option.bind_some]
      | boxDrop k sh1 =>
        obtain ⟨loc, d, v1, ht⟩ := hc
        cases List.mem_singleton.1 hh
        obtain ⟨rfl, rfl, hg, _, ep⟩ := key h _ _ hat _ _ ht
        have r1 : (boxAt env ad d).intoBoxB env sh1 c.s c.β = .ret ⟨⟨ad, .of β'.next⟩⟩ c.s (β'.push .unique ad sh1.size) := by
          rw [TBox.intoBoxB, MB.bind_def, TBox.intoRawB, rMut _ ep]
          rfl
        have r2 := BBox.drop_ret (sh := sh1) (p := ⟨ad, .of β'.next⟩) (read_pushed β' .unique rfl ad sh1.size)
          (write_pushed β' ad sh1.size) hl.read hl.own
        have r3 : ((boxAt env ad d).intoBoxB env sh1 >>= BBox.drop sh1) c.s c.β =
            .ret () (if sh1.size = 0 then c.s.log (dropEvents sh1 v1) else freedState (c.s.log (dropEvents sh1 v1)) ⟨ad, sh1.size, sh1.align⟩)
              (if sh1.size = 0 then β'.push .unique ad sh1.size else (β'.push .unique ad sh1.size).reset [] ad sh1.size) := by
          rw [MB.bind_def, r1]; exact r2
        refine ⟨_, _, Eq.trans ?_ (stepWithB_ret (f := fun _ => (.unit, c.handles.set h none, c.refs)) r3), killFree _ _⟩
        simp only [stepB, hg, Option.bind_some]
      | boxTake k sh1 =>
        obtain ⟨loc, d, v1, ht⟩ := hc
        cases List.mem_singleton.1 hh
        obtain ⟨rfl, rfl, hg, _, ep⟩ := key h _ _ hat _ _ ht
        have r1 : (boxAt env ad d).intoBoxB env sh1 c.s c.β = .ret ⟨⟨ad, .of β'.next⟩⟩ c.s (β'.push .unique ad sh1.size) := by
          rw [TBox.intoBoxB, MB.bind_def, TBox.intoRawB, rMut _ ep]
          rfl
        have r2 := BBox.intoValue_ret (sh := sh1) (p := ⟨ad, .of β'.next⟩) (read_pushed β' .unique rfl ad sh1.size)
          (write_pushed β' ad sh1.size) hl.read hl.own
        have r3 : ((boxAt env ad d).intoBoxB env sh1 >>= BBox.intoValue sh1) c.s c.β =
            .ret v1 (if sh1.size = 0 then c.s else freedState c.s ⟨ad, sh1.size, sh1.align⟩)
              (if sh1.size = 0 then β'.push .unique ad sh1.size else (β'.push .unique ad sh1.size).reset [] ad sh1.size) := by
          rw [MB.bind_def, r1]; exact r2
        refine ⟨_, _, Eq.trans ?_ (stepWithB_ret (f := fun v => (.val v, c.handles.set h none, c.refs)) r3), killFree _ _⟩
        simp only [stepB, hg, Option.bind_some]
      | _ => cases hh
    | borrowMut k sh1 =>
      obtain ⟨loc, d, v1, ht⟩ := hc
      cases List.mem_singleton.1 hh
      obtain ⟨rfl, rfl, hg, _, ep⟩ := key h _ _ hat _ _ ht
      have r1 : (boxAt env ad d).asMutRefB env sh1 c.s c.β = .ret ⟨ad, .of β'.next⟩ c.s (β'.push .unique ad sh1.size) := rMut _ ep
      refine ⟨(.handle c.refs.length, []), ⟨c.s, β'.push .unique ad sh1.size, c.handles, c.refs ++ [some (⟨ad, .of β'.next⟩, sh1)]⟩, ?_,
        kill _ _ _ _ ?_⟩
      · simp only [stepB, hg, Option.bind_some, stepWithB_ret r1, dropsBetween_refl]
      · rw [List.getElem?_append_left (List.getElem?_eq_some_iff.1 h3).1]; exact h3
    | _ => cases hh

/-- Writing through a `&` is not allowed. -/
theorem BSim.noWrite {c : BState} {x : RState env} (T : BSim env s0 c x xs) {r : Nat} {ρ : SRef} {sh : Shape} {v : Val}
    (hρ : x.Refers r ρ sh v) (hm : ρ.isMut = false) (hz : 0 < sh.size) (v' : Val) : stepB env c (.set r v') = none := by
  obtain ⟨S, B, A⟩ := T
  obtain ⟨y, t, h1, h2, h3, h4⟩ := B.refd r ρ hρ.1
  have hcell : x.a.cells[ρ.loc]? = some ⟨y.1.sh, y.1.val, true⟩ := by
    rw [← S.cells, List.getElem?_map, h1, ← h2]; rfl
  have hρ2 := hρ.2.symm.trans hcell
  obtain ⟨⟨sh2, v2, l'⟩, ad⟩ := y
  simp only [Option.some.injEq, Cell.mk.injEq] at hρ2
  obtain ⟨rfl, rfl, _⟩ := hρ2
  simp only at h2
  subst h2
  simp only at h1 h3 h4
  have hl := S.live _ (List.mem_of_getElem? h1) rfl
  rw [hm] at h4
  obtain ⟨β', e, _, _, h5, _⟩ := read_shared (β := c.β) (B.cells _ (List.mem_of_getElem? h1) rfl) h4
  have h6 := (h5 ad (Nat.le_refl _) (Nat.lt_add_of_pos_right hz)).keeps t (h4 ad (Nat.le_refl _) (Nat.lt_add_of_pos_right hz))
  have e2 := shared_write (n := sh.size) hz (fun it hit ht => by rw [h6.2 it hit ht]; rfl)
  have hg : c.ref r = some (⟨ad, .of t⟩, sh) := by rw [BState.ref, h3]; rfl
  have r0 : assignB sh ⟨ad, .of t⟩ v' c.s c.β = .aliasing := by
    simp only [assignB, MB.bind_def, readB_ret (p := ⟨ad, .of t⟩) e hl.read, MB.lift, dropVal, M.log, writeB, MB.borrows, e2]
  simp only [stepB, hg, Option.bind_some, stepWithB, r0]

/-- No tag may use a byte whose stack is empty. -/
theorem access_empty {β : Borrows} {g : Nat → Bool} {a n : Nat} (hz : 0 < n) (he : β.stk a = []) :
    β.access (readStack g) a n = none ∧ β.access (writeStack g) a n = none :=
  ⟨Borrows.access_none (i := a) (Nat.le_refl _) (by omega) (by rw [he]; rfl),
   Borrows.access_none (i := a) (Nat.le_refl _) (by omega) (by rw [he]; rfl)⟩

theorem retag_empty {s : State} {β : Borrows} {sh : Shape} {p : BPtr} (hz : 0 < sh.size) (he : β.stk p.addr = []) :
    (retagRef sh p s β = .aliasing ∨ retagRef sh p s β = .ub .badPointer) ∧
    (retagMut sh p s β = .aliasing ∨ retagMut sh p s β = .ub .badPointer) := by
  obtain ⟨e1, e2⟩ := access_empty (g := β.grants p.tag) hz he
  by_cases hv : validPtr s p.addr sh.size sh.align = true
  · refine ⟨Or.inl ?_, Or.inl ?_⟩
    · simp only [retagRef, checkB, MB.bind_def, MB.lift, hv, if_true, MB.borrows, e1]
    · simp only [retagMut, checkB, MB.bind_def, MB.lift, hv, if_true, MB.borrows, e2]
  · refine ⟨Or.inr ?_, Or.inr ?_⟩
    · simp only [retagRef, checkB, MB.bind_def, MB.lift, hv, if_false]; rfl
    · simp only [retagMut, checkB, MB.bind_def, MB.lift, hv, if_false]; rfl

/-- After a box has been freed, using a copy of it is undefined behaviour. -/
theorem BSim.freed (ok : env.OK) {c : BState} {x : RState env} (T : BSim env s0 c x xs) {h h' loc : Nat} {d d' : env.cfg.Discr}
    {sh : Shape} {v : Val} (hne : h ≠ h') (ht : x.a.Typed h loc d sh v) (hat : x.a.At h' loc d') (hz : 0 < sh.size)
    {free : BOp env} (hf : free ∈ freesOf h sh) : ∃ o c', stepB env c free = some (o, c') ∧
      ∀ v' (use : BOp env), use ∈ usesOf h' sh v' → stepB env c' use = none := by
  obtain ⟨S, B, A⟩ := T
  obtain ⟨ad, hx, hg, _, _, _, _, ep⟩ := S.typed ok ht
  replace hg : c.get h = some (boxAt env ad d) := hg
  obtain ⟨x', hx', hh', ao, hdm⟩ := S.hsome h' loc d' hat
  rw [hx] at hx'
  cases hx'
  have ep' : (boxAt env ad d').asPtr env = ad := (boxAt_parts ok ao hdm).1
  have hl := S.live _ (List.mem_of_getElem? hx) rfl
  have hval : validPtr c.s ad sh.size sh.align = true := (ptrRead_ret_iff.1 hl.read).2.1
  obtain ⟨β', e1, _⟩ := write_wild (B.cells _ (List.mem_of_getElem? hx) rfl)
  have r1 : (boxAt env ad d).intoBoxB env sh c.s c.β = .ret ⟨⟨ad, .of β'.next⟩⟩ c.s (β'.push .unique ad sh.size) := by
    rw [TBox.intoBoxB, MB.bind_def, TBox.intoRawB, show (boxAt env ad d).asMutPtrB env = ⟨ad, .wild⟩ from congrArg (BPtr.mk · .wild) ep,
      retagMut_ret (p := ⟨ad, .wild⟩) e1 hval]
    rfl
  have e : ((β'.push .unique ad sh.size).reset [] ad sh.size).stk ad = [] := if_pos ⟨Nat.le_refl _, by omega⟩
  have dead : ∀ (s' : State) v' (use : BOp env), use ∈ usesOf h' sh v' →
      stepB env ⟨s', (β'.push .unique ad sh.size).reset [] ad sh.size, c.handles.set h none, c.refs⟩ use = none := by
    intro s' v' use hu
    generalize hβ : (β'.push .unique ad sh.size).reset [] ad sh.size = β2 at e
    have hg' : BState.get ⟨s', β2, c.handles.set h none, c.refs⟩ h' = some (boxAt env ad d') := by
      show (c.handles.set h none)[h']?.join = _
      rw [List.getElem?_set_ne hne, hh']
      rfl
    have p1 : (boxAt env ad d').asPtrB env = ⟨ad, .wild⟩ := congrArg (BPtr.mk · .wild) ep'
    have p2 : (boxAt env ad d').asMutPtrB env = ⟨ad, .wild⟩ := congrArg (BPtr.mk · .wild) ep'
    obtain ⟨a1, a2⟩ := access_empty (g := β2.grants .wild) hz e
    obtain ⟨t1, t2⟩ := retag_empty (s := s') (p := ⟨ad, .wild⟩) hz e
    simp only [usesOf, List.mem_cons, List.not_mem_nil, or_false] at hu
    rcases hu with rfl | rfl | rfl | rfl | rfl | rfl | rfl | rfl
    · rcases t1 with t | t <;>
        simp only [stepB, hg', Option.bind_some, stepWithB, TBox.asRefB, p1, t]
    · rcases t2 with t | t <;>
        simp only [stepB, hg', Option.bind_some, stepWithB, TBox.asMutRefB, p2, t]
    · rcases t1 with t | t <;>
        simp only [stepB, hg', Option.bind_some, stepWithB, MB.bind_def, TBox.asRefB, p1, t]
    · rcases t2 with t | t <;>
        simp only [stepB, hg', Option.bind_some, stepWithB, MB.bind_def, TBox.asMutRefB, p2, t]
    · simp only [stepB, hg', Option.bind_some, stepWithB, p2, writeB, MB.bind_def, MB.borrows, a2]
    · simp only [stepB, hg', Option.bind_some, stepWithB, TBox.intoInnerB, p2, readB, MB.bind_def, MB.borrows, a1]
    · rcases t2 with t | t <;>
        simp only [stepB, hg', Option.bind_some, stepWithB, MB.bind_def, TBox.intoBoxB, TBox.intoRawB, p2, t]
    · rcases t2 with t | t <;>
        simp only [stepB, hg', Option.bind_some, stepWithB, MB.bind_def, TBox.intoBoxB, TBox.intoRawB, p2, t]
  simp only [freesOf, List.mem_cons, List.not_mem_nil, or_false] at hf
  rcases hf with rfl | rfl
  · have r2 := BBox.drop_ret (sh := sh) (p := ⟨ad, .of β'.next⟩) (read_pushed β' .unique rfl ad sh.size)
      (write_pushed β' ad sh.size) hl.read hl.own
    simp only [if_neg (show ¬ sh.size = 0 by omega)] at r2
    have r3 : ((boxAt env ad d).intoBoxB env sh >>= BBox.drop sh) c.s c.β =
        .ret () (freedState (c.s.log (dropEvents sh v)) ⟨ad, sh.size, sh.align⟩) ((β'.push .unique ad sh.size).reset [] ad sh.size) := by
      rw [MB.bind_def, r1]; exact r2
    refine ⟨_, _, Eq.trans ?_ (stepWithB_ret (f := fun _ => (.unit, c.handles.set h none, c.refs)) r3), dead _⟩
    simp only [stepB, hg, Option.bind_some]
  · have r2 := BBox.intoValue_ret (sh := sh) (p := ⟨ad, .of β'.next⟩) (read_pushed β' .unique rfl ad sh.size)
      (write_pushed β' ad sh.size) hl.read hl.own
    simp only [if_neg (show ¬ sh.size = 0 by omega)] at r2
    have r3 : ((boxAt env ad d).intoBoxB env sh >>= BBox.intoValue sh) c.s c.β =
        .ret v (freedState c.s ⟨ad, sh.size, sh.align⟩) ((β'.push .unique ad sh.size).reset [] ad sh.size) := by
      rw [MB.bind_def, r1]; exact r2
    refine ⟨_, _, Eq.trans ?_ (stepWithB_ret (f := fun v => (.val v, c.handles.set h none, c.refs)) r3), dead _⟩
    simp only [stepB, hg, Option.bind_some]

/-! ## Clients that never copy a box -/

/-- Different handles refer to different locations, and references to the location of the handle they were borrowed from. -/
structure Linear (x : RState env) : Prop where
  inj : ∀ (h h' loc : Nat) (d d' : env.cfg.Discr), x.a.At h loc d → x.a.At h' loc d' → h = h'
  bound : ∀ (h loc : Nat) (d : env.cfg.Discr), x.a.At h loc d → loc < x.a.cells.length
  refs : ∀ ρ, x.Live ρ → ∃ d, x.a.At ρ.h ρ.loc d

theorem Linear.cellsSet {x : RState env} (L : Linear x) (loc : Nat) (cell : Cell) :
    Linear (⟨⟨x.a.cells.set loc cell, x.a.handles⟩, x.refs⟩ : RState env) where
  inj := L.inj
  bound := fun h l d hh => by rw [List.length_set]; exact L.bound h l d hh
  refs := L.refs

theorem Linear.consume {x : RState env} (L : Linear x) {k : Nat} (hk : ∀ ρ, x.Live ρ → ρ.h ≠ k) :
    Linear (⟨⟨x.a.cells, x.a.handles.set k none⟩, x.refs⟩ : RState env) := by
  have key : ∀ (h loc : Nat) (d : env.cfg.Discr), (⟨x.a.cells, x.a.handles.set k none⟩ : AState env).At h loc d →
      x.a.At h loc d := by
    intro h loc d hh
    simp only [AState.At, List.getElem?_set] at hh
    split at hh
    · split at hh <;> cases hh
    · exact hh
  refine ⟨fun h h' loc d d' h1 h2 => L.inj h h' loc d d' (key _ _ _ h1) (key _ _ _ h2),
    fun h loc d h1 => L.bound h loc d (key _ _ _ h1), fun ρ hρ => ?_⟩
  obtain ⟨d, hd⟩ := L.refs ρ hρ
  refine ⟨d, ?_⟩
  simp only [AState.At]
  rw [List.getElem?_set_ne (Ne.symm (hk ρ hρ))]
  exact hd

theorem At_append {a : AState env} {cells : List Cell} {y : Nat × env.cfg.Discr} {h loc : Nat} {d : env.cfg.Discr}
    (hh : (⟨cells, a.handles ++ [some y]⟩ : AState env).At h loc d) :
    a.At h loc d ∨ (h = a.handles.length ∧ (loc, d) = y) := by
  simp only [AState.At, List.getElem?_append] at hh
  split at hh
  · exact Or.inl hh
  · rename_i hlt
    rw [List.getElem?_singleton] at hh
    split at hh
    · rename_i h0
      cases hh
      exact Or.inr ⟨by omega, rfl⟩
    · cases hh

theorem Linear.new {x : RState env} (L : Linear x) (cell : Cell) (d : env.cfg.Discr) :
    Linear (⟨⟨x.a.cells ++ [cell], x.a.handles ++ [some (x.a.cells.length, d)]⟩, x.refs⟩ : RState env) := by
  refine ⟨?_, ?_, ?_⟩
  · intro h h' loc d1 d2 h1 h2
    rcases At_append h1 with h1 | ⟨rfl, e1⟩ <;> rcases At_append h2 with h2 | ⟨rfl, e2⟩
    · exact L.inj h h' loc d1 d2 h1 h2
    · cases e2; exact absurd (L.bound _ _ _ h1) (Nat.lt_irrefl _)
    · cases e1; exact absurd (L.bound _ _ _ h2) (Nat.lt_irrefl _)
    · rfl
  · intro h loc d1 h1
    rw [List.length_append]
    rcases At_append h1 with h1 | ⟨rfl, e1⟩
    · exact Nat.lt_add_right _ (L.bound _ _ _ h1)
    · cases e1; exact Nat.lt_succ_self _
  · intro ρ hρ
    obtain ⟨d1, hd⟩ := L.refs ρ hρ
    refine ⟨d1, ?_⟩
    simp only [AState.At]
    rw [List.getElem?_append_left (List.getElem?_eq_some_iff.1 hd).1]
    exact hd

/-- For such a client the compiler's rule gives the needed one. -/
theorem Linear.exclusive {x : RState env} (L : Linear x) {op : BOp env} (h : Accepted x op) : Exclusive x op := by
  have rd : ∀ k loc d, x.a.At k loc d → (∀ ρ, x.Live ρ → ρ.h = k → ρ.isMut = false) →
      ∀ ρ, x.Live ρ → ρ.loc = loc → ρ.isMut = false := by
    intro k loc d hat hh ρ hρ hloc
    obtain ⟨d', hd⟩ := L.refs ρ hρ
    exact hh ρ hρ (L.inj _ _ loc d' d (hloc ▸ hd) hat)
  have wr : ∀ k loc d, x.a.At k loc d → (∀ ρ, x.Live ρ → ρ.h ≠ k) → ∀ ρ, x.Live ρ → ρ.loc ≠ loc := by
    intro k loc d hat hh ρ hρ hloc
    obtain ⟨d', hd⟩ := L.refs ρ hρ
    exact hh ρ hρ (L.inj _ _ loc d' d (hloc ▸ hd) hat)
  constructor
  · intro k hk loc d hat
    cases op with
    | base op =>
      cases op <;> simp only [BOp.readsAt, List.mem_singleton, List.not_mem_nil] at hk <;> subst hk
      · exact rd _ _ _ hat (h.1 _ List.mem_cons_self)
      · exact rd _ _ _ hat (fun ρ hρ e => absurd e (h.2 _ List.mem_cons_self ρ hρ))
    | borrow k' sh =>
      simp only [BOp.readsAt, List.mem_singleton] at hk
      subst hk
      exact rd _ _ _ hat (h.1 _ List.mem_cons_self)
    | borrowMut | get | set | done => simp [BOp.readsAt] at hk
  · intro k hk loc d hat
    cases op with
    | base op =>
      cases op <;> simp only [BOp.writesAt, List.mem_singleton, List.not_mem_nil] at hk <;> subst hk <;>
        exact wr _ _ _ hat (h.2 _ List.mem_cons_self)
    | borrowMut k' sh =>
      simp only [BOp.writesAt, List.mem_singleton] at hk
      subst hk
      exact wr _ _ _ hat (h.2 _ List.mem_cons_self)
    | borrow | get | set | done => simp [BOp.writesAt] at hk

theorem Linear.step {x x' : RState env} (L : Linear x) {op : BOp env} {o : Obs env} (h : Accepted x op)
    (hnc : ∀ k, op ≠ .base (.copy k)) (hn : SpecNextB x op o x') : Linear x' := by
  cases op with
  | base op =>
    obtain ⟨a', hn, rfl⟩ := hn
    cases op with
    | new sh v d =>
      rcases hn with ⟨_, rfl⟩ | ⟨_, _, rfl⟩ | ⟨_, _, _, rfl⟩
      · exact L.new _ _
      · exact L
      · exact ⟨L.inj, fun h l d hh => by
          rw [List.length_append]; exact Nat.lt_add_right _ (L.bound h l d hh), L.refs⟩
    | copy k => exact absurd rfl (hnc k)
    | discr k => obtain ⟨_, _, _, _, rfl⟩ := hn; exact L
    | ptrEq k k' => obtain ⟨_, _, _, _, _, _, _, rfl⟩ := hn; exact L
    | read k sh => obtain ⟨_, _, _, _, _, rfl⟩ := hn; exact L
    | assign k sh v => obtain ⟨_, _, _, _, _, rfl⟩ := hn; exact L.cellsSet _ _
    | write k sh v => obtain ⟨_, _, _, _, _, rfl⟩ := hn; exact L.cellsSet _ _
    | intoInner k sh => obtain ⟨_, _, _, _, _, rfl⟩ := hn; exact L.consume (h.2 k List.mem_cons_self)
    | drop k => obtain ⟨_, rfl⟩ := hn; exact L.consume (h.2 k List.mem_cons_self)
    | rawRoundtrip k => obtain ⟨_, rfl⟩ := hn; exact L
    | boxDrop k sh =>
      obtain ⟨_, _, _, _, _, rfl⟩ := hn
      exact (L.cellsSet _ _).consume (h.2 k List.mem_cons_self)
    | boxTake k sh =>
      obtain ⟨_, _, _, _, _, rfl⟩ := hn
      exact (L.cellsSet _ _).consume (h.2 k List.mem_cons_self)
  | borrow k sh =>
    obtain ⟨loc, d, v, ht, _, rfl⟩ := hn
    refine ⟨L.inj, L.bound, fun ρ hρ => ?_⟩
    simp only [RState.Live, List.mem_append, List.mem_singleton] at hρ
    rcases hρ with hρ | hρ
    · exact L.refs ρ hρ
    · cases hρ; exact ⟨d, ht.1⟩
  | borrowMut k sh =>
    obtain ⟨loc, d, v, ht, _, rfl⟩ := hn
    refine ⟨L.inj, L.bound, fun ρ hρ => ?_⟩
    simp only [RState.Live, List.mem_append, List.mem_singleton] at hρ
    rcases hρ with hρ | hρ
    · exact L.refs ρ hρ
    · cases hρ; exact ⟨d, ht.1⟩
  | get r => obtain ⟨_, _, _, _, _, rfl⟩ := hn; exact L
  | set r v => obtain ⟨_, _, _, _, _, rfl⟩ := hn; exact L.cellsSet _ _
  | done r =>
    obtain ⟨_, rfl⟩ := hn
    refine ⟨L.inj, L.bound, fun ρ hρ => ?_⟩
    rcases List.mem_or_eq_of_mem_set hρ with hρ | hρ
    · exact L.refs ρ hρ
    · cases hρ

theorem reach_linear {p : BClient env} (hb : BorrowChecked p) (hc : NoCopies p) {os : List (Obs env)} {x : RState env}
    (h : BReach p os x) : Linear x := by
  induction h with
  | start => exact ⟨fun h h' loc d d' hh => by simp [AState.At] at hh, fun h loc d hh => by simp [AState.At] at hh,
      fun ρ hρ => by simp [RState.Live] at hρ⟩
  | next hreach hop hn ih => exact ih.step (hb _ _ _ hreach hop) (fun k e => hc _ k (e ▸ hop)) hn

/-! ## Clients that only read -/

/-- For such a client no mutable reference exists. -/
theorem reach_shared {p : BClient env} (hro : ReadOnly p) {os : List (Obs env)} {x : RState env}
    (h : BReach p os x) : ∀ ρ, x.Live ρ → ρ.isMut = false := by
  induction h with
  | start => intro ρ hρ; simp [RState.Live] at hρ
  | @next os x op o x' hreach hop hn ih =>
    have hw := hro _ _ hop
    cases op with
    | base op => obtain ⟨a', _, rfl⟩ := hn; exact ih
    | borrow k sh =>
      obtain ⟨loc, d, v, ht, _, rfl⟩ := hn
      intro ρ hρ
      simp only [RState.Live, List.mem_append, List.mem_singleton] at hρ
      rcases hρ with hρ | hρ
      · exact ih ρ hρ
      · cases hρ; rfl
    | borrowMut k sh => cases hw
    | get r => obtain ⟨_, _, _, _, _, rfl⟩ := hn; exact ih
    | set r v => obtain ⟨_, _, _, _, _, rfl⟩ := hn; exact ih
    | done r =>
      obtain ⟨_, rfl⟩ := hn
      intro ρ hρ
      rcases List.mem_or_eq_of_mem_set hρ with hρ | hρ
      · exact ih ρ hρ
      · cases hρ

end

end TB

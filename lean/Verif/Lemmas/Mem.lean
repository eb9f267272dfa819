import Verif.TaggedBox

/-! # Helper lemmas about memory (no property theorems here) -/

set_option autoImplicit false

namespace TB

/-! ## The monad -/

theorem M.bind_def {α β} (m : M α) (f : α → M β) (s : State) :
    (m >>= f) s = match m s with
      | .ret a s' => f a s'
      | .panic k s' => .panic k s'
      | .ub k => .ub k := rfl

theorem M.bind_of_ret {α β} {m : M α} {f : α → M β} {s s' : State} {a : α} (h : m s = .ret a s') :
    (m >>= f) s = f a s' := by rw [M.bind_def, h]

theorem M.bind_of_panic {α β} {m : M α} {f : α → M β} {s s' : State} {k} (h : m s = .panic k s') :
    (m >>= f) s = .panic k s' := by rw [M.bind_def, h]

theorem M.bind_of_ub {α β} {m : M α} {f : α → M β} {s : State} {k} (h : m s = .ub k) :
    (m >>= f) s = .ub k := by rw [M.bind_def, h]

@[simp] theorem M.pure_apply {α} (a : α) (s : State) : (pure a : M α) s = .ret a s := rfl

@[simp] theorem M.panic_apply {α} (k) (s : State) : (M.panic k : M α) s = .panic k s := rfl

theorem M.bind_ret_inv {α β} {m : M α} {f : α → M β} {s s' : State} {b : β} (h : (m >>= f) s = .ret b s') :
    ∃ a s1, m s = .ret a s1 ∧ f a s1 = .ret b s' := by
  rw [M.bind_def] at h
  split at h
  · exact ⟨_, _, by assumption, h⟩
  · cases h
  · cases h

@[simp] theorem M.bind_pure_right {α} (m : M α) : (m >>= pure) = m := by
  funext s
  rw [M.bind_def]
  split <;> simp_all

/-! ## Bytes -/

theorem overlay_out {m : Nat → MByte} {a : Nat} {bs : List MByte} {i : Nat}
    (h : i < a ∨ a + bs.length ≤ i) : overlay m a bs i = m i := by
  simp only [overlay]; split
  · omega
  · rfl

theorem overlay_in {m : Nat → MByte} {a : Nat} {bs : List MByte} {i : Nat}
    (h1 : a ≤ i) (h2 : i < a + bs.length) : overlay m a bs i = bs[i - a]?.getD none := by
  simp [overlay, h1, h2]

@[simp] theorem readBytes_length (m : Nat → MByte) (a n : Nat) : (readBytes m a n).length = n := by
  simp [readBytes]

theorem readBytes_congr {m m' : Nat → MByte} {a n : Nat} (h : ∀ i, a ≤ i → i < a + n → m i = m' i) :
    readBytes m a n = readBytes m' a n := by
  simp only [readBytes]
  apply List.map_congr_left
  intro i hi
  rw [List.mem_range] at hi
  exact h _ (by omega) (by omega)

theorem readBytes_overlay_self (m : Nat → MByte) (a : Nat) (bs : List MByte) :
    readBytes (overlay m a bs) a bs.length = bs := by
  apply List.ext_getElem
  · simp
  · intro i h1 h2
    simp only [readBytes, List.getElem_map, List.getElem_range]
    rw [overlay_in (by omega) (by omega)]
    have : a + i - a = i := by omega
    rw [this, List.getElem?_eq_getElem h2]; rfl

/-! ## Fields -/

theorem FieldsHave.length : ∀ {fs : List (Nat × Leaf)} {v : Val}, FieldsHave fs v → v.length = fs.length
  | [], [], _ => rfl
  | [], _ :: _, h => by cases h
  | _ :: _, [], h => by cases h
  | _ :: fs, _ :: xs, h => by simp [FieldsHave.length h.2]

theorem putFields_out : ∀ (fs : List (Nat × Leaf)) (v : Val) (m : Nat → MByte) (a i : Nat),
    FieldsHave fs v → (∀ f ∈ fs, i < a + f.1 ∨ a + f.1 + f.2.size ≤ i) → putFields m a fs v i = m i
  | [], _, _, _, _, _, _ => rfl
  | _ :: _, [], _, _, _, h, _ => by cases h
  | f :: fs, x :: xs, m, a, i, hv, h => by
    rw [putFields, List.take_of_length_le (Nat.le_of_eq hv.1.1),
      putFields_out fs xs _ a i hv.2 (fun g hg => h g (List.mem_cons_of_mem _ hg))]
    apply overlay_out
    have := h f List.mem_cons_self
    rw [hv.1.1]; exact this

theorem getFields_putFields : ∀ (fs : List (Nat × Leaf)) (v : Val) (m : Nat → MByte) (a : Nat),
    FieldsHave fs v → fs.Pairwise FieldsDisjoint →
    fs.map (fun f => readBytes (putFields m a fs v) (a + f.1) f.2.size) = v
  | [], [], _, _, _, _ => rfl
  | [], _ :: _, _, _, h, _ => by cases h
  | _ :: _, [], _, _, h, _ => by cases h
  | f :: fs, x :: xs, m, a, hv, hd => by
    rw [List.pairwise_cons] at hd
    simp only [List.map_cons, putFields, List.take_of_length_le (Nat.le_of_eq hv.1.1)]
    congr 1
    · rw [← hv.1.1]
      have e : readBytes (putFields (overlay m (a + f.1) x) a fs xs) (a + f.1) x.length
          = readBytes (overlay m (a + f.1) x) (a + f.1) x.length := by
        apply readBytes_congr
        intro i h1 h2
        apply putFields_out _ _ _ _ _ hv.2
        intro g hg
        have := hd.1 g hg
        rw [hv.1.1] at h2
        simp only [FieldsDisjoint] at this
        omega
      rw [e, readBytes_overlay_self]
    · exact getFields_putFields fs xs _ a hv.2 hd.2

theorem putVal_out {sh : Shape} (hw : sh.WF) {v : Val} (hv : sh.Has v) {m : Nat → MByte} {a i : Nat}
    (h : i < a ∨ a + sh.size ≤ i) : putVal m a sh v i = m i := by
  rw [putVal, putFields_out _ _ _ _ _ hv]
  · apply overlay_out; simpa using h
  · intro f hf
    have := (hw.field f hf).2.1
    omega

theorem getVal_putVal {sh : Shape} (hw : sh.WF) {v : Val} (hv : sh.Has v) (m : Nat → MByte) (a : Nat) :
    getVal (putVal m a sh v) a sh = v :=
  getFields_putFields _ _ _ _ hv hw.disjoint

theorem getVal_congr {sh : Shape} (hw : sh.WF) {m m' : Nat → MByte} {a : Nat}
    (h : ∀ i, a ≤ i → i < a + sh.size → m i = m' i) : getVal m a sh = getVal m' a sh := by
  apply List.map_congr_left
  intro f hf
  apply readBytes_congr
  intro i h1 h2
  have := (hw.field f hf).2.1
  exact h i (by omega) (by omega)

theorem fieldsValid_of_has : ∀ {fs : List (Nat × Leaf)} {v : Val}, FieldsHave fs v →
    (fs.zip v).all (fun p => p.1.2.valid p.2) = true
  | [], [], _ => rfl
  | [], _ :: _, h => by cases h
  | _ :: _, [], h => by cases h
  | f :: fs, x :: xs, h => by
    simp only [List.zip_cons_cons, List.all_cons, h.1.2, Bool.true_and]
    exact fieldsValid_of_has h.2

theorem has_of_fieldsValid : ∀ {fs : List (Nat × Leaf)} {m : Nat → MByte} {a : Nat},
    (fs.zip (fs.map (fun f => readBytes m (a + f.1) f.2.size))).all (fun p => p.1.2.valid p.2) = true →
    FieldsHave fs (fs.map (fun f => readBytes m (a + f.1) f.2.size))
  | [], _, _, _ => trivial
  | f :: fs, m, a, h => by
    simp only [List.map_cons, List.zip_cons_cons, List.all_cons, Bool.and_eq_true] at h
    exact ⟨⟨by simp, h.1⟩, has_of_fieldsValid h.2⟩

/-! ## Pointer validity -/

theorem validPtr_iff {s : State} {a size align : Nat} :
    validPtr s a size align = true ↔
      a ≠ 0 ∧ a % align = 0 ∧ (size = 0 ∨ ∃ b ∈ s.blocks, b.base ≤ a ∧ a + size ≤ b.base + b.size) := by
  simp [validPtr, and_assoc]

theorem ptrRead_ret_iff {sh : Shape} {a : Nat} {s s' : State} {v : Val} :
    ptrRead sh a s = .ret v s' ↔
      s' = s ∧ validPtr s a sh.size sh.align = true ∧ v = getVal s.mem a sh ∧ sh.Has v := by
  simp only [ptrRead]
  split
  · split
    · rename_i h1 h2
      constructor
      · intro h; cases h; exact ⟨rfl, h1, rfl, has_of_fieldsValid h2⟩
      · rintro ⟨rfl, -, rfl, -⟩; rfl
    · rename_i h1 h2
      constructor
      · intro h; cases h
      · rintro ⟨rfl, _, rfl, h⟩; exact absurd (fieldsValid_of_has h) h2
  · rename_i h1
    constructor
    · intro h; cases h
    · rintro ⟨_, h, _⟩; exact absurd h h1

theorem ptrRead_no_panic {sh : Shape} {a : Nat} {s s' : State} {k} : ptrRead sh a s ≠ .panic k s' := by
  simp only [ptrRead]; split
  · split <;> simp
  · simp

theorem ptrWrite_ret {sh : Shape} {a : Nat} {s : State} {v : Val} (h : validPtr s a sh.size sh.align = true) :
    ptrWrite sh a v s = .ret () { s with mem := putVal s.mem a sh v } := by
  simp [ptrWrite, h]

/-- A typed read is unaffected by changes outside the bytes read, as long as the pointer stays valid. -/
theorem ptrRead_frame {sh : Shape} (hw : sh.WF) {a : Nat} {s s' : State} {v : Val} (h : ptrRead sh a s = .ret v s)
    (hm : ∀ i, a ≤ i → i < a + sh.size → s'.mem i = s.mem i)
    (hb : 0 < sh.size → ∀ b ∈ s.blocks, b.base ≤ a → a + sh.size ≤ b.base + b.size → b ∈ s'.blocks) :
    ptrRead sh a s' = .ret v s' := by
  rw [ptrRead_ret_iff] at h ⊢
  obtain ⟨-, h1, h2, h3⟩ := h
  refine ⟨rfl, ?_, ?_, h3⟩
  · rw [validPtr_iff] at h1 ⊢
    refine ⟨h1.1, h1.2.1, ?_⟩
    rcases h1.2.2 with h | ⟨b, hb1, hb2, hb3⟩
    · exact Or.inl h
    · by_cases hz : sh.size = 0
      · exact Or.inl hz
      · exact Or.inr ⟨b, hb (by omega) b hb1 hb2 hb3, hb2, hb3⟩
  · rw [h2]; exact getVal_congr hw (fun i h1 h2 => (hm i h1 h2).symm)

end TB

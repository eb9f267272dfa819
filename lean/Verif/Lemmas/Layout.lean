import Verif.Layout
import Verif.Lemmas.Mem

/-! # Helper lemmas about layouts -/

set_option autoImplicit false

namespace TB

theorem roundUp_ge {n a : Nat} (ha : 0 < a) : n ≤ roundUp n a := by
  unfold roundUp
  have h1 := Nat.div_add_mod (n + a - 1) a
  have h2 := Nat.mod_lt (n + a - 1) ha
  have h3 : (n + a - 1) / a * a = a * ((n + a - 1) / a) := Nat.mul_comm _ _
  omega

theorem roundUp_dvd (n a : Nat) : a ∣ roundUp n a := Nat.dvd_mul_left _ _

theorem roundUp_zero {a : Nat} (ha : 0 < a) : roundUp 0 a = 0 := by
  unfold roundUp
  have : (0 + a - 1) / a = 0 := Nat.div_eq_of_lt (by omega)
  rw [this, Nat.zero_mul]

theorem Leaf.WF.align_pos {l : Leaf} (h : l.WF) : 0 < l.align := by
  obtain ⟨k, _, hk⟩ := h.align_pow
  rw [hk]; exact Nat.two_pow_pos _

theorem Shape.WF.align_pos {sh : Shape} (h : sh.WF) : 0 < sh.align := by
  obtain ⟨k, _, hk⟩ := h.align_pow
  rw [hk]; exact Nat.two_pow_pos _

theorem Leaf.WF.shape {l : Leaf} (h : l.WF) : l.shape.WF where
  align_pow := h.align_pow
  size_dvd := h.size_dvd
  field := by
    intro f hf
    simp only [Leaf.shape, List.mem_singleton] at hf
    subst hf
    exact ⟨h, by simp [Leaf.shape], Nat.dvd_zero _, Nat.dvd_refl _⟩
  disjoint := by simp [Leaf.shape]

theorem placeC_ge (off : Nat) : ∀ (ls : List Leaf), (∀ l ∈ ls, l.WF) → off ≤ (placeC off ls).2
  | [], _ => Nat.le_refl _
  | l :: ls, h => by
    have hl := h l List.mem_cons_self
    have h1 := roundUp_ge (n := off) hl.align_pos
    have h2 := placeC_ge (roundUp off l.align + l.size) ls (fun x hx => h x (List.mem_cons_of_mem _ hx))
    simp only [placeC]; omega

theorem placeC_map (off : Nat) (ls : List Leaf) : (placeC off ls).1.map (·.2) = ls := by
  induction ls generalizing off with
  | nil => rfl
  | cons l ls ih => simp [placeC, ih]

theorem placeC_field (off : Nat) : ∀ (ls : List Leaf), (∀ l ∈ ls, l.WF) → ∀ f ∈ (placeC off ls).1,
    f.2 ∈ ls ∧ off ≤ f.1 ∧ f.1 + f.2.size ≤ (placeC off ls).2 ∧ f.2.align ∣ f.1
  | [], _, f, hf => by cases hf
  | l :: ls, h, f, hf => by
    have hl := h l List.mem_cons_self
    have hls : ∀ x ∈ ls, x.WF := fun x hx => h x (List.mem_cons_of_mem _ hx)
    have h1 := roundUp_ge (n := off) hl.align_pos
    have h2 := placeC_ge (roundUp off l.align + l.size) ls hls
    simp only [placeC, List.mem_cons] at hf ⊢
    rcases hf with rfl | hf
    · exact ⟨Or.inl rfl, h1, h2, roundUp_dvd _ _⟩
    · obtain ⟨g1, g2, g3, g4⟩ := placeC_field _ ls hls f hf
      exact ⟨Or.inr g1, by omega, g3, g4⟩

theorem placeC_sorted (off : Nat) : ∀ (ls : List Leaf), (∀ l ∈ ls, l.WF) →
    (placeC off ls).1.Pairwise (fun f g => f.1 + f.2.size ≤ g.1)
  | [], _ => List.Pairwise.nil
  | l :: ls, h => by
    have hls : ∀ x ∈ ls, x.WF := fun x hx => h x (List.mem_cons_of_mem _ hx)
    simp only [placeC, List.pairwise_cons]
    exact ⟨fun g hg => (placeC_field _ ls hls g hg).2.1, placeC_sorted _ ls hls⟩

theorem maxAlign_pow : ∀ (ls : List Leaf), (∀ l ∈ ls, l.WF) → ∃ k, k ≤ 29 ∧ maxAlign ls = 2 ^ k
  | [], _ => ⟨0, by omega, rfl⟩
  | l :: ls, h => by
    obtain ⟨k, hk, e⟩ := maxAlign_pow ls (fun x hx => h x (List.mem_cons_of_mem _ hx))
    obtain ⟨j, hj, e'⟩ := (h l List.mem_cons_self).align_pow
    show ∃ k, k ≤ 29 ∧ max l.align (maxAlign ls) = 2 ^ k
    rw [e, e']
    rcases Nat.le_total j k with g | g
    · exact ⟨k, hk, Nat.max_eq_right (Nat.pow_le_pow_right (by omega) g)⟩
    · exact ⟨j, hj, Nat.max_eq_left (Nat.pow_le_pow_right (by omega) g)⟩

theorem le_maxAlign : ∀ (ls : List Leaf), ∀ l ∈ ls, l.align ≤ maxAlign ls
  | x :: xs, l, hl => by
    show l.align ≤ max x.align (maxAlign xs)
    rw [List.mem_cons] at hl
    rcases hl with rfl | hl
    · exact Nat.le_max_left _ _
    · exact Nat.le_trans (le_maxAlign xs l hl) (Nat.le_max_right _ _)

theorem align_dvd_maxAlign {ls : List Leaf} (h : ∀ l ∈ ls, l.WF) {l : Leaf} (hl : l ∈ ls) :
    l.align ∣ maxAlign ls := by
  obtain ⟨k, _, e⟩ := maxAlign_pow ls h
  obtain ⟨j, _, e'⟩ := (h l hl).align_pow
  have := le_maxAlign ls l hl
  rw [e, e'] at this ⊢
  exact Nat.pow_dvd_pow 2 ((Nat.pow_le_pow_iff_right (by omega)).1 this)

theorem maxAlign_pos {ls : List Leaf} (h : ∀ l ∈ ls, l.WF) : 0 < maxAlign ls := by
  obtain ⟨k, _, e⟩ := maxAlign_pow ls h
  rw [e]; exact Nat.two_pow_pos _

theorem reprC_wf {ls : List Leaf} (h : ∀ l ∈ ls, l.WF) : (reprC ls).WF where
  align_pow := maxAlign_pow ls h
  size_dvd := roundUp_dvd _ _
  field := by
    intro f hf
    obtain ⟨h1, h2, h3, h4⟩ := placeC_field 0 ls h f hf
    have := roundUp_ge (n := (placeC 0 ls).2) (maxAlign_pos h)
    exact ⟨h _ h1, Nat.le_trans h3 this, h4, align_dvd_maxAlign h h1⟩
  disjoint := (placeC_sorted 0 ls h).imp (fun h => Or.inr (Or.inr (Or.inl h)))

theorem reprC_fields (ls : List Leaf) : (reprC ls).fields.map (·.2) = ls := placeC_map 0 ls

theorem reversedTuple_wf {ls : List Leaf} (h : ∀ l ∈ ls, l.WF) : (reversedTuple ls).WF where
  align_pow := maxAlign_pow ls h
  size_dvd := roundUp_dvd _ _
  field := by
    intro f hf
    have hr : ∀ l ∈ ls.reverse, l.WF := fun l hl => h l (List.mem_reverse.1 hl)
    obtain ⟨h1, h2, h3, h4⟩ := placeC_field 0 ls.reverse hr f (List.mem_reverse.1 hf)
    have h1 := List.mem_reverse.1 h1
    have := roundUp_ge (n := (placeC 0 ls.reverse).2) (maxAlign_pos h)
    exact ⟨h _ h1, Nat.le_trans h3 this, h4, align_dvd_maxAlign h h1⟩
  disjoint := by
    have hr : ∀ l ∈ ls.reverse, l.WF := fun l hl => h l (List.mem_reverse.1 hl)
    simp only [reversedTuple, List.pairwise_reverse]
    exact (placeC_sorted 0 ls.reverse hr).imp (fun h => Or.inr (Or.inr (Or.inr h)))

theorem reversedTuple_fields (ls : List Leaf) : (reversedTuple ls).fields.map (·.2) = ls := by
  simp only [reversedTuple, List.map_reverse, placeC_map, List.reverse_reverse]

theorem sum_filter_lt {α : Type} (w : α → Nat) {p q : α → Bool} (hpq : ∀ a, p a = true → q a = true) :
    ∀ {l : List α} {a : α}, a ∈ l → q a = true → p a = false → ((l.filter p).map w).sum + w a ≤ ((l.filter q).map w).sum
  | x :: l, a, ha, hq, hp => by
    have mono : ∀ l : List α, ((l.filter p).map w).sum ≤ ((l.filter q).map w).sum := by
      intro l
      induction l with
      | nil => simp
      | cons x l ih =>
        by_cases h : p x = true
        · simp only [List.filter_cons, h, hpq x h, if_true, List.map_cons, List.sum_cons]; omega
        · by_cases h' : q x = true
          · simp only [List.filter_cons, h, h', if_true, List.map_cons, List.sum_cons]; simp only [Bool.false_eq_true, if_false]; omega
          · simp only [List.filter_cons, h, h', Bool.false_eq_true, if_false]; exact ih
    rcases List.mem_cons.1 ha with rfl | ha
    · have := mono l
      simp only [List.filter_cons, hq, hp, if_true, List.map_cons, List.sum_cons, Bool.false_eq_true, if_false]
      omega
    · have ih := sum_filter_lt w hpq ha hq hp
      by_cases h : p x = true
      · simp only [List.filter_cons, h, hpq x h, if_true, List.map_cons, List.sum_cons]; omega
      · by_cases h' : q x = true
        · simp only [List.filter_cons, h, h', if_true, List.map_cons, List.sum_cons]; simp only [Bool.false_eq_true, if_false]; omega
        · simp only [List.filter_cons, h, h', Bool.false_eq_true, if_false]; exact ih

theorem byAlign_fields (ls : List Leaf) : (byAlign ls).fields.map (·.2) = ls := by
  simp only [byAlign, List.map_map]
  have : ((fun x : Nat × Leaf => x.2) ∘ fun f : Leaf × Nat =>
      (((ls.zipIdx.filter fun g => g.1.align > f.1.align || (g.1.align == f.1.align && g.2 < f.2)).map (·.1.size)).sum, f.1)) =
      Prod.fst := by funext f; rfl
  rw [this]
  exact List.zipIdx_map_fst 0 ls

theorem byAlign_wf {ls : List Leaf} (h : ∀ l ∈ ls, l.WF) : (byAlign ls).WF where
  align_pow := maxAlign_pow ls h
  size_dvd := roundUp_dvd _ _
  field := by
    intro f hf
    simp only [byAlign, List.mem_map] at hf
    obtain ⟨⟨l, i⟩, hl, rfl⟩ := hf
    have hl' : l ∈ ls := List.fst_mem_of_mem_zipIdx hl
    refine ⟨h l hl', ?_, ?_, align_dvd_maxAlign h hl'⟩
    · have h1 := sum_filter_lt (fun g : Leaf × Nat => g.1.size)
        (p := fun g => g.1.align > l.align || (g.1.align == l.align && g.2 < i)) (q := fun _ => true) (fun _ _ => rfl) hl rfl
        (by simp)
      have h2 : ((ls.zipIdx.filter fun _ => true).map fun g : Leaf × Nat => g.1.size).sum = (ls.map (·.size)).sum := by
        have e : ls.zipIdx.filter (fun _ => true) = ls.zipIdx := List.filter_eq_self.2 fun _ _ => rfl
        have e' := congrArg (List.map (·.size)) (List.zipIdx_map_fst 0 ls)
        rw [List.map_map] at e'
        rw [e, ← e']; rfl
      have h3 := roundUp_ge (n := (ls.map (·.size)).sum) (maxAlign_pos h)
      simp only [byAlign] at h1 ⊢
      omega
    · have key : ∀ gs : List (Leaf × Nat), (∀ g ∈ gs, l.align ∣ g.1.size) → l.align ∣ (gs.map (·.1.size)).sum := by
        intro gs
        induction gs with
        | nil => intro _; exact Nat.dvd_zero _
        | cons g gs ih =>
          intro hg
          exact Nat.dvd_add (hg g List.mem_cons_self) (ih fun x hx => hg x (List.mem_cons_of_mem _ hx))
      refine key _ fun g hg => ?_
      obtain ⟨hg1, hg2⟩ := List.mem_filter.1 hg
      have hgm : g.1 ∈ ls := List.fst_mem_of_mem_zipIdx hg1
      have hle : l.align ≤ g.1.align := by
        simp only [Bool.or_eq_true, decide_eq_true_eq, Bool.and_eq_true, beq_iff_eq] at hg2
        omega
      refine Nat.dvd_trans ?_ (h _ hgm).size_dvd
      obtain ⟨k, _, e⟩ := (h _ hgm).align_pow
      obtain ⟨j, _, e'⟩ := (h l hl').align_pow
      rw [e, e'] at hle ⊢
      exact Nat.pow_dvd_pow 2 ((Nat.pow_le_pow_iff_right (by omega)).1 hle)
  disjoint := by
    simp only [byAlign]
    rw [List.pairwise_map]
    have hp : ls.zipIdx.Pairwise fun a b => a.2 < b.2 := by
      have := List.pairwise_lt_range' (s := 0) (n := ls.length) (step := 1)
      rw [← List.zipIdx_map_snd 0 ls, List.pairwise_map] at this
      exact this
    refine List.Pairwise.imp_of_mem ?_ hp
    rintro ⟨l, i⟩ ⟨m, j⟩ hl hm hij
    simp only at hij
    refine .inr (.inr ?_)
    by_cases ha : m.align ≤ l.align
    · left
      refine sum_filter_lt (fun g : Leaf × Nat => g.1.size) ?_ hl ?_ ?_
      · intro g
        simp only [Bool.or_eq_true, decide_eq_true_eq, Bool.and_eq_true, beq_iff_eq]
        omega
      · simp only [Bool.or_eq_true, decide_eq_true_eq, Bool.and_eq_true, beq_iff_eq]
        omega
      · simp
    · right
      refine sum_filter_lt (fun g : Leaf × Nat => g.1.size) ?_ hm ?_ ?_
      · intro g
        simp only [Bool.or_eq_true, decide_eq_true_eq, Bool.and_eq_true, beq_iff_eq]
        omega
      · simp only [Bool.or_eq_true, decide_eq_true_eq, Bool.and_eq_true, beq_iff_eq]
        omega
      · simp

theorem fieldsHave_of_map : ∀ {fs gs : List (Nat × Leaf)} {v : Val}, fs.map (·.2) = gs.map (·.2) →
    FieldsHave fs v → FieldsHave gs v
  | [], [], _, _, h => h
  | [], _ :: _, _, e, _ => by simp at e
  | _ :: _, [], _, e, _ => by simp at e
  | _ :: _, _ :: _, [], _, h => by cases h
  | f :: fs, g :: gs, x :: xs, e, h => by
    simp only [List.map_cons, List.cons.injEq] at e
    exact ⟨e.1 ▸ h.1, fieldsHave_of_map e.2 h.2⟩

end TB

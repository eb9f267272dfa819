import Verif.Lemmas.Recursive

/-!
# Comparison of trees is lawful if that of the data is
-/

set_option autoImplicit false

namespace TB.Macro

variable {ι : Type} {env : Env} {rc : Rustc} {F : Family ι} {L : LeafOps}

variable (rc F) in
mutual
/-- A tree of enum `i`. -/
def Tree.Typed : ι → Tree → Prop
  | _, .leaf _ => False
  | i, .node v fs => (∃ d ∈ F.decl i, d.name = v) ∧ Tree.Typeds (fieldTypes (F.decl i) v) fs
def Tree.Typeds : List Ty → List Tree → Prop
  | [], [] => True
  | t :: ts, f :: fs => ((∃ j, F.sub t = some j ∧ Tree.Typed j f) ∨ (F.sub t = none ∧ ∃ x, f = .leaf x ∧ (rc.leaf t).Has x)) ∧ Tree.Typeds ts fs
  | _, _ => False
end

mutual
theorem Rep.typed (hF : F.OK env rc) {s : State} : ∀ {t : Tree} {u : ι} {b : TBox} {fp : List Block}, Rep env rc F s u b t fp → t.Typed rc F u
  | .leaf _, _, _, _, h => by simp only [Rep] at h
  | .node v fs, u, b, fp, h => by
    obtain ⟨fs', i, e, d, _, ht, _, hdi, _, hft, hty, _, hrs⟩ := h.unfold hF
    cases ht
    simp only [Tree.Typed]
    exact ⟨⟨d, List.mem_of_getElem? hdi, rfl⟩, hft ▸ Reps.typed hF hrs hty⟩
theorem Reps.typed (hF : F.OK env rc) {s : State} : ∀ {fs : List Tree} {tys : List Ty} {xs : List Bytes} {fp : List Block},
    Reps env rc F s tys xs fs fp → HasTypes rc tys xs → Tree.Typeds rc F tys fs
  | [], [], [], _, _, _ => by simp only [Tree.Typeds]
  | f :: fs, t :: tys, x :: xs, _, h, hty => by
    simp only [Reps] at h
    obtain ⟨_, _, _, hx, hr⟩ := h
    simp only [Tree.Typeds]
    refine ⟨?_, Reps.typed hF hr hty.2⟩
    rcases hx with ⟨u, b, ht, _, hb⟩ | ⟨ht, rfl, _⟩
    · exact .inl ⟨u, ht, hb.typed hF⟩
    · exact .inr ⟨ht, x, rfl, hty.1⟩
  | _ :: _, [], [], _, h, _ => by simp only [Reps] at h
  | _, [], _ :: _, _, h, _ => by simp only [Reps] at h
  | _, _ :: _, [], _, h, _ => by simp only [Reps] at h
  | [], _ :: _, _ :: _, _, h, _ => by simp only [Reps] at h
end

theorem position_inj {decl : List VariantDef} {v v' : String} (hv : ∃ d ∈ decl, d.name = v) (hv' : ∃ d ∈ decl, d.name = v')
    (h : position decl v = position decl v') : v = v' := by
  obtain ⟨d, hd, rfl⟩ := hv
  obtain ⟨d', hd', rfl⟩ := hv'
  have h1 : position decl d.name < decl.length := List.findIdx_lt_length_of_exists ⟨d, hd, by simp⟩
  have h2 : position decl d'.name < decl.length := List.findIdx_lt_length_of_exists ⟨d', hd', by simp⟩
  have e1 : (decl[position decl d.name].name == d.name) = true := List.findIdx_getElem (w := h1)
  have e2 : (decl[position decl d'.name].name == d'.name) = true := List.findIdx_getElem (w := h2)
  simp only [beq_iff_eq] at e1 e2
  rw [← e1, ← e2]
  simp only [h]

/-! ## Equality -/

mutual
theorem Tree.eq_refl (hL : L.Lawful rc) : ∀ (t : Tree) (i : ι), t.Typed rc F i → t.compare F L.forEq i t = true
  | .leaf _, _, h => by simp only [Tree.Typed] at h
  | .node v fs, i, h => by
    simp only [Tree.Typed] at h
    unfold Tree.compare
    rw [if_pos rfl]
    exact Tree.eqs_refl hL fs _ h.2
theorem Tree.eqs_refl (hL : L.Lawful rc) : ∀ (fs : List Tree) (tys : List Ty), Tree.Typeds rc F tys fs →
    Tree.compares F L.forEq tys fs fs = true
  | [], [], _ => by unfold Tree.compares; rfl
  | f :: fs, t :: tys, h => by
    simp only [Tree.Typeds] at h
    unfold Tree.compares
    have ih := Tree.eqs_refl hL fs tys h.2
    rcases h.1 with ⟨j, hj, hf⟩ | ⟨hj, x, rfl, hx⟩
    · have hr := Tree.eq_refl hL f j hf
      simp only [hj, hr]
      exact ih
    · have hr : L.forEq.leaf t x x = true := hL.refl t x hx
      simp only [hj, hr]
      exact ih
  | [], _ :: _, h => by simp only [Tree.Typeds] at h
  | _ :: _, [], h => by simp only [Tree.Typeds] at h
end

/-! ## Order -/

/-- `Ordering`s of neighbours and of the ends. -/
def Chain (o₁ o₂ o₃ : Ordering) : Prop := o₁ ≠ .gt → o₂ ≠ .gt → o₃ = o₁.then o₂

theorem LeafOps.Lawful.chain (hL : L.Lawful rc) {t : Ty} {x y z : Bytes} (hx : (rc.leaf t).Has x) (hy : (rc.leaf t).Has y) (hz : (rc.leaf t).Has z) :
    Chain (L.cmp t x y) (L.cmp t y z) (L.cmp t x z) := by
  intro h1 h2
  have h3 := hL.le_trans t x y z hx hy hz h1 h2
  have s1 := hL.swap t x y hx hy
  have s2 := hL.swap t y z hy hz
  have s3 := hL.swap t x z hx hz
  have t1 := hL.le_trans t y z x hy hz hx h2
  have t2 := hL.le_trans t z x y hz hx hy
  have t3 := hL.le_trans t z y x hz hy hx
  rw [s2, s1, s3] at t3
  rw [s1, s3] at t1
  rw [s3, s2] at t2
  generalize L.cmp t x y = a at *
  generalize L.cmp t y z = b at *
  generalize L.cmp t x z = c at *
  cases a <;> cases b <;> cases c <;> simp_all [Ordering.then]

theorem nat_chain (i j k : Nat) : Chain (compare i j) (compare j k) (compare i k) := by
  intro h1 h2
  rcases Nat.lt_trichotomy i j with h | h | h <;> rcases Nat.lt_trichotomy j k with h' | h' | h'
  · rw [Nat.compare_eq_lt.2 h, Nat.compare_eq_lt.2 (Nat.lt_trans h h')]; rfl
  · subst h'; rw [Nat.compare_eq_lt.2 h]; rfl
  · exact absurd (Nat.compare_eq_gt.2 h') h2
  · subst h; rw [Nat.compare_eq_eq.2 rfl]; rfl
  · subst h; subst h'; rw [Nat.compare_eq_eq.2 rfl]; rfl
  · exact absurd (Nat.compare_eq_gt.2 h') h2
  all_goals exact absurd (Nat.compare_eq_gt.2 h) h1

mutual
theorem Tree.cmp_swap (hL : L.Lawful rc) : ∀ (t t' : Tree) (i : ι), t.Typed rc F i → t'.Typed rc F i →
    t'.compare F L.forCmp i t = (t.compare F L.forCmp i t').swap
  | .leaf _, _, _, h, _ => by simp only [Tree.Typed] at h
  | .node _ _, .leaf _, _, _, h => by simp only [Tree.Typed] at h
  | .node v fs, .node v' fs', i, h, h' => by
    simp only [Tree.Typed] at h h'
    unfold Tree.compare
    by_cases hv : v = v'
    · subst hv
      rw [if_pos rfl, if_pos rfl]
      exact Tree.cmps_swap hL fs fs' _ h.2 h'.2
    · rw [if_neg hv, if_neg (Ne.symm hv)]
      exact (Nat.compare_swap _ _).symm
theorem Tree.cmps_swap (hL : L.Lawful rc) : ∀ (fs fs' : List Tree) (tys : List Ty), Tree.Typeds rc F tys fs → Tree.Typeds rc F tys fs' →
    Tree.compares F L.forCmp tys fs' fs = (Tree.compares F L.forCmp tys fs fs').swap
  | [], [], [], _, _ => by unfold Tree.compares; rfl
  | f :: fs, f' :: fs', t :: tys, h, h' => by
    simp only [Tree.Typeds] at h h'
    have ih := Tree.cmps_swap hL fs fs' tys h.2 h'.2
    unfold Tree.compares
    have key : ∀ o o' : Ordering, o' = o.swap →
        (if L.forCmp.goOn o' then Tree.compares F L.forCmp tys fs' fs else o') =
        (if L.forCmp.goOn o then Tree.compares F L.forCmp tys fs fs' else o).swap := by
      intro o o' ho
      subst ho
      cases o <;> first | exact ih | rfl
    apply key
    rcases h.1 with ⟨j, hj, hf⟩ | ⟨hj, x, rfl, hx⟩
    · rcases h'.1 with ⟨j', hj', hf'⟩ | ⟨hj', _⟩
      · rw [hj] at hj'
        cases hj'
        simp only [hj]
        exact Tree.cmp_swap hL f f' j hf hf'
      · rw [hj] at hj'; cases hj'
    · rcases h'.1 with ⟨j', hj', hf'⟩ | ⟨_, y, rfl, hy⟩
      · rw [hj] at hj'; cases hj'
      · simp only [hj]
        exact hL.swap t x y hx hy
  | [], _, _ :: _, h, _ => by simp only [Tree.Typeds] at h
  | _ :: _, _, [], h, _ => by simp only [Tree.Typeds] at h
  | [], _ :: _, [], _, h => by simp only [Tree.Typeds] at h
  | _ :: _, [], _ :: _, _, h => by simp only [Tree.Typeds] at h
end

mutual
theorem Tree.cmp_chain (hL : L.Lawful rc) : ∀ (t t' t'' : Tree) (i : ι), t.Typed rc F i → t'.Typed rc F i → t''.Typed rc F i →
    Chain (t.compare F L.forCmp i t') (t'.compare F L.forCmp i t'') (t.compare F L.forCmp i t'')
  | .leaf _, _, _, _, h, _, _ => by simp only [Tree.Typed] at h
  | .node _ _, .leaf _, _, _, _, h, _ => by simp only [Tree.Typed] at h
  | .node _ _, .node _ _, .leaf _, _, _, _, h => by simp only [Tree.Typed] at h
  | .node v fs, .node v' fs', .node v'' fs'', i, h, h', h'' => by
    simp only [Tree.Typed] at h h' h''
    unfold Tree.compare
    by_cases h1 : v = v'
    · subst h1
      by_cases h2 : v = v''
      · subst h2
        rw [if_pos rfl, if_pos rfl, if_pos rfl]
        exact Tree.cmps_chain hL fs fs' fs'' _ h.2 h'.2 h''.2
      · rw [if_pos rfl, if_neg h2, if_neg h2]
        intro h3 h4
        have hp : position (F.decl i) v ≠ position (F.decl i) v'' := fun e => h2 (position_inj h.1 h''.1 e)
        have hlt : L.forCmp.variants (position (F.decl i) v) (position (F.decl i) v'') = .lt := by
          rcases Nat.lt_or_gt_of_ne hp with hl | hl
          · exact Nat.compare_eq_lt.2 hl
          · exact absurd (Nat.compare_eq_gt.2 hl) h4
        rw [hlt]
        generalize Tree.compares F L.forCmp (fieldTypes (F.decl i) v) fs fs' = o at *
        cases o <;> first | rfl | exact absurd rfl h3
    · rw [if_neg h1]
      by_cases h2 : v' = v''
      · subst h2
        rw [if_pos rfl, if_neg h1]
        intro h3 h4
        have hp : position (F.decl i) v ≠ position (F.decl i) v' := fun e => h1 (position_inj h.1 h'.1 e)
        have hlt : L.forCmp.variants (position (F.decl i) v) (position (F.decl i) v') = .lt := by
          rcases Nat.lt_or_gt_of_ne hp with hl | hl
          · exact Nat.compare_eq_lt.2 hl
          · exact absurd (Nat.compare_eq_gt.2 hl) h3
        rw [hlt]; rfl
      · rw [if_neg h2]
        by_cases h3 : v = v''
        · subst h3
          rw [if_pos rfl]
          intro h4 h5
          have hp : position (F.decl i) v ≠ position (F.decl i) v' := fun e => h1 (position_inj h.1 h'.1 e)
          rcases Nat.lt_or_gt_of_ne hp with hl | hl
          · exact absurd (Nat.compare_eq_gt.2 hl) h5
          · exact absurd (Nat.compare_eq_gt.2 hl) h4
        · rw [if_neg h3]
          exact nat_chain _ _ _
theorem Tree.cmps_chain (hL : L.Lawful rc) : ∀ (fs fs' fs'' : List Tree) (tys : List Ty), Tree.Typeds rc F tys fs → Tree.Typeds rc F tys fs' →
    Tree.Typeds rc F tys fs'' →
    Chain (Tree.compares F L.forCmp tys fs fs') (Tree.compares F L.forCmp tys fs' fs'') (Tree.compares F L.forCmp tys fs fs'')
  | [], [], [], [], _, _, _ => by unfold Tree.compares; intro _ _; rfl
  | f :: fs, f' :: fs', f'' :: fs'', t :: tys, h, h', h'' => by
    simp only [Tree.Typeds] at h h' h''
    have ih := Tree.cmps_chain hL fs fs' fs'' tys h.2 h'.2 h''.2
    unfold Tree.compares
    have key : ∀ a b c a' b' c' : Ordering, Chain a b c → Chain a' b' c' →
        Chain (if L.forCmp.goOn a then a' else a) (if L.forCmp.goOn b then b' else b) (if L.forCmp.goOn c then c' else c) := by
      intro a b c a' b' c' h1 h2
      cases a <;> cases b <;> cases c <;> simp_all [Chain, LeafOps.forCmp, Ordering.then]
      all_goals (cases a' <;> simp_all)
    refine key _ _ _ _ _ _ ?_ ih
    rcases h.1 with ⟨j, hj, hf⟩ | ⟨hj, x, rfl, hx⟩
    · rcases h'.1 with ⟨j', hj', hf'⟩ | ⟨hj', _⟩
      · rw [hj] at hj'
        cases hj'
        rcases h''.1 with ⟨j'', hj'', hf''⟩ | ⟨hj'', _⟩
        · rw [hj] at hj''
          cases hj''
          simp only [hj]
          exact Tree.cmp_chain hL f f' f'' j hf hf' hf''
        · rw [hj] at hj''; cases hj''
      · rw [hj] at hj'; cases hj'
    · rcases h'.1 with ⟨j', hj', hf'⟩ | ⟨_, y, rfl, hy⟩
      · rw [hj] at hj'; cases hj'
      · rcases h''.1 with ⟨j'', hj'', hf''⟩ | ⟨_, z, rfl, hz⟩
        · rw [hj] at hj''; cases hj''
        · simp only [hj]
          exact hL.chain hx hy hz
  | [], _, _, _ :: _, h, _, _ => by simp only [Tree.Typeds] at h
  | _ :: _, _, _, [], h, _, _ => by simp only [Tree.Typeds] at h
  | [], _ :: _, _, [], _, h, _ => by simp only [Tree.Typeds] at h
  | _ :: _, [], _, _ :: _, _, h, _ => by simp only [Tree.Typeds] at h
  | [], [], _ :: _, [], _, _, h => by simp only [Tree.Typeds] at h
  | _ :: _, _ :: _, [], _ :: _, _, _, h => by simp only [Tree.Typeds] at h
end

/-! ## Agreement -/

mutual
theorem Tree.agree (hL : L.Lawful rc) : ∀ (t t' : Tree) (i : ι), t.Typed rc F i → t'.Typed rc F i →
    (t.compare F L.forCmp i t' = .eq ↔ t.compare F L.forEq i t' = true) ∧
    t.compare F L.forPartialCmp i t' = some (t.compare F L.forCmp i t')
  | .leaf _, _, _, h, _ => by simp only [Tree.Typed] at h
  | .node _ _, .leaf _, _, _, h => by simp only [Tree.Typed] at h
  | .node v fs, .node v' fs', i, h, h' => by
    simp only [Tree.Typed] at h h'
    unfold Tree.compare
    by_cases hv : v = v'
    · subst hv
      simp only [if_true]
      exact Tree.agrees hL fs fs' _ h.2 h'.2
    · simp only [if_neg hv]
      have hp : position (F.decl i) v ≠ position (F.decl i) v' := fun e => hv (position_inj h.1 h'.1 e)
      refine ⟨⟨fun e => absurd (Nat.compare_eq_eq.1 e) hp, fun e => ?_⟩, rfl⟩
      cases e
theorem Tree.agrees (hL : L.Lawful rc) : ∀ (fs fs' : List Tree) (tys : List Ty), Tree.Typeds rc F tys fs → Tree.Typeds rc F tys fs' →
    (Tree.compares F L.forCmp tys fs fs' = .eq ↔ Tree.compares F L.forEq tys fs fs' = true) ∧
    Tree.compares F L.forPartialCmp tys fs fs' = some (Tree.compares F L.forCmp tys fs fs')
  | [], [], [], _, _ => by unfold Tree.compares; exact ⟨⟨fun _ => rfl, fun _ => rfl⟩, rfl⟩
  | f :: fs, f' :: fs', t :: tys, h, h' => by
    simp only [Tree.Typeds] at h h'
    have ih := Tree.agrees hL fs fs' tys h.2 h'.2
    unfold Tree.compares
    have key : ∀ (o : Ordering) (e : Bool) (p : Option Ordering), (o = .eq ↔ e = true) → p = some o →
        ((if L.forCmp.goOn o then Tree.compares F L.forCmp tys fs fs' else o) = .eq ↔
          (if L.forEq.goOn e then Tree.compares F L.forEq tys fs fs' else e) = true) ∧
        (if L.forPartialCmp.goOn p then Tree.compares F L.forPartialCmp tys fs fs' else p) =
          some (if L.forCmp.goOn o then Tree.compares F L.forCmp tys fs fs' else o) := by
      intro o e p h1 h2
      subst h2
      cases o
      · have he : e = false := by cases e <;> simp_all
        subst he
        exact ⟨⟨fun x => (by cases x), fun x => (by cases x)⟩, rfl⟩
      · have he : e = true := h1.1 rfl
        subst he
        exact ih
      · have he : e = false := by cases e <;> simp_all
        subst he
        exact ⟨⟨fun x => (by cases x), fun x => (by cases x)⟩, rfl⟩
    rcases h.1 with ⟨j, hj, hf⟩ | ⟨hj, x, rfl, hx⟩
    · rcases h'.1 with ⟨j', hj', hf'⟩ | ⟨hj', _⟩
      · rw [hj] at hj'
        cases hj'
        simp only [hj]
        exact key _ _ _ (Tree.agree hL f f' j hf hf').1 (Tree.agree hL f f' j hf hf').2
      · rw [hj] at hj'; cases hj'
    · rcases h'.1 with ⟨j', hj', hf'⟩ | ⟨_, y, rfl, hy⟩
      · rw [hj] at hj'; cases hj'
      · simp only [hj]
        exact key _ _ _ (hL.agree t x y hx hy) (hL.partial_cmp t x y hx hy)
  | [], _, _ :: _, h, _ => by simp only [Tree.Typeds] at h
  | _ :: _, _, [], h, _ => by simp only [Tree.Typeds] at h
  | [], _ :: _, [], _, h => by simp only [Tree.Typeds] at h
  | _ :: _, [], _ :: _, _, h => by simp only [Tree.Typeds] at h
end

end TB.Macro

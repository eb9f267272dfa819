import Verif.Lemmas.Owned
import Verif.Spec.Recursive

/-!
# Lemmas: recursive structures of containers simulate trees
-/

set_option autoImplicit false

namespace TB.Macro

variable {ι : Type} {env : Env} {rc : Rustc} {decl : List VariantDef} {F : Family ι}

/-! ## Containers as bytes -/

theorem bytesBox_boxBytes (b : TBox) : bytesBox (boxBytes b) = b := by
  obtain ⟨⟨w⟩⟩ := b
  have hw := w.isLt
  simp only [bytesBox, boxBytes, List.range, List.range.loop, List.map, List.foldr, Option.getD, BitVec.toNat_ofNat]
  congr 2
  apply BitVec.eq_of_toNat_eq
  rw [BitVec.toNat_ofNat]
  omega

theorem boxBytes_has (hF : F.OK env rc) {t : Ty} {u : ι} (ht : F.sub t = some u) (b : TBox) : (rc.leaf t).Has (boxBytes b) := by
  obtain ⟨h1, h2⟩ := hF.layout t u ht
  refine ⟨by rw [h1]; rfl, h2 _ rfl ?_⟩
  simp [boxBytes]

/-! ## Values -/

theorem fieldTypes_of (hn : (decl.map (·.name)).Nodup) {d : VariantDef} {i : Nat} (hdi : decl[i]? = some d) :
    fieldTypes decl d.name = d.fields.types := by
  simp only [fieldTypes, lookupDef, find_decl hn hdi, Option.map_some]

theorem hasTypes_vals {f : Fields} {p : Payload} (h : HasFields rc f p) : HasTypes rc f.types p.vals := by
  match f, p, h with
  | .unit, .unit, _ => trivial
  | .tuple _, .tuple _, h => exact h
  | .record _, .record _, h => exact h.2

theorem zip_fst {α β : Type} : ∀ {l : List α} {r : List β}, r.length = l.length → (l.zip r).map (·.1) = l
  | [], [], _ => rfl
  | a :: l, b :: r, h => by
    simp only [List.zip_cons_cons, List.map_cons, zip_fst (Nat.succ.inj h)]

theorem zip_snd {α β : Type} : ∀ {l : List α} {r : List β}, r.length = l.length → (l.zip r).map (·.2) = r
  | [], [], _ => rfl
  | a :: l, b :: r, h => by
    simp only [List.zip_cons_cons, List.map_cons, zip_snd (Nat.succ.inj h)]

theorem mkVal_spec (hn : (decl.map (·.name)).Nodup) {d : VariantDef} {i : Nat} (hdi : decl[i]? = some d) {vals : List Bytes}
    (h : HasTypes rc d.fields.types vals) :
    IsValue rc decl i (mkVal decl d.name vals) ∧ (mkVal decl d.name vals).payload.vals = vals := by
  have hl := hasTypes_length h
  have hm : mkVal decl d.name vals = ⟨d.name, match some d.fields with
    | some (.tuple _) => .tuple vals
    | some (.record ms) => .record ((ms.map (·.1)).zip vals)
    | _ => .unit⟩ := by
    simp only [mkVal, lookupDef, find_decl hn hdi, Option.map_some]
    rfl
  rw [hm]
  obtain ⟨v, f⟩ := d
  cases f with
  | unit =>
    cases vals with
    | nil => exact ⟨⟨_, hdi, rfl, trivial⟩, rfl⟩
    | cons _ _ => exact h.elim
  | tuple tys => exact ⟨⟨_, hdi, rfl, h⟩, rfl⟩
  | record ms =>
    have hl' : vals.length = (ms.map (·.1)).length := by simpa [Fields.types] using hl
    refine ⟨⟨_, hdi, rfl, zip_fst hl', ?_⟩, zip_snd hl'⟩
    show HasTypes rc _ (((ms.map (·.1)).zip vals).map (·.2))
    rw [zip_snd hl']
    exact h

/-! ## Families -/

theorem Family.OK.defs (hF : F.OK env rc) (u : ι) : (F.prog u).defs = F.decl u := by
  obtain ⟨_, h⟩ := (hF.compiled u).wf
  rw [h]; rfl

theorem Family.OK.names (hF : F.OK env rc) (u : ι) : ((F.decl u).map (·.name)).Nodup := (hF.compiled u).wf.1.names

/-! ## Structures -/

section Rep

variable (env : Env) (rc : Rustc) (F : Family ι) (s : State)

mutual
/-- In state `s`, the container `b` of enum `u` is the root of the tree; the containers of the tree have the blocks `fp`. -/
def Rep : ι → TBox → Tree → List Block → Prop
  | _, _, .leaf _, _ => False
  | u, b, .node v fs, fp => ∃ i e fp', Stores env rc (F.decl u) s b i e ∧ e.variant = v ∧ fp = boxBlocks env rc (F.decl u) b i ++ fp' ∧
      Reps (fieldTypes (F.decl u) v) e.payload.vals fs fp'
/-- Fields, by type. -/
def Reps : List Ty → List Bytes → List Tree → List Block → Prop
  | [], [], [], fp => fp = []
  | t :: ts, x :: xs, f :: fs, fp => ∃ fp₁ fp₂, fp = fp₁ ++ fp₂ ∧
    ((∃ u b, F.sub t = some u ∧ x = boxBytes b ∧ Rep u b f fp₁) ∨ (F.sub t = none ∧ f = .leaf x ∧ fp₁ = [])) ∧ Reps ts xs fs fp₂
  | _, _, _, _ => False
end

end Rep

mutual
theorem Rep.mono (hrc : rc.OK) {s s' : State} (he : Extends s s') : ∀ {t : Tree} {u : ι} {b : TBox} {fp : List Block},
    Rep env rc F s u b t fp → Rep env rc F s' u b t fp
  | .leaf _, _, _, _, h => by simp only [Rep] at h
  | .node v fs, u, b, _, h => by
    simp only [Rep] at h ⊢
    obtain ⟨i, e, fp', h1, h2, h3, h4⟩ := h
    exact ⟨i, e, fp', h1.mono hrc he, h2, h3, Reps.mono hrc he h4⟩
theorem Reps.mono (hrc : rc.OK) {s s' : State} (he : Extends s s') : ∀ {fs : List Tree} {ts : List Ty} {xs : List Bytes}
    {fp : List Block}, Reps env rc F s ts xs fs fp → Reps env rc F s' ts xs fs fp
  | [], [], [], _, h => by simp only [Reps] at h ⊢; exact h
  | f :: fs, t :: ts, x :: xs, _, h => by
    simp only [Reps] at h ⊢
    obtain ⟨fp₁, fp₂, h0, h1 | h1, h2⟩ := h
    · obtain ⟨u, b, h3, h4, h5⟩ := h1
      exact ⟨fp₁, fp₂, h0, .inl ⟨u, b, h3, h4, Rep.mono hrc he h5⟩, Reps.mono hrc he h2⟩
    · exact ⟨fp₁, fp₂, h0, .inr h1, Reps.mono hrc he h2⟩
  | [], [], _ :: _, _, h => by simp only [Reps] at h
  | [], _ :: _, _, _, h => by simp only [Reps] at h
  | _ :: _, [], _, _, h => by simp only [Reps] at h
  | _ :: _, _ :: _, [], _, h => by simp only [Reps] at h
end

mutual
theorem Rep.live {s : State} : ∀ {t : Tree} {u : ι} {b : TBox} {fp : List Block}, Rep env rc F s u b t fp → ∀ k ∈ fp, k ∈ s.blocks
  | .leaf _, _, _, _, h => by simp only [Rep] at h
  | .node v fs, u, b, _, h => by
    simp only [Rep] at h
    obtain ⟨i, e, fp', h1, h2, rfl, h4⟩ := h
    intro k hk
    rcases List.mem_append.1 hk with hk | hk
    · exact h1.blocks_live k hk
    · exact Reps.live h4 k hk
theorem Reps.live {s : State} : ∀ {fs : List Tree} {ts : List Ty} {xs : List Bytes} {fp : List Block},
    Reps env rc F s ts xs fs fp → ∀ k ∈ fp, k ∈ s.blocks
  | [], [], [], _, h => by simp only [Reps] at h; simp [h]
  | f :: fs, t :: ts, x :: xs, _, h => by
    simp only [Reps] at h
    obtain ⟨fp₁, fp₂, rfl, h1, h2⟩ := h
    intro k hk
    rcases List.mem_append.1 hk with hk | hk
    · rcases h1 with ⟨_, b, _, _, h5⟩ | ⟨_, _, rfl⟩
      · exact Rep.live h5 k hk
      · cases hk
    · exact Reps.live h2 k hk
  | [], [], _ :: _, _, h => by simp only [Reps] at h
  | [], _ :: _, _, _, h => by simp only [Reps] at h
  | _ :: _, [], _, _, h => by simp only [Reps] at h
  | _ :: _, _ :: _, [], _, h => by simp only [Reps] at h
end

/-- What is known about a node. -/
theorem Rep.unfold (hF : F.OK env rc) {s : State} {u : ι} {b : TBox} {t : Tree} {fp : List Block}
    (h : Rep env rc F s u b t fp) :
    ∃ fs i e d fp', t = .node d.name fs ∧ Stores env rc (F.decl u) s b i e ∧ (F.decl u)[i]? = some d ∧ e.variant = d.name ∧
      fieldTypes (F.decl u) d.name = d.fields.types ∧ HasTypes rc d.fields.types e.payload.vals ∧
      fp = boxBlocks env rc (F.decl u) b i ++ fp' ∧ Reps env rc F s d.fields.types e.payload.vals fs fp' := by
  cases t with
  | leaf _ => simp only [Rep] at h
  | node v fs =>
    simp only [Rep] at h
    obtain ⟨i, e, fp', h1, rfl, h2, h3⟩ := h
    obtain ⟨d, hdi, hv, hf⟩ := h1.1
    have ht := fieldTypes_of (hF.names u) hdi
    rw [hv, ht] at h3
    exact ⟨fs, i, e, d, fp', by rw [hv], h1, hdi, hv, ht, hasTypes_vals hf, h2, h3⟩

/-- A value with fields that represent trees. -/
theorem Rep.make (hF : F.OK env rc) {s : State} {u : ι} {b : TBox} {i : Nat} {d : VariantDef} {j : Nat}
    (hdi : (F.decl u)[j]? = some d) {vals : List Bytes} (hty : HasTypes rc d.fields.types vals) {fs : List Tree} {fp : List Block}
    (hr : Reps env rc F s d.fields.types vals fs fp) (hs : Stores env rc (F.decl u) s b i (mkVal (F.decl u) d.name vals)) :
    Rep env rc F s u b (.node d.name fs) (boxBlocks env rc (F.decl u) b i ++ fp) := by
  simp only [Rep]
  refine ⟨i, _, fp, hs, rfl, rfl, ?_⟩
  rw [fieldTypes_of (hF.names u) hdi, (mkVal_spec (hF.names u) hdi hty).2]
  exact hr

/-- Distinct blocks that did not exist. -/
def Fresh (s : State) (fp : List Block) : Prop := fp.Nodup ∧ ∀ k ∈ fp, k ∉ s.blocks

theorem Fresh.append {s s₁ : State} {fp₁ fp₂ : List Block} (he : Extends s s₁) (h1 : Fresh s fp₁) (hl : ∀ k ∈ fp₁, k ∈ s₁.blocks)
    (h2 : Fresh s₁ fp₂) : Fresh s (fp₁ ++ fp₂) := by
  refine ⟨List.nodup_append.2 ⟨h1.1, h2.1, fun a ha b hb hab => h2.2 b hb (hab ▸ hl a ha)⟩, fun k hk => ?_⟩
  rcases List.mem_append.1 hk with hk | hk
  · exact h1.2 k hk
  · exact fun hs => h2.2 k hk (he.blocks k hs)

theorem Fresh.swap {s : State} {fp₁ fp₂ : List Block} (h : Fresh s (fp₁ ++ fp₂)) : Fresh s (fp₂ ++ fp₁) :=
  ⟨(List.perm_append_comm.nodup_iff).1 h.1, fun k hk => h.2 k (List.perm_append_comm.mem_iff.1 hk)⟩

theorem boxBlocks_nodup {b : TBox} {i : Nat} : (boxBlocks env rc decl b i).Nodup := by
  unfold boxBlocks
  split
  · exact List.nodup_nil
  · split
    · exact List.nodup_nil
    · split
      · exact List.pairwise_singleton _ _
      · exact List.nodup_nil

/-! ## Derived `clone` -/

/-- How cloning may end: with a good copy, with a failure of the allocator, or with a stack overflow. -/
def Clones (env : Env) {α : Type} (s : State) (o : Out α) (good : State → α → Prop) (deep : Prop) : Prop :=
  ∃ s', HeapInv env s' ∧ Extends s s' ∧
    ((∃ a, o = .ret a s' ∧ good s' a) ∨
     (∃ k, o = .panic k s' ∧ k ≠ .abort ∧ FailOK env (some k) ∧ (env.InRange → NullBetween s s')) ∨
     (o = .panic .abort s' ∧ deep))

theorem Clones.after {α : Type} {s s₁ : State} {o : Out α} {good : State → α → Prop} {deep : Prop} (he : Extends s s₁)
    (h : Clones env s₁ o good deep) : Clones env s o good deep := by
  obtain ⟨s', h1, h2, h3 | ⟨k, h3, h4, h5, h6⟩ | h3⟩ := h
  · exact ⟨s', h1, he.trans h2, .inl h3⟩
  · exact ⟨s', h1, he.trans h2, .inr (.inl ⟨k, h3, h4, h5, fun hin => NullBetween.trans he.trace h2.trace (.inr (h6 hin))⟩)⟩
  · exact ⟨s', h1, he.trans h2, .inr (.inr h3)⟩

theorem Clones.mono {α : Type} {s : State} {o : Out α} {good good' : State → α → Prop} {deep deep' : Prop}
    (h : Clones env s o good deep) (hg : ∀ s' a, Extends s s' → good s' a → good' s' a) (hd : deep → deep') :
    Clones env s o good' deep' := by
  obtain ⟨s', h1, h2, ⟨a, h3, h4⟩ | h3 | ⟨h3, h4⟩⟩ := h
  · exact ⟨s', h1, h2, .inl ⟨a, h3, hg _ _ h2 h4⟩⟩
  · exact ⟨s', h1, h2, .inr (.inl h3)⟩
  · exact ⟨s', h1, h2, .inr (.inr ⟨h3, hd h4⟩)⟩

theorem Clones.bind {α β : Type} {s : State} {m : M α} {f : α → M β} {good : State → α → Prop} {good' : State → β → Prop}
    {deep : Prop} (h : Clones env s (m s) good deep)
    (hf : ∀ s' a, HeapInv env s' → Extends s s' → good s' a → Clones env s' (f a s') good' deep) :
    Clones env s ((m >>= f) s) good' deep := by
  obtain ⟨s', h1, h2, ⟨a, h3, h4⟩ | ⟨k, h3, h4⟩ | ⟨h3, h4⟩⟩ := h
  · rw [M.bind_of_ret h3]
    exact (hf s' a h1 h2 h4).after h2
  · exact ⟨s', h1, h2, .inr (.inl ⟨k, M.bind_of_panic h3, h4⟩)⟩
  · exact ⟨s', h1, h2, .inr (.inr ⟨M.bind_of_panic h3, h4⟩)⟩

theorem Clones.pure {α : Type} {s : State} {a : α} {good : State → α → Prop} {deep : Prop} (hi : HeapInv env s) (h : good s a) :
    Clones env s ((Pure.pure a : M α) s) good deep := ⟨s, hi, Extends.refl _, .inl ⟨a, rfl, h⟩⟩

theorem cloneFields_spec (hrc : rc.OK) (hF : F.OK env rc) {cl : ι → TBox → M TBox} {n : Nat}
    (hcl : ∀ u b t fp s, HeapInv env s → Rep env rc F s u b t fp → Clones env s (cl u b s)
      (fun s' b' => ∃ fp', Fresh s fp' ∧ Rep env rc F s' u b' t fp') (n < t.depth)) :
    ∀ (tys : List Ty) (xs : List Bytes) (fs : List Tree) (fp : List Block) (s : State), HeapInv env s →
      Reps env rc F s tys xs fs fp → HasTypes rc tys xs →
      Clones env s (cloneFields F cl tys xs s)
        (fun s' ys => ∃ fp', Fresh s fp' ∧ Reps env rc F s' tys ys fs fp' ∧ HasTypes rc tys ys) (n < Tree.depths fs)
  | [], [], [], fp, s, hi, _, _ => .pure hi ⟨[], ⟨List.nodup_nil, by simp⟩, by simp only [Reps], trivial⟩
  | t :: tys, x :: xs, f :: fs, fp, s, hi, hr, hty => by
    simp only [Reps] at hr
    obtain ⟨fp₁, fp₂, _, hx, hrs⟩ := hr
    unfold cloneFields
    refine Clones.bind (good := fun s' y => (rc.leaf t).Has y ∧ ∃ fp', Fresh s fp' ∧
      ((∃ u b, F.sub t = some u ∧ y = boxBytes b ∧ Rep env rc F s' u b f fp') ∨
       (F.sub t = none ∧ f = .leaf y ∧ fp' = []))) ?_ ?_
    · rcases hx with ⟨u, b, ht, rfl, hb⟩ | ⟨ht, rfl, rfl⟩
      · simp only [ht, bytesBox_boxBytes]
        refine Clones.bind ((hcl u b f _ s hi hb).mono (good' := fun s' b' => ∃ fp', Fresh s fp' ∧ Rep env rc F s' u b' f fp')
          (fun _ _ _ h => h) ?_) ?_
        · intro h; exact Nat.lt_of_lt_of_le h (Nat.le_max_left _ _)
        · intro s' b' hi' _ ⟨fp', hf', hb'⟩
          exact .pure hi' ⟨boxBytes_has hF ht b', fp', hf', .inl ⟨u, b', rfl, rfl, hb'⟩⟩
      · simp only [ht]
        exact .pure hi ⟨hty.1, [], ⟨List.nodup_nil, by simp⟩, .inr ⟨trivial, rfl, rfl⟩⟩
    · intro s₁ y hi₁ he₁ ⟨hy, fy, hfy, hy'⟩
      have hlive : ∀ k ∈ fy, k ∈ s₁.blocks := by
        rcases hy' with ⟨_, b, _, _, hb⟩ | ⟨_, _, rfl⟩
        · exact hb.live
        · simp
      refine Clones.bind (((cloneFields_spec hrc hF hcl tys xs fs _ s₁ hi₁ (hrs.mono hrc he₁) hty.2)).mono
        (good' := fun s' ys => Extends s₁ s' ∧ ∃ fp', Fresh s₁ fp' ∧ Reps env rc F s' tys ys fs fp' ∧ HasTypes rc tys ys)
        (fun _ _ h1 h2 => ⟨h1, h2⟩) ?_) ?_
      · intro h; exact Nat.lt_of_lt_of_le h (Nat.le_max_right _ _)
      · intro s₂ ys hi₂ he₂ ⟨_, fys, hfys, hr', hty'⟩
        refine .pure hi₂ ⟨fy ++ fys, hfy.append he₁ hlive hfys, ?_, hy, hty'⟩
        simp only [Reps]
        refine ⟨fy, fys, rfl, ?_, hr'⟩
        rcases hy' with ⟨u, b, ht, e, hb⟩ | hy'
        · exact .inl ⟨u, b, ht, e, hb.mono hrc he₂⟩
        · exact .inr hy'
  | [], [], _ :: _, _, _, _, h, _ => by simp only [Reps] at h
  | [], _ :: _, _, _, _, _, h, _ => by simp only [Reps] at h
  | _ :: _, [], _, _, _, _, h, _ => by simp only [Reps] at h
  | _ :: _, _ :: _, [], _, _, _, h, _ => by simp only [Reps] at h

theorem from_clones (h : env.OK) (hrc : rc.OK) (hF : F.OK env rc) (ho : env.debug = true ∨ env.InRange) {u : ι} {d : VariantDef} {j : Nat}
    (hdi : (F.decl u)[j]? = some d) {vals : List Bytes} (hty : HasTypes rc d.fields.types vals) {fs : List Tree} {fp : List Block} {s : State}
    (hi : HeapInv env s) (hr : Reps env rc F s d.fields.types vals fs fp) (deep : Prop) :
    Clones env s (containerFrom env rc (F.prog u) (mkVal (F.decl u) d.name vals) s)
      (fun s' b => ∃ fp', Fresh s fp' ∧ Rep env rc F s' u b (.node d.name fs) (fp' ++ fp)) deep := by
  obtain ⟨fail, s', hf, hg, hi', he', _, hx⟩ := from_step h hrc (hF.compiled u) (hF.fits u) ho ⟨j, (mkVal_spec (hF.names u) hdi hty).1⟩ hi
  cases fail with
  | none =>
    obtain ⟨b, i, hx, hst⟩ := hx
    exact ⟨s', hi', he', .inl ⟨b, hx, _, ⟨boxBlocks_nodup, from_fresh h (hF.compiled u) (hF.fits u) ho hst.1 hx⟩, Rep.make hF hdi hty (hr.mono hrc he') hst⟩⟩
  | some k =>
    refine ⟨s', hi', he', .inr (.inl ⟨k, hx, ?_, hf, fun hin => ?_⟩)⟩
    · rintro rfl
      rcases hf with h | h | h
      · cases h
      · cases h
      · cases h.1
    · by_cases hn : NullBetween s s'
      · exact hn
      · cases hg hin hn

theorem cloneRec_spec (h : env.OK) (hrc : rc.OK) (hF : F.OK env rc) (ho : env.debug = true ∨ env.InRange) : ∀ (n : Nat)
    (u : ι) (b : TBox) (t : Tree) (fp : List Block) (s : State), HeapInv env s → Rep env rc F s u b t fp →
      Clones env s (cloneRec env rc F n u b s) (fun s' b' => ∃ fp', Fresh s fp' ∧ Rep env rc F s' u b' t fp') (n < t.depth)
  | 0, u, b, t, fp, s, hi, hr => by
    obtain ⟨fs, i, e, d, fp', rfl, _⟩ := hr.unfold hF
    exact ⟨s, hi, Extends.refl _, .inr (.inr ⟨rfl, by simp only [Tree.depth]; omega⟩)⟩
  | n + 1, u, b, t, fp, s, hi, hr => by
    have ih := cloneRec_spec h hrc hF ho n
    obtain ⟨fs, i, e, d, fp', rfl, hst, hdi, hv, hft, hty, _, hrs⟩ := hr.unfold hF
    have hP := hF.defs u
    have hcf := (cloneFields_spec hrc hF ih d.fields.types e.payload.vals fs _ s hi hrs hty).mono
      (deep' := n + 1 < 1 + Tree.depths fs) (fun _ _ _ h => h) (fun h => by omega)
    simp only [cloneRec, TBox.clone]
    refine Clones.bind (good := fun s' (r : Option EVal) => ∃ ys fy, Fresh s fy ∧ r = some (mkVal (F.decl u) d.name ys) ∧
      Reps env rc F s' d.fields.types ys fs fy ∧ HasTypes rc d.fields.types ys) ?_ ?_
    · rw [refFrom_owned (hF.compiled u) hst]
      simp only [hP, hv, hft]
      refine Clones.bind (good := fun s' r => ∃ ys fy, Fresh s fy ∧ r = mkVal (F.decl u) d.name ys ∧
        Reps env rc F s' d.fields.types ys fs fy ∧ HasTypes rc d.fields.types ys) (Clones.bind hcf ?_) ?_
      · rintro s' ys hi' _ ⟨fy, hfy, hy⟩
        exact .pure hi' ⟨ys, fy, hfy, rfl, hy⟩
      · rintro s' r hi' _ ⟨ys, fy, hfy, rfl, hy⟩
        exact .pure hi' ⟨ys, fy, hfy, rfl, hy⟩
    · rintro s' r hi' he' ⟨ys, fy, hfy, rfl, hy, hty'⟩
      refine (from_clones h hrc hF ho hdi hty' hi' hy _).mono (fun s'' b' _ ⟨fb, hfb, hb⟩ => ?_) (fun h => h)
      exact ⟨_, (hfy.append he' hy.live hfb).swap, hb⟩

/-! ## Derived `eq`, and walking -/

/-- A look ends with the result or with a stack overflow; nothing changes. -/
def Looks {α : Type} (s : State) (o : Out α) (a : α) (deep : Prop) : Prop := o = .ret a s ∨ (o = .panic .abort s ∧ deep)

theorem Looks.bind {α β : Type} {s : State} {m : M α} {f : α → M β} {a : α} {b : β} {deep : Prop} (h : Looks s (m s) a deep)
    (hf : Looks s (f a s) b deep) : Looks s ((m >>= f) s) b deep := by
  rcases h with h | ⟨h, hd⟩
  · rw [M.bind_of_ret h]; exact hf
  · exact .inr ⟨M.bind_of_panic h, hd⟩

theorem Looks.mono {α : Type} {s : State} {o : Out α} {a : α} {deep deep' : Prop} (h : Looks s o a deep) (hd : deep → deep') :
    Looks s o a deep' := by
  rcases h with h | ⟨h, h'⟩
  · exact .inl h
  · exact .inr ⟨h, hd h'⟩

theorem Looks.pure {α : Type} {s : State} {a : α} {deep : Prop} : Looks s ((Pure.pure a : M α) s) a deep := .inl rfl

theorem walkFields_spec {s : State} {w : ι → TBox → M Tree} {n : Nat}
    (hw : ∀ u b t fp, Rep env rc F s u b t fp → Looks s (w u b s) t (n < t.depth)) :
    ∀ (tys : List Ty) (xs : List Bytes) (fs : List Tree) (fp : List Block), Reps env rc F s tys xs fs fp →
      Looks s (walkFields F w tys xs s) fs (n < Tree.depths fs)
  | [], [], [], _, _ => .pure
  | t :: tys, x :: xs, f :: fs, _, hr => by
    simp only [Reps] at hr
    obtain ⟨fp₁, fp₂, _, hx, hr⟩ := hr
    unfold walkFields
    refine Looks.bind (a := f) ?_ (Looks.bind ((walkFields_spec hw tys xs fs _ hr).mono ?_) .pure)
    · rcases hx with ⟨u, b, ht, rfl, hb⟩ | ⟨ht, rfl, _⟩
      · simp only [ht, bytesBox_boxBytes]
        exact (hw u b f _ hb).mono fun h => Nat.lt_of_lt_of_le h (Nat.le_max_left _ _)
      · simp only [ht]
        exact .pure
    · intro h; exact Nat.lt_of_lt_of_le h (Nat.le_max_right _ _)
  | [], [], _ :: _, _, h => by simp only [Reps] at h
  | [], _ :: _, _, _, h => by simp only [Reps] at h
  | _ :: _, [], _, _, h => by simp only [Reps] at h
  | _ :: _, _ :: _, [], _, h => by simp only [Reps] at h

theorem walkRec_spec (hF : F.OK env rc) {s : State} : ∀ (n : Nat) (u : ι) (b : TBox) (t : Tree) (fp : List Block),
    Rep env rc F s u b t fp → Looks s (walkRec env rc F n u b s) t (n < t.depth)
  | 0, u, b, t, fp, hr => by
    obtain ⟨fs, i, e, d, _, rfl, _⟩ := hr.unfold hF
    exact .inr ⟨rfl, by simp only [Tree.depth]; omega⟩
  | n + 1, u, b, t, fp, hr => by
    have ih := walkRec_spec hF (s := s) n
    obtain ⟨fs, i, e, d, _, rfl, hst, hdi, hv, hft, hty, _, hrs⟩ := hr.unfold hF
    have hP := hF.defs u
    have hwf := (walkFields_spec ih d.fields.types e.payload.vals fs _ hrs).mono (deep' := n + 1 < 1 + Tree.depths fs)
      (fun h => by omega)
    simp only [walkRec]
    refine Looks.bind (a := some (.node d.name fs)) ?_ .pure
    rw [refFrom_owned (hF.compiled u) hst]
    simp only [hP, hv, hft]
    exact Looks.bind (a := .node d.name fs) (Looks.bind hwf .pure) .pure

theorem blocksFields_spec {s : State} {w : ι → TBox → M (List Block)} {n : Nat}
    (hw : ∀ u b t fp, Rep env rc F s u b t fp → Looks s (w u b s) fp (n < t.depth)) :
    ∀ (tys : List Ty) (xs : List Bytes) (fs : List Tree) (fp : List Block), Reps env rc F s tys xs fs fp →
      Looks s (blocksFields F w tys xs s) fp (n < Tree.depths fs)
  | [], [], [], _, h => by simp only [Reps] at h; rw [h]; exact .pure
  | t :: tys, x :: xs, f :: fs, _, hr => by
    simp only [Reps] at hr
    obtain ⟨fp₁, fp₂, rfl, hx, hr⟩ := hr
    unfold blocksFields
    refine Looks.bind (a := fp₁) ?_ (Looks.bind ((blocksFields_spec hw tys xs fs _ hr).mono ?_) .pure)
    · rcases hx with ⟨u, b, ht, rfl, hb⟩ | ⟨ht, _, rfl⟩
      · simp only [ht, bytesBox_boxBytes]
        exact (hw u b f _ hb).mono fun h => Nat.lt_of_lt_of_le h (Nat.le_max_left _ _)
      · simp only [ht]
        exact .pure
    · intro h; exact Nat.lt_of_lt_of_le h (Nat.le_max_right _ _)
  | [], [], _ :: _, _, h => by simp only [Reps] at h
  | [], _ :: _, _, _, h => by simp only [Reps] at h
  | _ :: _, [], _, _, h => by simp only [Reps] at h
  | _ :: _, _ :: _, [], _, h => by simp only [Reps] at h

theorem payloadBlock_eq (hn : (decl.map (·.name)).Nodup) {b : TBox} {i : Nat} {d : VariantDef} (hdi : decl[i]? = some d) :
    payloadBlock env rc decl b d.name = boxBlocks env rc decl b i := by
  simp only [payloadBlock, boxBlocks, lookupDef, find_decl hn hdi, hdi, Option.map_some, Option.bind_some]
  rfl

theorem blocksRec_spec (hF : F.OK env rc) {s : State} : ∀ (n : Nat) (u : ι) (b : TBox) (t : Tree) (fp : List Block),
    Rep env rc F s u b t fp → Looks s (blocksRec env rc F n u b s) fp (n < t.depth)
  | 0, u, b, t, fp, hr => by
    obtain ⟨fs, i, e, d, _, rfl, _⟩ := hr.unfold hF
    exact .inr ⟨rfl, by simp only [Tree.depth]; omega⟩
  | n + 1, u, b, t, fp, hr => by
    have ih := blocksRec_spec hF (s := s) n
    obtain ⟨fs, i, e, d, fp', rfl, hst, hdi, hv, hft, hty, rfl, hrs⟩ := hr.unfold hF
    have hP := hF.defs u
    have hwf := (blocksFields_spec ih d.fields.types e.payload.vals fs _ hrs).mono (deep' := n + 1 < 1 + Tree.depths fs)
      (fun h => by omega)
    simp only [blocksRec]
    refine Looks.bind (a := some (boxBlocks env rc (F.decl u) b i ++ fp')) ?_ .pure
    rw [refFrom_owned (hF.compiled u) hst]
    simp only [hP, hv, hft, payloadBlock_eq (hF.names u) hdi]
    exact Looks.bind (a := boxBlocks env rc (F.decl u) b i ++ fp') (Looks.bind hwf .pure) .pure

section Compare

variable {γ : Type} {K : Comparison γ}

theorem compareFields_spec {s : State} {q : ι → TBox → TBox → M γ} {n : Nat}
    (hq : ∀ u b t fp b' t' fp', Rep env rc F s u b t fp → Rep env rc F s u b' t' fp' →
      Looks s (q u b b' s) (t.compare F K u t') (n < t.depth ∧ n < t'.depth)) :
    ∀ (tys : List Ty) (xs : List Bytes) (fs : List Tree) (fp : List Block) (xs' : List Bytes) (fs' : List Tree) (fp' : List Block),
      Reps env rc F s tys xs fs fp → Reps env rc F s tys xs' fs' fp' →
      Looks s (compareFields F K q tys xs xs' s) (Tree.compares F K tys fs fs') (n < Tree.depths fs ∧ n < Tree.depths fs')
  | [], [], [], _, [], [], _, _, _ => by
    unfold compareFields Tree.compares
    exact .pure
  | t :: tys, x :: xs, f :: fs, _, x' :: xs', f' :: fs', _, hr, hr' => by
    simp only [Reps] at hr hr'
    obtain ⟨_, _, _, hx, hr⟩ := hr
    obtain ⟨_, _, _, hx', hr'⟩ := hr'
    have ih := (compareFields_spec hq tys xs fs _ xs' fs' _ hr hr').mono
      (deep' := n < Tree.depths (f :: fs) ∧ n < Tree.depths (f' :: fs'))
      (fun h => ⟨Nat.lt_of_lt_of_le h.1 (Nat.le_max_right _ _), Nat.lt_of_lt_of_le h.2 (Nat.le_max_right _ _)⟩)
    unfold compareFields Tree.compares
    have key : ∀ r : γ, Looks s ((if K.goOn r then compareFields F K q tys xs xs' else pure r : M γ) s)
        (if K.goOn r then Tree.compares F K tys fs fs' else r) (n < Tree.depths (f :: fs) ∧ n < Tree.depths (f' :: fs')) := by
      intro r
      cases K.goOn r with
      | true => exact ih
      | false => exact .pure
    refine Looks.bind ?_ (key _)
    rcases hx with ⟨u, b, ht, rfl, hb⟩ | ⟨ht, rfl, _⟩
    · rcases hx' with ⟨u', b', ht', rfl, hb'⟩ | ⟨ht', _⟩
      · rw [ht] at ht'
        cases ht'
        simp only [ht, bytesBox_boxBytes]
        exact (hq u b f _ b' f' _ hb hb').mono
          (fun h => ⟨Nat.lt_of_lt_of_le h.1 (Nat.le_max_left _ _), Nat.lt_of_lt_of_le h.2 (Nat.le_max_left _ _)⟩)
      · rw [ht] at ht'; cases ht'
    · rcases hx' with ⟨u', _, ht', _⟩ | ⟨_, rfl, _⟩
      · rw [ht] at ht'; cases ht'
      · simp only [ht]
        exact .pure
  | [], [], _ :: _, _, _, _, _, h, _ => by simp only [Reps] at h
  | [], _ :: _, _, _, _, _, _, h, _ => by simp only [Reps] at h
  | [], [], [], _, [], _ :: _, _, _, h => by simp only [Reps] at h
  | [], [], [], _, _ :: _, _, _, _, h => by simp only [Reps] at h
  | _ :: _, [], _, _, _, _, _, h, _ => by simp only [Reps] at h
  | _ :: _, _ :: _, [], _, _, _, _, h, _ => by simp only [Reps] at h
  | _ :: _, _ :: _, _ :: _, _, [], _, _, _, h => by simp only [Reps] at h
  | _ :: _, _ :: _, _ :: _, _, _ :: _, [], _, _, h => by simp only [Reps] at h

/-- `top` observes both values and applies the given function. -/
def ComparesValues (top : Taggable EVal → (EVal → EVal → M γ) → TBox → TBox → M γ) : Prop :=
  ∃ dflt, ∀ T f a b, top T f a b = (do
    let r ← T.refFrom a (fun this => T.refFrom b (fun other => f this other))
    pure (r.join.getD dflt) : M γ)

theorem compareRec_spec (hF : F.OK env rc) {top : Taggable EVal → (EVal → EVal → M γ) → TBox → TBox → M γ} (htop : ComparesValues top)
    {s : State} : ∀ (n : Nat) (u : ι) (b : TBox) (t : Tree) (fp : List Block) (b' : TBox)
    (t' : Tree) (fp' : List Block), Rep env rc F s u b t fp → Rep env rc F s u b' t' fp' →
      Looks s (compareRec env rc F K top n u b b' s) (t.compare F K u t') (n < t.depth ∧ n < t'.depth)
  | 0, u, b, t, _, b', t', _, hr, hr' => by
    obtain ⟨fs, i, e, d, _, rfl, _⟩ := hr.unfold hF
    obtain ⟨fs', i', e', d', _, rfl, _⟩ := hr'.unfold hF
    exact .inr ⟨rfl, by simp only [Tree.depth]; omega⟩
  | n + 1, u, b, t, _, b', t', _, hr, hr' => by
    have ih := compareRec_spec hF htop (s := s) n
    obtain ⟨fs, i, e, d, _, rfl, hst, hdi, hv, hft, hty, _, hrs⟩ := hr.unfold hF
    obtain ⟨fs', i', e', d', _, rfl, hst', hdi', hv', hft', hty', _, hrs'⟩ := hr'.unfold hF
    have hP := hF.defs u
    obtain ⟨dflt, htop⟩ := htop
    simp only [compareRec]
    rw [htop, nested_owned (hF.compiled u) hst hst']
    simp only [hv, hv', hP]
    unfold Tree.compare
    by_cases hn : d.name = d'.name
    · have hdd : d = d' := by
        have h1 := find_decl (hF.names u) hdi
        have h2 := find_decl (hF.names u) hdi'
        rw [hn] at h1
        exact Option.some.inj (h1.symm.trans h2)
      subst hdd
      rw [if_pos rfl, if_pos rfl, hft]
      exact (compareFields_spec ih d.fields.types _ fs _ _ fs' _ hrs hrs').mono (fun h => by simp only [Tree.depth]; omega)
    · rw [if_neg hn, if_neg hn]
      exact .pure

end Compare

theorem eq_compares : ComparesValues (TBox.eq (E := EVal)) := ⟨false, fun _ _ _ _ => rfl⟩
theorem partialCmp_compares : ComparesValues (TBox.partialCmp (E := EVal)) := ⟨none, fun _ _ _ _ => rfl⟩
theorem cmp_compares : ComparesValues (TBox.cmp (E := EVal)) := ⟨.eq, fun _ _ _ _ => rfl⟩

/-! ## Moving containers in and out of fields -/

/-- The containers of the client are the roots of the trees of the plain client; `fps` are the blocks of each tree, and no block
belongs to two containers. -/
structure RSim (env : Env) (rc : Rustc) (F : Family ι) (s : State) (cs : List (Option (ι × TBox)))
    (hs : List (Option (ι × Tree))) (fps : List (List Block)) : Prop where
  len : cs.length = hs.length
  flen : fps.length = hs.length
  hnone : ∀ h : Nat, hs[h]?.join = none → cs[h]?.join = none
  hsome : ∀ (h : Nat) u t, hs[h]?.join = some (u, t) → ∃ b, cs[h]?.join = some (u, b) ∧ Rep env rc F s u b t (fps[h]?.getD [])
  one : ∀ k, fps.flatten.count k ≤ 1
  live : ∀ k ∈ fps.flatten, k ∈ s.blocks

variable {s : State} {cs : List (Option (ι × TBox))} {hs : List (Option (ι × Tree))} {fps : List (List Block)}

theorem RSim.mono (hrc : rc.OK) (S : RSim env rc F s cs hs fps) {s' : State} (he : Extends s s') :
    RSim env rc F s' cs hs fps :=
  ⟨S.len, S.flen, S.hnone, fun h u t ht => by
    obtain ⟨b, h1, h2⟩ := S.hsome h u t ht
    exact ⟨b, h1, h2.mono hrc he⟩, S.one, fun k hk => he.blocks k (S.live k hk)⟩

theorem count_set (k : Block) : ∀ (fps : List (List Block)) (h : Nat),
    (fps.set h []).flatten.count k + (fps[h]?.getD []).count k = fps.flatten.count k
  | [], h => by simp
  | f :: fps, 0 => by simp [Nat.add_comm]
  | f :: fps, h + 1 => by
    have := count_set k fps h
    simp only [List.set_cons_succ, List.flatten_cons, List.count_append, List.getElem?_cons_succ]
    omega

theorem count_push (k : Block) (fps : List (List Block)) (fp : List Block) :
    (fps ++ [fp]).flatten.count k = fps.flatten.count k + fp.count k := by simp

theorem join_push {α : Type} (l : List (Option α)) (a : α) (k : Nat) :
    (l ++ [some a])[k]?.join = if k < l.length then l[k]?.join else if k = l.length then some a else none := by
  rw [List.getElem?_append]
  split
  · rfl
  · rw [List.getElem?_singleton]
    by_cases hk : k = l.length
    · rw [if_pos hk, if_pos (by omega)]; rfl
    · rw [if_neg hk, if_neg (by omega)]; rfl

theorem RSim.push (S : RSim env rc F s cs hs fps) {u : ι} {b : TBox} {t : Tree} {fp : List Block} (h : Rep env rc F s u b t fp)
    (h1 : ∀ k, fps.flatten.count k + fp.count k ≤ 1) : RSim env rc F s (cs ++ [some (u, b)]) (hs ++ [some (u, t)]) (fps ++ [fp]) := by
  refine ⟨by simp [S.len], by simp [S.flen], fun k hk => ?_, fun k u' t' hk => ?_, fun k => by rw [count_push]; exact h1 k, fun k hk => ?_⟩
  · rw [join_push] at hk ⊢
    rw [S.len]
    split at hk
    · rename_i hlt; rw [if_pos hlt]; exact S.hnone k hk
    · rename_i hlt
      rw [if_neg hlt]
      split at hk
      · cases hk
      · rename_i h0; rw [if_neg h0]
  · rw [join_push] at hk
    rw [join_push, S.len]
    split at hk
    · rename_i hlt
      rw [if_pos hlt, List.getElem?_append_left (by rw [S.flen]; exact hlt)]
      exact S.hsome k u' t' hk
    · rename_i hlt
      rw [if_neg hlt]
      split at hk
      · rename_i h0
        rw [if_pos h0, h0, ← S.flen, List.getElem?_append_right (Nat.le_refl _), Nat.sub_self]
        cases hk; exact ⟨b, rfl, h⟩
      · cases hk
  · rw [List.flatten_append, List.mem_append] at hk
    rcases hk with hk | hk
    · exact S.live k hk
    · exact h.live k (by simpa using hk)

theorem RSim.consume (S : RSim env rc F s cs hs fps) (h : Nat) :
    RSim env rc F s (cs.set h none) (hs.set h none) (fps.set h []) := by
  refine ⟨by simp [S.len], by simp [S.flen], fun k hh => ?_, fun k u e hh => ?_, fun k => ?_, fun k hk => ?_⟩
  · rw [join_set] at hh ⊢
    split
    · rfl
    · rename_i hne; rw [if_neg hne] at hh; exact S.hnone k hh
  · rw [join_set] at hh
    rw [join_set]
    split at hh
    · cases hh
    · rename_i hne
      rw [if_neg hne, List.getElem?_set_ne (by omega)]
      exact S.hsome k u e hh
  · have := S.one k
    have := count_set k fps h
    omega
  · refine S.live k (List.count_pos_iff.1 ?_)
    have := List.count_pos_iff.2 hk
    have := count_set k fps h
    omega

theorem RSim.look (S : RSim env rc F s cs hs fps) (h : Nat) : (cs[h]?.join = none ∧ hs[h]?.join = none) ∨
    ∃ u b t, cs[h]?.join = some (u, b) ∧ hs[h]?.join = some (u, t) ∧ Rep env rc F s u b t (fps[h]?.getD []) := by
  cases hk : hs[h]?.join with
  | none => exact .inl ⟨S.hnone h hk, rfl⟩
  | some ut =>
    obtain ⟨u, t⟩ := ut
    obtain ⟨b, h1, h2⟩ := S.hsome h u t hk
    exact .inr ⟨u, b, t, h1, rfl, h2⟩

variable [DecidableEq ι]

theorem takeFields_spec (hF : F.OK env rc) : ∀ (tys : List Ty) (fields : List (Bytes ⊕ Nat)) (cs : List (Option (ι × TBox)))
    (hs : List (Option (ι × Tree))) (fps : List (List Block)), RSim env rc F s cs hs fps → FieldsOK rc F tys fields →
    (takeFields F cs tys fields = none ∧ takeFields F hs tys fields = none) ∨
    ∃ r cs' r' hs' fps' fp, takeFields F cs tys fields = some (r, cs') ∧ takeFields F hs tys fields = some (r', hs') ∧
      RSim env rc F s cs' hs' fps' ∧ HasTypes rc tys (r.map fieldBytes) ∧
      Reps env rc F s tys (r.map fieldBytes) (r'.map fieldTree) fp ∧
      ∀ k, fps'.flatten.count k + fp.count k = fps.flatten.count k
  | [], [], cs, hs, fps, S, _ => .inr ⟨[], cs, [], hs, fps, [], rfl, rfl, S, trivial, by simp only [List.map_nil, Reps], by simp⟩
  | t :: tys, .inl x :: fields, cs, hs, fps, S, hf => by
    rcases takeFields_spec hF tys fields cs hs fps S hf.2 with ⟨h1, h2⟩ | ⟨r, cs', r', hs', fps', fp, h1, h2, S', h3, h4, h5⟩
    · exact .inl ⟨by simp only [takeFields, h1]; rfl, by simp only [takeFields, h2]; rfl⟩
    · refine .inr ⟨.inl x :: r, cs', .inl x :: r', hs', fps', fp, by simp only [takeFields, h1]; rfl,
        by simp only [takeFields, h2]; rfl, S', ⟨hf.1.2, h3⟩, ?_, h5⟩
      simp only [List.map_cons, Reps]
      exact ⟨[], fp, rfl, .inr ⟨hf.1.1, rfl, rfl⟩, h4⟩
  | t :: tys, .inr h :: fields, cs, hs, fps, S, hf => by
    rcases S.look h with ⟨h1, h2⟩ | ⟨u, b, w, h1, h2, hb⟩
    · exact .inl ⟨by simp only [takeFields, h1]; rfl, by simp only [takeFields, h2]; rfl⟩
    · by_cases ht : F.sub t = some u
      · rcases takeFields_spec hF tys fields _ _ _ (S.consume h) hf.2 with ⟨k1, k2⟩ | ⟨r, cs', r', hs', fps', fp, k1, k2, S', h3, h4, h5⟩
        · exact .inl ⟨by simp only [takeFields, h1, Option.bind_some, k1, if_pos ht]; rfl,
            by simp only [takeFields, h2, Option.bind_some, k2, if_pos ht]; rfl⟩
        · refine .inr ⟨.inr b :: r, cs', .inr w :: r', hs', fps', fps[h]?.getD [] ++ fp,
            by simp only [takeFields, h1, Option.bind_some, k1, if_pos ht]; rfl,
            by simp only [takeFields, h2, Option.bind_some, k2, if_pos ht]; rfl, S', ⟨boxBytes_has hF ht b, h3⟩, ?_, fun k => ?_⟩
          · simp only [List.map_cons, Reps]
            exact ⟨_, fp, rfl, .inl ⟨u, b, ht, rfl, hb⟩, h4⟩
          · have := h5 k
            have := count_set k fps h
            rw [List.count_append]
            omega
      · exact .inl ⟨by simp only [takeFields, h1, Option.bind_some, if_neg ht], by simp only [takeFields, h2, Option.bind_some, if_neg ht]⟩
  | [], _ :: _, _, _, _, _, hf => hf.elim
  | _ :: _, [], _, _, _, _, hf => hf.elim

omit [DecidableEq ι] in
theorem giveFields_spec : ∀ (tys : List Ty) (xs : List Bytes) (fs : List Tree) (fp : List Block)
    (cs : List (Option (ι × TBox))) (hs : List (Option (ι × Tree))) (fps : List (List Block)), RSim env rc F s cs hs fps →
    Reps env rc F s tys xs fs fp → (∀ k, fps.flatten.count k + fp.count k ≤ 1) →
    (giveFields cs (splitFields F tys xs)).1 = (giveFields hs (splitTrees F tys fs)).1 ∧
    ∃ fps', RSim env rc F s (giveFields cs (splitFields F tys xs)).2 (giveFields hs (splitTrees F tys fs)).2 fps'
  | [], [], [], _, cs, hs, fps, S, _, _ => ⟨rfl, fps, S⟩
  | t :: tys, x :: xs, f :: fs, _, cs, hs, fps, S, hr, h1 => by
    simp only [Reps] at hr
    obtain ⟨fp₁, fp₂, rfl, hx, hr⟩ := hr
    rcases hx with ⟨u, b, ht, rfl, hb⟩ | ⟨ht, rfl, rfl⟩
    · have h1' : ∀ k, fps.flatten.count k + fp₁.count k + fp₂.count k ≤ 1 := fun k => by
        have := h1 k
        rw [List.count_append] at this
        omega
      obtain ⟨g1, g2⟩ := giveFields_spec tys xs fs _ _ _ _ (S.push hb fun k => by have := h1' k; omega) hr
        (fun k => by rw [count_push]; exact h1' k)
      simp only [splitFields, splitTrees, ht, bytesBox_boxBytes, giveFields]
      exact ⟨by rw [g1, S.len], g2⟩
    · obtain ⟨g1, g2⟩ := giveFields_spec tys xs fs _ _ _ _ S hr h1
      simp only [splitFields, splitTrees, ht, giveFields]
      exact ⟨by rw [g1], g2⟩
  | [], [], _ :: _, _, _, _, _, _, h, _ => by simp only [Reps] at h
  | [], _ :: _, _, _, _, _, _, _, h, _ => by simp only [Reps] at h
  | _ :: _, [], _, _, _, _, _, _, h, _ => by simp only [Reps] at h
  | _ :: _, _ :: _, [], _, _, _, _, _, h, _ => by simp only [Reps] at h

/-- Fresh blocks belong to nobody else. -/
theorem Fresh.count {fp fp' : List Block} (hf : Fresh s fp) (hl : ∀ k ∈ fp', k ∈ s.blocks) {k : Block} (h1 : fp'.count k ≤ 1) :
    fp'.count k + fp.count k ≤ 1 := by
  by_cases hk : k ∈ fp'
  · have : fp.count k = 0 := List.count_eq_zero.2 fun hx => hf.2 k hx (hl k hk)
    omega
  · have : fp'.count k = 0 := List.count_eq_zero.2 hk
    have := List.nodup_iff_count.1 hf.1 k
    omega

/-! ## Steps -/

omit [DecidableEq ι] in
theorem rstepWith_ret {α : Type} {s s' : State} {m : M α} {a : α} (h : m s = .ret a s') (f : α → RRes × List (Option (ι × TBox)))
    (u : List (Option (ι × TBox))) : rstepWith s m f u = some ((f a).1, ⟨s', (f a).2⟩) := by simp only [rstepWith, h]

omit [DecidableEq ι] in
theorem rstepWith_panic {α : Type} {s s' : State} {m : M α} {k : PanicKind} (h : m s = .panic k s')
    (f : α → RRes × List (Option (ι × TBox))) (u : List (Option (ι × TBox))) :
    rstepWith s m f u = some (.panicked k, ⟨s', u⟩) := by simp only [rstepWith, h]

variable {L : LeafOps} {stack : Nat}

/-- What may fail: memory, or the stack. -/
def RFailOK (env : Env) (f : Option PanicKind) : Prop := FailOK env f ∨ f = some .abort

theorem rstep_spec (h : env.OK) (hrc : rc.OK) (hF : F.OK env rc) (ho : env.debug = true ∨ env.InRange)
    (hi : HeapInv env s) (S : RSim env rc F s cs hs fps) {op : ROp ι} (hop : op.OK rc F) :
    ∃ fail, RFailOK env fail ∧
      ((rstep env rc F L stack ⟨s, cs⟩ op = none ∧ rplain F L stack fail hs op = none) ∨
       ∃ o c' hs', rstep env rc F L stack ⟨s, cs⟩ op = some (o, c') ∧ rplain F L stack fail hs op = some (o, hs') ∧
        HeapInv env c'.s ∧ Extends s c'.s ∧ (∃ fps', RSim env rc F c'.s c'.handles hs' fps') ∧
        (env.InRange → ¬ NullBetween s c'.s → fail = none ∨ fail = some .abort)) := by
  have ok : RFailOK env none := .inl (.inl rfl)
  cases op with
  | make u v fields =>
    obtain ⟨d, hd, rfl, hf⟩ := hop
    obtain ⟨j, hdi⟩ := List.getElem?_of_mem hd
    have hP := hF.defs u
    have hft := fieldTypes_of (hF.names u) hdi
    rcases takeFields_spec hF _ fields cs hs fps S hf with ⟨h1, h2⟩ | ⟨r, cs', r', hs', fps', fp, h1, h2, S', hty, hr, hone⟩
    · exact ⟨none, ok, .inl ⟨by simp only [rstep, hP, hft, h1]; rfl, by simp only [rplain, hft, h2]; rfl⟩⟩
    · have hstep : rstep env rc F L stack ⟨s, cs⟩ (.make u d.name fields) =
          rstepWith s (containerFrom env rc (F.prog u) (mkVal (F.decl u) d.name (r.map fieldBytes)))
            (fun b => (.handle cs'.length, cs' ++ [some (u, b)])) cs' := by
        simp only [rstep, hP, hft, h1]; rfl
      obtain ⟨s', hi', he', ⟨b, hx, fb, hfb, hb⟩ | ⟨k, hx, hk, hfk, hn⟩ | ⟨_, hx⟩⟩ :=
        from_clones h hrc hF ho hdi hty hi hr False
      · refine ⟨none, ok, .inr ⟨_, _, hs' ++ [some (u, .node d.name (r'.map fieldTree))], hstep.trans (rstepWith_ret hx _ _), ?_, hi', he',
          ⟨_, (S'.mono hrc he').push hb fun k => ?_⟩, fun _ _ => .inl rfl⟩⟩
        · simp only [rplain, hft, h2, Option.map_some, S'.len]
        · have h3 := hone k
          have h4 := S.one k
          have h5 := (hfb.count (fp' := fps.flatten) S.live h4)
          rw [List.count_append]
          omega
      · refine ⟨some k, .inl hfk, .inr ⟨_, _, hs', hstep.trans (rstepWith_panic hx _ _), ?_, hi', he', ⟨_, S'.mono hrc he'⟩,
          fun hin hnn => absurd (hn hin) hnn⟩⟩
        simp only [rplain, hft, h2, Option.map_some]
      · exact hx.elim
  | «open» k =>
    rcases S.look k with ⟨h1, h2⟩ | ⟨u, b, t, h1, h2, hb⟩
    · exact ⟨none, ok, .inl ⟨by simp only [rstep, h1]; rfl, by simp only [rplain, h2]; rfl⟩⟩
    · obtain ⟨fs, i, e, d, fp', rfl, hst, hdi, hv, hft, hty, hfp, hrs⟩ := hb.unfold hF
      have hr : containerIntoInner env rc (F.prog u) b s = .ret e s := by
        obtain ⟨hw, hp⟩ := (hF.compiled u).wf
        rw [hp]
        exact containerIntoInner_stores hw.u8 hw.names hw.members hst
      have hP := hF.defs u
      obtain ⟨g1, g2⟩ := giveFields_spec _ _ fs _ _ _ _ (S.consume k) hrs fun x => by
        have h3 := count_set x fps k
        have h4 := S.one x
        rw [hfp, List.count_append] at h3
        omega
      refine ⟨none, ok, .inr ⟨.opened d.name (giveFields (hs.set k none) (splitTrees F d.fields.types fs)).1,
        ⟨s, (giveFields (cs.set k none) (splitFields F d.fields.types e.payload.vals)).2⟩, _, ?_, ?_, hi, Extends.refl _, g2,
        fun _ _ => .inl rfl⟩⟩
      · simp only [rstep, h1, Option.bind_some, rstepWith, hr, hv, hP, hft, g1]
      · simp only [rplain, h2, Option.bind_some, hft]
  | walk k =>
    rcases S.look k with ⟨h1, h2⟩ | ⟨u, b, t, h1, h2, hb⟩
    · exact ⟨none, ok, .inl ⟨by simp only [rstep, h1]; rfl, by simp only [rplain, h2]; rfl⟩⟩
    · rcases walkRec_spec hF stack u b t _ hb with hx | ⟨hx, hd⟩
      · refine ⟨none, ok, .inr ⟨.tree t, ⟨s, cs⟩, hs, by simp only [rstep, h1, Option.bind_some, rstepWith, hx], ?_, hi,
          Extends.refl _, ⟨_, S⟩, fun _ _ => .inl rfl⟩⟩
        simp [rplain, h2]
      · refine ⟨some .abort, .inr rfl, .inr ⟨.panicked .abort, ⟨s, cs⟩, hs,
          by simp only [rstep, h1, Option.bind_some, rstepWith, hx], ?_, hi, Extends.refl _, ⟨_, S⟩, fun _ _ => .inr rfl⟩⟩
        simp [rplain, h2, hd]
  | clone k =>
    rcases S.look k with ⟨h1, h2⟩ | ⟨u, b, t, h1, h2, hb⟩
    · exact ⟨none, ok, .inl ⟨by simp only [rstep, h1]; rfl, by simp only [rplain, h2]; rfl⟩⟩
    · have hstep : rstep env rc F L stack ⟨s, cs⟩ (.clone k) = rstepWith s (cloneRec env rc F stack u b)
          (fun b' => (.handle cs.length, cs ++ [some (u, b')])) cs := by
        simp only [rstep, h1, Option.bind_some]
      obtain ⟨s', hi', he', ⟨b', hx, fb, hfb, hb'⟩ | ⟨k', hx, hk, hfk, hn⟩ | ⟨hx, hd⟩⟩ := cloneRec_spec h hrc hF ho stack u b t _ s hi hb
      · refine ⟨none, ok, .inr ⟨_, _, hs ++ [some (u, t)], hstep.trans (rstepWith_ret hx _ _), ?_, hi', he', 
          ⟨_, (S.mono hrc he').push hb' fun k => hfb.count S.live (S.one k)⟩, fun _ _ => .inl rfl⟩⟩
        simp only [rplain, h2, Option.map_some, S.len]
      · refine ⟨some k', .inl hfk, .inr ⟨_, _, hs, hstep.trans (rstepWith_panic hx _ _), ?_, hi', he', ⟨_, S.mono hrc he'⟩,
          fun hin hnn => absurd (hn hin) hnn⟩⟩
        simp only [rplain, h2, Option.map_some]
      · refine ⟨some .abort, .inr rfl, .inr ⟨_, _, hs, hstep.trans (rstepWith_panic hx _ _), ?_, hi', he', ⟨_, S.mono hrc he'⟩,
          fun _ _ => .inr rfl⟩⟩
        simp only [rplain, h2, Option.map_some, if_pos hd]
  | eq k k' =>
    rcases S.look k with ⟨h1, h2⟩ | ⟨u, b, t, h1, h2, hb⟩
    · exact ⟨none, ok, .inl ⟨by simp only [rstep, h1]; rfl, by simp only [rplain, h2]; rfl⟩⟩
    · rcases S.look k' with ⟨h1', h2'⟩ | ⟨u', b', t', h1', h2', hb'⟩
      · exact ⟨none, ok, .inl ⟨by simp only [rstep, h1, h1']; rfl, by simp only [rplain, h2, h2']; rfl⟩⟩
      · by_cases hu : u = u'
        · subst hu
          rcases compareRec_spec (K := L.forEq) hF eq_compares stack u b t _ b' t' _ hb hb' with hx | ⟨hx, hd⟩
          · refine ⟨none, ok, .inr ⟨.bool (t.compare F L.forEq u t'), ⟨s, cs⟩, hs,
              by simp only [rstep, h1, h1', Option.bind_some, if_pos, rstepWith, hx], ?_, hi,
              Extends.refl _, ⟨_, S⟩, fun _ _ => .inl rfl⟩⟩
            simp [rplain, h2, h2']
          · refine ⟨some .abort, .inr rfl, .inr ⟨.panicked .abort, ⟨s, cs⟩, hs,
              by simp only [rstep, h1, h1', Option.bind_some, if_pos, rstepWith, hx], ?_, hi, Extends.refl _, ⟨_, S⟩, fun _ _ => .inr rfl⟩⟩
            simp [rplain, h2, h2', hd]
        · exact ⟨none, ok, .inl ⟨by simp only [rstep, h1, h1', Option.bind_some, if_neg hu],
            by simp only [rplain, h2, h2', Option.bind_some, if_neg hu]⟩⟩
  | partialCmp k k' =>
    rcases S.look k with ⟨h1, h2⟩ | ⟨u, b, t, h1, h2, hb⟩
    · exact ⟨none, ok, .inl ⟨by simp only [rstep, h1]; rfl, by simp only [rplain, h2]; rfl⟩⟩
    · rcases S.look k' with ⟨h1', h2'⟩ | ⟨u', b', t', h1', h2', hb'⟩
      · exact ⟨none, ok, .inl ⟨by simp only [rstep, h1, h1']; rfl, by simp only [rplain, h2, h2']; rfl⟩⟩
      · by_cases hu : u = u'
        · subst hu
          rcases compareRec_spec (K := L.forPartialCmp) hF partialCmp_compares stack u b t _ b' t' _ hb hb' with hx | ⟨hx, hd⟩
          · refine ⟨none, ok, .inr ⟨.pord (t.compare F L.forPartialCmp u t'), ⟨s, cs⟩, hs,
              by simp only [rstep, h1, h1', Option.bind_some, if_pos, rstepWith, hx], ?_, hi,
              Extends.refl _, ⟨_, S⟩, fun _ _ => .inl rfl⟩⟩
            simp [rplain, h2, h2']
          · refine ⟨some .abort, .inr rfl, .inr ⟨.panicked .abort, ⟨s, cs⟩, hs,
              by simp only [rstep, h1, h1', Option.bind_some, if_pos, rstepWith, hx], ?_, hi, Extends.refl _, ⟨_, S⟩, fun _ _ => .inr rfl⟩⟩
            simp [rplain, h2, h2', hd]
        · exact ⟨none, ok, .inl ⟨by simp only [rstep, h1, h1', Option.bind_some, if_neg hu],
            by simp only [rplain, h2, h2', Option.bind_some, if_neg hu]⟩⟩
  | cmp k k' =>
    rcases S.look k with ⟨h1, h2⟩ | ⟨u, b, t, h1, h2, hb⟩
    · exact ⟨none, ok, .inl ⟨by simp only [rstep, h1]; rfl, by simp only [rplain, h2]; rfl⟩⟩
    · rcases S.look k' with ⟨h1', h2'⟩ | ⟨u', b', t', h1', h2', hb'⟩
      · exact ⟨none, ok, .inl ⟨by simp only [rstep, h1, h1']; rfl, by simp only [rplain, h2, h2']; rfl⟩⟩
      · by_cases hu : u = u'
        · subst hu
          rcases compareRec_spec (K := L.forCmp) hF cmp_compares stack u b t _ b' t' _ hb hb' with hx | ⟨hx, hd⟩
          · refine ⟨none, ok, .inr ⟨.ord (t.compare F L.forCmp u t'), ⟨s, cs⟩, hs,
              by simp only [rstep, h1, h1', Option.bind_some, if_pos, rstepWith, hx], ?_, hi,
              Extends.refl _, ⟨_, S⟩, fun _ _ => .inl rfl⟩⟩
            simp [rplain, h2, h2']
          · refine ⟨some .abort, .inr rfl, .inr ⟨.panicked .abort, ⟨s, cs⟩, hs,
              by simp only [rstep, h1, h1', Option.bind_some, if_pos, rstepWith, hx], ?_, hi, Extends.refl _, ⟨_, S⟩, fun _ _ => .inr rfl⟩⟩
            simp [rplain, h2, h2', hd]
        · exact ⟨none, ok, .inl ⟨by simp only [rstep, h1, h1', Option.bind_some, if_neg hu],
            by simp only [rplain, h2, h2', Option.bind_some, if_neg hu]⟩⟩
  | drop k =>
    rcases S.look k with ⟨h1, h2⟩ | ⟨u, b, t, h1, h2, hb⟩
    · exact ⟨none, ok, .inl ⟨by simp only [rstep, h1]; rfl, by simp only [rplain, h2]; rfl⟩⟩
    · refine ⟨none, ok, .inr ⟨.unit, ⟨s, cs.set k none⟩, hs.set k none, ?_, ?_, hi, Extends.refl _, ⟨_, S.consume k⟩, fun _ _ => .inl rfl⟩⟩
      · simp only [rstep, h1, Option.bind_some, rstepWith]; rfl
      · simp only [rplain, h2, Option.map_some]

/-! ## Runs -/

theorem run_rec (h : env.OK) (hrc : rc.OK) (hF : F.OK env rc) (ho : env.debug = true ∨ env.InRange)
    {p : RClient ι} (hp : p.OK rc F) {s : State} (hi : HeapInv env s) : ∀ n, ∃ fails : List (Option PanicKind),
      fails.length = n ∧ (∀ f ∈ fails, RFailOK env f) ∧
      ((runRec env rc F L stack p s n = none ∧ runTrees F L stack p fails = none) ∨
       ∃ os c hs, runRec env rc F L stack p s n = some (os, c) ∧ runTrees F L stack p fails = some (os, hs) ∧
        HeapInv env c.s ∧ Extends s c.s ∧ (∃ fps, RSim env rc F c.s c.handles hs fps) ∧
        (env.InRange → ¬ NullBetween s c.s → ∀ f ∈ fails, f = none ∨ f = some .abort))
  | 0 => ⟨[], rfl, by simp, .inr ⟨[], ⟨s, []⟩, [], rfl, rfl, hi, Extends.refl _,
      ⟨[], rfl, rfl, fun _ _ => rfl, fun _ _ _ h => by simp at h, by simp, by simp⟩, by simp⟩⟩
  | n + 1 => by
    have push : ∀ {f : Option PanicKind} {fs : List (Option PanicKind)} {Q : Option PanicKind → Prop}, Q f → (∀ g ∈ fs, Q g) →
        ∀ g ∈ f :: fs, Q g := by
      intro f fs Q h1 h2 g hg
      rcases List.mem_cons.1 hg with rfl | hg
      · exact h1
      · exact h2 g hg
    obtain ⟨fails, h1, h2, ⟨e1, e2⟩ | ⟨os, c, hs, e1, e2, hi', he, ⟨fps, S⟩, hn⟩⟩ := run_rec h hrc hF ho hp hi n
    · exact ⟨none :: fails, by simp [h1], push (.inl (.inl rfl)) h2, .inl ⟨by simp only [runRec, e1]; rfl, by simp only [runTrees, e2]; rfl⟩⟩
    · by_cases ha : raborted os = true
      · refine ⟨none :: fails, by simp [h1], push (.inl (.inl rfl)) h2, .inr ⟨os, c, hs, ?_, ?_, hi', he, ⟨fps, S⟩,
          fun hin hnn => push (.inl rfl) (hn hin hnn)⟩⟩
        · simp only [runRec, e1, Option.bind_some, if_pos ha]
        · simp only [runTrees, e2, Option.bind_some, if_pos ha]
      · cases hop : p os with
        | none =>
          refine ⟨none :: fails, by simp [h1], push (.inl (.inl rfl)) h2, .inr ⟨os, c, hs, ?_, ?_, hi', he, ⟨fps, S⟩,
            fun hin hnn => push (.inl rfl) (hn hin hnn)⟩⟩
          · simp only [runRec, e1, Option.bind_some, if_neg ha, hop]
          · simp only [runTrees, e2, Option.bind_some, if_neg ha, hop]
        | some op =>
          obtain ⟨fail, hf, ⟨k1, k2⟩ | ⟨o, c', hs', k1, k2, k3, k4, k5, k6⟩⟩ :=
            rstep_spec (L := L) (stack := stack) h hrc hF ho hi' S (hp _ _ hop)
          · refine ⟨fail :: fails, by simp [h1], push hf h2, .inl ⟨?_, ?_⟩⟩
            · simp only [runRec, e1, Option.bind_some, if_neg ha, hop, k1]; rfl
            · simp only [runTrees, e2, Option.bind_some, if_neg ha, hop, k2]; rfl
          · refine ⟨fail :: fails, by simp [h1], push hf h2, .inr ⟨os ++ [o], c', hs', ?_, ?_, k3, he.trans k4, k5, fun hin hnn => ?_⟩⟩
            · simp only [runRec, e1, Option.bind_some, if_neg ha, hop, k1]; rfl
            · simp only [runTrees, e2, Option.bind_some, if_neg ha, hop, k2]; rfl
            · exact push (k6 hin fun hx => hnn (NullBetween.trans he.trace k4.trace (.inr hx)))
                (hn hin fun hx => hnn (NullBetween.trans he.trace k4.trace (.inl hx)))

/-! ## Stacks that are deep enough -/

theorem mem_of_join {α : Type} {l : List (Option α)} {h : Nat} {a : α} (e : l[h]?.join = some a) : some a ∈ l := by
  cases hl : l[h]? with
  | none => rw [hl] at e; cases e
  | some x =>
    rw [hl] at e
    cases x with
    | none => cases e
    | some b => cases e; exact List.mem_of_getElem? hl

theorem rplain_abort {hs : List (Option (ι × Tree))} (hd : ∀ u t, some (u, t) ∈ hs → t.depth ≤ stack) (op : ROp ι) :
    rplain F L stack (some .abort) hs op = rplain F L stack none hs op := by
  cases op with
  | make u v fields => rfl
  | «open» h => rfl
  | walk h =>
    simp only [rplain]
    cases e : hs[h]?.join with
    | none => rfl
    | some ut => obtain ⟨u, t⟩ := ut; have := hd u t (mem_of_join e); simp; omega
  | clone h =>
    simp only [rplain]
    cases e : hs[h]?.join with
    | none => rfl
    | some ut => obtain ⟨u, t⟩ := ut; have := hd u t (mem_of_join e); simp; omega
  | eq h h' =>
    simp only [rplain]
    cases e : hs[h]?.join with
    | none => rfl
    | some ut =>
      obtain ⟨u, t⟩ := ut
      have := hd u t (mem_of_join e)
      have hn : ¬ stack < t.depth := by omega
      simp [hn]
  | partialCmp h h' =>
    simp only [rplain]
    cases e : hs[h]?.join with
    | none => rfl
    | some ut =>
      obtain ⟨u, t⟩ := ut
      have := hd u t (mem_of_join e)
      have hn : ¬ stack < t.depth := by omega
      simp [hn]
  | cmp h h' =>
    simp only [rplain]
    cases e : hs[h]?.join with
    | none => rfl
    | some ut =>
      obtain ⟨u, t⟩ := ut
      have := hd u t (mem_of_join e)
      have hn : ¬ stack < t.depth := by omega
      simp [hn]
  | drop h => rfl

/-- Every tree of the client fits on the stack during the first `n` steps. -/
theorem runTrees_deep {p : RClient ι} : ∀ {fails : List (Option PanicKind)}, (∀ f ∈ fails, f = none ∨ f = some .abort) →
    (∀ k < fails.length, ∀ os hs, runTrees F L stack p (List.replicate k none) = some (os, hs) →
      ∀ u t, some (u, t) ∈ hs → t.depth ≤ stack) →
    runTrees F L stack p fails = runTrees F L stack p (List.replicate fails.length none)
  | [], _, _ => rfl
  | fail :: fails, hf, hd => by
    have ih := runTrees_deep (p := p) (fails := fails) (fun f h => hf f (List.mem_cons_of_mem _ h))
      (fun k hk => hd k (Nat.lt_succ_of_lt hk))
    simp only [List.length_cons, List.replicate_succ, runTrees, ih]
    cases hr : runTrees F L stack p (List.replicate fails.length none) with
    | none => rfl
    | some r =>
      obtain ⟨os, hs⟩ := r
      simp only [Option.bind_some]
      split
      · rfl
      · cases hop : p os with
        | none => rfl
        | some op =>
          rcases hf fail (List.mem_cons_self ..) with rfl | rfl
          · rfl
          · simp only [rplain_abort (F := F) (L := L) (hd fails.length (Nat.lt_succ_self _) os hs hr) op]

end TB.Macro

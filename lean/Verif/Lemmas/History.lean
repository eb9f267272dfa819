import Verif.Spec.History
import Verif.Lemmas.Box

/-! # Simulation proof for client histories (helper lemmas) -/

set_option autoImplicit false

namespace TB

/-- The box a handle must be, given its address and discriminant. -/
def boxAt (env : Env) (ad : Nat) (d : env.cfg.Discr) : TBox := ⟨⟨TPtr.storeDiscriminant env.cfg (BitVec.ofNat 64 ad) d⟩⟩

/-- The block of a live location. -/
def cellBlock (x : Cell × Nat) : Option Block :=
  if x.1.live = true ∧ 0 < x.1.sh.size then some ⟨x.2, x.1.sh.size, x.1.sh.align⟩ else none

/-- A live location is readable and owns its block. -/
structure CellOK (s : State) (x : Cell × Nat) : Prop where
  wf : x.1.sh.WF
  read : ptrRead x.1.sh x.2 s = .ret x.1.val s
  own : 0 < x.1.sh.size → (⟨x.2, x.1.sh.size, x.1.sh.align⟩ : Block) ∈ s.blocks

/-- Address usable in a box. -/
def AddrOK (env : Env) (ad : Nat) : Prop := ad < 2 ^ env.ptrBits ∧ ad < 2 ^ env.cfg.ptrWidth

/-- Simulation relation; `xs` are the locations with their addresses. -/
structure Sim (env : Env) (s0 : State) (c : CState) (a : AState env) (xs : List (Cell × Nat)) : Prop where
  inv : HeapInv env c.s
  cells : xs.map (·.1) = a.cells
  live : ∀ x ∈ xs, x.1.live = true → CellOK c.s x
  distinct : xs.Pairwise (fun x y => x.1.live = true → y.1.live = true → 0 < x.1.sh.size → 0 < y.1.sh.size → x.2 ≠ y.2)
  blocks : c.s.blocks.Perm (xs.filterMap cellBlock ++ s0.blocks)
  hlen : c.handles.length = a.handles.length
  hnone : ∀ h : Nat, a.handles[h]? = some none → c.handles[h]? = some none
  hsome : ∀ (h loc : Nat) (d : env.cfg.Discr), a.At h loc d → ∃ x, xs[loc]? = some x ∧ c.handles[h]? = some (some (boxAt env x.2 d)) ∧
    AddrOK env x.2 ∧ d ≤ env.cfg.MAX_DISCRIMINANT

theorem CellOK.frame {s s' : State} {x : Cell × Nat} (h : CellOK s x)
    (hb : 0 < x.1.sh.size → (⟨x.2, x.1.sh.size, x.1.sh.align⟩ : Block) ∈ s'.blocks)
    (hm : ∀ i, x.2 ≤ i → i < x.2 + x.1.sh.size → s'.mem i = s.mem i) : CellOK s' x := by
  refine ⟨h.wf, ?_, hb⟩
  have hr := ptrRead_ret_iff.1 h.read
  rw [ptrRead_ret_iff]
  refine ⟨rfl, ?_, ?_, hr.2.2.2⟩
  · have := validPtr_iff.1 hr.2.1
    rw [validPtr_iff]
    refine ⟨this.1, this.2.1, ?_⟩
    by_cases hz : x.1.sh.size = 0
    · exact Or.inl hz
    · exact Or.inr ⟨_, hb (by omega), Nat.le_refl _, Nat.le_refl _⟩
  · exact hr.2.2.1.trans (getVal_congr h.wf (fun i h1 h2 => (hm i h1 h2).symm))

theorem CellOK.mono {s s' : State} {x : Cell × Nat} (h : CellOK s x) (he : Extends s s') : CellOK s' x :=
  h.frame (fun hz => he.blocks _ (h.own hz)) (fun i h1 h2 => he.bytes _ (h.own (by omega)) i h1 h2)

theorem boxAt_parts {env : Env} (ok : env.OK) {ad : Nat} {d : env.cfg.Discr} (ha : AddrOK env ad)
    (hd : d ≤ env.cfg.MAX_DISCRIMINANT) :
    (boxAt env ad d).asPtr env = ad ∧ (boxAt env ad d).discriminant env = d :=
  store_parts ok ha.1 ha.2 (Env.DiscrOK.fits ok hd)

/-- Everything the simulation knows about a live, typed handle. -/
theorem Sim.typed {env : Env} (ok : env.OK) {s0 : State} {c : CState} {a : AState env} {xs : List (Cell × Nat)}
    (S : Sim env s0 c a xs) {h loc : Nat} {d : env.cfg.Discr} {sh : Shape} {v : Val} (ht : a.Typed h loc d sh v) :
    ∃ ad, xs[loc]? = some (⟨sh, v, true⟩, ad) ∧ c.get h = some (boxAt env ad d) ∧
      CellOK c.s (⟨sh, v, true⟩, ad) ∧ AddrOK env ad ∧ d ≤ env.cfg.MAX_DISCRIMINANT ∧
      Holds env c.s (boxAt env ad d) sh v d ∧ (boxAt env ad d).asPtr env = ad := by
  obtain ⟨x, hx, hc, ha, hd⟩ := S.hsome h loc d ht.1
  have hcell : x.1 = ⟨sh, v, true⟩ := by
    have := ht.2
    rw [← S.cells, List.getElem?_map, hx] at this
    simpa using this
  obtain ⟨cell, ad⟩ := x
  simp only at hcell
  subst hcell
  have hl := S.live _ (List.mem_of_getElem? hx) rfl
  obtain ⟨e1, e2⟩ := boxAt_parts ok ha hd
  refine ⟨ad, hx, by simp [CState.get, hc], hl, ha, hd, ⟨e2, ?_, fun hz => by rw [e1]; exact hl.own hz⟩, e1⟩
  show ptrRead sh ((boxAt env ad d).asPtr env) c.s = _
  rw [e1]; exact hl.read

theorem Sim.at {env : Env} (ok : env.OK) {s0 : State} {c : CState} {a : AState env} {xs : List (Cell × Nat)}
    (S : Sim env s0 c a xs) {h loc : Nat} {d : env.cfg.Discr} (ht : a.At h loc d) :
    ∃ x, xs[loc]? = some x ∧ c.get h = some (boxAt env x.2 d) ∧ AddrOK env x.2 ∧ d ≤ env.cfg.MAX_DISCRIMINANT ∧
      (boxAt env x.2 d).asPtr env = x.2 ∧ (boxAt env x.2 d).discriminant env = d := by
  obtain ⟨x, hx, hc, ha, hd⟩ := S.hsome h loc d ht
  obtain ⟨e1, e2⟩ := boxAt_parts ok ha hd
  exact ⟨x, hx, by simp [CState.get, hc], ha, hd, e1, e2⟩

theorem dropsBetween_refl (s : State) : dropsBetween s s = [] := by simp [dropsBetween]

theorem stepWith_pure {env : Env} {α : Type} (c : CState) (x : α) (f : α → Res env × List (Option TBox)) :
    stepWith c (pure x) f = some (((f x).1, []), ⟨c.s, (f x).2⟩) := by
  show some (((f x).1, dropsBetween c.s c.s), (⟨c.s, (f x).2⟩ : CState)) = _
  rw [dropsBetween_refl]

theorem dropEvents_filter (sh : Shape) (v : Val) :
    (dropEvents sh v).filter Event.isDrop = dropEvents sh v := by
  rw [List.filter_eq_self]
  intro e he
  simp only [dropEvents, List.mem_filterMap] at he
  obtain ⟨p, _, hp⟩ := he
  split at hp
  · cases hp; rfl
  · cases hp

theorem dropsBetween_log {s s' : State} {sh : Shape} {v : Val} (h : s'.trace = s.trace ++ dropEvents sh v) :
    dropsBetween s s' = dropEvents sh v := by
  rw [dropsBetween, h, List.drop_left, dropEvents_filter]

theorem dropsBetween_log_free {s s' : State} {sh : Shape} {v : Val} {blk : Block}
    (h : s'.trace = s.trace ++ dropEvents sh v ++ [.dealloc blk]) : dropsBetween s s' = dropEvents sh v := by
  rw [dropsBetween, h, List.append_assoc, List.drop_left, List.filter_append, dropEvents_filter]
  simp [Event.isDrop]

/-- Replacing a location by one without a block removes exactly its block. -/
theorem filterMap_set_perm : ∀ (xs : List (Cell × Nat)) (i : Nat) (x y : Cell × Nat) (b : Block),
    xs[i]? = some x → cellBlock x = some b → cellBlock y = none →
    (xs.filterMap cellBlock).Perm (b :: (xs.set i y).filterMap cellBlock)
  | [], _, _, _, _, h, _, _ => by simp at h
  | z :: zs, 0, x, y, b, h, hx, hy => by
    simp only [List.getElem?_cons_zero, Option.some.injEq] at h
    subst h
    simp [List.set_cons_zero, List.filterMap_cons, hx, hy]
  | z :: zs, i + 1, x, y, b, h, hx, hy => by
    simp only [List.getElem?_cons_succ] at h
    have ih := filterMap_set_perm zs i x y b h hx hy
    simp only [List.set_cons_succ, List.filterMap_cons]
    cases cellBlock z with
    | none => exact ih
    | some w => exact (ih.cons w).trans (List.Perm.swap _ _ _)

theorem filterMap_set_eq : ∀ (xs : List (Cell × Nat)) (i : Nat) (x y : Cell × Nat),
    xs[i]? = some x → cellBlock x = cellBlock y → (xs.set i y).filterMap cellBlock = xs.filterMap cellBlock
  | [], _, _, _, h, _ => by simp at h
  | z :: zs, 0, x, y, h, e => by
    simp only [List.getElem?_cons_zero, Option.some.injEq] at h
    subst h
    simp [List.filterMap_cons, e]
  | z :: zs, i + 1, x, y, h, e => by
    simp only [List.getElem?_cons_succ] at h
    simp only [List.set_cons_succ, List.filterMap_cons, filterMap_set_eq zs i x y h e]

theorem pairwise_set {α : Type} {R : α → α → Prop} : ∀ {xs : List α} {i : Nat} {x y : α}, xs.Pairwise R → xs[i]? = some x →
    (∀ z, R z x → R z y) → (∀ z, R x z → R y z) → (xs.set i y).Pairwise R
  | [], _, _, _, _, h, _, _ => by simp at h
  | z :: zs, 0, x, y, hp, h, h1, h2 => by
    simp only [List.getElem?_cons_zero, Option.some.injEq] at h
    subst h
    rw [List.set_cons_zero, List.pairwise_cons]
    rw [List.pairwise_cons] at hp
    exact ⟨fun w hw => h2 w (hp.1 w hw), hp.2⟩
  | z :: zs, i + 1, x, y, hp, h, h1, h2 => by
    simp only [List.getElem?_cons_succ] at h
    rw [List.set_cons_succ, List.pairwise_cons]
    rw [List.pairwise_cons] at hp
    refine ⟨fun w hw => ?_, pairwise_set hp.2 h h1 h2⟩
    rcases List.mem_or_eq_of_mem_set hw with hw | rfl
    · exact hp.1 w hw
    · exact h1 z (hp.1 x (List.mem_of_getElem? h))

/-- Elements at two different positions satisfy the pairwise relation one way or the other. -/
theorem pairwise_ne {α : Type} {R : α → α → Prop} : ∀ {xs : List α} {i j : Nat} {x y : α}, xs.Pairwise R → xs[i]? = some x →
    xs[j]? = some y → i ≠ j → R x y ∨ R y x
  | [], _, _, _, _, _, h, _, _ => by simp at h
  | z :: zs, 0, 0, _, _, _, _, _, hne => absurd rfl hne
  | z :: zs, 0, j + 1, x, y, hp, h1, h2, _ => by
    simp only [List.getElem?_cons_zero, Option.some.injEq, List.getElem?_cons_succ] at h1 h2
    subst h1
    exact Or.inl ((List.pairwise_cons.1 hp).1 y (List.mem_of_getElem? h2))
  | z :: zs, i + 1, 0, x, y, hp, h1, h2, _ => by
    simp only [List.getElem?_cons_zero, Option.some.injEq, List.getElem?_cons_succ] at h1 h2
    subst h2
    exact Or.inr ((List.pairwise_cons.1 hp).1 x (List.mem_of_getElem? h1))
  | z :: zs, i + 1, j + 1, x, y, hp, h1, h2, hne => by
    simp only [List.getElem?_cons_succ] at h1 h2
    exact pairwise_ne (List.pairwise_cons.1 hp).2 h1 h2 (by omega)

variable {env : Env} {s0 : State} {c : CState} {a : AState env} {xs : List (Cell × Nat)}

/-- Two different live locations of non-zero size have different addresses. -/
theorem Sim.addr_ne (S : Sim env s0 c a xs) {i j : Nat} {x y : Cell × Nat} (hx : xs[i]? = some x) (hy : xs[j]? = some y)
    (hne : i ≠ j) (lx : x.1.live = true) (ly : y.1.live = true) (zx : 0 < x.1.sh.size) (zy : 0 < y.1.sh.size) :
    x.2 ≠ y.2 := by
  rcases pairwise_ne S.distinct hx hy hne with h | h
  · exact h lx ly zx zy
  · exact (h ly lx zy zx).symm

/-- Heap unchanged up to the trace, abstract store unchanged, one handle appended. -/
theorem Sim.push (S : Sim env s0 c a xs) {loc : Nat} {d : env.cfg.Discr} {x : Cell × Nat} (hx : xs[loc]? = some x)
    (ha : AddrOK env x.2) (hd : d ≤ env.cfg.MAX_DISCRIMINANT) :
    Sim env s0 ⟨c.s, c.handles ++ [some (boxAt env x.2 d)]⟩ ⟨a.cells, a.handles ++ [some (loc, d)]⟩ xs where
  inv := S.inv
  cells := S.cells
  live := S.live
  distinct := S.distinct
  blocks := S.blocks
  hlen := by simp [S.hlen]
  hnone := by
    intro h hh
    simp only [List.getElem?_append] at hh ⊢
    rw [S.hlen]
    split at hh
    · rename_i hlt; rw [if_pos hlt]; exact S.hnone h hh
    · rename_i hlt
      rw [List.getElem?_singleton] at hh
      split at hh
      · cases hh
      · cases hh
  hsome := by
    intro h loc' d' hh
    simp only [AState.At, List.getElem?_append] at hh ⊢
    rw [S.hlen]
    split at hh
    · rename_i hlt; rw [if_pos hlt]; exact S.hsome h loc' d' hh
    · rename_i hlt
      rw [if_neg hlt]
      rw [List.getElem?_singleton] at hh ⊢
      split at hh
      · rename_i h0
        rw [if_pos h0]
        cases hh
        exact ⟨x, hx, rfl, ha, hd⟩
      · cases hh

/-- One handle consumed. -/
theorem Sim.consume (S : Sim env s0 c a xs) (h : Nat) :
    Sim env s0 ⟨c.s, c.handles.set h none⟩ ⟨a.cells, a.handles.set h none⟩ xs where
  inv := S.inv
  cells := S.cells
  live := S.live
  distinct := S.distinct
  blocks := S.blocks
  hlen := by simp [S.hlen]
  hnone := by
    intro k hh
    simp only [List.getElem?_set, S.hlen] at hh ⊢
    split at hh
    · rename_i e
      rw [if_pos e]
      split at hh
      · rename_i hlt; rw [if_pos hlt]
      · cases hh
    · rename_i e; rw [if_neg e]; exact S.hnone k hh
  hsome := by
    intro k loc' d' hh
    simp only [AState.At, List.getElem?_set, S.hlen] at hh ⊢
    split at hh
    · split at hh <;> cases hh
    · rename_i e; rw [if_neg e]; exact S.hsome k loc' d' hh

/-- Overwriting a handle with the box it already is changes nothing. -/
theorem set_same {α : Type} : ∀ {l : List α} {h : Nat} {x : α}, l[h]? = some x → l.set h x = l
  | [], _, _, h => by simp at h
  | y :: ys, 0, x, h => by simp at h; simp [h]
  | y :: ys, n + 1, x, h => by
    simp only [List.getElem?_cons_succ] at h
    simp [set_same h]

theorem get_some {h : Nat} {b : TBox} (e : c.get h = some b) : c.handles[h]? = some (some b) := by
  simp only [CState.get] at e
  cases hh : c.handles[h]? with
  | none => rw [hh] at e; cases e
  | some o => rw [hh] at e; simp at e; rw [e]

/-- Events only. -/
theorem Sim.log (S : Sim env s0 c a xs) (es : List Event) : Sim env s0 ⟨c.s.log es, c.handles⟩ a xs where
  inv := S.inv.log es
  cells := S.cells
  live := fun x hx hl => (S.live x hx hl).mono (Extends.log _ _)
  distinct := S.distinct
  blocks := S.blocks
  hlen := S.hlen
  hnone := S.hnone
  hsome := S.hsome

theorem map_fst_set : ∀ (xs : List (Cell × Nat)) (i : Nat) (y : Cell × Nat), (xs.set i y).map (·.1) = (xs.map (·.1)).set i y.1
  | [], _, _ => rfl
  | _ :: _, 0, _ => rfl
  | z :: zs, i + 1, y => by simp [map_fst_set zs i y]

theorem mem_set_ne {α : Type} : ∀ {xs : List α} {i : Nat} {y z : α}, z ∈ xs.set i y → z = y ∨ ∃ j, j ≠ i ∧ xs[j]? = some z
  | [], _, _, _, h => by simp at h
  | w :: ws, 0, y, z, h => by
    rw [List.set_cons_zero, List.mem_cons] at h
    rcases h with h | h
    · exact Or.inl h
    · obtain ⟨j, hj⟩ := List.getElem?_of_mem h
      exact Or.inr ⟨j + 1, by omega, by simpa using hj⟩
  | w :: ws, i + 1, y, z, h => by
    rw [List.set_cons_succ, List.mem_cons] at h
    rcases h with rfl | h
    · exact Or.inr ⟨0, by omega, rfl⟩
    · rcases mem_set_ne h with h | ⟨j, hj, e⟩
      · exact Or.inl h
      · exact Or.inr ⟨j + 1, by omega, by simpa using e⟩

/-- The value of a live location overwritten in place. -/
theorem Sim.write (S : Sim env s0 c a xs) {loc : Nat} {sh : Shape} {v v' : Val} {ad : Nat}
    (hx : xs[loc]? = some (⟨sh, v, true⟩, ad)) (hv : sh.Has v') :
    Sim env s0 ⟨writtenState c.s ad sh v', c.handles⟩ ⟨a.cells.set loc ⟨sh, v', true⟩, a.handles⟩
      (xs.set loc (⟨sh, v', true⟩, ad)) where
  inv := writtenState_inv S.inv
  cells := by rw [map_fst_set, S.cells]
  live := by
    have hl := S.live _ (List.mem_of_getElem? hx) rfl
    have hw := hl.wf
    intro y hy ly
    rcases mem_set_ne hy with rfl | ⟨j, hj, ej⟩
    · refine ⟨hw, ?_, hl.own⟩
      have hr := ptrRead_ret_iff.1 hl.read
      rw [ptrRead_ret_iff]
      exact ⟨rfl, hr.2.1, (getVal_putVal hw hv _ _).symm, hv⟩
    · have hy' := S.live y (List.mem_of_getElem? ej) ly
      refine hy'.frame hy'.own (fun i h1 h2 => ?_)
      refine putVal_out hw hv ?_
      show i < ad ∨ ad + sh.size ≤ i
      by_cases hz : sh.size = 0
      · omega
      · have hne := S.addr_ne ej hx hj ly rfl (by omega) (show 0 < sh.size by omega)
        have o1 := hy'.own (by omega)
        have o2 := hl.own (show 0 < sh.size by omega)
        rcases S.inv.eq_or_disjoint o1 o2 with e | hd
        · exact absurd (congrArg Block.base e) hne
        · simp only [Block.Disjoint] at hd
          omega
  distinct := pairwise_set S.distinct hx (fun _ h => h) (fun _ h => h)
  blocks := by
    rw [filterMap_set_eq xs loc _ (⟨sh, v', true⟩, ad) hx rfl]
    exact S.blocks
  hlen := S.hlen
  hnone := S.hnone
  hsome := by
    intro h l d hh
    obtain ⟨x, h1, h2, h3⟩ := S.hsome h l d hh
    by_cases e : loc = l
    · subst e
      rw [hx] at h1
      cases h1
      refine ⟨(⟨sh, v', true⟩, ad), ?_, h2, h3⟩
      rw [List.getElem?_set_self]
      exact (List.getElem?_eq_some_iff.1 hx).1
    · exact ⟨x, by rw [List.getElem?_set_ne e]; exact h1, h2, h3⟩

/-- A live location freed. -/
theorem Sim.free (S : Sim env s0 c a xs) {loc : Nat} {sh : Shape} {v : Val} {ad : Nat}
    (hx : xs[loc]? = some (⟨sh, v, true⟩, ad)) :
    Sim env s0 ⟨if sh.size = 0 then c.s else freedState c.s ⟨ad, sh.size, sh.align⟩, c.handles⟩
      ⟨a.cells.set loc ⟨sh, v, false⟩, a.handles⟩ (xs.set loc (⟨sh, v, false⟩, ad)) where
  inv := by
    split
    · exact S.inv
    · exact freedState_inv S.inv _
  cells := by rw [map_fst_set, S.cells]
  live := by
    intro y hy ly
    rcases mem_set_ne hy with rfl | ⟨j, hj, ej⟩
    · cases ly
    · have hy' := S.live y (List.mem_of_getElem? ej) ly
      show CellOK (if sh.size = 0 then c.s else _) y
      split
      · exact hy'
      · rename_i hz
        refine hy'.frame (fun h0 => ?_) (fun _ _ _ => rfl)
        have hne := S.addr_ne ej hx hj ly rfl h0 (show 0 < sh.size by omega)
        refine (List.mem_erase_of_ne ?_).2 (hy'.own h0)
        intro e
        exact hne (congrArg Block.base e)
  distinct := pairwise_set S.distinct hx (fun _ h h1 h2 h3 h4 => by cases h2) (fun _ h h1 => by cases h1)
  blocks := by
    have hl := S.live _ (List.mem_of_getElem? hx) rfl
    show (if sh.size = 0 then c.s else _).blocks.Perm _
    split
    · rename_i hz
      rw [filterMap_set_eq xs loc _ _ hx (by simp [cellBlock, hz])]
      exact S.blocks
    · rename_i hz
      have hp := filterMap_set_perm xs loc _ (⟨sh, v, false⟩, ad) ⟨ad, sh.size, sh.align⟩ hx
        (by simp only [cellBlock]; rw [if_pos ⟨trivial, by show 0 < sh.size; omega⟩]) (by simp [cellBlock])
      have h2 : c.s.blocks.Perm (⟨ad, sh.size, sh.align⟩ ::
          ((xs.set loc (⟨sh, v, false⟩, ad)).filterMap cellBlock ++ s0.blocks)) :=
        S.blocks.trans (hp.append_right _)
      have h3 := h2.erase ⟨ad, sh.size, sh.align⟩
      rw [List.erase_cons_head] at h3
      exact h3
  hlen := S.hlen
  hnone := S.hnone
  hsome := by
    intro h l d hh
    obtain ⟨x, h1, h2, h3⟩ := S.hsome h l d hh
    by_cases e : loc = l
    · subst e
      rw [hx] at h1
      cases h1
      refine ⟨(⟨sh, v, false⟩, ad), ?_, h2, h3⟩
      rw [List.getElem?_set_self]
      exact (List.getElem?_eq_some_iff.1 hx).1
    · exact ⟨x, by rw [List.getElem?_set_ne e]; exact h1, h2, h3⟩

/-- A location appended (by `new`, successful or not). -/
theorem Sim.alloc (ok : env.OK) (S : Sim env s0 c a xs) {sh : Shape} (hw : sh.WF) {v : Val} (hv : sh.Has v)
    (hz : sh.size ≠ 0) (ha : env.alloc c.s sh.size sh.align ≠ 0) :
    Sim env s0 ⟨boxedState c.s (env.alloc c.s sh.size sh.align) sh v, c.handles⟩ ⟨a.cells ++ [⟨sh, v, true⟩], a.handles⟩
      (xs ++ [(⟨sh, v, true⟩, env.alloc c.s sh.size sh.align)]) where
  inv := boxedState_inv ok S.inv hz ha
  cells := by simp [S.cells]
  live := by
    intro y hy ly
    rw [List.mem_append, List.mem_singleton] at hy
    rcases hy with hy | rfl
    · exact (S.live y hy ly).mono (boxedState_extends ok hw hv hz ha)
    · exact ⟨hw, boxedState_read ok hw hv hz ha, fun _ => List.mem_cons_self⟩
  distinct := by
    rw [List.pairwise_append]
    refine ⟨S.distinct, List.pairwise_singleton _ _, ?_⟩
    intro x hx y hy lx ly zx zy e
    rw [List.mem_singleton] at hy
    subst hy
    obtain ⟨l1, l2, l3⟩ := ok.lawful c.s sh.size sh.align (by omega) ha
    have := l3 _ ((S.live x hx lx).own zx)
    simp only [Block.Disjoint] at this
    simp only at e zy
    omega
  blocks := by
    have e : cellBlock (⟨sh, v, true⟩, env.alloc c.s sh.size sh.align) =
        some ⟨env.alloc c.s sh.size sh.align, sh.size, sh.align⟩ := by
      simp only [cellBlock]; rw [if_pos ⟨trivial, by show 0 < sh.size; omega⟩]
    rw [List.filterMap_append, List.filterMap_cons, e, List.filterMap_nil]
    show (_ :: c.s.blocks).Perm _
    have := S.blocks.cons ⟨env.alloc c.s sh.size sh.align, sh.size, sh.align⟩
    refine this.trans ?_
    rw [List.append_assoc]
    exact List.perm_middle.symm
  hlen := S.hlen
  hnone := S.hnone
  hsome := by
    intro h l d hh
    obtain ⟨x, h1, h2, h3⟩ := S.hsome h l d hh
    refine ⟨x, ?_, h2, h3⟩
    rw [List.getElem?_append_left (List.getElem?_eq_some_iff.1 h1).1]
    exact h1

/-- A location of size zero appended. -/
theorem Sim.zst (S : Sim env s0 c a xs) {sh : Shape} (hw : sh.WF) {v : Val} (hv : sh.Has v)
    (hz : sh.size = 0) : Sim env s0 c ⟨a.cells ++ [⟨sh, v, true⟩], a.handles⟩ (xs ++ [(⟨sh, v, true⟩, sh.align)]) where
  inv := S.inv
  cells := by simp [S.cells]
  live := by
    intro y hy ly
    rw [List.mem_append, List.mem_singleton] at hy
    rcases hy with hy | rfl
    · exact S.live y hy ly
    · refine ⟨hw, ptrRead_zst hw hv hz ?_ (Nat.dvd_refl _) _, fun h => ?_⟩
      · have := hw.align_pos; omega
      · simp only at h; omega
  distinct := by
    rw [List.pairwise_append]
    refine ⟨S.distinct, List.pairwise_singleton _ _, ?_⟩
    intro x hx y hy lx ly zx zy e
    rw [List.mem_singleton] at hy
    subst hy
    simp only at zy
    omega
  blocks := by
    have e : cellBlock (⟨sh, v, true⟩, sh.align) = none := by simp [cellBlock, hz]
    rw [List.filterMap_append, List.filterMap_cons, e, List.filterMap_nil, List.append_nil]
    exact S.blocks
  hlen := S.hlen
  hnone := S.hnone
  hsome := by
    intro h l d hh
    obtain ⟨x, h1, h2, h3⟩ := S.hsome h l d hh
    refine ⟨x, ?_, h2, h3⟩
    rw [List.getElem?_append_left (List.getElem?_eq_some_iff.1 h1).1]
    exact h1

theorem fromRaw_boxAt (ok : env.OK) {ad : Nat} {d : env.cfg.Discr} (ha : AddrOK env ad)
    (hd : d ≤ env.cfg.MAX_DISCRIMINANT) (s : State) : TBox.fromRaw env ad d s = .ret (boxAt env ad d) s := by
  have hlt64 : ad < 2 ^ 64 := Nat.lt_of_lt_of_le ha.1 ok.pow_le
  have eofn : (BitVec.ofNat 64 ad).toNat = ad := by rw [BitVec.toNat_ofNat, Nat.mod_eq_of_lt hlt64]
  simp only [TBox.fromRaw]
  rcases TPtr.new_cases env.cfg env.debug (BitVec.ofNat 64 ad) d with ⟨e, _⟩ | ⟨hdbg, ⟨e, h⟩ | ⟨e, _, h⟩⟩
  · rw [e]; rfl
  · exact absurd hd h
  · rw [ok.sane.le_maxPtr_iff, eofn] at h; exact absurd ha.2 h

/-- The simulation step. -/
theorem Sim.step (ok : env.OK) (hr : env.debug = true ∨ env.InRange) (S : Sim env s0 c a xs) (op : Op env)
    (hc : Contract a op) :
    ∃ o c' a' xs', TB.step env c op = some (o, c') ∧ SpecNext a op o a' ∧ Sim env s0 c' a' xs' := by
  cases op with
  | new sh v d =>
    obtain ⟨hw, hv, hd⟩ := hc
    by_cases hz : sh.size = 0
    · have e := new_zst (env := env) (sh := sh) (v := v) (d := d) (s := c.s) hz
      obtain ⟨p1, p2, p3⟩ := align_lt ok hw.align_pow
      have S1 := (S.zst hw hv hz).log (dropEvents sh v)
      have S2 := S1.push (loc := a.cells.length) (d := d) (x := (⟨sh, v, true⟩, sh.align)) (by
        rw [← S.cells, List.length_map, List.getElem?_append_right (Nat.le_refl _)]; simp) ⟨p2, p3⟩ hd
      refine ⟨_, _, _, _, ?_, Or.inl ⟨rfl, rfl⟩, S2⟩
      simp only [TB.step, stepWith, e]
      rw [dropsBetween_log (sh := sh) (v := v) rfl, if_pos hz, S.hlen]
      rfl
    · by_cases ha : env.alloc c.s sh.size sh.align = 0
      · have e := new_null (env := env) (v := v) (d := d) hz ha
        refine ⟨_, _, _, _, ?_, Or.inr (Or.inl ⟨by omega, rfl, rfl⟩),
          (S.log [.allocNull sh.size sh.align]).log (dropEvents sh v)⟩
        simp only [TB.step, stepWith, e]
        have : dropsBetween c.s ((c.s.log [.allocNull sh.size sh.align]).log (dropEvents sh v)) = dropEvents sh v := by
          simp only [dropsBetween, State.log, List.append_assoc, List.drop_left, List.filter_append, dropEvents_filter]
          simp [Event.isDrop]
        rw [this]
      · have S1 := S.alloc ok hw hv hz ha
        obtain ⟨l1, l2, l3⟩ := ok.lawful c.s sh.size sh.align (by omega) ha
        have hlt : env.alloc c.s sh.size sh.align < 2 ^ env.ptrBits := by omega
        have hlt64 : env.alloc c.s sh.size sh.align < 2 ^ 64 := Nat.lt_of_lt_of_le hlt ok.pow_le
        have e := new_alloc ok (v := v) (d := d) hz ha
        have hdb : dropsBetween c.s (boxedState c.s (env.alloc c.s sh.size sh.align) sh v) = [] := by
          simp [dropsBetween, boxedState, Event.isDrop]
        rcases TPtr.new_cases env.cfg env.debug (BitVec.ofNat 64 (env.alloc c.s sh.size sh.align)) d with
          ⟨e', hr'⟩ | ⟨hdbg, ⟨e', h⟩ | ⟨e', _, h⟩⟩
        · have hrange : env.alloc c.s sh.size sh.align < 2 ^ env.cfg.ptrWidth := by
            rcases hr with hdbg | hin
            · have := (ok.sane.le_maxPtr_iff _).1 (hr' hdbg).2
              rwa [BitVec.toNat_ofNat, Nat.mod_eq_of_lt hlt64] at this
            · exact hin _ _ _
          have S2 := S1.push (loc := a.cells.length) (d := d)
            (x := (⟨sh, v, true⟩, env.alloc c.s sh.size sh.align)) (by
              rw [← S.cells, List.length_map, List.getElem?_append_right (Nat.le_refl _)]; simp) ⟨hlt, hrange⟩ hd
          refine ⟨_, _, _, _, ?_, Or.inl ⟨rfl, rfl⟩, S2⟩
          simp only [TB.step, stepWith, e, e', hdb, if_neg hz, S.hlen]
          rfl
        · exact absurd hd h
        · refine ⟨_, _, _, _, ?_, Or.inr (Or.inr ⟨by omega, hdbg, rfl, rfl⟩), S1⟩
          simp only [TB.step, stepWith, e, e', hdb]
  | copy h =>
    obtain ⟨loc, d, hat⟩ := hc
    obtain ⟨x, hx, hg, ha, hd, _⟩ := S.at ok hat
    refine ⟨_, _, _, _, ?_, ⟨loc, d, hat, rfl, rfl⟩, S.push hx ha hd⟩
    simp only [TB.step, hg, Option.bind_some, stepWith_pure, S.hlen, TBox.copy]
  | discr h =>
    obtain ⟨loc, d, hat⟩ := hc
    obtain ⟨x, hx, hg, ha, hd, _, e⟩ := S.at ok hat
    refine ⟨_, _, _, _, ?_, ⟨loc, d, hat, rfl, rfl⟩, S⟩
    simp only [TB.step, hg, Option.bind_some, stepWith_pure, e]
  | ptrEq h h' =>
    obtain ⟨loc, d, loc', d', sh, sh', v, v', ht, ht', hz, hz'⟩ := hc
    obtain ⟨ad, hx, hg, hl, _, _, _, e⟩ := S.typed ok ht
    obtain ⟨ad', hx', hg', hl', _, _, _, e'⟩ := S.typed ok ht'
    refine ⟨_, _, _, _, ?_, ⟨loc, d, loc', d', ht.1, ht'.1, rfl, rfl⟩, S⟩
    simp only [TB.step, hg, hg', Option.bind_some, stepWith_pure, e, e']
    by_cases hll : loc = loc'
    · subst hll
      rw [hx] at hx'; cases hx'
      simp
    · have := S.addr_ne hx hx' hll rfl rfl hz hz'
      have h2 : ad ≠ ad' := this
      simp [hll, h2]
  | read h sh =>
    obtain ⟨loc, d, v, ht⟩ := hc
    obtain ⟨ad, hx, hg, hl, _, _, H, e⟩ := S.typed ok ht
    refine ⟨_, _, _, _, ?_, ⟨loc, d, v, ht, rfl, rfl⟩, S⟩
    simp only [TB.step, hg, Option.bind_some, stepWith, H.read, dropsBetween_refl]
  | assign h sh v' =>
    obtain ⟨hv, loc, d, v, ht⟩ := hc
    obtain ⟨ad, hx, hg, hl, _, _, H, e⟩ := S.typed ok ht
    refine ⟨_, _, _, _, ?_, ⟨loc, d, v, ht, rfl, rfl⟩, (S.log (dropEvents sh v)).write hx hv⟩
    simp only [TB.step, hg, Option.bind_some, stepWith, asMutRefAssign_ret H, e, set_same (get_some hg)]
    rw [dropsBetween_log (sh := sh) (v := v) rfl]
  | write h sh v' =>
    obtain ⟨hv, loc, d, v, ht⟩ := hc
    obtain ⟨ad, hx, hg, hl, _, _, H, e⟩ := S.typed ok ht
    refine ⟨_, _, _, _, ?_, ⟨loc, d, v, ht, rfl, rfl⟩, S.write hx hv⟩
    simp only [TB.step, hg, Option.bind_some, stepWith, asMutPtrWrite_ret H, e, set_same (get_some hg)]
    simp [dropsBetween, writtenState]
  | intoInner h sh =>
    obtain ⟨loc, d, v, ht⟩ := hc
    obtain ⟨ad, hx, hg, hl, _, _, H, e⟩ := S.typed ok ht
    refine ⟨_, _, _, _, ?_, ⟨loc, d, v, ht, rfl, rfl⟩, S.consume h⟩
    have hrd : (boxAt env ad d).intoInner env sh c.s = .ret v c.s := H.read
    simp only [TB.step, hg, Option.bind_some, stepWith, hrd, dropsBetween_refl]
  | drop h =>
    obtain ⟨loc, d, hat⟩ := hc
    obtain ⟨x, hx, hg, ha, hd, _, e⟩ := S.at ok hat
    refine ⟨_, _, _, _, ?_, ⟨rfl, rfl⟩, S.consume h⟩
    simp only [TB.step, hg, Option.bind_some, stepWith_pure, TBox.dropBox]
  | rawRoundtrip h =>
    obtain ⟨loc, d, hat⟩ := hc
    obtain ⟨x, hx, hg, ha, hd, e, e'⟩ := S.at ok hat
    refine ⟨_, _, _, _, ?_, ⟨rfl, rfl⟩, S⟩
    have e1 : (boxAt env x.2 d).intoRaw env = x.2 := e
    simp only [TB.step, hg, Option.bind_some, stepWith, e1, e', fromRaw_boxAt ok ha hd, dropsBetween_refl,
      set_same (get_some hg)]
  | boxDrop h sh =>
    obtain ⟨loc, d, v, ht⟩ := hc
    obtain ⟨ad, hx, hg, hl, _, _, H, e⟩ := S.typed ok ht
    refine ⟨_, _, _, _, ?_, ⟨loc, d, v, ht, rfl, rfl⟩, ((S.log (dropEvents sh v)).free hx).consume h⟩
    simp only [TB.step, hg, Option.bind_some, stepWith, boxDrop_ret H, e]
    by_cases hz : sh.size = 0
    · simp only [if_pos hz]
      rw [dropsBetween_log (sh := sh) (v := v) rfl]
    · simp only [if_neg hz]
      rw [dropsBetween_log_free (sh := sh) (v := v) (blk := ⟨ad, sh.size, sh.align⟩) rfl]
  | boxTake h sh =>
    obtain ⟨loc, d, v, ht⟩ := hc
    obtain ⟨ad, hx, hg, hl, _, _, H, e⟩ := S.typed ok ht
    refine ⟨_, _, _, _, ?_, ⟨loc, d, v, ht, rfl, rfl⟩, (S.free hx).consume h⟩
    simp only [TB.step, hg, Option.bind_some, stepWith, boxIntoValue_ret H, e]
    by_cases hz : sh.size = 0
    · simp only [if_pos hz, dropsBetween_refl]
    · simp only [if_neg hz]
      simp [dropsBetween, freedState, Event.isDrop]

/-- Every run of a well-behaved client stays in the simulation. -/
theorem run_sim (ok : env.OK) (hr : env.debug = true ∨ env.InRange) {s : State} (hi : HeapInv env s) {p : Client env}
    (hp : WellBehaved p) : ∀ n, ∃ os c a xs, runClient env p s n = some (os, c) ∧ SpecReach p os a ∧ Sim env s c a xs
  | 0 => ⟨[], ⟨s, []⟩, ⟨[], []⟩, [], rfl, .start, by
      constructor
      · exact hi
      · rfl
      · intro x hx; cases hx
      · exact List.Pairwise.nil
      · exact List.Perm.refl _
      · rfl
      · intro h hh; simp at hh
      · intro h loc d hh; simp [AState.At] at hh⟩
  | n + 1 => by
    obtain ⟨os, c, a, xs, e, hreach, S⟩ := run_sim ok hr hi hp n
    cases hop : p os with
    | none => exact ⟨os, c, a, xs, by simp [runClient, e, hop], hreach, S⟩
    | some op =>
      obtain ⟨o, c', a', xs', h1, h2, h3⟩ := S.step ok hr op (hp os a op hreach hop)
      exact ⟨os ++ [o], c', a', xs', by simp [runClient, e, hop, h1], hreach.next hop h2, h3⟩

theorem footprint_eq (a : AState env) (h : xs.map (·.1) = a.cells) :
    (xs.filterMap cellBlock).map (fun b => (b.size, b.align)) = a.footprint := by
  rw [AState.footprint, ← h]
  clear h
  induction xs with
  | nil => rfl
  | cons x xs ih =>
    simp only [List.filterMap_cons, List.map_cons, List.filter_cons]
    by_cases hx : x.1.live = true ∧ 0 < x.1.sh.size
    · have e : cellBlock x = some ⟨x.2, x.1.sh.size, x.1.sh.align⟩ := by simp [cellBlock, hx]
      simp [e, hx, ih]
    · have e : cellBlock x = none := by rw [cellBlock, if_neg hx]
      have e2 : (x.1.live && decide (0 < x.1.sh.size)) = false := by
        cases h : x.1.live
        · rfl
        · simp [h] at hx; simp [hx]
      simp only [e, e2]
      exact ih

end TB

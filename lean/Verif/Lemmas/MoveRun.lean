import Verif.Spec.MoveRun
import Verif.Lemmas.UserRun
import Verif.Lemmas.Owned

/-! # Lemmas for C93 -/

set_option autoImplicit false

namespace TB.Rust.Move

open TB TB.Macro TB.Mbe TB.Rust TB.Rust.User TB.Spec TB.Source

variable {env : Env} {rc : Rustc} {decl : List VariantDef}

/-! ## Runs that may change boxes -/

/-- Both runs finish with results related by `R`, or fail, or the allocator failed. -/
def MAgrees (env : Env) {α α' : Type} (R : State → α → α' → Prop) (x : M α) (y : Except Fault α') (s : State) : Prop := match y with
  | .ok a' => (∃ a s', x s = .ret a s' ∧ HeapInv env s' ∧ s.trace <+: s'.trace ∧ R s' a a') ∨ NullPanic x s
  | .error .failed => (∃ s', x s = .panic (.user 0) s') ∨ NullPanic x s
  | .error .stuck => True

theorem null_trans {s s' s'' : State} (hx : s.trace <+: s'.trace) (h : NullBetween s' s'') : NullBetween s s'' := by
  obtain ⟨sz, al, h⟩ := h
  refine ⟨sz, al, ?_⟩
  have hl : s.trace.length ≤ s'.trace.length := hx.length_le
  have : s''.trace.drop s'.trace.length = (s''.trace.drop s.trace.length).drop (s'.trace.length - s.trace.length) := by
    rw [List.drop_drop]; congr 1; omega
  rw [this] at h
  exact List.mem_of_mem_drop h

theorem MAgrees.bind {α α' β β' : Type} {R : State → α → α' → Prop} {Q : State → β → β' → Prop} {x : M α} {y : Except Fault α'} {f : α → M β} {g : α' → Except Fault β'}
    {s : State} (h : MAgrees env R x y s) (hf : ∀ a a' s', HeapInv env s' → R s' a a' → MAgrees env Q (f a) (g a') s') :
    MAgrees env Q (x >>= f) (y >>= g) s := by
  have hn : ∀ k s', x s = .panic k s' → (x >>= f) s = .panic k s' := by
    intro k s' e
    show M.bind x f s = _
    rw [M.bind, e]
  match y, h with
  | .error .stuck, _ => exact trivial
  | .error .failed, h =>
    rcases h with ⟨s', e⟩ | ⟨k, s', e, h⟩
    · exact .inl ⟨s', hn _ _ e⟩
    · exact .inr ⟨k, s', hn _ _ e, h⟩
  | .ok a', h =>
    rcases h with ⟨a, s', e, hi, hx, hr⟩ | ⟨k, s', e, h⟩
    · have e' : (x >>= f) s = f a s' := by
        show M.bind x f s = _
        rw [M.bind, e]
      have h2 := hf a a' s' hi hr
      show MAgrees env Q (x >>= f) (g a') s
      generalize g a' = r at h2
      match r, h2 with
      | .error .stuck, _ => exact trivial
      | .error .failed, h2 =>
        rcases h2 with ⟨s'', e2⟩ | ⟨k, s'', e2, h⟩
        · exact .inl ⟨s'', e'.trans e2⟩
        · exact .inr ⟨k, s'', e'.trans e2, null_trans hx h⟩
      | .ok c, h2 =>
        rcases h2 with ⟨c, s'', e2, hi, hx2, hr⟩ | ⟨k, s'', e2, h⟩
        · exact .inl ⟨c, s'', e'.trans e2, hi, hx.trans hx2, hr⟩
        · exact .inr ⟨k, s'', e'.trans e2, null_trans hx h⟩
    · have e' := hn _ _ e
      show MAgrees env Q (x >>= f) (g a') s
      match g a' with
      | .error .stuck => exact trivial
      | .error .failed => exact .inr ⟨k, s', e', h⟩
      | .ok c => exact .inr ⟨k, s', e', h⟩

theorem MAgrees.pure {α α' : Type} {R : State → α → α' → Prop} {a : α} {a' : α'} {s : State} (hi : HeapInv env s) (h : R s a a') :
    MAgrees env R (Pure.pure a : M α) (Pure.pure a' : Except Fault α') s := .inl ⟨a, s, rfl, hi, List.prefix_refl _, h⟩

/-! ## What variables have in them -/

/-- The blocks of what is in a variable. -/
def blocksOf (env : Env) (rc : Rustc) (decl : List VariantDef) : UV TBox → List Block
  | .box b => boxBlocks env rc decl b (b.discriminant env).toNat
  | .cont b => boxBlocks env rc decl b (b.discriminant env).toNat
  | _ => []

abbrev MV (env : Env) (rc : Rustc) (decl : List VariantDef) (s : State) : UV TBox → UV EVal → Prop
  | .prim p, .prim q => p = q
  | .tup ps, .tup qs => ps = qs
  | .item e, .item e' => e = e' ∧ IsEnumValue rc decl e
  | .box b, .box e => ∃ i, Stores env rc decl s b i e
  | .cont b, .cont e => ∃ i, Stores env rc decl s b i e
  | .unit, .unit => True
  | _, _ => False

def MVs (env : Env) (rc : Rustc) (decl : List VariantDef) (s : State) : List (String × UV TBox) → List (String × UV EVal) → Prop
  | [], [] => True
  | (x, v) :: l, (y, w) :: l' => x = y ∧ MV env rc decl s v w ∧ MVs env rc decl s l l'
  | _, _ => False

def held (env : Env) (rc : Rustc) (decl : List VariantDef) : List (String × UV TBox) → List Block
  | [] => []
  | (_, v) :: l => blocksOf env rc decl v ++ held env rc decl l

/-- The variables have in them what they should, and no two of them the same box. -/
structure ML (env : Env) (rc : Rustc) (decl : List VariantDef) (s : State) (l : List (String × UV TBox)) (l' : List (String × UV EVal)) : Prop where
  values : MVs env rc decl s l l'
  apart : (held env rc decl l).Nodup

/-- A value and variables. -/
def MR (env : Env) (rc : Rustc) (decl : List VariantDef) (s : State) (r : UV TBox × List (String × UV TBox)) (r' : UV EVal × List (String × UV EVal)) : Prop :=
  ML env rc decl s (("", r.1) :: r.2) (("", r'.1) :: r'.2)

theorem stores_blocks {s : State} {b : TBox} {i : Nat} {e : EVal} (h : Stores env rc decl s b i e) :
    boxBlocks env rc decl b (b.discriminant env).toNat = boxBlocks env rc decl b i := by rw [h.discr]

theorem MV.live {s : State} : ∀ {v : UV TBox} {w : UV EVal}, MV env rc decl s v w → ∀ k ∈ blocksOf env rc decl v, k ∈ s.blocks
  | .box b, .box e, ⟨i, h⟩, k, hk => by rw [blocksOf, stores_blocks h] at hk; exact h.blocks_live k hk
  | .cont b, .cont e, ⟨i, h⟩, k, hk => by rw [blocksOf, stores_blocks h] at hk; exact h.blocks_live k hk
  | .prim _, _, _, _, hk => by cases hk
  | .tup _, _, _, _, hk => by cases hk
  | .item _, _, _, _, hk => by cases hk
  | .unit, _, _, _, hk => by cases hk

theorem MVs.live {s : State} : ∀ {l : List (String × UV TBox)} {l' : List (String × UV EVal)}, MVs env rc decl s l l' → ∀ k ∈ held env rc decl l, k ∈ s.blocks
  | [], [], _, _, hk => by cases hk
  | (x, v) :: l, (y, w) :: l', ⟨_, h1, h2⟩, k, hk => by
    rw [held, List.mem_append] at hk
    rcases hk with hk | hk
    · exact h1.live k hk
    · exact h2.live k hk

/-- What is in the heap stays, as far as the variable is concerned. -/
theorem MV.frame (hrc : rc.OK) {s s' : State} : ∀ {v : UV TBox} {w : UV EVal}, MV env rc decl s v w → Keeps (blocksOf env rc decl v) s s' → MV env rc decl s' v w
  | .box b, .box e, ⟨i, h⟩, hk => by rw [blocksOf, stores_blocks h] at hk; exact ⟨i, h.frame hrc hk⟩
  | .cont b, .cont e, ⟨i, h⟩, hk => by rw [blocksOf, stores_blocks h] at hk; exact ⟨i, h.frame hrc hk⟩
  | .prim _, .prim _, h, _ => h
  | .tup _, .tup _, h, _ => h
  | .item _, .item _, h, _ => h
  | .unit, .unit, h, _ => h

theorem MVs.frame (hrc : rc.OK) {s s' : State} : ∀ {l : List (String × UV TBox)} {l' : List (String × UV EVal)}, MVs env rc decl s l l' → Keeps (held env rc decl l) s s' →
    MVs env rc decl s' l l'
  | [], [], _, _ => trivial
  | (x, v) :: l, (y, w) :: l', ⟨h0, h1, h2⟩, hk =>
    ⟨h0, h1.frame hrc (hk.sub fun b hb => List.mem_append_left _ hb), h2.frame hrc (hk.sub fun b hb => List.mem_append_right _ hb)⟩

theorem keeps_of_extends {K : List Block} {s s' : State} (hx : Extends s s') (h : ∀ k ∈ K, k ∈ s.blocks) : Keeps K s s' :=
  (ChangesOnly.of_extends [] hx).keeps fun b hb => ⟨h b hb, by simp⟩

theorem ML.mono (hrc : rc.OK) {s s' : State} {l : List (String × UV TBox)} {l' : List (String × UV EVal)} (h : ML env rc decl s l l') (hx : Extends s s') :
    ML env rc decl s' l l' := ⟨h.values.frame hrc (keeps_of_extends hx h.values.live), h.apart⟩

/-- Something without a box is added. -/
theorem ML.cons {s : State} {l : List (String × UV TBox)} {l' : List (String × UV EVal)} (h : ML env rc decl s l l') (x : String) {v : UV TBox} {w : UV EVal}
    (hv : MV env rc decl s v w) (hb : blocksOf env rc decl v = []) : ML env rc decl s ((x, v) :: l) ((x, w) :: l') :=
  ⟨⟨rfl, hv, h.values⟩, by rw [held, hb]; exact h.apart⟩

theorem ML.tail {s : State} {x y : String} {v : UV TBox} {w : UV EVal} {l : List (String × UV TBox)} {l' : List (String × UV EVal)}
    (h : ML env rc decl s ((x, v) :: l) ((y, w) :: l')) : MV env rc decl s v w ∧ ML env rc decl s l l' :=
  ⟨h.values.2.1, h.values.2.2, (List.nodup_append.1 h.apart).2.1⟩

theorem ML.rename {s : State} {x y z : String} {v : UV TBox} {w : UV EVal} {l : List (String × UV TBox)} {l' : List (String × UV EVal)}
    (h : ML env rc decl s ((x, v) :: l) ((y, w) :: l')) : ML env rc decl s ((z, v) :: l) ((z, w) :: l') :=
  ⟨⟨rfl, h.values.2.1, h.values.2.2⟩, h.apart⟩

/-- What is in a variable, without taking it. -/
theorem MVs.lookup {s : State} (x : String) : ∀ {l : List (String × UV TBox)} {l' : List (String × UV EVal)}, MVs env rc decl s l l' → ∀ {w : UV EVal},
    TB.Rust.lookup x l' = some w → ∃ v, TB.Rust.lookup x l = some v ∧ MV env rc decl s v w
  | [], [], _, w, h => by cases h
  | (y, v) :: l, (z, w) :: l', ⟨h0, h1, h2⟩, w', hw => by
    subst h0
    rw [TB.Rust.lookup] at hw ⊢
    split
    · rename_i hy
      rw [if_pos hy] at hw
      cases hw
      exact ⟨v, rfl, h1⟩
    · rename_i hy
      rw [if_neg hy] at hw
      exact h2.lookup x hw

theorem MV.afterUse {s : State} : ∀ {v : UV TBox} {w : UV EVal}, MV env rc decl s v w → MV env rc decl s (afterUse v) (afterUse w)
  | .box _, .box _, _ => trivial
  | .cont _, .cont _, _ => trivial
  | .prim _, .prim _, h => h
  | .tup _, .tup _, h => h
  | .item _, .item _, h => h
  | .unit, .unit, h => h

theorem blocks_afterUse (v : UV TBox) : blocksOf env rc decl (afterUse v) = [] := by cases v <;> rfl

/-- A variable is used. -/
theorem MVs.take {s : State} (x : String) : ∀ {l : List (String × UV TBox)} {l' : List (String × UV EVal)}, MVs env rc decl s l l' → ∀ {w : UV EVal} {l1' : List (String × UV EVal)},
    takeVar x l' = some (w, l1') → ∃ v l1, takeVar x l = some (v, l1) ∧ MV env rc decl s v w ∧ MVs env rc decl s l1 l1' ∧
      (blocksOf env rc decl v ++ held env rc decl l1).Perm (held env rc decl l)
  | [], [], _, w, _, h => by cases h
  | (y, v) :: l, (z, w) :: l', ⟨h0, h1, h2⟩, w', l1', hw => by
    subst h0
    rw [takeVar] at hw ⊢
    split
    · rename_i hy
      rw [if_pos hy] at hw
      cases hw
      refine ⟨v, _, rfl, h1, ⟨rfl, h1.afterUse, h2⟩, ?_⟩
      rw [held, held, blocks_afterUse]
      exact List.Perm.refl _
    · rename_i hy
      rw [if_neg hy] at hw
      cases ht : takeVar x l' with
      | none => rw [ht] at hw; cases hw
      | some r =>
        obtain ⟨w1, l2'⟩ := r
        rw [ht] at hw
        cases hw
        obtain ⟨v1, l2, e1, e2, e3, e4⟩ := h2.take x ht
        rw [e1]
        refine ⟨v1, _, rfl, e2, ⟨rfl, h1, e3⟩, ?_⟩
        rw [held, held]
        exact (List.perm_append_comm_assoc ..).trans (List.Perm.append_left _ e4)

theorem ML.take {s : State} {x : String} {l : List (String × UV TBox)} {l' : List (String × UV EVal)} (h : ML env rc decl s l l') {w : UV EVal} {l1' : List (String × UV EVal)}
    (ht : takeVar x l' = some (w, l1')) : ∃ v l1, takeVar x l = some (v, l1) ∧ MR env rc decl s (v, l1) (w, l1') := by
  obtain ⟨v, l1, e1, e2, e3, e4⟩ := h.values.take x ht
  exact ⟨v, l1, e1, ⟨rfl, e2, e3⟩, e4.nodup_iff.2 h.apart⟩

/-- A box is changed: all other boxes keep what is in them. -/
theorem MVs.set {s s' : State} (x : String) (hrc : rc.OK) {b : TBox} {e' : EVal} (hb : ∃ i, Stores env rc decl s' b i e')
    (hk : ∀ K, (∀ k ∈ K, k ∈ s.blocks ∧ k ∉ blocksOf env rc decl (.box b)) → Keeps K s s') :
    ∀ {l : List (String × UV TBox)} {l' : List (String × UV EVal)}, MVs env rc decl s l l' → (held env rc decl l).Nodup → TB.Rust.lookup x l = some (.box b) →
      MVs env rc decl s' (setVar x (.box b) l) (setVar x (.box e') l') ∧ held env rc decl (setVar x (.box b) l) = held env rc decl l
  | [], [], _, _, h => by cases h
  | (y, v) :: l, (z, w) :: l', ⟨h0, h1, h2⟩, hn, hl => by
    subst h0
    rw [TB.Rust.lookup] at hl
    rw [held] at hn
    obtain ⟨n1, n2, n3⟩ := List.nodup_append.1 hn
    rw [setVar, setVar]
    by_cases hy : x = y
    · rw [if_pos hy] at hl ⊢
      rw [if_pos hy]
      cases hl
      refine ⟨⟨rfl, hb, h2.frame hrc (hk _ fun k hk => ⟨h2.live k hk, fun hc => n3 k hc k hk rfl⟩)⟩, rfl⟩
    · rw [if_neg hy] at hl ⊢
      rw [if_neg hy]
      obtain ⟨e1, e2⟩ := MVs.set x hrc hb hk h2 n2 hl
      have hin : ∀ k ∈ blocksOf env rc decl (.box b), k ∈ held env rc decl l := by
        clear e1 e2 n2 n3 hn h2
        induction l with
        | nil => cases hl
        | cons p l ih =>
          obtain ⟨z, u⟩ := p
          rw [TB.Rust.lookup] at hl
          intro k hk
          rw [held, List.mem_append]
          split at hl
          · cases hl; exact .inl hk
          · exact .inr (ih hl k hk)
      refine ⟨⟨rfl, h1.frame hrc (hk _ fun k hk => ⟨h1.live k hk, fun hc => n3 k hk k (hin k hc) rfl⟩), e1⟩, ?_⟩
      rw [held, held, e2]

/-! ## What is known of the functions -/

/-- A box with `e` in it is made, with a new block. -/
def Makes (env : Env) (rc : Rustc) (decl : List VariantDef) (x : M TBox) (e : EVal) (s : State) : Prop :=
  (∃ b s', x s = .ret b s' ∧ HeapInv env s' ∧ Extends s s' ∧ (∃ i, Stores env rc decl s' b i e) ∧ ∀ k ∈ blocksOf env rc decl (.box b), k ∉ s.blocks) ∨ NullPanic x s

theorem Makes.congr {x x' : M TBox} {e : EVal} {s : State} (h : Makes env rc decl x e s) (hx : x' s = x s) : Makes env rc decl x' e s := by
  simpa only [Makes, NullPanic, hx] using h

structure MGood (env : Env) (rc : Rustc) (decl : List VariantDef) (readable storable : EVal → Bool) (O : Ops) (A : MIface M TBox) : Prop where
  into : ∀ e, IsEnumValue rc decl e → storable e = true → ∀ s, HeapInv env s → Makes env rc decl (A.into e) e s
  wrap : ∀ e, IsEnumValue rc decl e → storable e = true → ∀ s, HeapInv env s → Makes env rc decl (A.wrap e) e s
  wrapFields : ∀ v tys vs, ⟨v, .tuple tys⟩ ∈ decl → HasTypes rc tys vs → tys ≠ [] → storable ⟨v, .tuple vs⟩ = true → ∀ s, HeapInv env s →
    Makes env rc decl (A.wrapFields v tys vs) ⟨v, .tuple vs⟩ s
  inner : ∀ {s b i e}, Stores env rc decl s b i e → A.inner b s = .ret e s
  read : ∀ {s b i e}, Stores env rc decl s b i e → readable e = true → A.read b s = .ret e s
  clone : ∀ {s b i e}, HeapInv env s → Stores env rc decl s b i e → storable (cloneItem O decl e) = true → Makes env rc decl (A.clone b) (cloneItem O decl e) s
  update : ∀ {s b i v t x} f p, HeapInv env s → Stores env rc decl s b i ⟨v, .tuple [x]⟩ → lookupDef decl v = some (.tuple [t]) → match O.update f t x p with
    | some y => ∃ s', A.update t f p b s = .ret b s' ∧ HeapInv env s' ∧ s.trace <+: s'.trace ∧ (∃ i, Stores env rc decl s' b i ⟨v, .tuple [y]⟩) ∧
        ∀ K, (∀ k ∈ K, k ∈ s.blocks ∧ k ∉ blocksOf env rc decl (.box b)) → Keeps K s s'
    | none => A.update t f p b s = .panic (.user 0) s
  fail : ∀ α s, A.fail α s = .panic (.user 0) s

section
variable {readable storable : EVal → Bool} {O : Ops} {A : MIface M TBox} (hrc : rc.OK) (g : MGood env rc decl readable storable O A) {L : Lits} (hL : LitsOK rc L) {sn en : String}

local notation "𝓟" => plainMoves readable storable decl O

theorem morStuck {α : Type} (o : Option α) {s : State} (hi : HeapInv env s) {R : State → α → α → Prop} (h : ∀ a, o = some a → R s a a) :
    MAgrees env R (orStuck A.toIface o) (orStuck (𝓟).toIface o) s := by
  cases o with
  | none => exact trivial
  | some a => exact MAgrees.pure hi (h a rfl)

/-- A new box is added to the variables. -/
theorem Makes.agrees {x : M TBox} {e : EVal} {s : State} (hrc : rc.OK) (h : Makes env rc decl x e s) {l : List (String × UV TBox)} {l' : List (String × UV EVal)} (hl : ML env rc decl s l l') :
    MAgrees env (fun s' b e => ML env rc decl s' (("", .cont b) :: l) (("", .cont e) :: l')) x (.ok e) s := by
  rcases h with ⟨b, s', e1, e2, e3, e4, e5⟩ | h
  · refine .inl ⟨b, s', e1, e2, e3.trace, ⟨rfl, e4, (hl.mono hrc e3).values⟩, ?_⟩
    rw [held]
    refine List.nodup_append.2 ⟨?_, hl.apart, ?_⟩
    · show (boxBlocks env rc decl b _).Nodup
      unfold boxBlocks
      split
      · exact List.nodup_nil
      · split
        · exact List.nodup_nil
        · split
          · exact List.nodup_cons.2 ⟨by simp, List.nodup_nil⟩
          · exact List.nodup_nil
    · rintro k hk k' hk' rfl
      exact e5 k hk (hl.values.live k hk')
  · exact .inr h

theorem ML.contBox {s : State} {x y : String} {b : TBox} {e : EVal} {l : List (String × UV TBox)} {l' : List (String × UV EVal)}
    (h : ML env rc decl s ((x, .cont b) :: l) ((y, .cont e) :: l')) : ML env rc decl s ((x, .box b) :: l) ((y, .box e) :: l') := ⟨h.values, h.apart⟩

include hrc g

theorem mmethod_agrees (f : String) {s : State} (hi : HeapInv env s) {v : UV TBox} {w : UV EVal} {l : List (String × UV TBox)} {l' : List (String × UV EVal)}
    (h : MR env rc decl s (v, l) (w, l')) :
    MAgrees env (fun s' a a' => MR env rc decl s' (a, l) (a', l')) (methodUV A.toIface f v) (methodUV (𝓟).toIface f w) s := by
  obtain ⟨hv, hl⟩ := ML.tail h
  cases v <;> cases w <;> first | exact hv.elim | skip
  case item.item e e1 =>
    obtain ⟨rfl, hv⟩ := hv
    rw [methodUV, methodUV]
    split
    · show MAgrees env _ _ ((if storable e then Except.ok e else .error .stuck) >>= _) s
      cases hst : storable e with
      | false => exact trivial
      | true => exact ((g.into e hv hst s hi).agrees hrc hl).bind fun b e' s' hi' hs => MAgrees.pure hi' hs.contBox
    · exact trivial
  case cont.cont b e =>
    obtain ⟨i, hv⟩ := hv
    rw [methodUV, methodUV]
    split
    · refine MAgrees.bind (R := fun s' x y => x = y ∧ IsEnumValue rc decl x ∧ s' = s) (.inl ⟨e, s, g.inner hv, hi, List.prefix_refl _, rfl, ⟨i, hv.1⟩, rfl⟩) ?_
      rintro a _ s' hi' ⟨rfl, h1, rfl⟩
      exact MAgrees.pure hi' (hl.cons "" (show MV env rc decl s' (.item a) (.item a) from ⟨rfl, h1⟩) rfl)
    · exact trivial
  all_goals exact trivial

include hL

theorem mcall_agrees (ty f : String) {s : State} (hi : HeapInv env s) {v : UV TBox} {w : UV EVal} {l : List (String × UV TBox)} {l' : List (String × UV EVal)}
    (h : MR env rc decl s (v, l) (w, l')) :
    MAgrees env (fun s' a a' => MR env rc decl s' (a, l) (a', l')) (mcall L decl A sn en ty f v) (mcall L decl 𝓟 sn en ty f w) s := by
  obtain ⟨hv, hl⟩ := ML.tail h
  cases v <;> cases w <;> first | exact hv.elim | skip
  case prim.prim p q =>
    cases hv
    rw [mcall, mcall]
    split
    · refine MAgrees.bind (morStuck _ hi (R := fun s' a b => a = b ∧ findFrom L decl [p] = some a ∧ s' = s) fun a h => ⟨rfl, h, rfl⟩) ?_
      rintro r _ s' hi' ⟨rfl, hr, rfl⟩
      obtain ⟨h1, h2, h3⟩ := findFrom_some hL (by simp) hr
      show MAgrees env _ _ ((if storable ⟨r.1, .tuple r.2.2⟩ then Except.ok (⟨r.1, .tuple r.2.2⟩ : EVal) else .error .stuck) >>= _) s'
      cases hst : storable ⟨r.1, .tuple r.2.2⟩ with
      | false => exact trivial
      | true => exact ((g.wrapFields _ _ _ h1 h2 h3 hst s' hi').agrees hrc hl).bind fun b e s'' hi'' hs => MAgrees.pure hi'' hs
    · split
      · refine MAgrees.bind (morStuck _ hi (R := fun s' a b => a = b ∧ IsEnumValue rc decl a ∧ s' = s) fun a h => ⟨rfl, tupleItem_value hL h, rfl⟩) ?_
        rintro e _ s' hi' ⟨rfl, he, rfl⟩
        exact MAgrees.pure hi' (hl.cons "" (show MV env rc decl s' (.item e) (.item e) from ⟨rfl, he⟩) rfl)
      · split
        · exact MAgrees.pure hi (hl.cons "" (show MV env rc decl s (.prim p) (.prim p) from rfl) rfl)
        · exact trivial
  case item.item e e1 =>
    obtain ⟨rfl, hv⟩ := hv
    rw [mcall, mcall]
    split
    · show MAgrees env _ _ ((if storable e then Except.ok e else .error .stuck) >>= _) s
      cases hst : storable e with
      | false => exact trivial
      | true => exact ((g.wrap e hv hst s hi).agrees hrc hl).bind fun b e' s' hi' hs => MAgrees.pure hi' hs
    · exact trivial
  case box.box b e =>
    obtain ⟨i, hv⟩ := hv
    rw [mcall, mcall]
    split
    · show MAgrees env _ _ ((if readable e then Except.ok e else Except.error Fault.stuck) >>= _) s
      cases hr : readable e with
      | false => exact trivial
      | true =>
        refine MAgrees.bind (R := fun s' x y => x = y ∧ IsEnumValue rc decl x ∧ s' = s) (.inl ⟨e, s, g.read hv hr, hi, List.prefix_refl _, rfl, ⟨i, hv.1⟩, rfl⟩) ?_
        rintro a _ s' hi' ⟨rfl, h1, rfl⟩
        exact MAgrees.pure hi' (hl.cons "" (show MV env rc decl s' (.item a) (.item a) from ⟨rfl, h1⟩) rfl)
    · exact trivial
  all_goals exact trivial

theorem mev_agrees (n : Nat) : ∀ e s l l', HeapInv env s → ML env rc decl s l l' → MAgrees env (MR env rc decl) (mev L decl A sn en n l e) (mev L decl 𝓟 sn en n l' e) s := by
  induction n with
  | zero => intros; exact trivial
  | succ n ih =>
    intro e s l l' hi hl
    unfold mev
    split <;> try exact trivial
    · rw [litUV, litUV]
      split
      · exact MAgrees.pure hi (hl.cons "" (show MV env rc decl s (.prim _) (.prim _) from rfl) rfl)
      · exact MAgrees.pure hi (hl.cons "" (show MV env rc decl s (.prim _) (.prim _) from rfl) rfl)
    · rw [mulUV, mulUV]
      split
      · exact MAgrees.pure hi (hl.cons "" (show MV env rc decl s (.prim _) (.prim _) from rfl) rfl)
      · exact trivial
    · rename_i x
      cases hw : takeVar x l' with
      | none => exact trivial
      | some r =>
        obtain ⟨v, l1, e1, e2⟩ := hl.take (w := r.1) (l1' := r.2) hw
        rw [e1]
        exact MAgrees.pure hi e2
    · rename_i x
      rw [borrowItem, borrowItem]
      cases hw : lookup x l' with
      | none => exact trivial
      | some w =>
        obtain ⟨v, e1, e2⟩ := hl.values.lookup x hw
        rw [e1]
        cases v <;> cases w <;> first | exact e2.elim | skip
        case item.item a a' =>
          exact MAgrees.pure hi (hl.cons "" e2 rfl)
        all_goals exact trivial
    · exact ih _ s l l' hi hl
    · exact (ih _ s l l' hi hl).bind fun r r' s1 hi1 h1 => (mcall_agrees hrc g hL _ _ hi1 h1).bind fun v w s2 hi2 h2 => MAgrees.pure hi2 h2
    · rename_i x
      rw [borrowCont, borrowCont]
      cases hw : lookup x l' with
      | none => exact trivial
      | some w =>
        obtain ⟨v, e1, e2⟩ := hl.values.lookup x hw
        rw [e1]
        cases v <;> cases w <;> first | exact e2.elim | skip
        case cont.cont b e =>
          obtain ⟨i, e2⟩ := e2
          show MAgrees env _ (A.clone b >>= _) ((if storable (cloneItem O decl e) then Except.ok (cloneItem O decl e) else .error .stuck) >>= _) s
          cases hst : storable (cloneItem O decl e) with
          | false => exact trivial
          | true => exact ((g.clone hi e2 hst).agrees hrc hl).bind fun b e' s' hi' hs => MAgrees.pure hi' hs
        all_goals exact trivial
    · exact (ih _ s l l' hi hl).bind fun r r' s1 hi1 h1 => (mmethod_agrees hrc g _ hi1 h1).bind fun v w s2 hi2 h2 => MAgrees.pure hi2 h2

/-- What comparisons need to know of a value. -/
def sameItem : UV TBox → UV EVal → Prop
  | v, .item e => v = .item e
  | _, _ => True

omit hrc g hL in
theorem MV.same {s : State} {v : UV TBox} {w : UV EVal} (h : MV env rc decl s v w) : sameItem v w := by
  cases v <;> cases w <;> first | exact h.elim | skip
  case item.item e e' => obtain ⟨rfl, _⟩ := h; exact rfl
  all_goals exact trivial

omit hrc g hL in
theorem meq_agrees {s : State} (hi : HeapInv env s) {v v' : UV TBox} {w w' : UV EVal} (h : sameItem v w) (h' : sameItem v' w') :
    MAgrees env (fun s' b b' => b = b' ∧ s' = s) (eqUV L decl A.toIface v v') (eqUV L decl (𝓟).toIface w w') s := by
  cases w <;> cases w' <;> try exact trivial
  case item.item e e' =>
    cases (show v = .item e from h)
    cases (show v' = .item e' from h')
    exact MAgrees.pure hi ⟨rfl, rfl⟩

theorem mstmts_agrees : ∀ ss s l l', HeapInv env s → ML env rc decl s l l' →
    MAgrees env (fun _ _ _ => True) (mstmts L decl A sn en l ss) (mstmts L decl 𝓟 sn en l' ss) s := by
  intro ss
  induction ss with
  | nil => intro s l l' hi _; exact MAgrees.pure hi trivial
  | cons st ss ih =>
    intro s l l' hi hl
    unfold mstmts
    cases hu : updateOf st with
    | some u =>
      obtain ⟨x, t, f, lit⟩ := u
      simp only
      rw [borrowBox, borrowBox]
      cases hw : lookup x l' with
      | none => exact trivial
      | some w =>
        obtain ⟨v, e1, e2⟩ := hl.values.lookup x hw
        rw [e1]
        cases v <;> cases w <;> first | exact e2.elim | skip
        case box.box b e =>
          obtain ⟨i, e2⟩ := e2
          show MAgrees env _ (A.update t f (litPrim lit) b >>= _) ((𝓟).update t f (litPrim lit) e >>= _) s
          obtain ⟨va, pl⟩ := e
          refine MAgrees.bind (R := fun s' b' e' => ML env rc decl s' (setVar x (.box b') l) (setVar x (.box e') l')) ?_ fun b' e' s' hi' h => ih s' _ _ hi' h
          simp only [plainMoves]
          split
          · rename_i t' x1 hd
            split
            · rename_i hn
              have : t = t' := by
                cases t <;> cases t' <;> first | cases hn; done | skip
                simp only [sameName, beq_iff_eq] at hn
                rw [hn]
              subst this
              have hg := g.update f (litPrim lit) hi e2 hd
              cases hy : O.update f t x1 (litPrim lit) with
              | none =>
                rw [hy] at hg
                exact .inl ⟨s, hg⟩
              | some y =>
                rw [hy] at hg
                obtain ⟨s', g1, g2, g3, g4, g5⟩ := hg
                obtain ⟨k1, k2⟩ := MVs.set x hrc g4 g5 hl.values hl.apart e1
                exact .inl ⟨b, s', g1, g2, g3, k1, by rw [k2]; exact hl.apart⟩
            · exact trivial
          · exact trivial
        all_goals exact trivial
    | none =>
      simp only
      split <;> try exact trivial
      · exact (mev_agrees hrc g hL _ _ s l l' hi hl).bind fun r r' s1 hi1 h1 => ih s1 _ _ hi1 (ML.rename h1)
      · refine (mev_agrees hrc g hL _ _ s l l' hi hl).bind fun r r' s1 hi1 h1 => ?_
        obtain ⟨v1, l1⟩ := ML.tail h1
        refine (mev_agrees hrc g hL _ _ s1 _ _ hi1 l1).bind fun q q' s2 hi2 h2 => ?_
        obtain ⟨v2, l2⟩ := ML.tail h2
        refine (meq_agrees hi2 v1.same v2.same).bind ?_
        rintro c _ s3 hi3 ⟨rfl, rfl⟩
        split
        · split
          · exact ih _ _ _ hi3 l2
          · exact .inl ⟨_, g.fail _ _⟩
        · split
          · split
            · exact .inl ⟨_, g.fail _ _⟩
            · exact ih _ _ _ hi3 l2
          · exact trivial

end

end TB.Rust.Move

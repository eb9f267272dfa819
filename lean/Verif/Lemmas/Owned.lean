import Verif.Lemmas.Container
import Verif.Spec.Owned

/-!
# Lemmas: clients whose values own memory
-/

set_option autoImplicit false

namespace TB.Macro

variable {env : Env} {rc : Rustc} {sn en : String} {ts : List Tok} {decl : List VariantDef} {P : Program}
variable {X β : Type}

/-! ## Frames -/

theorem Keeps.refl {K : List Block} {s : State} (h : ∀ b ∈ K, b ∈ s.blocks) : Keeps K s s :=
  fun b hb => ⟨h b hb, fun _ _ _ => rfl⟩

theorem Keeps.trans {K : List Block} {s s' s'' : State} (h : Keeps K s s') (h' : Keeps K s' s'') : Keeps K s s'' :=
  fun b hb => ⟨(h' b hb).1, fun i h1 h2 => ((h' b hb).2 i h1 h2).trans ((h b hb).2 i h1 h2)⟩

theorem Keeps.sub {K K' : List Block} {s s' : State} (h : Keeps K s s') (hs : ∀ b ∈ K', b ∈ K) : Keeps K' s s' :=
  fun b hb => h b (hs b hb)

theorem ChangesOnly.keeps {F K : List Block} {s s' : State} (h : ChangesOnly F s s') (hK : ∀ b ∈ K, b ∈ s.blocks ∧ b ∉ F) :
    Keeps K s s' := fun b hb => h.others b (hK b hb).1 (hK b hb).2

theorem ChangesOnly.of_extends {s s' : State} (F : List Block) (h : Extends s s') : ChangesOnly F s s' :=
  ⟨fun b hb _ => ⟨h.blocks b hb, h.bytes b hb⟩, h.trace⟩

theorem ChangesOnly.extends {s s' : State} (h : ChangesOnly [] s s') : Extends s s' :=
  ⟨fun b hb => (h.others b hb (by simp)).1, fun b hb => (h.others b hb (by simp)).2, h.trace⟩

theorem ChangesOnly.trans {F F' : List Block} {s s' s'' : State} (h : ChangesOnly F s s') (h' : ChangesOnly F' s' s'')
    (hF : ∀ b ∈ F', b ∈ F ∨ b ∉ s.blocks) : ChangesOnly F s s'' :=
  ⟨fun b hb hn => by
    obtain ⟨h1, h2⟩ := h.others b hb hn
    obtain ⟨h3, h4⟩ := h'.others b h1 (fun hm => (hF b hm).elim hn (fun hx => hx hb))
    exact ⟨h3, fun i k1 k2 => (h4 i k1 k2).trans (h2 i k1 k2)⟩,
   h.trace.trans h'.trace⟩

/-! ## The block of a box -/

/-- The blocks a box consists of: one, or none if its payload is empty. -/
def boxBlocks (env : Env) (rc : Rustc) (decl : List VariantDef) (b : TBox) (i : Nat) : List Block :=
  match decl[i]? with
  | none => []
  | some d => match d.fields.shape rc with
    | none => []
    | some sh => if 0 < sh.size then [⟨b.asPtr env, sh.size, sh.align⟩] else []

theorem boxBlocks_eq {b : TBox} {i : Nat} {d : VariantDef} {sh : Shape} (hd : decl[i]? = some d) (hs : d.fields.shape rc = some sh)
    (hz : 0 < sh.size) : boxBlocks env rc decl b i = [⟨b.asPtr env, sh.size, sh.align⟩] := by
  simp only [boxBlocks, hd, hs, hz, if_true]

theorem Stores.blocks_live {s : State} {b : TBox} {i : Nat} {e : EVal} (h : Stores env rc decl s b i e) :
    ∀ k ∈ boxBlocks env rc decl b i, k ∈ s.blocks := by
  intro k hk
  unfold boxBlocks at hk
  split at hk
  · cases hk
  · rename_i d hd
    split at hk
    · cases hk
    · rename_i sh hsh
      split at hk
      · rename_i hz
        cases List.mem_singleton.1 hk
        exact (h.2.2 d hd sh hsh).own hz
      · cases hk

theorem Stores.frame (hrc : rc.OK) {s s' : State} {b : TBox} {i : Nat} {e : EVal} (h : Stores env rc decl s b i e)
    (hk : Keeps (boxBlocks env rc decl b i) s s') : Stores env rc decl s' b i e := by
  refine ⟨h.1, h.2.1, fun d hd sh hsh => ?_⟩
  have hin : 0 < sh.size → (⟨b.asPtr env, sh.size, sh.align⟩ : Block) ∈ boxBlocks env rc decl b i := by
    intro hz
    rw [boxBlocks_eq hd hsh hz]
    exact List.mem_singleton.2 rfl
  refine (h.2.2 d hd sh hsh).frame (shape_wf hrc hsh) (fun hz => (hk _ (hin hz)).1) (fun i h1 h2 => ?_)
  exact (hk _ (hin (by omega))).2 i h1 h2

theorem new_asPtr (h : env.OK) {sh : Shape} {v : Val} {d : env.cfg.Discr} {s s' : State} {b : TBox} (hz : sh.size ≠ 0)
    (hd : env.DiscrFits d) (hor : env.debug = true ∨ env.InRange) (hr : TBox.new env sh v d s = .ret b s') :
    b.asPtr env = env.alloc s sh.size sh.align ∧ env.alloc s sh.size sh.align ≠ 0 := by
  by_cases ha : env.alloc s sh.size sh.align = 0
  · rw [new_null hz ha] at hr; cases hr
  · obtain ⟨l1, l2, l3⟩ := h.lawful s sh.size sh.align (by omega) ha
    have hlt : env.alloc s sh.size sh.align < 2 ^ env.ptrBits := by omega
    have hlt64 : env.alloc s sh.size sh.align < 2 ^ 64 := Nat.lt_of_lt_of_le hlt h.pow_le
    have eofn : (BitVec.ofNat 64 (env.alloc s sh.size sh.align)).toNat = env.alloc s sh.size sh.align := by
      rw [BitVec.toNat_ofNat, Nat.mod_eq_of_lt hlt64]
    have hn := new_alloc h (v := v) (d := d) hz ha
    rw [hn] at hr
    rcases TPtr.new_cases env.cfg env.debug (BitVec.ofNat 64 (env.alloc s sh.size sh.align)) d with
      ⟨e, hr'⟩ | ⟨hdbg, ⟨e, _⟩ | ⟨e, _, _⟩⟩
    · rw [e] at hr
      cases hr
      have hrange : env.alloc s sh.size sh.align < 2 ^ env.cfg.ptrWidth := by
        rcases hor with hdbg | hin
        · have := (h.sane.le_maxPtr_iff _).1 (hr' hdbg).2
          rwa [eofn] at this
        · exact hin _ _ _
      exact ⟨(store_parts h hlt hrange hd).1, ha⟩
    · rw [e] at hr; cases hr
    · rw [e] at hr; cases hr

/-- The block of a new container is new. -/
theorem from_fresh (h : env.OK) (hc : Compiled rc env.cfg sn en false ts decl P)
    (hlen : decl.length ≤ 2 ^ env.cfg.freeBits) (ho : env.debug = true ∨ env.InRange) {i : Nat} {e : EVal}
    (hv : IsValue rc decl i e) {s s' : State} {b : TBox} (hr : containerFrom env rc P e s = .ret b s') :
    ∀ k ∈ boxBlocks env rc decl b i, k ∉ s.blocks := by
  obtain ⟨hw, rfl⟩ := hc.wf
  obtain ⟨d, hdi, hvn, hf⟩ := hv
  have hlt : i < 2 ^ env.cfg.freeBits := by
    have := (List.getElem?_eq_some_iff.1 hdi).1
    omega
  have heq : containerFrom env rc (programOf sn en false decl) e = M.cleanup (convertDrops false e) _ :=
    intoTaggedBox_eq (env := env) (sn := sn) (en := en) (hd := false) hw.names hw.members hw.arity hdi hvn hf
  rw [heq] at hr
  obtain ⟨s₁, hr', rfl⟩ := cleanup_ret_inv hr
  intro k hk hks
  cases hsh : d.fields.shape rc with
  | none => simp [boxBlocks, hdi, hsh] at hk
  | some sh =>
    by_cases hz : 0 < sh.size
    · rw [boxBlocks_eq hdi hsh hz] at hk
      cases List.mem_singleton.1 hk
      simp only [storeOf, hsh] at hr'
      obtain ⟨e1, e2⟩ := new_asPtr h (by omega) (numOf_fits hw.u8 hlt) ho hr'
      have hd := (h.lawful s sh.size sh.align hz e2).2.2 _ hks
      simp only [Block.Disjoint, e1] at hd
      omega
    · simp [boxBlocks, hdi, hsh, hz] at hk

/-! ## Running bodies -/

theorem withBodies_ret {α : Type} {body : Nat → List MByte → M Unit} {m : M α} {s s' : State} {a : α} (h : m s = .ret a s')
    (hn : dtorsBetween s s' = []) : withBodies body m s = .ret a s' := by
  simp only [withBodies, h, hn, runBodies]
  rfl

theorem withBodies_panic {α : Type} {body : Nat → List MByte → M Unit} {m : M α} {s s' : State} {k : PanicKind}
    (h : m s = .panic k s') (hn : dtorsBetween s s' = []) : withBodies body m s = .panic k s' := by
  cases k <;> simp only [withBodies, h, hn, runBodies] <;> rfl

theorem withBodies_abort {α : Type} {body : Nat → List MByte → M Unit} {m : M α} {s s' : State}
    (h : m s = .panic .abort s') : withBodies body m s = .panic .abort s' := by
  simp only [withBodies, h]

theorem withBodies_unwind {α : Type} {body : Nat → List MByte → M Unit} {m : M α} {s s' s'' : State} {k : PanicKind}
    (h : m s = .panic k s') (hk : k ≠ .abort) (hb : runBodies body (dtorsBetween s s') s' = .ret () s'') :
    withBodies body m s = .panic k s'' := by
  cases k <;> first | exact absurd rfl hk | simp only [withBodies, h, hb]

theorem ostepWith_ret {α : Type} {s s' : State} {m : M α} {a : α} {f : α → ORes β × List (Option OCell)} {u : List (Option OCell)}
    (h : m s = .ret a s') : ostepWith s m f u = some ((f a).1, ⟨s', (f a).2⟩) := by simp only [ostepWith, h]

theorem ostepWith_panic {α : Type} {s s' : State} {m : M α} {k : PanicKind} {f : α → ORes β × List (Option OCell)}
    {u : List (Option OCell)} (h : m s = .panic k s') : ostepWith s m f u = some (.panicked k, ⟨s', u⟩) := by
  simp only [ostepWith, h]

/-! ## Simulation -/

/-- What a cell stands for, and the blocks `K` it owns. The block of a container is in the pool `G`. -/
def CellRel (env : Env) (rc : Rustc) (decl : List VariantDef) (O : Ownership X) (G : List Block) (s : State) (K : List Block) :
    Option OCell → Option (Bool × X) → Prop
  | none, none => True
  | some (.val e), some (false, x) => OwnsVal rc decl O s K e x
  | some (.box b), some (true, x) => ∃ i e, (∀ k ∈ boxBlocks env rc decl b i, k ∈ G) ∧ Stores env rc decl s b i e ∧ O.own s K e x
  | _, _ => False

theorem CellRel.mono (hrc : rc.OK) {O : Ownership X} (hO : O.Lawful) {G G' : List Block} {s s' : State} {K : List Block}
    {c : Option OCell} {x : Option (Bool × X)} (h : CellRel env rc decl O G s K c x) (hk : Keeps K s s') (hG : Keeps G s s')
    (hGG : ∀ b ∈ G, b ∈ G') : CellRel env rc decl O G' s' K c x := by
  match c, x, h with
  | none, none, _ => trivial
  | some (.val e), some (false, x), h => exact ⟨h.1, hO.frame h.2 hk⟩
  | some (.box b), some (true, x), ⟨i, e, h0, h1, h2⟩ =>
    exact ⟨i, e, fun k hk => hGG k (h0 k hk), h1.frame hrc (hG.sub h0), hO.frame h2 hk⟩

/-- The cells of the client stand for the abstract values of the plain client; cell `h` owns the blocks `K h`, and different
cells own different blocks. The pool `G`: blocks of containers, and of others; nobody owns them. -/
structure OSim (env : Env) (rc : Rustc) (decl : List VariantDef) (O : Ownership X) (c : OState) (hs : OPlain X)
    (K : Nat → List Block) (G : List Block) : Prop where
  inv : HeapInv env c.s
  len : c.cells.length = hs.length
  live : ∀ h, ∀ b ∈ K h, b ∈ c.s.blocks
  pool : ∀ b ∈ G, b ∈ c.s.blocks
  apart : ∀ h h', h ≠ h' → ∀ b ∈ K h, b ∉ K h'
  unowned : ∀ h, ∀ b ∈ K h, b ∉ G
  rel : ∀ h, CellRel env rc decl O G c.s (K h) c.cells[h]?.join hs[h]?.join

variable {O : Ownership X} {c : OState} {hs : OPlain X} {K : Nat → List Block} {G : List Block}

theorem join_set' {α : Type} (l : List (Option α)) (h k : Nat) (a : Option α) :
    (l.set h a)[k]?.join = if h = k ∧ h < l.length then a else l[k]?.join := by
  rw [List.getElem?_set]
  by_cases e : h = k
  · subst e
    by_cases hl : h < l.length
    · simp [hl]
    · simp [hl]
  · simp [e]

/-- Putting back what is there. -/
theorem set_same {α : Type} {l : List (Option α)} {h : Nat} {a : α} (e : l[h]?.join = some a) : l.set h (some a) = l := by
  apply List.ext_getElem?
  intro k
  rw [List.getElem?_set]
  split
  · rename_i hk
    subst hk
    split
    · cases hx : l[h]? with
      | none => rw [hx] at e; cases e
      | some y => rw [hx] at e; rw [← e]; rfl
    · rename_i hl
      rw [List.getElem?_eq_none (Nat.le_of_not_lt hl)]
  · rfl

/-- The new situation, and what became of the pool. -/
def Next (env : Env) (rc : Rustc) (decl : List VariantDef) (O : Ownership X) (G : List Block) (s : State) (c : OState)
    (hs : OPlain X) : Prop :=
  ∃ K G', OSim env rc decl O c hs K G' ∧ (∀ b ∈ G, b ∈ G') ∧ Keeps G s c.s

/-- Nothing alive was touched. -/
theorem OSim.extend (hrc : rc.OK) (hO : O.Lawful) (S : OSim env rc decl O c hs K G) {s' : State} (hi : HeapInv env s')
    (he : Extends c.s s') : Next env rc decl O G c.s ⟨s', c.cells⟩ hs := by
  have hk : ∀ {F}, (∀ b ∈ F, b ∈ c.s.blocks) → Keeps F c.s s' := fun hF =>
    (ChangesOnly.of_extends [] he).keeps fun b hb => ⟨hF b hb, by simp⟩
  exact ⟨K, G, ⟨hi, S.len, fun h b hb => he.blocks b (S.live h b hb), fun b hb => he.blocks b (S.pool b hb), S.apart, S.unowned,
    fun h => (S.rel h).mono hrc hO (hk (S.live h)) (hk S.pool) (fun _ hb => hb)⟩, fun _ hb => hb, hk S.pool⟩

/-- Only what cell `h` owns was touched, and the cell has a new content that owns some of that and new blocks; the pool may have got
new blocks. -/
theorem OSim.update (hrc : rc.OK) (hO : O.Lawful) (S : OSim env rc decl O c hs K G) {h : Nat} (hh : h < c.cells.length) {s' : State}
    (hi : HeapInv env s') (he : ChangesOnly (K h) c.s s') {K' G' : List Block} {cell : Option OCell} {x : Option (Bool × X)}
    (hK : ∀ b ∈ K', b ∈ K h ∨ b ∉ c.s.blocks) (hl : ∀ b ∈ K', b ∈ s'.blocks)
    (hG : ∀ b ∈ G', b ∉ c.s.blocks) (hGl : ∀ b ∈ G', b ∈ s'.blocks) (hKG : ∀ b ∈ K', b ∉ G')
    (hr : CellRel env rc decl O (G' ++ G) s' K' cell x) :
    Next env rc decl O G c.s ⟨s', c.cells.set h cell⟩ (hs.set h x) := by
  have hkeep : ∀ k, k ≠ h → Keeps (K k) c.s s' := fun k hk => he.keeps fun b hb => ⟨S.live k b hb, S.apart k h hk b hb⟩
  have hkeepG : Keeps G c.s s' := he.keeps fun b hb => ⟨S.pool b hb, fun hx => S.unowned h b hx hb⟩
  have hout : ∀ k, k ≠ h → ∀ b ∈ K k, b ∉ K' := by
    intro k hk b hb hb'
    rcases hK b hb' with h1 | h1
    · exact S.apart k h hk b hb h1
    · exact h1 (S.live k b hb)
  refine ⟨fun k => if k = h then K' else K k, G' ++ G, ⟨hi, by simp [S.len], fun k b hb => ?_, fun b hb => ?_,
    fun k k' hk b hb hb' => ?_, fun k b hb hb' => ?_, fun k => ?_⟩, fun b hb => List.mem_append_right _ hb, hkeepG⟩
  · split at hb
    · exact hl b hb
    · rename_i hk; exact (hkeep k hk b hb).1
  · exact (List.mem_append.1 hb).elim (hGl b) (fun hb => (hkeepG b hb).1)
  · split at hb
    · rename_i h1
      split at hb'
      · rename_i h2; exact hk (h1.trans h2.symm)
      · rename_i h2; exact hout k' h2 b hb' hb
    · rename_i h1
      split at hb'
      · exact hout k h1 b hb hb'
      · exact S.apart k k' hk b hb hb'
  · rcases List.mem_append.1 hb' with hg | hg
    · split at hb
      · exact hKG b hb hg
      · exact hG b hg (S.live k b hb)
    · split at hb
      · exact (hK b hb).elim (fun hx => S.unowned h b hx hg) (fun hx => hx (S.pool b hg))
      · exact S.unowned k b hb hg
  · dsimp only
    rw [join_set', join_set', ← S.len]
    by_cases e : k = h
    · subst e; simpa [hh] using hr
    · have e' : ¬ (h = k) := fun x => e x.symm
      simp only [e, e', false_and, if_false]
      exact (S.rel k).mono hrc hO (hkeep k e) hkeepG (fun b hb => List.mem_append_right _ hb)

/-- A new cell that owns new blocks only. -/
theorem OSim.push (hrc : rc.OK) (hO : O.Lawful) (S : OSim env rc decl O c hs K G) {s' : State}
    (hi : HeapInv env s') (he : Extends c.s s') {K' G' : List Block} {cell : Option OCell} {x : Option (Bool × X)}
    (hK : ∀ b ∈ K', b ∉ c.s.blocks) (hl : ∀ b ∈ K', b ∈ s'.blocks)
    (hG : ∀ b ∈ G', b ∉ c.s.blocks) (hGl : ∀ b ∈ G', b ∈ s'.blocks) (hKG : ∀ b ∈ K', b ∉ G')
    (hr : CellRel env rc decl O (G' ++ G) s' K' cell x) :
    Next env rc decl O G c.s ⟨s', c.cells ++ [cell]⟩ (hs ++ [x]) := by
  have hj : ∀ {α : Type} (l : List (Option α)) (k : Nat), (l ++ [none])[k]?.join = l[k]?.join := by
    intro α l k
    rw [List.getElem?_append]
    split
    · rfl
    · rename_i hk
      rw [List.getElem?_eq_none (Nat.le_of_not_lt hk)]
      cases h0 : k - l.length <;> rfl
  have S' : OSim env rc decl O ⟨c.s, c.cells ++ [none]⟩ (hs ++ [none]) K G :=
    ⟨S.inv, by simp [S.len], S.live, S.pool, S.apart, S.unowned, fun h => by rw [hj, hj]; exact S.rel h⟩
  have hset : ∀ {α : Type} (l : List (Option α)) (a : Option α), (l ++ [none]).set l.length a = l ++ [a] := by
    intro α l a
    rw [List.set_append_right _ _ (Nat.le_refl _)]
    simp
  have := S'.update hrc hO (h := c.cells.length) (by simp) hi (ChangesOnly.of_extends _ he) (fun b hb => .inr (hK b hb)) hl hG hGl
    hKG hr
  rw [hset, S.len, hset] at this
  exact this

/-- A cell is given up. -/
theorem OSim.gone (hrc : rc.OK) (hO : O.Lawful) (S : OSim env rc decl O c hs K G) {h : Nat} (hh : h < c.cells.length) {s' : State}
    (hi : HeapInv env s') (he : ChangesOnly (K h) c.s s') :
    Next env rc decl O G c.s ⟨s', c.cells.set h none⟩ (hs.set h none) :=
  S.update hrc hO hh hi he (K' := []) (G' := []) (cell := none) (x := none) (by simp) (by simp) (by simp) (by simp) (by simp) trivial

/-! ## User code -/

theorem Ends.cases {α γ : Type} {F : List Block} {s : State} {o : Out α} {out : Except Nat γ} {good : State → α → γ → Prop}
    (h : Ends env F s o out good) : ∃ s', s.trace <+: s'.trace ∧
      ((o = .panic .abort s' ∧ NullBetween s s') ∨
       (HeapInv env s' ∧ ChangesOnly F s s' ∧ dtorsBetween s s' = [] ∧
         ((∃ a c, out = .ok c ∧ o = .ret a s' ∧ good s' a c) ∨ ∃ k, out = .error k ∧ o = .panic (.user k) s'))) := by
  obtain ⟨s', h1, h2, h3 | ⟨h3, h4, h5⟩⟩ := h
  · exact ⟨s', h2, .inl h3⟩
  · refine ⟨s', h2, .inr ⟨h1, h3, h4, ?_⟩⟩
    cases out with
    | ok c => obtain ⟨a, h6, h7⟩ := h5; exact .inl ⟨a, c, rfl, h6, h7⟩
    | error k => exact .inr ⟨k, rfl, h5⟩

theorem refFrom_owned (hc : Compiled rc env.cfg sn en false ts decl P) {s : State} {b : TBox} {i : Nat} {e : EVal}
    (hs : Stores env rc decl s b i e) {α : Type} (f : EVal → M α) :
    (taggable env rc P).refFrom b f s = (do let r ← f e; pure (some r) : M (Option α)) s := by
  have h := seen_step hc hs α f
  have : (crateDtors rc decl false).seen e = [] := by
    show (if _ then _ else _ : List Event) = []
    split <;> rfl
  rw [this, cleanup_nil] at h
  exact h

theorem nested_owned (hc : Compiled rc env.cfg sn en false ts decl P) {s : State} {b b' : TBox} {i i' : Nat} {e e' : EVal}
    (hs : Stores env rc decl s b i e) (hs' : Stores env rc decl s b' i' e') {α : Type} (f : EVal → EVal → M α) (dflt : α) :
    (do let r ← (taggable env rc P).refFrom b (fun this => (taggable env rc P).refFrom b' (fun other => f this other))
        pure (r.join.getD dflt) : M α) s = f e e' s := by
  have h := nested_presents (seen_step hc hs) (seen_step hc hs') f dflt
  have hn : ∀ e, (crateDtors rc decl false).seen e = [] := by
    intro e
    show (if _ then _ else _ : List Event) = []
    split <;> rfl
  rw [hn, hn, List.append_nil, cleanup_nil] at h
  exact h

theorem ofail_none : OFailOK env none := .inl (.inl rfl)

/-- What a step of the client is to do, compared to the plain client. -/
def StepOK (env : Env) (rc : Rustc) (decl : List VariantDef) (O : Ownership X) (G : List Block) (c : OState)
    (real : Option (ORes β × OState)) (plain : Option PanicKind → Option (ORes β × OPlain X)) : Prop :=
  ∃ fail, OFailOK env fail ∧ ((real = none ∧ plain fail = none) ∨
    ∃ o c' hs', real = some (o, c') ∧ plain fail = some (o, hs') ∧
      (o = .panicked .abort ∨ Next env rc decl O G c.s c' hs') ∧ c.s.trace <+: c'.s.trace ∧
      (env.InRange → ¬ NullBetween c.s c'.s → fail = none))

theorem StepOK.stuck {c : OState} {real : Option (ORes β × OState)}
    {plain : Option PanicKind → Option (ORes β × OPlain X)} (h : real = none) (h' : plain none = none) :
    StepOK env rc decl O G c real plain := ⟨_, ofail_none, .inl ⟨h, h'⟩⟩

theorem StepOK.goes {c : OState} {real : Option (ORes β × OState)}
    {plain : Option PanicKind → Option (ORes β × OPlain X)} {fail : Option PanicKind} {o : ORes β} {c' : OState} {hs' : OPlain X}
    (hf : OFailOK env fail) (h : real = some (o, c')) (h' : plain fail = some (o, hs'))
    (S : Next env rc decl O G c.s c' hs') (ht : c.s.trace <+: c'.s.trace) (hn : env.InRange → ¬ NullBetween c.s c'.s → fail = none) :
    StepOK env rc decl O G c real plain := ⟨fail, hf, .inr ⟨o, c', hs', h, h', .inr S, ht, hn⟩⟩

theorem StepOK.abort {c : OState} {real : Option (ORes β × OState)}
    {plain : Option PanicKind → Option (ORes β × OPlain X)} {c' : OState} {hs' : OPlain X}
    (h : real = some (.panicked .abort, c')) (h' : plain (some .abort) = some (.panicked .abort, hs'))
    (ht : c.s.trace <+: c'.s.trace) (hn : NullBetween c.s c'.s) :
    StepOK env rc decl O G c real plain :=
  ⟨some .abort, .inr rfl, .inr ⟨_, c', hs', h, h', .inl rfl, ht, fun _ hx => absurd hn hx⟩⟩

/-- A cell is known to both sides or to neither. -/
theorem OSim.look (S : OSim env rc decl O c hs K G) (h : Nat) :
    (c.cells[h]?.join = none ∧ hs[h]?.join = none) ∨
    (∃ e x, h < c.cells.length ∧ c.cells[h]?.join = some (.val e) ∧ hs[h]?.join = some (false, x) ∧ OwnsVal rc decl O c.s (K h) e x) ∨
    (∃ b x i e, h < c.cells.length ∧ c.cells[h]?.join = some (.box b) ∧ hs[h]?.join = some (true, x) ∧
      Stores env rc decl c.s b i e ∧ O.own c.s (K h) e x) := by
  have hr := S.rel h
  have hl : ∀ {a}, c.cells[h]?.join = some a → h < c.cells.length := by
    intro a ha
    by_cases hx : h < c.cells.length
    · exact hx
    · rw [List.getElem?_eq_none (Nat.le_of_not_lt hx)] at ha; cases ha
  match hc : c.cells[h]?.join, hh : hs[h]?.join, hr with
  | .none, .none, _ => exact .inl ⟨rfl, rfl⟩
  | .some (.val e), .some (false, x), hr => exact .inr (.inl ⟨e, x, hl hc, rfl, rfl, hr⟩)
  | .some (.box b), .some (true, x), ⟨i, e, h1, h2, h3⟩ =>
    exact .inr (.inr ⟨b, x, i, e, hl hc, rfl, rfl, h2, h3⟩)
  | .none, .some _, hr => exact hr.elim
  | .some (.val e), .none, hr => exact hr.elim
  | .some (.val e), .some (true, x), hr => exact hr.elim
  | .some (.box b), .none, hr => exact hr.elim
  | .some (.box b), .some (false, x), hr => exact hr.elim

/-- A step that only looks. -/
theorem OSim.looks (hrc : rc.OK) (hO : O.Lawful) (S : OSim env rc decl O c hs K G) {α γ : Type} {m : M α} {out : Except Nat γ}
    {good : State → α → γ → Prop} (hE : Ends env [] c.s (m c.s) out good) {g : α → ORes β} {g' : γ → ORes β}
    (hg : ∀ s a c, good s a c → g a = g' c) :
    StepOK env rc decl O G c (ostepWith c.s m (fun r => (g r, c.cells)) c.cells)
      (fun fail => some (match oplainRes fail out with
        | .ok a => (g' a, hs)
        | .error p => (.panicked p, hs))) := by
  obtain ⟨s', ht, ⟨h1, h2⟩ | ⟨hi, hC, hd, ⟨a, x, rfl, h2, h3⟩ | ⟨k, rfl, h2⟩⟩⟩ := hE.cases
  · exact .abort (ostepWith_panic h1) rfl ht h2
  · exact .goes ofail_none (ostepWith_ret h2) (by simp only [oplainRes, hg _ _ _ h3]; rfl) (S.extend hrc hO hi hC.extends) ht
      (fun _ _ => rfl)
  · exact .goes ofail_none (ostepWith_panic h2) rfl (S.extend hrc hO hi hC.extends) ht (fun _ _ => rfl)

theorem Ends.withBodies {α γ : Type} {F : List Block} {s : State} {m : M α} {out : Except Nat γ} {good : State → α → γ → Prop}
    (body : Nat → List MByte → M Unit) (h : Ends env F s (m s) out good) : Ends env F s (withBodies body m s) out good := by
  obtain ⟨s', h1, h2, ⟨h3, h4⟩ | ⟨h3, h4, h5⟩⟩ := h
  · exact ⟨s', h1, h2, .inl ⟨withBodies_abort h3, h4⟩⟩
  · refine ⟨s', h1, h2, .inr ⟨h3, h4, ?_⟩⟩
    cases out with
    | ok c => obtain ⟨a, h6, h7⟩ := h5; exact ⟨a, withBodies_ret h6 h4, h7⟩
    | error k => exact withBodies_panic h5 h4

theorem Ends.congr {α γ : Type} {F : List Block} {s : State} {o o' : Out α} {out : Except Nat γ} {good : State → α → γ → Prop}
    (h : Ends env F s o out good) (e : o' = o) : Ends env F s o' out good := e ▸ h

/-- Passing a reference on: the result comes back as `some`. -/
theorem Ends.refFrom {α γ : Type} {F : List Block} {s : State} {m : M α} {out : Except Nat γ} {good : State → α → γ → Prop}
    (h : Ends env F s (m s) out good) :
    Ends env F s ((do let r ← m; pure (Option.some r) : M (Option α)) s) out (fun s' r c => ∃ a, r = Option.some a ∧ good s' a c) := by
  obtain ⟨s', h1, h2, ⟨h3, h4⟩ | ⟨h3, h4, h5⟩⟩ := h
  · exact ⟨s', h1, h2, .inl ⟨M.bind_of_panic h3, h4⟩⟩
  · refine ⟨s', h1, h2, .inr ⟨h3, h4, ?_⟩⟩
    cases out with
    | ok c => obtain ⟨a, h6, h7⟩ := h5; exact ⟨Option.some a, M.bind_of_ret h6, a, rfl, h7⟩
    | error k => exact M.bind_of_panic h5

/-! ## Making containers -/

theorem made_ok (hz : NoZeroSizedDtors rc decl) {e : EVal} (hv : IsEnumValue rc decl e) :
    (crateDtors rc decl false).made e none = [] := by
  show (if zeroSized rc decl e then fieldDtors rc decl e else []) ++ [] = []
  split
  · rename_i h; rw [hz e hv h]; rfl
  · rfl

/-- Putting a value that owns `F` into a container: either it is in the container, with a new block, or there was no memory, and then
nothing but `F` was touched. -/
theorem wrap_step (h : env.OK) (hrc : rc.OK) (hc : Compiled rc env.cfg sn en false ts decl P)
    (hlen : decl.length ≤ 2 ^ env.cfg.freeBits) (ho : env.debug = true ∨ env.InRange) (hz : NoZeroSizedDtors rc decl)
    {O : Ownership X} (hO : O.Lawful) {body : Nat → List MByte → M Unit} (hB : DropOK env rc decl O body) {s₀ s : State}
    (ht₀ : s₀.trace <+: s.trace) (hd₀ : dtorsBetween s₀ s = [])
    {m : M TBox} {e : EVal} (hm : m s₀ = containerFrom env rc P e s)
    (hi : HeapInv env s) {F : List Block} {x : X} (hv : OwnsVal rc decl O s F e x) :
    ∃ fail s', FailOK env fail ∧ (env.InRange → ¬ NullBetween s s' → fail = none) ∧ HeapInv env s' ∧ ChangesOnly F s s' ∧
      match fail with
      | none => ∃ b i, withBodies body m s₀ = .ret b s' ∧ Extends s s' ∧ Stores env rc decl s' b i e ∧ O.own s' F e x ∧
          ∀ k ∈ boxBlocks env rc decl b i, k ∉ s.blocks
      | some k => withBodies body m s₀ = .panic k s' := by
  obtain ⟨fail, s', hf, hg, hi', he', hev, hr⟩ := from_step h hrc hc hlen ho hv.1 hi
  have hd : dtorsBetween s₀ s' = (crateDtors rc decl false).made e fail := by
    rw [dtors_trans ht₀ he'.trace, hd₀, hev]; rfl
  have hkeep : Keeps F s s' :=
    (ChangesOnly.of_extends [] he').keeps fun b hb => ⟨hO.live hv.2 b hb, by simp⟩
  have hown := hO.frame hv.2 hkeep
  match fail, hf, hg, hd, hr with
  | none, hf, hg, hd, ⟨b, i, hr, hst⟩ =>
    refine ⟨none, s', hf, hg, hi', .of_extends _ he', b, i, withBodies_ret (hm.trans hr) (hd.trans (made_ok hz hv.1)), he', hst, hown,
      from_fresh h hc hlen ho hst.1 hr⟩
  | some .nullAlloc, hf, hg, hd, hr =>
    obtain ⟨s'', e1, e2, e3⟩ := hB s' F e x hi' ⟨hv.1, hown⟩
    have hd' : dtorsBetween s₀ s' = fieldDtors rc decl e := hd.trans (List.append_nil _)
    refine ⟨some .nullAlloc, s'', hf, fun hin hn => ?_, e2, (ChangesOnly.of_extends F he').trans e3 (fun b hb => .inl hb),
      withBodies_unwind (hm.trans hr) (fun hx => by cases hx) (by rw [hd']; exact e1)⟩
    exact hg hin (fun hx => hn (NullBetween.trans he'.trace e3.trace (.inl hx)))
  | some .pointer, hf, hg, hd, hr =>
    exact ⟨some .pointer, s', hf, hg, hi', .of_extends _ he', withBodies_panic (hm.trans hr) hd⟩

/-- Values without payload bytes: nothing happens. -/
theorem from_empty (h : env.OK) (hrc : rc.OK) (hc : Compiled rc env.cfg sn en false ts decl P)
    (hlen : decl.length ≤ 2 ^ env.cfg.freeBits) (ho : env.debug = true ∨ env.InRange) (hz : NoZeroSizedDtors rc decl)
    (hE : ∀ d ∈ decl, ∀ sh, d.fields.shape rc = some sh → sh.size = 0) {e : EVal} (hv : IsEnumValue rc decl e) {s : State}
    (hi : HeapInv env s) : ∃ b i, containerFrom env rc P e s = .ret b s ∧ Stores env rc decl s b i e := by
  obtain ⟨i, hv'⟩ := id hv
  obtain ⟨hw, rfl⟩ := hc.wf
  obtain ⟨d, hdi, hvn, hf⟩ := id hv'
  have hlt : i < 2 ^ env.cfg.freeBits := by
    have := (List.getElem?_eq_some_iff.1 hdi).1
    omega
  have hmem := List.mem_of_getElem? hdi
  have heq : containerFrom env rc (programOf sn en false decl) e = M.cleanup [] _ :=
    intoTaggedBox_eq (env := env) (sn := sn) (en := en) (hd := false) hw.names hw.members hw.arity hdi hvn hf
  rw [cleanup_nil] at heq
  have fin : ∀ b, storeOf env rc d.fields e.payload (numOf env i) s = .ret b s →
      ∃ b i, containerFrom env rc (programOf sn en false decl) e s = .ret b s ∧ Stores env rc decl s b i e := by
    intro b hr
    have hr' : containerFrom env rc (programOf sn en false decl) e s = .ret b s := by rw [heq]; exact hr
    exact ⟨b, i, hr', (into_stores h hrc hw.u8 hw.names hw.members hw.arity hv' hi hr').2.2 hlt ho⟩
  rcases storeOf_spec h hrc hi hf (numOf env i) with ⟨b, s', e1, _, _, _, ⟨_, rfl⟩ | ⟨sh, hsh, ⟨h0, rfl⟩ | ⟨h0, _⟩⟩⟩ | ⟨sh, hsh, h0, _⟩ |
      ⟨sh, hsh, h0, _⟩
  · exact fin b e1
  · have : dropEvents sh e.payload.vals = [] := by
      rw [← fieldDtors_eq hw.names hdi hvn hsh]
      exact hz e hv (by rw [zeroSized_eq hw.names hdi hvn hsh]; simp [h0])
    rw [this, log_nil] at e1
    exact fin b e1
  · have := hE d hmem sh hsh; omega
  · have := hE d hmem sh hsh; omega
  · have := hE d hmem sh hsh; omega

/-! ## One step -/

theorem OSim.step (h : env.OK) (hrc : rc.OK) (hc : Compiled rc env.cfg sn en false ts decl P)
    (hlen : decl.length ≤ 2 ^ env.cfg.freeBits) (ho : env.debug = true ∨ env.InRange) (hz : NoZeroSizedDtors rc decl)
    (hO : O.Lawful) {body : Nat → List MByte → M Unit} (hB : DropOK env rc decl O body)
    (S : OSim env rc decl O c hs K G) {op : OOp X β} (hop : op.Safe env rc decl O) (hin : op.InPlace) :
    StepOK env rc decl O G c (ostep env rc P body c op) (fun fail => oplain fail hs op) := by
  -- comparisons
  have two : ∀ (α : Type) (hh hh' : Nat) (f : Look2Fn X α) (g : α → ORes β) (m : TBox → TBox → M α) (_ : f.OK env rc decl O)
      (_ : ∀ b b' i i' e e', Stores env rc decl c.s b i e → Stores env rc decl c.s b' i' e' → m b b' c.s = f.run e e' c.s),
      StepOK env rc decl O G c (ocompare body c hh hh' m f.run g) (fun fail => oplainCompare fail hs hh hh' f.out g) := by
    intro α hh hh' f g m hf hm
    rcases S.look hh with ⟨e1, e2⟩ | ⟨e, x, _, e1, e2, hv⟩ | ⟨b, x, i, e, _, e1, e2, hst, hown⟩
    · exact .stuck (by simp only [ocompare, e1]) (by simp only [oplainCompare, e2])
    · rcases S.look hh' with ⟨d1, d2⟩ | ⟨e', x', _, d1, d2, hv'⟩ | ⟨b', x', i', e', _, d1, d2, hst', hown'⟩
      · exact .stuck (by simp only [ocompare, e1, d1]) (by simp only [oplainCompare, e2, d2])
      · simp only [ocompare, e1, d1, oplainCompare, e2, d2, if_true]
        exact S.looks hrc hO (hf c.s _ _ _ _ _ _ S.inv hv hv') (fun _ _ _ hg => by rw [hg])
      · exact .stuck (by simp only [ocompare, e1, d1]) (by simp [oplainCompare, e2, d2])
    · rcases S.look hh' with ⟨d1, d2⟩ | ⟨e', x', _, d1, d2, hv'⟩ | ⟨b', x', i', e', _, d1, d2, hst', hown'⟩
      · exact .stuck (by simp only [ocompare, e1, d1]) (by simp only [oplainCompare, e2, d2])
      · exact .stuck (by simp only [ocompare, e1, d1]) (by simp [oplainCompare, e2, d2])
      · simp only [ocompare, e1, d1, oplainCompare, e2, d2, if_true]
        exact S.looks hrc hO (Ends.withBodies body ((hf c.s _ _ _ _ _ _ S.inv ⟨⟨_, hst.1⟩, hown⟩ ⟨⟨_, hst'.1⟩, hown'⟩).congr
          (hm b b' i i' e e' hst hst'))) (fun _ _ _ hg => by rw [hg])
  cases op with
  | make f =>
    obtain ⟨s', ht, ⟨h1, h2⟩ | ⟨hi, hC, hd, ⟨a, x, hx, h2, F, h3, h4⟩ | ⟨k, hk, h2⟩⟩⟩ := (hop c.s S.inv).cases
    · exact .abort (ostepWith_panic h1) rfl ht h2
    · have S' := S.push hrc hO hi hC.extends (K' := F) (G' := []) (cell := some (.val a)) (x := some (false, x)) h4
        (hO.live h3.2) (by simp) (by simp) (by simp) h3
      refine .goes (fail := none) ofail_none (ostepWith_ret h2) ?_ S' ht (fun _ _ => rfl)
      simp only [oplain, hx, S.len]; rfl
    · refine .goes ofail_none (ostepWith_panic h2) ?_ (S.extend hrc hO hi hC.extends) ht (fun _ _ => rfl)
      simp only [oplain, hk]; rfl
  | wrap hh =>
    rcases S.look hh with ⟨e1, e2⟩ | ⟨e, x, hl, e1, e2, hv⟩ | ⟨b, x, i, e, hl, e1, e2, hst, hown⟩
    · exact .stuck (by simp only [ostep, e1]) (by simp only [oplain, e2])
    · obtain ⟨fail, s', hf, hg, hi', hC, hr⟩ := wrap_step h hrc hc hlen ho hz hO hB (List.prefix_refl _) (dtors_refl _)
        (m := containerFrom env rc P e) rfl S.inv hv
      cases fail with
      | none =>
        obtain ⟨b, i, hr, he, hst, hown, hfr⟩ := hr
        have S' := S.update hrc hO hl hi' hC (K' := K hh) (G' := boxBlocks env rc decl b i) (cell := some (.box b))
          (x := some (true, x)) (fun k hk => .inl hk) (hO.live hown) hfr hst.blocks_live (fun k hk hx => hfr k hx (S.live hh k hk))
          ⟨i, e, fun k hk => List.mem_append_left _ hk, hst, hown⟩
        exact .goes (.inl hf) (by simp only [ostep, e1]; exact ostepWith_ret hr) (by simp only [oplain, e2]) S' hC.trace hg
      | some k =>
        have S' := S.gone hrc hO hl hi' hC
        exact .goes (.inl hf) (by simp only [ostep, e1]; exact ostepWith_panic hr) (by simp only [oplain, e2]) S' hC.trace hg
    · exact .stuck (by simp only [ostep, e1]) (by simp only [oplain, e2])
  | unwrap hh =>
    rcases S.look hh with ⟨e1, e2⟩ | ⟨e, x, hl, e1, e2, hv⟩ | ⟨b, x, i, e, hl, e1, e2, hst, hown⟩
    · exact .stuck (by simp only [ostep, e1]) (by simp only [oplain, e2])
    · exact .stuck (by simp only [ostep, e1]) (by simp only [oplain, e2])
    · obtain ⟨hw, rfl⟩ := hc.wf
      have hr := containerIntoInner_stores (sn := sn) (en := en) (hd := false) hw.u8 hw.names hw.members hst
      have S' := S.update hrc hO hl S.inv (.of_extends _ (Extends.refl _)) (K' := K hh) (G' := []) (cell := some (.val e))
        (x := some (false, x)) (fun k hk => .inl hk) (S.live hh) (by simp) (by simp) (by simp) ⟨⟨_, hst.1⟩, hown⟩
      exact .goes (fail := none) ofail_none (by simp only [ostep, e1]; exact ostepWith_ret (withBodies_ret hr (dtors_refl _)))
        (by simp only [oplain, e2]) S' (List.prefix_refl _) (fun _ _ => rfl)
  | clone hh f =>
    rcases S.look hh with ⟨e1, e2⟩ | ⟨e, x, hl, e1, e2, hv⟩ | ⟨b, x, i, e, hl, e1, e2, hst, hown⟩
    · exact .stuck (by simp only [ostep, e1]) (by simp only [oplain, e2])
    · obtain ⟨s', ht, ⟨h1, h2⟩ | ⟨hi, hC, hd, ⟨a, y, hy, h2, F, h3, h4⟩ | ⟨k, hk, h2⟩⟩⟩ := (hop c.s _ _ _ S.inv hv).cases
      · exact .abort (by simp only [ostep, e1]; exact ostepWith_panic h1) (by simp only [oplain, e2]; rfl) ht h2
      · have S' := S.push hrc hO hi hC.extends (K' := F) (G' := []) (cell := some (.val a)) (x := some (false, y)) h4
          (hO.live h3.2) (by simp) (by simp) (by simp) h3
        refine .goes (fail := none) ofail_none (by simp only [ostep, e1]; exact ostepWith_ret h2) ?_ S' ht (fun _ _ => rfl)
        simp only [oplain, e2, hy, S.len]; rfl
      · refine .goes (fail := none) ofail_none (by simp only [ostep, e1]; exact ostepWith_panic h2) ?_
          (S.extend hrc hO hi hC.extends) ht (fun _ _ => rfl)
        simp only [oplain, e2, hk]; rfl
    · have hE := ((hop c.s _ _ _ S.inv ⟨⟨_, hst.1⟩, hown⟩).refFrom).congr (refFrom_owned hc hst f.run)
      obtain ⟨s', ht, ⟨h1, h2⟩ | ⟨hi, hC, hd, ⟨r, y, hy, h2, a, rfl, F', h3, h4⟩ | ⟨k, hk, h2⟩⟩⟩ := hE.cases
      · have hr : TBox.clone (taggable env rc P) f.run b c.s = .panic .abort s' := M.bind_of_panic h1
        exact .abort (by simp only [ostep, e1]; exact ostepWith_panic (withBodies_abort hr)) (by simp only [oplain, e2]; rfl) ht h2
      · have hm : TBox.clone (taggable env rc P) f.run b c.s = containerFrom env rc P a s' := M.bind_of_ret h2
        obtain ⟨fail, s'', hf, hg, hi', hC', hr⟩ := wrap_step h hrc hc hlen ho hz hO hB ht hd hm hi h3
        have hC'' : ChangesOnly [] c.s s'' := hC.trans hC' (fun k hk => .inr (h4 k hk))
        have hg' : env.InRange → ¬ NullBetween c.s s'' → fail = none := fun hin hn =>
          hg hin (fun hx => hn (NullBetween.trans ht hC'.trace (.inr hx)))
        cases fail with
        | none =>
          obtain ⟨b', i', hr, he, hst', hown', hfr⟩ := hr
          have S' := S.push hrc hO hi' hC''.extends (K' := F') (G' := boxBlocks env rc decl b' i') (cell := some (.box b'))
            (x := some (true, y)) h4 (hO.live hown') (fun k hk hx => hfr k hk (hC.extends.blocks k hx)) hst'.blocks_live
            (fun k hk hx => hfr k hx (hO.live h3.2 k hk)) ⟨i', a, fun k hk => List.mem_append_left _ hk, hst', hown'⟩
          refine .goes (.inl hf) (by simp only [ostep, e1]; exact ostepWith_ret hr) ?_ S' hC''.trace hg'
          simp only [oplain, e2, hy, S.len]; rfl
        | some k =>
          refine .goes (.inl hf) (by simp only [ostep, e1]; exact ostepWith_panic hr) ?_ (S.extend hrc hO hi' hC''.extends) hC''.trace hg'
          have hk : some k ≠ some PanicKind.abort := by
            rcases hf with hf | hf | ⟨hf, _⟩ <;> cases hf <;> simp
          simp only [oplain, e2, hy, oplainRes, if_neg hk]
      · have hr : TBox.clone (taggable env rc P) f.run b c.s = .panic (.user k) s' := M.bind_of_panic h2
        refine .goes (fail := none) ofail_none (by simp only [ostep, e1]; exact ostepWith_panic (withBodies_panic hr hd)) ?_
          (S.extend hrc hO hi hC.extends) ht (fun _ _ => rfl)
        simp only [oplain, e2, hk]; rfl
  | look hh f =>
    rcases S.look hh with ⟨e1, e2⟩ | ⟨e, x, hl, e1, e2, hv⟩ | ⟨b, x, i, e, hl, e1, e2, hst, hown⟩
    · exact .stuck (by simp only [ostep, e1]) (by simp only [oplain, e2])
    · simp only [ostep, e1, oplain, e2]
      exact S.looks hrc hO (hop c.s _ _ _ S.inv hv) (fun _ _ _ hg => by rw [hg])
    · simp only [ostep, e1, oplain, e2]
      exact S.looks hrc hO (Ends.withBodies body (((hop c.s _ _ _ S.inv ⟨⟨_, hst.1⟩, hown⟩).refFrom).congr
        (refFrom_owned hc hst f.run))) (fun _ _ _ hg => by obtain ⟨a, rfl, rfl⟩ := hg; rfl)
  | eq hh hh' f =>
    exact two Bool hh hh' f .bool _ hop (fun b b' i i' e e' h1 h2 => nested_owned hc h1 h2 f.run false)
  | partialCmp hh hh' f =>
    exact two _ hh hh' f .pord _ hop (fun b b' i i' e e' h1 h2 => nested_owned hc h1 h2 f.run none)
  | cmp hh hh' f =>
    exact two _ hh hh' f .ord _ hop (fun b b' i i' e e' h1 h2 => nested_owned hc h1 h2 f.run .eq)
  | modify hh f =>
    rcases S.look hh with ⟨e1, e2⟩ | ⟨e, x, hl, e1, e2, hv⟩ | ⟨b, x, i, e, hl, e1, e2, hst, hown⟩
    · exact .stuck (by simp only [ostep, e1]) (by simp only [oplain, e2])
    · obtain ⟨s', ht, ⟨h1, h2⟩ | ⟨hi, hC, hd, ⟨r, y, hy, h2, h3, F, h4, h5⟩ | ⟨k, hk, h2⟩⟩⟩ := (hop c.s _ _ _ S.inv hv).cases
      · exact .abort (by simp only [ostep, e1]; exact ostepWith_panic h1) (by simp only [oplain, e2]; rfl) ht h2
      · cases hy
        have S' := S.update hrc hO hl hi hC (K' := F) (G' := []) (cell := some (.val r.1)) (x := some (false, (f.out x).1)) h5
          (hO.live h4.2) (by simp) (by simp) (by simp) h4
        refine .goes (fail := none) ofail_none (by simp only [ostep, e1]; exact ostepWith_ret h2) ?_ S' ht (fun _ _ => rfl)
        simp only [oplain, e2, h3]; rfl
      · cases hk
    · exact .stuck (by simp only [ostep, e1]) (by simp only [oplain, e2])
  | change hh f =>
    rcases S.look hh with ⟨e1, e2⟩ | ⟨e, x, hl, e1, e2, hv⟩ | ⟨b, x, _, _, hl, e1, e2, _, _⟩
    · exact .stuck (by simp only [ostep, e1]) (by simp only [oplain, e2])
    · obtain ⟨s', ht, ⟨h1, h2⟩ | ⟨hi, hC, hd, ⟨r, y, hy, h2, h3, F, h4, h5⟩ | ⟨k, hk, h2⟩⟩⟩ := (hop c.s _ _ _ S.inv hv).cases
      · exact .abort (by simp only [ostep, e1]; exact ostepWith_panic h1) (by simp only [oplain, e2]; rfl) ht h2
      · cases hy
        have S' := S.update hrc hO hl hi hC (K' := F) (G' := []) (cell := some (.val r.1)) (x := some (false, (f.out x).1)) h5
          (hO.live h4.2) (by simp) (by simp) (by simp) h4
        refine .goes (fail := none) ofail_none (by simp only [ostep, e1]; exact ostepWith_ret h2) ?_ S' ht (fun _ _ => rfl)
        simp only [oplain, e2, h3]; rfl
      · cases hk
    · have hrel := S.rel hh
      rw [e1, e2] at hrel
      obtain ⟨i, e, hG, hst, hown⟩ := hrel
      have hE := ((hop c.s _ _ _ S.inv ⟨⟨_, hst.1⟩, hown⟩).refFrom).congr (refFrom_owned hc hst f.run)
      obtain ⟨s', ht, ⟨h1, h2⟩ | ⟨hi, hC, hd, ⟨r, y, hy, h2, a, rfl, h3, F, h4, h5⟩ | ⟨k, hk, h2⟩⟩⟩ := hE.cases
      · exact .abort (by simp only [ostep, e1]; exact ostepWith_panic (withBodies_abort h1)) (by simp only [oplain, e2]; rfl) ht h2
      · cases hy
        have ha : a.1 = e := by
          rw [refFrom_owned hc hst f.run] at h2
          obtain ⟨a', s'', h6, h7⟩ := M.bind_ret_inv h2
          cases h7
          exact hin _ _ _ _ h6
        rw [ha] at h4
        have hk : Keeps G c.s s' := hC.keeps fun k hk => ⟨S.pool k hk, fun hx => S.unowned hh k hx hk⟩
        have hst' : Stores env rc decl s' b i e := hst.frame hrc (hk.sub hG)
        have S' := S.update hrc hO hl hi hC (K' := F) (G' := []) (cell := some (.box b)) (x := some (true, (f.out x).1)) h5
          (hO.live h4.2) (by simp) (by simp) (by simp) ⟨i, e, hG, hst', h4.2⟩
        have hset : c.cells.set hh (some (.box b)) = c.cells := set_same e1
        rw [hset] at S'
        refine .goes (fail := none) ofail_none (by simp only [ostep, e1]; exact ostepWith_ret (withBodies_ret h2 hd)) ?_ S' ht (fun _ _ => rfl)
        simp only [oplain, e2, h3]; rfl
      · cases hk
  | take hh f =>
    rcases S.look hh with ⟨e1, e2⟩ | ⟨e, x, hl, e1, e2, hv⟩ | ⟨b, x, i, e, hl, e1, e2, hst, hown⟩
    · exact .stuck (by simp only [ostep, e1]) (by simp only [oplain, e2])
    · obtain ⟨s', ht, ⟨h1, h2⟩ | ⟨hi, hC, hd, ⟨r, y, hy, h2, h3⟩ | ⟨k, hk, h2⟩⟩⟩ := (hop c.s _ _ _ S.inv hv).cases
      · exact .abort (by simp only [ostep, e1]; exact ostepWith_panic h1) (by simp only [oplain, e2]; rfl) ht h2
      · have S' := S.gone hrc hO hl hi hC
        refine .goes (fail := none) ofail_none (by simp only [ostep, e1]; exact ostepWith_ret h2) ?_ S' ht (fun _ _ => rfl)
        simp only [oplain, e2, hy, h3]; rfl
      · have S' := S.gone hrc hO hl hi hC
        refine .goes (fail := none) ofail_none (by simp only [ostep, e1]; exact ostepWith_panic h2) ?_ S' ht (fun _ _ => rfl)
        simp only [oplain, e2, hk]; rfl
    · exact .stuck (by simp only [ostep, e1]) (by simp only [oplain, e2])
  | drop hh =>
    rcases S.look hh with ⟨e1, e2⟩ | ⟨e, x, hl, e1, e2, hv⟩ | ⟨b, x, i, e, hl, e1, e2, hst, hown⟩
    · exact .stuck (by simp only [ostep, e1]) (by simp only [oplain, e2])
    · exact .stuck (by simp only [ostep, e1]) (by simp only [oplain, e2])
    · have hr : b.dropBox c.s = .ret () c.s := rfl
      have S' := S.gone hrc hO hl S.inv (.of_extends _ (Extends.refl _))
      exact .goes (fail := none) ofail_none (by simp only [ostep, e1]; exact ostepWith_ret (withBodies_ret hr (dtors_refl _)))
        (by simp only [oplain, e2]) S' (List.prefix_refl _) (fun _ _ => rfl)

/-- Nothing is held; everything alive is in the pool. -/
theorem OSim.nil {s : State} (hi : HeapInv env s) : OSim env rc decl O ⟨s, []⟩ [] (fun _ => []) s.blocks :=
  ⟨hi, rfl, by simp, fun _ hb => hb, by simp, by simp, fun _ => trivial⟩

/-! ## All steps -/

/-- Steps from any situation. -/
def runFrom (env : Env) (rc : Rustc) (P : Program) (body : Nat → List MByte → M Unit) (p : OClient X β) (os : List (ORes β))
    (c : OState) : Nat → Option (List (ORes β) × OState)
  | 0 => some (os, c)
  | n + 1 => (runFrom env rc P body p os c n).bind fun (os, c) =>
      if aborted os then some (os, c) else
      match p os with
      | none => some (os, c)
      | some op => (ostep env rc P body c op).map fun (o, c') => (os ++ [o], c')

def plainFrom (p : OClient X β) (os : List (ORes β)) (hs : OPlain X) : List (Option PanicKind) → Option (List (ORes β) × OPlain X)
  | [] => some (os, hs)
  | fail :: fails => (plainFrom p os hs fails).bind fun (os, hs) =>
      if aborted os then some (os, hs) else
      match p os with
      | none => some (os, hs)
      | some op => (oplain fail hs op).map fun (o, hs') => (os ++ [o], hs')

theorem runFrom_nil {body : Nat → List MByte → M Unit} {p : OClient X β} {s : State} :
    ∀ n, runOwned env rc P body p s n = runFrom env rc P body p [] ⟨s, []⟩ n
  | 0 => rfl
  | n + 1 => by simp only [runOwned, runFrom, runFrom_nil n]; rfl

theorem plainFrom_nil {p : OClient X β} : ∀ fails, runAbstract p fails = plainFrom p [] [] fails
  | [] => rfl
  | _ :: fails => by simp only [runAbstract, plainFrom, plainFrom_nil fails]; rfl

theorem runFrom_add {body : Nat → List MByte → M Unit} {p : OClient X β} {os : List (ORes β)} {c : OState} (n : Nat) :
    ∀ m, runFrom env rc P body p os c (n + m) =
      (runFrom env rc P body p os c n).bind fun r => runFrom env rc P body p r.1 r.2 m
  | 0 => by cases h : runFrom env rc P body p os c n <;> simp [runFrom]
  | m + 1 => by
    show (runFrom env rc P body p os c (n + m)).bind _ = _
    rw [runFrom_add n m]
    cases h : runFrom env rc P body p os c n <;> simp [runFrom]

theorem run_owned (h : env.OK) (hrc : rc.OK) (hc : Compiled rc env.cfg sn en false ts decl P)
    (hlen : decl.length ≤ 2 ^ env.cfg.freeBits) (ho : env.debug = true ∨ env.InRange) (hz : NoZeroSizedDtors rc decl)
    (hO : O.Lawful) {body : Nat → List MByte → M Unit} (hB : DropOK env rc decl O body) {p : OClient X β}
    (hp : p.OK env rc decl O) {os₀ : List (ORes β)} (S₀ : OSim env rc decl O c hs K G) : ∀ n, ∃ fails : List (Option PanicKind),
      fails.length = n ∧ (∀ f ∈ fails, OFailOK env f) ∧
      ((runFrom env rc P body p os₀ c n = none ∧ plainFrom p os₀ hs fails = none) ∨
       ∃ os c' hs', runFrom env rc P body p os₀ c n = some (os, c') ∧ plainFrom p os₀ hs fails = some (os, hs') ∧
        (aborted os = true ∨ Next env rc decl O G c.s c' hs') ∧ c.s.trace <+: c'.s.trace ∧
        (env.InRange → ¬ NullBetween c.s c'.s → fails = List.replicate n none))
  | 0 => ⟨[], rfl, by simp, .inr ⟨_, _, _, rfl, rfl, .inr ⟨_, _, S₀, fun _ hb => hb, Keeps.refl S₀.pool⟩, List.prefix_refl _,
      fun _ _ => rfl⟩⟩
  | n + 1 => by
    obtain ⟨fails, h1, h2, h4⟩ := run_owned h hrc hc hlen ho hz hO hB hp (os₀ := os₀) S₀ n
    rcases h4 with ⟨e1, e2⟩ | ⟨os, c, hs, e1, e2, S, ht, h3⟩
    · exact ⟨none :: fails, by simp [h1], forall_cons ofail_none h2,
        .inl ⟨by simp [runFrom, e1], by simp [plainFrom, e2]⟩⟩
    · by_cases ha : aborted os = true
      · exact ⟨none :: fails, by simp [h1], forall_cons ofail_none h2,
          .inr ⟨os, c, hs, by simp [runFrom, e1, ha], by simp [plainFrom, e2, ha], S, ht, fun hin hn => by
            rw [h3 hin hn]; rfl⟩⟩
      · cases hop : p os with
        | none =>
          exact ⟨none :: fails, by simp [h1], forall_cons ofail_none h2,
            .inr ⟨os, c, hs, by simp [runFrom, e1, hop], by simp [plainFrom, e2, hop], S, ht, fun hin hn => by
              rw [h3 hin hn]; rfl⟩⟩
        | some op =>
          obtain ⟨K', G', S, hG, hk⟩ := S.resolve_left ha
          obtain ⟨fail, f1, f3⟩ := S.step h hrc hc hlen ho hz hO hB (hp os op hop).1 (hp os op hop).2
          refine ⟨fail :: fails, by simp [h1], forall_cons f1 h2, ?_⟩
          rcases f3 with ⟨g1, g2⟩ | ⟨o, c', hs', g1, g2, S', ht', f2⟩
          · exact .inl ⟨by simp [runFrom, e1, ha, hop, g1], by simp [plainFrom, e2, ha, hop, g2]⟩
          · refine .inr ⟨os ++ [o], c', hs', by simp [runFrom, e1, ha, hop, g1], by simp [plainFrom, e2, ha, hop, g2],
              S'.imp (fun ho => by simp [aborted, ho]) ?_, ht.trans ht', fun hin hn => ?_⟩
            · rintro ⟨K'', G'', S'', hG', hk'⟩
              exact ⟨K'', G'', S'', fun b hb => hG' b (hG b hb), hk.trans (hk'.sub hG)⟩
            · rw [h3 hin (fun hx => hn (NullBetween.trans ht ht' (.inl hx))),
                f2 hin (fun hx => hn (NullBetween.trans ht ht' (.inr hx)))]
              rfl

end TB.Macro

import Verif.DemoMacro
import Verif.Lemmas.Traits
import Verif.Props.Box
import Verif.Props.Macro

/-!
# Properties of the trait implementations of `TaggedBox<T>`: cloning, comparing, printing
-/

set_option autoImplicit false

namespace TB.Props

open TB.Macro

variable {env : Env} {rc : Rustc} {sn en : String} {hd : Bool} {ts : List Tok} {decl : List VariantDef} {P : Program}

/-- `a` is what `m` returns in `s`. -/
def Returns {α : Type} (m : M α) (s : State) (a : α) : Prop := ∃ s', m s = .ret a s'

/-! ## C38, comparisons -/

section Generic

variable {E : Type} {T : Taggable E} {s : State} {a b : TBox} {x y : E} {es es' : List Event}

/-- **C38** for any implementation of `TaggableInner`, hand-written or generated, that presents the stored values: comparisons of
boxes do what the comparisons of the values do. -/
theorem C38_any_implementation (hx : Presents T s a x es) (hy : Presents T s b y es') :
    (∀ eqE, TBox.eq T eqE a b s = M.cleanup (es' ++ es) (eqE x y) s) ∧
    (∀ cmpE, TBox.partialCmp T cmpE a b s = M.cleanup (es' ++ es) (cmpE x y) s) ∧
    (∀ cmpE, TBox.cmp T cmpE a b s = M.cleanup (es' ++ es) (cmpE x y) s) :=
  ⟨fun f => nested_presents hx hy f false, fun f => nested_presents hx hy f none, fun f => nested_presents hx hy f .eq⟩

end Generic

/-- Observing a stored value: the events are those of C32. -/
theorem stores_presents (hc : Compiled rc env.cfg sn en hd ts decl P) {s : State} {b : TBox} {i : Nat} {x : EVal}
    (hs : Stores env rc decl s b i x) : ∃ es, Presents (taggable env rc P) s b x es ∧
      (∀ ev ∈ es, ev = .dropEnum x.variant) ∧ (hd = false ∨ x.payload ≠ .unit → es = []) := by
  obtain ⟨hw, rfl⟩ := hc.wf
  obtain ⟨d, hdi, hv, hf⟩ := hs.1
  refine ⟨_, presents_stores hw.u8 hw.names hw.members hs hdi, ?_⟩
  obtain ⟨v, fl⟩ := d
  obtain ⟨xv, p⟩ := x
  cases hv
  match fl, p, hf with
  | .unit, .unit, _ =>
    cases hd with
    | false => exact ⟨fun _ h => (List.not_mem_nil h).elim, fun _ => rfl⟩
    | true => exact ⟨fun ev h => List.mem_singleton.1 h, fun h => by rcases h with h | h <;> simp at h⟩
  | .tuple _, _, _ => exact ⟨fun _ h => (List.not_mem_nil h).elim, fun _ => rfl⟩
  | .record _, _, _ => exact ⟨fun _ h => (List.not_mem_nil h).elim, fun _ => rfl⟩

/-- **C38.** `eq`, `partial_cmp` and `cmp` of two boxes that store `x` and `y` behave exactly as the enum's implementations on `x` and
`y`: same result, same panic, same effects, wherever the boxes are and also if they are the same box; the only addition are the
spurious destructor calls of C32, and there are none if the enum does not implement `Drop` or neither value is of a unit
variant. -/
theorem C38_comparison (hc : Compiled rc env.cfg sn en hd ts decl P) {s : State} {a b : TBox} {i j : Nat} {x y : EVal}
    (ha : Stores env rc decl s a i x) (hb : Stores env rc decl s b j y) :
    ∃ es, (∀ ev ∈ es, ev = .dropEnum x.variant ∨ ev = .dropEnum y.variant) ∧
      (hd = false ∨ (x.payload ≠ .unit ∧ y.payload ≠ .unit) → es = []) ∧
      (∀ eqE, TBox.eq (taggable env rc P) eqE a b s = M.cleanup es (eqE x y) s) ∧
      (∀ cmpE, TBox.partialCmp (taggable env rc P) cmpE a b s = M.cleanup es (cmpE x y) s) ∧
      (∀ cmpE, TBox.cmp (taggable env rc P) cmpE a b s = M.cleanup es (cmpE x y) s) := by
  obtain ⟨es, hx, e1, e2⟩ := stores_presents hc ha
  obtain ⟨es', hy, e3, e4⟩ := stores_presents hc hb
  refine ⟨es' ++ es, fun ev hev => ?_, fun h => ?_, C38_any_implementation hx hy⟩
  · rcases List.mem_append.1 hev with h | h
    · exact .inr (e3 ev h)
    · exact .inl (e1 ev h)
  · rw [e2 (h.imp_right And.left), e4 (h.imp_right And.right)]; rfl

/-- Without spurious destructor calls: exactly the same computation. -/
theorem C38_comparison_plain (hc : Compiled rc env.cfg sn en hd ts decl P) {s : State} {a b : TBox} {i j : Nat} {x y : EVal}
    (ha : Stores env rc decl s a i x) (hb : Stores env rc decl s b j y)
    (hp : hd = false ∨ (x.payload ≠ .unit ∧ y.payload ≠ .unit)) :
    (∀ eqE, TBox.eq (taggable env rc P) eqE a b s = eqE x y s) ∧
    (∀ cmpE, TBox.partialCmp (taggable env rc P) cmpE a b s = cmpE x y s) ∧
    (∀ cmpE, TBox.cmp (taggable env rc P) cmpE a b s = cmpE x y s) := by
  obtain ⟨es, _, e2, h⟩ := C38_comparison hc ha hb
  rw [e2 hp] at h
  simpa only [cleanup_nil] using h

/-- Non-vacuity: two different boxes with the same value, compared by their payloads. -/
example : ∃ a s1 b s2,
    containerFrom (env60 true) rcDemo progMix ⟨"Pair", .tuple [[some 7#8], [some 1#8, some 2#8, some 3#8, some 4#8]]⟩ state0 =
      .ret a s1 ∧
    containerFrom (env60 true) rcDemo progMix ⟨"Pair", .tuple [[some 7#8], [some 1#8, some 2#8, some 3#8, some 4#8]]⟩ s1 =
      .ret b s2 ∧ a ≠ b ∧
    Returns (TBox.eq (taggable (env60 true) rcDemo progMix) (fun x y => pure (decide (x.payload.vals = y.payload.vals))) a b) s2 true :=
  ⟨_, _, _, _, rfl, rfl, by decide, _, rfl⟩

/-! ## C39, laws -/

/-- The user's comparison computes the function `f` (it may have effects but always returns). -/
def Computes {α : Type} (m : EVal → EVal → M α) (f : EVal → EVal → α) : Prop := ∀ x y s, Returns (m x y) s (f x y)

/-- A total preorder given by a three-way comparison. -/
structure LawfulCmp (c : EVal → EVal → Ordering) : Prop where
  swap : ∀ x y, c y x = (c x y).swap
  trans : ∀ x y z, c x y ≠ .gt → c y z ≠ .gt → c x z ≠ .gt

theorem returns_cleanup {α : Type} {m : M α} {s : State} {v : α} {es : List Event} (h : Returns m s v) :
    Returns (M.cleanup es m) s v := by
  obtain ⟨s', e⟩ := h
  exact ⟨_, cleanup_ret e⟩

theorem returns_unique {α : Type} {m : M α} {s : State} {v w : α} (h : Returns m s v) (h' : Returns m s w) : v = w := by
  obtain ⟨_, e⟩ := h
  obtain ⟨_, e'⟩ := h'
  rw [e] at e'
  injection e'

/-- **C39.** On the boxes that store some value in state `s`: if the enum's `eq` is an equivalence, so is the boxes'; if its `cmp` is a
total order, so is the boxes'; if its `partial_cmp` and `eq` agree with its `cmp`, so do the boxes'. -/
theorem C39_laws (hc : Compiled rc env.cfg sn en hd ts decl P) (s : State) :
    let Live := fun b => ∃ i x, Stores env rc decl s b i x
    let T := taggable env rc P
    (∀ eqE r, Computes eqE r → Equivalence (fun x y => r x y = true) →
      (∀ a, Live a → Returns (TBox.eq T eqE a a) s true) ∧
      (∀ a b v, Live a → Live b → Returns (TBox.eq T eqE a b) s v → Returns (TBox.eq T eqE b a) s v) ∧
      (∀ a b c, Live a → Live b → Live c → Returns (TBox.eq T eqE a b) s true → Returns (TBox.eq T eqE b c) s true →
        Returns (TBox.eq T eqE a c) s true)) ∧
    (∀ cmpE c, Computes cmpE c → LawfulCmp c →
      (∀ a, Live a → Returns (TBox.cmp T cmpE a a) s .eq) ∧
      (∀ a b o, Live a → Live b → Returns (TBox.cmp T cmpE a b) s o → Returns (TBox.cmp T cmpE b a) s o.swap) ∧
      (∀ x y z o o', Live x → Live y → Live z → Returns (TBox.cmp T cmpE x y) s o → Returns (TBox.cmp T cmpE y z) s o' →
        o ≠ .gt → o' ≠ .gt → ∃ o'', Returns (TBox.cmp T cmpE x z) s o'' ∧ o'' ≠ .gt)) ∧
    (∀ cmpE c pcmpE eqE r, Computes cmpE c → Computes pcmpE (fun x y => some (c x y)) → Computes eqE r →
      (∀ x y, r x y = true ↔ c x y = .eq) → ∀ a b, Live a → Live b →
      ∃ o, Returns (TBox.cmp T cmpE a b) s o ∧ Returns (TBox.partialCmp T pcmpE a b) s (some o) ∧
        Returns (TBox.eq T eqE a b) s (decide (o = .eq))) := by
  intro Live T
  have hE : ∀ {eqE r} (_ : Computes eqE r) {a b i j x y} (_ : Stores env rc decl s a i x) (_ : Stores env rc decl s b j y),
      Returns (TBox.eq T eqE a b) s (r x y) := by
    intro eqE r hr a b i j x y ha hb
    obtain ⟨es, _, _, h, _, _⟩ := C38_comparison hc ha hb
    obtain ⟨s', e⟩ := returns_cleanup (es := es) (hr x y s)
    exact ⟨s', (h eqE).trans e⟩
  have hC : ∀ {cmpE c} (_ : Computes cmpE c) {a b i j x y} (_ : Stores env rc decl s a i x) (_ : Stores env rc decl s b j y),
      Returns (TBox.cmp T cmpE a b) s (c x y) := by
    intro cmpE c hr a b i j x y ha hb
    obtain ⟨es, _, _, _, _, h⟩ := C38_comparison hc ha hb
    obtain ⟨s', e⟩ := returns_cleanup (es := es) (hr x y s)
    exact ⟨s', (h cmpE).trans e⟩
  have hPC : ∀ {cmpE c} (_ : Computes cmpE c) {a b i j x y} (_ : Stores env rc decl s a i x) (_ : Stores env rc decl s b j y),
      Returns (TBox.partialCmp T cmpE a b) s (c x y) := by
    intro cmpE c hr a b i j x y ha hb
    obtain ⟨es, _, _, _, h, _⟩ := C38_comparison hc ha hb
    obtain ⟨s', e⟩ := returns_cleanup (es := es) (hr x y s)
    exact ⟨s', (h cmpE).trans e⟩
  refine ⟨fun eqE r hr heq => ⟨?_, ?_, ?_⟩, fun cmpE c hr hl => ⟨?_, ?_, ?_⟩, ?_⟩
  · rintro a ⟨i, x, hs⟩
    have := hE hr hs hs
    rwa [heq.refl x] at this
  · rintro a b v ⟨i, x, hs⟩ ⟨j, y, hs'⟩ hv
    have e := returns_unique hv (hE hr hs hs')
    have : r x y = r y x := by
      rw [Bool.eq_iff_iff]
      exact ⟨fun h => heq.symm h, fun h => heq.symm h⟩
    rw [e, this]
    exact hE hr hs' hs
  · rintro a b c ⟨i, x, hs⟩ ⟨j, y, hs'⟩ ⟨k, z, hs''⟩ h1 h2
    have e1 := returns_unique (hE hr hs hs') h1
    have e2 := returns_unique (hE hr hs' hs'') h2
    have := hE hr hs hs''
    rwa [heq.trans e1 e2] at this
  · rintro a ⟨i, x, hs⟩
    have := hE (eqE := fun _ _ => pure true) (r := fun _ _ => true) (fun _ _ _ => ⟨_, rfl⟩) hs hs
    have e : c x x = .eq := by
      have := hl.swap x x
      cases h : c x x <;> rw [h] at this <;> first | rfl | cases this
    rw [← e]
    exact hC hr hs hs
  · rintro a b o ⟨i, x, hs⟩ ⟨j, y, hs'⟩ hv
    have e := returns_unique hv (hC hr hs hs')
    rw [e, ← hl.swap x y]
    exact hC hr hs' hs
  · rintro a b d o o' ⟨i, x, hs⟩ ⟨j, y, hs'⟩ ⟨k, z, hs''⟩ h1 h2 n1 n2
    rw [returns_unique h1 (hC hr hs hs')] at n1
    rw [returns_unique h2 (hC hr hs' hs'')] at n2
    exact ⟨_, hC hr hs hs'', hl.trans x y z n1 n2⟩
  · rintro cmpE c pcmpE eqE r h1 h2 h3 h4 a b ⟨i, x, hs⟩ ⟨j, y, hs'⟩
    refine ⟨_, hC h1 hs hs', hPC h2 hs hs', ?_⟩
    have : decide (c x y = .eq) = r x y := by
      rw [Bool.eq_iff_iff, decide_eq_true_iff]; exact (h4 x y).symm
    rw [this]
    exact hE h3 hs hs'

/-- Non-vacuity: such functions exist (comparison by variant name). -/
example : Computes (fun x y => pure (compare x.variant.length y.variant.length))
      (fun x y => compare x.variant.length y.variant.length) ∧
    LawfulCmp (fun x y => compare x.variant.length y.variant.length) := by
  refine ⟨fun _ _ _ => ⟨_, rfl⟩, fun x y => ?_, fun x y z h1 h2 => ?_⟩
  · simp only [Nat.compare_swap]
  · simp only [ne_eq, Nat.compare_eq_gt] at *
    omega

/-! ## C37, clone -/

/-- **C37.** Cloning a box that stores `x`, where the enum's `clone` (arbitrary code, which may allocate but leaves what is alive alone)
returns `y`: unless the allocator fails or (debug builds) returns an address outside the reserved width, the result is a box that
stores `y` under its own number; the original still stores `x` (in any case); and the two are independent: in every later state, writing
through one (either way) does not affect what the other holds. -/
theorem C37_clone (h : env.OK) (hrc : rc.OK) (hc : Compiled rc env.cfg sn en hd ts decl P)
    {s s₁ : State} {b : TBox} {i j : Nat} {x y : EVal} (hst : Stores env rc decl s b i x)
    (cloneE : EVal → M EVal) (hcl : cloneE x s = .ret y s₁) (he : Extends s s₁) (hi : HeapInv env s₁)
    (hy : IsValue rc decl j y) (hlt : j < 2 ^ env.cfg.freeBits) (ho : env.debug = true ∨ env.InRange) :
    (∃ c s₂, TBox.clone (taggable env rc P) cloneE b s = .ret c s₂ ∧ HeapInv env s₂ ∧ Extends s₁ s₂ ∧
      Stores env rc decl s₂ c j y ∧ Stores env rc decl s₂ b i x ∧
      ∀ d d' sh sh', decl[i]? = some d → decl[j]? = some d' → d.fields.shape rc = some sh → d'.fields.shape rc = some sh' →
        ∀ s₃ v v' n n', HeapInv env s₃ → Holds env s₃ b sh v n → Holds env s₃ c sh' v' n' →
          (∀ w t r, sh.Has w → b.asMutRefAssign env sh w s₃ = .ret r t ∨ b.asMutPtrWrite env sh w s₃ = .ret r t →
            Holds env t c sh' v' n') ∧
          (∀ w t r, sh'.Has w → c.asMutRefAssign env sh' w s₃ = .ret r t ∨ c.asMutPtrWrite env sh' w s₃ = .ret r t →
            Holds env t b sh v n)) ∨
    (∃ s₂, TBox.clone (taggable env rc P) cloneE b s = .panic .nullAlloc s₂ ∧ HeapInv env s₂ ∧ Extends s₁ s₂ ∧ Stores env rc decl s₂ b i x ∧
      s₂.blocks = s₁.blocks ∧ ∃ size align, .allocNull size align ∈ s₂.trace.drop s₁.trace.length) ∨
    (∃ s₂, TBox.clone (taggable env rc P) cloneE b s = .panic .pointer s₂ ∧ HeapInv env s₂ ∧ Extends s₁ s₂ ∧ Stores env rc decl s₂ b i x ∧
      env.debug = true ∧ ∃ s size align, 2 ^ env.cfg.ptrWidth ≤ env.alloc s size align) := by
  obtain ⟨es, hp, _, _⟩ := stores_presents hc hst
  have heq : TBox.clone (taggable env rc P) cloneE b s = containerFrom env rc P y (s₁.log es) := by
    show M.bind _ _ s = _
    have : (taggable env rc P).refFrom b (fun this => cloneE this) s = .ret (some y) (s₁.log es) := by
      rw [hp]; exact cleanup_ret (M.bind_of_ret hcl)
    exact M.bind_of_ret this
  have hi' : HeapInv env (s₁.log es) := hi.log _
  rw [heq]
  rcases C29_container_roundtrip h hrc hc hy hlt ho hi' with ⟨c, s₂, hr, hi₂, he₂, _⟩ | ⟨s₂, hr, hi₂, he₂, hb, size, al, _, hm⟩ | ⟨s₂, hr, hi₂, he₂, hdbg, ha⟩
  · left
    obtain ⟨hw, rfl⟩ := hc.wf
    have hst2 := (into_stores h hrc hw.u8 hw.names hw.members hw.arity hy hi' hr).2.2 hlt ho
    have hex : Extends s₁ s₂ := (Extends.log _ _).trans he₂
    have hb0 := hst.mono hrc he
    refine ⟨c, s₂, hr, hi₂, hex, hst2, hb0.mono hrc hex, ?_⟩
    intro d d' sh sh' hdi hdj hsh hsh' s₃ v v' n n' hi₃ hb₃ hc₃
    have hw1 := shape_wf hrc hsh
    have hw2 := shape_wf hrc hsh'
    have hne : b.asPtr env ≠ c.asPtr env ∨ sh.size = 0 ∨ sh'.size = 0 := by
      by_cases z1 : sh.size = 0
      · exact .inr (.inl z1)
      · by_cases z2 : sh'.size = 0
        · exact .inr (.inr z2)
        · left
          have hf := (into_fresh h hrc hw.u8 hw.names hw.members hw.arity hdj hy hlt ho hr hsh' (by omega)).2
          have := hf _ ((hb0.2.2 d hdi sh hsh).own (by omega))
          simp only [Block.Disjoint] at this
          omega
    have hne' : c.asPtr env ≠ b.asPtr env ∨ sh'.size = 0 ∨ sh.size = 0 := by
      rcases hne with hne | hne | hne
      · exact .inl (Ne.symm hne)
      · exact .inr (.inr hne)
      · exact .inr (.inl hne)
    refine ⟨fun w t r hwv hwr => ?_, fun w t r hwv hwr => ?_⟩
    · obtain ⟨k1, k2, _⟩ := (C17_noninterference h hi₃ hw1 hw2 hc₃ hwv).2.2 hb₃ hne
      rcases hwr with hwr | hwr
      · exact k1 _ _ hwr
      · exact k2 _ _ hwr
    · obtain ⟨k1, k2, _⟩ := (C17_noninterference h hi₃ hw2 hw1 hb₃ hwv).2.2 hc₃ hne'
      rcases hwr with hwr | hwr
      · exact k1 _ _ hwr
      · exact k2 _ _ hwr
  · have hex : Extends s₁ s₂ := (Extends.log _ _).trans he₂
    refine .inr (.inl ⟨s₂, hr, hi₂, hex, (hst.mono hrc he).mono hrc hex, hb, size, al, ?_⟩)
    rw [State.log, List.length_append, ← List.drop_drop] at hm
    exact List.mem_of_mem_drop hm
  · have hex : Extends s₁ s₂ := (Extends.log _ _).trans he₂
    exact .inr (.inr ⟨s₂, hr, hi₂, hex, (hst.mono hrc he).mono hrc hex, hdbg, _, ha⟩)

/-- **C37**, when the enum's `clone` panics: so does the box's, nothing more is allocated, and the original still stores its value. -/
theorem C37_clone_panics (hrc : rc.OK) (hc : Compiled rc env.cfg sn en hd ts decl P)
    {s t : State} {b : TBox} {i : Nat} {x : EVal} (hst : Stores env rc decl s b i x)
    (cloneE : EVal → M EVal) {k : PanicKind} (hcl : cloneE x s = .panic k t) (he : Extends s t) :
    ∃ t', TBox.clone (taggable env rc P) cloneE b s = .panic k t' ∧ t'.blocks = t.blocks ∧ t'.mem = t.mem ∧
      (hd = false → t' = t) ∧ Stores env rc decl t' b i x := by
  obtain ⟨es, hp, _, h2⟩ := stores_presents hc hst
  have : (taggable env rc P).refFrom b (fun this => cloneE this) s = .panic k (t.log es) := by
    rw [hp]; exact cleanup_panic (M.bind_of_panic hcl)
  refine ⟨t.log es, M.bind_of_panic this, rfl, rfl, fun h0 => ?_, hst.mono hrc (he.trans (Extends.log _ _))⟩
  rw [h2 (.inl h0)]
  simp [State.log]

/-- Non-vacuity: a box with a heap payload, cloned with an implementation that copies the representation; the clone has another
address. -/
example : ∃ a s1 c s2,
    containerFrom (env60 true) rcDemo progMix ⟨"Pair", .tuple [[some 7#8], [some 1#8, some 2#8, some 3#8, some 4#8]]⟩ state0 =
      .ret a s1 ∧
    TBox.clone (taggable (env60 true) rcDemo progMix) (fun x => pure x) a s1 = .ret c s2 ∧ a ≠ c :=
  ⟨_, _, _, _, rfl, rfl, by decide⟩

/-! ## C40, printing -/

/-- The claim for `Debug` (the one for `Display` is the same with `displayFmt`): printing the box with parameters `spec` does
what printing the value with parameters `spec` does. -/
def C40_Statement (env : Env) (rc : Rustc) (decl : List VariantDef) (P : Program) : Prop :=
  ∀ (σ : Type) (fmtE : UserFmt EVal σ) (s : State) (b : TBox) (i : Nat) (x : EVal), Stores env rc decl s b i x →
    ∀ spec out, TBox.debugFmt (taggable env rc P) fmtE b spec out s = fmtE x spec out s ∧
      TBox.displayFmt (taggable env rc P) fmtE b spec out s = fmtE x spec out s

/-- **C40**, the part that holds: whatever the parameters given, `Debug` and `Display` of a box do what those of the value do *with default
parameters* (`{:?}`, `{}`): same output, same success or failure, same panic. In particular the claim holds for default
parameters. Missing: width, precision, `#` and the other parameters are not passed on (`C40_refuted`). -/
theorem C40_partial (hc : Compiled rc env.cfg sn en hd ts decl P) {s : State} {b : TBox} {i : Nat} {x : EVal}
    (hst : Stores env rc decl s b i x) {σ : Type} (fmtE : UserFmt EVal σ) (spec : FmtSpec) (out : σ) :
    ∃ es, (hd = false ∨ x.payload ≠ .unit → es = []) ∧
      TBox.debugFmt (taggable env rc P) fmtE b spec out s = M.cleanup es (fmtE x {} out) s ∧
      TBox.displayFmt (taggable env rc P) fmtE b spec out s = M.cleanup es (fmtE x {} out) s := by
  obtain ⟨es, hp, _, h2⟩ := stores_presents hc hst
  have key : (do let r ← (taggable env rc P).refFrom b (fun this => fmtE this {} out); pure (r.getD (out, true)) : M (σ × Bool)) s =
      M.cleanup es (fmtE x {} out) s := by
    simp only [M.bind_def, hp _ _]
    unfold M.cleanup
    simp only [M.bind_def]
    cases fmtE x {} out s <;> rfl
  exact ⟨es, h2, key, key⟩

/-- A box made at the default width stores its value. -/
theorem demo_stores (debug : Bool) : ∃ b s, containerFrom (env60 debug) rcDemo progMix ⟨"Tag", .unit⟩ state0 = .ret b s ∧
    Stores (env60 debug) rcDemo declMix s b 0 ⟨"Tag", .unit⟩ :=
  ⟨_, _, rfl, ⟨_, rfl, rfl, trivial⟩, by cases debug <;> rfl, fun d hd sh hsh => by cases hd; cases hsh⟩

/-- **C40 does not hold**: with an enum that pads to the width it is given, `{:5}` of the value prints five characters and `{:5}`
of the box none. -/
theorem C40_refuted (debug : Bool) : ¬ C40_Statement (env60 debug) rcDemo declMix progMix := by
  intro h
  obtain ⟨b, s, _, hs⟩ := demo_stores debug
  have h1 := (h String (fun _ spec out => pure (out ++ String.ofList (List.replicate (spec.width.getD 0) ' '), true)) s b 0 _ hs
    { width := some 5 } "").1
  obtain ⟨es, e0, e1, _⟩ := C40_partial (mix_compiled debug) hs
    (fun _ spec out => pure (out ++ String.ofList (List.replicate (spec.width.getD 0) ' '), true)) { width := some 5 } ""
  rw [e1, e0 (.inl rfl)] at h1
  have h2 : Out.ret (("" : String) ++ String.ofList (List.replicate 0 ' '), true) _ =
    Out.ret ("" ++ String.ofList (List.replicate 5 ' '), true) s := h1
  injection h2 with h3
  have h4 := congrArg Prod.fst h3
  revert h4
  decide

/-! ## C49 -/

/-- In state `s`, `ref_from_tagged_box` of box `b` returns in state `s'` without calling the callback. -/
def Skips {E : Type} (T : Taggable E) (s : State) (b : TBox) (s' : State) : Prop :=
  ∀ (β : Type) (f : E → M β), T.refFrom b f s = .ret none s'

/-- **C49.** If an implementation does not call the callback for the box (or, for comparisons, for the first or for the second box): clone
panics, `eq` is false, `partial_cmp` is `None`, `cmp` is `Equal`, and printing succeeds without output. The user's functions are not called. -/
theorem C49_skipping {E : Type} (T : Taggable E) {s s' : State} {a : TBox} (h : Skips T s a s') :
    (∀ cloneE, TBox.clone T cloneE a s = .panic .cloneNone s') ∧
    (∀ eqE b, TBox.eq T eqE a b s = .ret false s') ∧
    (∀ cmpE b, TBox.partialCmp T cmpE a b s = .ret none s') ∧
    (∀ cmpE b, TBox.cmp T cmpE a b s = .ret .eq s') ∧
    (∀ (σ : Type) (fmtE : UserFmt E σ) spec out, TBox.debugFmt T fmtE a spec out s = .ret (out, true) s' ∧
      TBox.displayFmt T fmtE a spec out s = .ret (out, true) s') ∧
    (∀ b x es t, Presents T t b x es → Skips T t a s' →
      (∀ eqE, TBox.eq T eqE b a t = .ret false (s'.log es)) ∧
      (∀ cmpE, TBox.partialCmp T cmpE b a t = .ret none (s'.log es)) ∧
      (∀ cmpE, TBox.cmp T cmpE b a t = .ret .eq (s'.log es))) := by
  refine ⟨fun f => M.bind_of_ret (h _ _), fun f b => M.bind_of_ret (h _ _), fun f b => M.bind_of_ret (h _ _),
    fun f b => M.bind_of_ret (h _ _), fun σ f spec out => ⟨M.bind_of_ret (h _ _), M.bind_of_ret (h _ _)⟩, ?_⟩
  intro b x es t hp hs
  have key : ∀ (β : Type) (f : E → E → M β),
      T.refFrom b (fun this => T.refFrom a (fun other => f this other)) t = .ret (some none) (s'.log es) := by
    intro β f
    rw [hp]
    exact cleanup_ret (M.bind_of_ret (hs _ _))
  exact ⟨fun f => M.bind_of_ret (key _ _), fun f => M.bind_of_ret (key _ _), fun f => M.bind_of_ret (key _ _)⟩

/-- Non-vacuity: such an implementation. -/
example (s : State) (b : TBox) : Skips (E := Nat)
    ⟨fun _ => M.panic .noVariant, fun _ => M.panic .noVariant, fun _ _ => pure none⟩ s b s := fun _ _ => rfl

end TB.Props

import Verif.Lemmas.Container
import Verif.Spec.Reentrant

/-!
# Lemmas: reentrant programs on containers follow the same programs on plain values
-/

set_option autoImplicit false

namespace TB.Macro

variable {ι : Type} {env : Env} {rc : Rustc} {E : ι → DeclEnum}

/-- From state `s`, `m` ends as `q` does (for some failures), with results related by `R`. -/
def Tracks {A B : Type} (env : Env) (s : State) (m : M A) (q : PM B) (R : State → A → B → Prop) : Prop :=
  ∃ fs s', (∀ f ∈ fs, FailOK env f) ∧ (env.InRange → ¬ NullBetween s s' → ∀ f ∈ fs, f = none) ∧ HeapInv env s' ∧ Extends s s' ∧
    ((∃ a b, m s = .ret a s' ∧ R s' a b ∧ ∀ rest, q (fs ++ rest) = some ⟨.ok b, rest, dtorsBetween s s'⟩) ∨
     (∃ k, m s = .panic k s' ∧ ∀ rest, q (fs ++ rest) = some ⟨.error k, rest, dtorsBetween s s'⟩))

theorem PM.bind_def {α β : Type} (m : PM α) (f : α → PM β) (fs : Fails) : (m >>= f) fs = PM.bind m f fs := rfl

theorem PM.bind_ok {α β : Type} {m : PM α} {f : α → PM β} {fs fs' : Fails} {a : α} {es : List Event}
    (h : m fs = some ⟨.ok a, fs', es⟩) : (m >>= f) fs = (f a fs').map fun o => ⟨o.res, o.fails, es ++ o.evs⟩ := by
  rw [PM.bind_def, PM.bind, h]

theorem PM.bind_error {α β : Type} {m : PM α} {f : α → PM β} {fs fs' : Fails} {k : PanicKind} {es : List Event}
    (h : m fs = some ⟨.error k, fs', es⟩) : (m >>= f) fs = some ⟨.error k, fs', es⟩ := by
  rw [PM.bind_def, PM.bind, h]

/-- The first part of a well-typed program is well-typed. -/
theorem WellTyped.left {α β : Type} {m : PM α} {f : α → PM β} (h : WellTyped env (m >>= f)) : WellTyped env m := by
  intro fs hfs hn
  apply h fs hfs
  rw [PM.bind_def, PM.bind, hn]

/-- So is the rest. -/
theorem WellTyped.right {α β : Type} {m : PM α} {f : α → PM β} (h : WellTyped env (m >>= f)) {fs : Fails} {a : α} {es : List Event}
    (hfs : ∀ g ∈ fs, FailOK env g) (hm : ∀ rest, m (fs ++ rest) = some ⟨.ok a, rest, es⟩) : WellTyped env (f a) := by
  intro rest hrest hn
  apply h (fs ++ rest) (fun g hg => (List.mem_append.1 hg).elim (hfs g) (hrest g))
  rw [PM.bind_ok (hm rest), hn]
  rfl

theorem WellTyped.andThen {α : Type} {m : PM α} {es : List Event} (h : WellTyped env (m.andThen es)) : WellTyped env m := by
  intro fs hfs hn
  apply h fs hfs
  rw [PM.andThen, hn]
  rfl

theorem WellTyped.catchUnwind {α : Type} {m : PM α} (h : WellTyped env m.catchUnwind) : WellTyped env m := by
  intro fs hfs hn
  apply h fs hfs
  rw [PM.catchUnwind, hn]
  rfl

theorem M.bind_assoc {α β γ : Type} (m : M α) (f : α → M β) (g : β → M γ) (s : State) :
    ((m >>= f) >>= g) s = (m >>= fun a => f a >>= g) s := by
  simp only [M.bind_def]
  cases m s <;> rfl

namespace Tracks

variable {A B A' B' : Type} {s : State} {m : M A} {q : PM B} {R : State → A → B → Prop}

theorem pure {a : A} {b : B} (hi : HeapInv env s) (hR : R s a b) : Tracks env s (Pure.pure a) (Pure.pure b) R :=
  ⟨[], s, by simp, by simp, hi, Extends.refl _, .inl ⟨a, b, rfl, hR, fun rest => by rw [dtors_refl]; rfl⟩⟩

theorem panic {k : PanicKind} (hi : HeapInv env s) : Tracks env s (M.panic k) (PM.panic k) R :=
  ⟨[], s, by simp, by simp, hi, Extends.refl _, .inr ⟨k, rfl, fun rest => by rw [dtors_refl]; rfl⟩⟩

/-- Only what the computation does from this state matters. -/
theorem congr {m' : M A} (h : Tracks env s m q R) (e : m' s = m s) : Tracks env s m' q R := by
  obtain ⟨fs, s', h1, h2, h3, h4, h5⟩ := h
  refine ⟨fs, s', h1, h2, h3, h4, ?_⟩
  rw [e]
  exact h5

theorem imp {R' : State → A → B → Prop} (h : Tracks env s m q R) (hR : ∀ s' a b, Extends s s' → R s' a b → R' s' a b) :
    Tracks env s m q R' := by
  obtain ⟨fs, s', h1, h2, h3, h4, h5⟩ := h
  refine ⟨fs, s', h1, h2, h3, h4, ?_⟩
  rcases h5 with ⟨a, b, e, r, h5⟩ | h5
  · exact .inl ⟨a, b, e, hR _ _ _ h4 r, h5⟩
  · exact .inr h5

theorem bind (h : Tracks env s m q R) {f : A → M A'} {g : B → PM B'} {R' : State → A' → B' → Prop} (hw : WellTyped env (q >>= g))
    (hk : ∀ s' a b, HeapInv env s' → Extends s s' → R s' a b → WellTyped env (g b) → Tracks env s' (f a) (g b) R') :
    Tracks env s (m >>= f) (q >>= g) R' := by
  obtain ⟨fs, s', h1, h2, h3, h4, h5⟩ := h
  rcases h5 with ⟨a, b, e, r, h5⟩ | ⟨k, e, h5⟩
  · obtain ⟨fs', s'', k1, k2, k3, k4, k5⟩ := hk s' a b h3 h4 r (hw.right h1 h5)
    refine ⟨fs ++ fs', s'', fun x hx => (List.mem_append.1 hx).elim (h1 x) (k1 x), fun hin hn x hx => ?_, k3, h4.trans k4, ?_⟩
    · rcases List.mem_append.1 hx with hx | hx
      · exact h2 hin (fun hb => hn (NullBetween.trans h4.trace k4.trace (.inl hb))) x hx
      · exact k2 hin (fun hb => hn (NullBetween.trans h4.trace k4.trace (.inr hb))) x hx
    · rw [M.bind_of_ret e, dtors_trans h4.trace k4.trace]
      rcases k5 with ⟨a', b', e', r', k5⟩ | ⟨k, e', k5⟩
      · refine .inl ⟨a', b', e', r', fun rest => ?_⟩
        rw [List.append_assoc, PM.bind_ok (h5 _), k5]
        rfl
      · refine .inr ⟨k, e', fun rest => ?_⟩
        rw [List.append_assoc, PM.bind_ok (h5 _), k5]
        rfl
  · refine ⟨fs, s', h1, h2, h3, h4, .inr ⟨k, M.bind_of_panic e, fun rest => PM.bind_error (h5 rest)⟩⟩

/-- Destructors afterwards. -/
theorem cleanup (h : Tracks env s m q R) {es : List Event} (hes : es.filter Event.isDtor = es)
    (hR : ∀ s' a b, R s' a b → R (s'.log es) a b) : Tracks env s (M.cleanup es m) (q.andThen es) R := by
  obtain ⟨fs, s', h1, h2, h3, h4, h5⟩ := h
  have hE : Extends s (s'.log es) := h4.trans (Extends.log _ _)
  refine ⟨fs, s'.log es, h1, fun hin hn => h2 hin (fun hb => hn (NullBetween.trans h4.trace (Extends.log _ _).trace (.inl hb))),
    h3.log _, hE, ?_⟩
  rw [dtors_trans h4.trace (Extends.log _ _).trace, dtors_log, hes]
  rcases h5 with ⟨a, b, e, r, h5⟩ | ⟨k, e, h5⟩
  · exact .inl ⟨a, b, cleanup_ret e, hR _ _ _ r, fun rest => by rw [PM.andThen, h5]; rfl⟩
  · exact .inr ⟨k, cleanup_panic e, fun rest => by rw [PM.andThen, h5]; rfl⟩

theorem map (h : Tracks env s m q R) (f : A → A') {R' : State → A' → B → Prop} (hR : ∀ s' a b, R s' a b → R' s' (f a) b) :
    Tracks env s (m >>= fun a => Pure.pure (f a)) q R' := by
  obtain ⟨fs, s', h1, h2, h3, h4, h5⟩ := h
  refine ⟨fs, s', h1, h2, h3, h4, ?_⟩
  rcases h5 with ⟨a, b, e, r, h5⟩ | ⟨k, e, h5⟩
  · exact .inl ⟨f a, b, by rw [M.bind_of_ret e]; rfl, hR _ _ _ r, h5⟩
  · exact .inr ⟨k, M.bind_of_panic e, h5⟩

theorem catchUnwind (h : Tracks env s m q R) :
    Tracks env s (M.catchUnwind m) q.catchUnwind (fun s' a b => Extends s s' ∧
      match a, b with
      | .ok a, .ok b => R s' a b
      | .error k, .error k' => k = k'
      | _, _ => False) := by
  obtain ⟨fs, s', h1, h2, h3, h4, h5⟩ := h
  refine ⟨fs, s', h1, h2, h3, h4, ?_⟩
  rcases h5 with ⟨a, b, e, r, h5⟩ | ⟨k, e, h5⟩
  · exact .inl ⟨.ok a, .ok b, by rw [M.catchUnwind, e], ⟨h4, r⟩, fun rest => by rw [PM.catchUnwind, h5]; rfl⟩
  · by_cases hk : k = .abort
    · subst hk
      exact .inr ⟨.abort, by rw [M.catchUnwind, e], fun rest => by rw [PM.catchUnwind, h5]; rfl⟩
    · refine .inl ⟨.error k, .error k, ?_, ⟨h4, rfl⟩, fun rest => ?_⟩
      · rw [M.catchUnwind, e]
        cases k <;> first | rfl | exact absurd rfl hk
      · rw [PM.catchUnwind, h5]
        cases k <;> first | rfl | exact absurd rfl hk

end Tracks

/-! ## Tables -/

variable {s : State} {t : List (Option TBox)} {hs : PTable ι}

theorem TableSim.extend (hrc : rc.OK) (S : TableSim env rc E s t hs) {s' : State} (he : Extends s s') : TableSim env rc E s' t hs :=
  ⟨S.len, fun h i e hh => by
    obtain ⟨b, n, h1, h2⟩ := S.hsome h i e hh
    exact ⟨b, n, h1, h2.mono hrc he⟩⟩

theorem TableSim.push (S : TableSim env rc E s t hs) {b : TBox} {n : Nat} {i : ι} {e : EVal} (hs' : Stores env rc (E i).decl s b n e) :
    TableSim env rc E s (t ++ [some b]) (hs ++ [some (i, e)]) := by
  refine ⟨by simp [S.len], fun h j e' hh => ?_⟩
  simp only [List.getElem?_append, S.len] at hh ⊢
  split at hh
  · rename_i hlt; rw [if_pos hlt]; exact S.hsome h j e' hh
  · rename_i hlt
    rw [if_neg hlt]
    rw [List.getElem?_singleton] at hh ⊢
    split at hh
    · rename_i h0
      rw [if_pos h0]
      cases hh
      exact ⟨b, n, rfl, hs'⟩
    · cases hh

theorem TableSim.consume (S : TableSim env rc E s t hs) (h : Nat) : TableSim env rc E s (t.set h none) (hs.set h none) := by
  refine ⟨by simp [S.len], fun k i e hh => ?_⟩
  simp only [join_set] at hh ⊢
  split at hh
  · cases hh
  · rename_i hne; rw [if_neg hne]; exact S.hsome k i e hh

/-! ## The operations -/

/-- Looking up a container. -/
theorem Tracks.get [DecidableEq ι] (S : TableSim env rc E s t hs) (hi : HeapInv env s) {i : ι} {h : Nat} (hw : WellTyped env (plainGet hs i h)) :
    Tracks env s (getBox t h) (plainGet hs i h) (fun s' b e => s' = s ∧ ∃ n, Stores env rc (E i).decl s b n e) := by
  have hw := hw [] (by simp)
  unfold plainGet at hw ⊢
  cases hh : hs[h]?.join with
  | none => rw [hh] at hw; exact absurd rfl hw
  | some je =>
    obtain ⟨j, e⟩ := je
    rw [hh] at hw
    simp only at hw ⊢
    split at hw
    · rename_i hj
      subst hj
      rw [if_pos rfl]
      obtain ⟨b, n, h1, h2⟩ := S.hsome h j e hh
      exact (Tracks.pure hi (a := b) (R := fun s' b e => s' = s ∧ ∃ n, Stores env rc (E j).decl s b n e) ⟨rfl, n, h2⟩).congr
        (by rw [getBox, h1]; rfl)
    · exact absurd rfl hw

/-- Making a container. -/
theorem Tracks.make (h : env.OK) (hrc : rc.OK) (ho : env.debug = true ∨ env.InRange) {i : ι} (hE : (E i).OK env rc)
    (hi : HeapInv env s) {e : EVal} {D : ι → Dtors} (hD : D i = crateDtors rc (E i).decl (E i).hasDrop)
    (hw : WellTyped env (plainNew rc E D i e)) :
    Tracks env s (containerFrom env rc (E i).prog e) (plainNew rc E D i e)
      (fun s' b _ => ∃ n, Stores env rc (E i).decl s' b n e) := by
  have hv : IsEnumValue rc (E i).decl e := by
    have := hw [] (by simp)
    unfold plainNew at this
    split at this
    · assumption
    · exact absurd rfl this
  obtain ⟨fail, s', hf, hg, hi', he', hev, hr⟩ := from_step h hrc hE.compiled hE.fits ho hv hi
  refine ⟨[fail], s', by simpa using hf, fun hin hn => by simpa using hg hin hn, hi', he', ?_⟩
  rw [hev, ← hD]
  cases fail with
  | none =>
    obtain ⟨b, n, hr, hst⟩ := hr
    exact .inl ⟨b, (), hr, ⟨n, hst⟩, fun rest => by rw [plainNew, if_pos hv]; rfl⟩
  | some k => exact .inr ⟨k, hr, fun rest => by rw [plainNew, if_pos hv]; rfl⟩

/-- User code. -/
theorem Tracks.user {γ : Type} {f : UserFn M Unit γ} (ok : f.OK env ()) (hi : HeapInv env s) :
    Tracks env s (f.run ()) (f.plain ()) (fun _ a b => a = b) := by
  obtain ⟨s', hi', he, hev, hr⟩ := ok s hi
  refine ⟨[], s', by simp, by simp, hi', he, ?_⟩
  cases ho : f.out () with
  | ok a =>
    rw [ho] at hr
    exact .inl ⟨a, a, hr, rfl, fun rest => by rw [UserFn.plain, ho, hev]; rfl⟩
  | error k =>
    rw [ho] at hr
    exact .inr ⟨_, hr, fun rest => by rw [UserFn.plain, ho, hev]; rfl⟩

/-- Looking at one container. -/
theorem Tracks.look {B β : Type} {D₀ : DeclEnum} (hE : D₀.OK env rc) {b : TBox} {n : Nat} {x : EVal}
    (hst : Stores env rc D₀.decl s b n x) {f : EVal → M β} {q : PM B} {R : State → β → B → Prop} (hf : Tracks env s (f x) q R)
    (hR : ∀ s' a b es, R s' a b → R (s'.log es) a b) :
    Tracks env s ((taggable env rc D₀.prog).refFrom b f) (q.andThen ((crateDtors rc D₀.decl D₀.hasDrop).seen x))
      (fun s' a b => ∃ r, a = some r ∧ R s' r b) := by
  refine Tracks.congr (m := M.cleanup ((crateDtors rc D₀.decl D₀.hasDrop).seen x) (f x >>= fun r => Pure.pure (some r))) ?_
    (seen_step hE.compiled hst β f)
  exact (hf.map some (R' := fun s' a b => ∃ r, a = some r ∧ R s' r b) (fun s' a b h => ⟨a, rfl, h⟩)).cleanup (seen_isDtor x)
    (fun s' a b ⟨r, e, h⟩ => ⟨r, e, hR _ _ _ _ h⟩)

/-- Comparing two. -/
theorem Tracks.look2 {B β : Type} {D₀ : DeclEnum} (hE : D₀.OK env rc) {b b' : TBox} {n n' : Nat} {x y : EVal}
    (hx : Stores env rc D₀.decl s b n x) (hy : Stores env rc D₀.decl s b' n' y) {f : EVal → EVal → M β} (dflt : β) {q : PM B}
    {R : State → β → B → Prop} (hf : Tracks env s (f x y) q R) (hR : ∀ s' a b es, R s' a b → R (s'.log es) a b) :
    Tracks env s (do
        let r ← (taggable env rc D₀.prog).refFrom b (fun this => (taggable env rc D₀.prog).refFrom b' (fun other => f this other))
        Pure.pure (r.join.getD dflt))
      (q.andThen ((crateDtors rc D₀.decl D₀.hasDrop).seen y ++ (crateDtors rc D₀.decl D₀.hasDrop).seen x)) R :=
  (hf.cleanup (by rw [List.filter_append, seen_isDtor, seen_isDtor]) (fun _ _ _ => hR _ _ _ _)).congr
    (nested_presents (seen_step hE.compiled hx) (seen_step hE.compiled hy) f dflt)

/-! ## Programs -/

/-- The same result, and tables that agree. -/
def SameRes {α : Type} (env : Env) (rc : Rustc) (E : ι → DeclEnum) (s : State) (a : α × List (Option TBox)) (b : α × PTable ι) : Prop :=
  a.1 = b.1 ∧ TableSim env rc E s a.2 b.2

/-- Without the tables. -/
def SameVal {α : Type} (_ : State) (a : α) (b : α × PTable ι) : Prop := a = b.1

theorem exec_tracks [DecidableEq ι] (h : env.OK) (hrc : rc.OK) (ho : env.debug = true ∨ env.InRange) (hE : ∀ i, (E i).OK env rc) {α : Type}
    (p : RProg env ι α) : ∀ s t hs, HeapInv env s → TableSim env rc E s t hs →
      WellTyped env (plain rc E (fun i => crateDtors rc (E i).decl (E i).hasDrop) p hs) →
      Tracks env s (exec rc E p t) (plain rc E (fun i => crateDtors rc (E i).decl (E i).hasDrop) p hs) (SameRes env rc E) := by
  -- a body whose table changes do not matter
  have fst : ∀ {β : Type} {s : State} {m : M (β × List (Option TBox))} {q : PM (β × PTable ι)}, Tracks env s m q (SameRes env rc E) →
      Tracks env s (m >>= fun r => pure r.1) q SameVal := fun hb => hb.map _ (fun _ _ _ h => h.1)
  induction p with
  | ret a => exact fun s t hs hi S hw => .pure hi ⟨rfl, S⟩
  | panic code => exact fun s t hs hi S hw => .panic hi
  | user f ok k ih =>
    intro s t hs hi S hw
    refine (Tracks.user ok hi).bind hw fun s' a b hi' he hab hw' => ?_
    subst hab
    exact ih a s' t hs hi' (S.extend hrc he) hw'
  | «from» i e k ih =>
    intro s t hs hi S hw
    refine (Tracks.make h hrc ho (hE i) hi rfl hw.left).bind hw fun s' b _ hi' he ⟨n, hst⟩ hw' => ?_
    rw [S.len]
    exact ih _ s' _ _ hi' ((S.extend hrc he).push hst) hw'
  | copy i h k ih =>
    intro s t hs hi S hw
    refine (Tracks.get S hi hw.left).bind hw fun s' b e hi' he ⟨hs', n, hst⟩ hw' => ?_
    subst hs'
    rw [S.len]
    exact ih _ _ _ _ hi' (S.push hst) hw'
  | clone i hh body k ihb ihk =>
    intro s t hs hi S hw
    refine (Tracks.get S hi hw.left).bind hw fun s' b e hi' he ⟨hs', n, hst⟩ hw' => ?_
    subst hs'
    have := Tracks.look (hE i) hst (f := fun e => exec rc E (body e) t >>= fun r => pure r.1)
      (fst (ihb e s' t hs hi' S hw'.left.andThen)) (fun _ _ _ _ h => h)
    refine Tracks.congr (this.bind hw' (f := fun o => (match o with
        | none => M.panic .cloneNone
        | some e => (taggable env rc (E i).prog).intoTaggedBox e) >>= fun b' => exec rc E (k t.length) (t ++ [some b']))
      fun s₁ r r' hi₁ he₁ ⟨y, hr, hy⟩ hw₁ => ?_) (by
        rw [TBox.clone, M.bind_assoc]
        refine congrFun (congrArg (Bind.bind _) (funext fun o => ?_)) s'
        cases o <;> rfl)
    subst hr
    cases hy
    refine (Tracks.make h hrc ho (hE i) hi₁ rfl hw₁.left).bind hw₁ fun s₂ b' _ hi₂ he₂ ⟨n', hst'⟩ hw₂ => ?_
    rw [S.len]
    exact ihk _ s₂ _ _ hi₂ ((S.extend hrc (he₁.trans he₂)).push hst') hw₂
  | eq i hh hh' body k ihb ihk =>
    intro s t hs hi S hw
    refine (Tracks.get S hi hw.left).bind hw fun s' b e hi' he ⟨hs', n, hst⟩ hw' => ?_
    subst hs'
    refine (Tracks.get S hi hw'.left).bind hw' fun s'' b' e' hi'' he' ⟨hs', n', hst'⟩ hw'' => ?_
    subst hs'
    refine (Tracks.look2 (hE i) hst hst' false (f := fun x y => exec rc E (body x y) t >>= fun r => pure r.1)
      (fst (ihb e e' s'' t hs hi' S hw''.left.andThen)) (fun _ _ _ _ h => h)).bind hw'' fun s' r r' hi₁ he₁ hr hw₁ => ?_
    cases hr
    exact ihk _ s' t hs hi₁ (S.extend hrc he₁) hw₁
  | partialCmp i hh hh' body k ihb ihk =>
    intro s t hs hi S hw
    refine (Tracks.get S hi hw.left).bind hw fun s' b e hi' he ⟨hs', n, hst⟩ hw' => ?_
    subst hs'
    refine (Tracks.get S hi hw'.left).bind hw' fun s'' b' e' hi'' he' ⟨hs', n', hst'⟩ hw'' => ?_
    subst hs'
    refine (Tracks.look2 (hE i) hst hst' none (f := fun x y => exec rc E (body x y) t >>= fun r => pure r.1)
      (fst (ihb e e' s'' t hs hi' S hw''.left.andThen)) (fun _ _ _ _ h => h)).bind hw'' fun s' r r' hi₁ he₁ hr hw₁ => ?_
    cases hr
    exact ihk _ s' t hs hi₁ (S.extend hrc he₁) hw₁
  | cmp i hh hh' body k ihb ihk =>
    intro s t hs hi S hw
    refine (Tracks.get S hi hw.left).bind hw fun s' b e hi' he ⟨hs', n, hst⟩ hw' => ?_
    subst hs'
    refine (Tracks.get S hi hw'.left).bind hw' fun s'' b' e' hi'' he' ⟨hs', n', hst'⟩ hw'' => ?_
    subst hs'
    refine (Tracks.look2 (hE i) hst hst' Ordering.eq (f := fun x y => exec rc E (body x y) t >>= fun r => pure r.1)
      (fst (ihb e e' s'' t hs hi' S hw''.left.andThen)) (fun _ _ _ _ h => h)).bind hw'' fun s' r r' hi₁ he₁ hr hw₁ => ?_
    cases hr
    exact ihk _ s' t hs hi₁ (S.extend hrc he₁) hw₁
  | observe i hh body k ihb ihk =>
    intro s t hs hi S hw
    rw [exec]; rw [plain] at hw ⊢
    refine (Tracks.get S hi hw.left).bind hw fun s' b e hi' he ⟨hs', n, hst⟩ hw' => ?_
    subst hs'
    refine (Tracks.look (hE i) hst (f := fun e => exec rc E (body e) t) (ihb e s' t hs hi' S hw'.left.andThen)
      (fun _ _ _ es h => ⟨h.1, h.2.extend hrc (Extends.log _ es)⟩)).bind hw' fun s₁ r r' hi₁ he₁ ⟨r₀, hr, hv⟩ hw₁ => ?_
    subst hr
    obtain ⟨r₀, t'⟩ := r₀
    obtain ⟨hv, S'⟩ := hv
    cases hv
    exact ihk _ s₁ t' _ hi₁ S' hw₁
  | debug i hh body spec out k ihb ihk =>
    intro s t hs hi S hw
    refine (Tracks.get S hi hw.left).bind hw fun s' b e hi' he ⟨hs', n, hst⟩ hw' => ?_
    subst hs'
    refine ((Tracks.look (hE i) hst (f := fun e => exec rc E (body e {} out) t >>= fun r => pure r.1)
      (fst (ihb e {} out s' t hs hi' S hw'.left.andThen)) (fun _ _ _ _ h => h)).map (fun r => r.getD (out, true))
      (R' := SameVal) (fun _ _ _ ⟨r, hr, hv⟩ => by subst hr; exact hv)).bind hw' fun s₁ r r' hi₁ he₁ hr hw₁ => ?_
    cases hr
    exact ihk _ s₁ t hs hi₁ (S.extend hrc he₁) hw₁
  | display i hh body spec out k ihb ihk =>
    intro s t hs hi S hw
    refine (Tracks.get S hi hw.left).bind hw fun s' b e hi' he ⟨hs', n, hst⟩ hw' => ?_
    subst hs'
    refine ((Tracks.look (hE i) hst (f := fun e => exec rc E (body e {} out) t >>= fun r => pure r.1)
      (fst (ihb e {} out s' t hs hi' S hw'.left.andThen)) (fun _ _ _ _ h => h)).map (fun r => r.getD (out, true))
      (R' := SameVal) (fun _ _ _ ⟨r, hr, hv⟩ => by subst hr; exact hv)).bind hw' fun s₁ r r' hi₁ he₁ hr hw₁ => ?_
    cases hr
    exact ihk _ s₁ t hs hi₁ (S.extend hrc he₁) hw₁
  | intoInner i hh k ih =>
    intro s t hs hi S hw
    refine (Tracks.get S hi hw.left).bind hw fun s' b e hi' he ⟨hs', n, hst⟩ hw' => ?_
    subst hs'
    refine Tracks.congr (ih e s' _ _ hi' (S.consume hh) hw') (M.bind_of_ret ?_)
    obtain ⟨hc, hp⟩ := (hE i).compiled.wf
    rw [hp]
    exact containerIntoInner_stores hc.u8 hc.names hc.members hst
  | drop i hh k ih =>
    intro s t hs hi S hw
    refine (Tracks.get S hi hw.left).bind hw fun s' b e hi' he ⟨hs', n, hst⟩ hw' => ?_
    subst hs'
    refine (Tracks.pure hi' (a := ()) (b := ()) (R := fun s₁ _ _ => s₁ = s') rfl).bind hw' fun s₁ _ _ hi₁ he₁ hs₁ hw₁ => ?_
    subst hs₁
    exact ih _ _ _ hi₁ (S.consume hh) hw₁
  | «catch» body k ihb ihk =>
    intro s t hs hi S hw
    rw [exec]; rw [plain] at hw ⊢
    refine (ihb s t hs hi S hw.left.catchUnwind).catchUnwind.bind hw fun s₁ r r' hi₁ he₁ hr hw₁ => ?_
    match r, r', hr, hw₁ with
    | .ok (a, t'), .ok (b, hs'), ⟨_, hv, S'⟩, hw₁ =>
      cases hv
      exact ihk _ s₁ t' hs' hi₁ S' hw₁
    | .error kk, .error _, ⟨_, rfl⟩, hw₁ => exact ihk _ s₁ t hs hi₁ (S.extend hrc he₁) hw₁

/-! ## What plain runs do not depend on -/

/-- Equally many failures to come, in the same places. -/
structure FailsAlike (F : Fails → Fails → Prop) : Prop where
  head : ∀ fs fs', F fs fs' → fs.headD none = fs'.headD none
  tail : ∀ fs fs', F fs fs' → F fs.tail fs'.tail

/-- The same results. -/
def Alike {α : Type} (F : Fails → Fails → Prop) (q q' : PM α) : Prop :=
  ∀ fs fs', F fs fs' → (q fs = none ∧ q' fs' = none) ∨ ∃ o o', q fs = some o ∧ q' fs' = some o' ∧ o.res = o'.res ∧ F o.fails o'.fails

namespace Alike

variable {F : Fails → Fails → Prop} {α β : Type}

theorem pure (a : α) : Alike F (Pure.pure a) (Pure.pure a) := fun fs fs' h => .inr ⟨⟨.ok a, fs, []⟩, ⟨.ok a, fs', []⟩, rfl, rfl, rfl, h⟩

theorem const (r : Except PanicKind α) (es : List Event) : Alike F (fun fs => some ⟨r, fs, es⟩) (fun fs => some ⟨r, fs, es⟩) :=
  fun fs fs' h => .inr ⟨⟨r, fs, es⟩, ⟨r, fs', es⟩, rfl, rfl, rfl, h⟩

theorem get [DecidableEq ι] (hs : PTable ι) (i : ι) (h : Nat) : Alike F (plainGet hs i h) (plainGet hs i h) := by
  unfold plainGet
  split
  · split
    · exact pure _
    · exact fun _ _ _ => .inl ⟨rfl, rfl⟩
  · exact fun _ _ _ => .inl ⟨rfl, rfl⟩

theorem bind {q q' : PM α} {f f' : α → PM β} (hq : Alike F q q') (hf : ∀ a, Alike F (f a) (f' a)) : Alike F (q >>= f) (q' >>= f') := by
  intro fs fs' h
  rcases hq fs fs' h with ⟨e, e'⟩ | ⟨⟨r, gs, es⟩, ⟨r', gs', es'⟩, e, e', hr, hg⟩
  · exact .inl ⟨by rw [PM.bind_def, PM.bind, e], by rw [PM.bind_def, PM.bind, e']⟩
  · cases hr
    cases r with
    | error k => exact .inr ⟨_, _, PM.bind_error e, PM.bind_error e', rfl, hg⟩
    | ok a =>
      rw [PM.bind_ok e, PM.bind_ok e']
      rcases hf a gs gs' hg with ⟨k, k'⟩ | ⟨o, o', k, k', hr, hg⟩
      · exact .inl ⟨by rw [k]; rfl, by rw [k']; rfl⟩
      · exact .inr ⟨⟨o.res, o.fails, es ++ o.evs⟩, ⟨o'.res, o'.fails, es' ++ o'.evs⟩, by rw [k]; rfl, by rw [k']; rfl, hr, hg⟩

theorem andThen {q q' : PM α} (hq : Alike F q q') (es es' : List Event) : Alike F (q.andThen es) (q'.andThen es') := by
  intro fs fs' h
  rcases hq fs fs' h with ⟨e, e'⟩ | ⟨o, o', e, e', hr, hg⟩
  · exact .inl ⟨by rw [PM.andThen, e]; rfl, by rw [PM.andThen, e']; rfl⟩
  · exact .inr ⟨⟨o.res, o.fails, o.evs ++ es⟩, ⟨o'.res, o'.fails, o'.evs ++ es'⟩, by rw [PM.andThen, e]; rfl, by rw [PM.andThen, e']; rfl, hr, hg⟩

theorem catchUnwind {q q' : PM α} (hq : Alike F q q') : Alike F q.catchUnwind q'.catchUnwind := by
  intro fs fs' h
  rcases hq fs fs' h with ⟨e, e'⟩ | ⟨⟨r, gs, es⟩, ⟨r', gs', es'⟩, e, e', hr, hg⟩
  · exact .inl ⟨by rw [PM.catchUnwind, e]; rfl, by rw [PM.catchUnwind, e']; rfl⟩
  · cases hr
    refine .inr ⟨_, _, by rw [PM.catchUnwind, e]; rfl, by rw [PM.catchUnwind, e']; rfl, ?_⟩
    simp only
    split <;> exact ⟨rfl, hg⟩

theorem make (hF : FailsAlike F) (D D' : ι → Dtors) (i : ι) (e : EVal) : Alike F (plainNew rc E D i e) (plainNew rc E D' i e) := by
  intro fs fs' h
  unfold plainNew
  split
  · rw [← hF.head fs fs' h]
    split
    · exact .inr ⟨_, _, rfl, rfl, rfl, hF.tail _ _ h⟩
    · exact .inr ⟨_, _, rfl, rfl, rfl, hF.tail _ _ h⟩
  · exact .inl ⟨rfl, rfl⟩

end Alike

/-- The results of a plain run do not depend on which destructors run. -/
theorem plain_alike [DecidableEq ι] {F : Fails → Fails → Prop} (hF : FailsAlike F) (D D' : ι → Dtors) {α : Type} (p : RProg env ι α) :
    ∀ hs, Alike F (plain rc E D p hs) (plain rc E D' p hs) := by
  induction p with
  | ret a => exact fun _ => .pure _
  | panic code => exact fun _ => .const _ _
  | user f ok k ih => exact fun hs => Alike.bind (.const _ _) fun a => ih a hs
  | «from» i e k ih => exact fun hs => Alike.bind (.make hF D D' i e) fun _ => ih _ _
  | copy i h k ih => exact fun hs => Alike.bind (.get hs i h) fun _ => ih _ _
  | clone i h body k ihb ihk =>
    exact fun hs => Alike.bind (.get hs i h) fun e => Alike.bind ((ihb e hs).andThen _ _) fun r =>
      Alike.bind (.make hF D D' i r.1) fun _ => ihk _ _
  | eq i h h' body k ihb ihk =>
    exact fun hs => Alike.bind (.get hs i h) fun e => Alike.bind (.get hs i h') fun e' => Alike.bind ((ihb e e' hs).andThen _ _) fun r => ihk _ _
  | partialCmp i h h' body k ihb ihk =>
    exact fun hs => Alike.bind (.get hs i h) fun e => Alike.bind (.get hs i h') fun e' => Alike.bind ((ihb e e' hs).andThen _ _) fun r => ihk _ _
  | cmp i h h' body k ihb ihk =>
    exact fun hs => Alike.bind (.get hs i h) fun e => Alike.bind (.get hs i h') fun e' => Alike.bind ((ihb e e' hs).andThen _ _) fun r => ihk _ _
  | observe i h body k ihb ihk =>
    exact fun hs => Alike.bind (.get hs i h) fun e => Alike.bind ((ihb e hs).andThen _ _) fun r => ihk _ _
  | debug i h body spec out k ihb ihk =>
    exact fun hs => Alike.bind (.get hs i h) fun e => Alike.bind ((ihb e {} out hs).andThen _ _) fun r => ihk _ _
  | display i h body spec out k ihb ihk =>
    exact fun hs => Alike.bind (.get hs i h) fun e => Alike.bind ((ihb e {} out hs).andThen _ _) fun r => ihk _ _
  | intoInner i h k ih => exact fun hs => Alike.bind (.get hs i h) fun e => ih _ _
  | drop i h k ih => exact fun hs => Alike.bind (.get hs i h) fun e => Alike.bind (Alike.andThen (.pure ()) _ _) fun _ => ih _
  | «catch» body k ihb ihk =>
    intro hs
    rw [plain, plain]
    refine Alike.bind (ihb hs).catchUnwind fun r => ?_
    match r with
    | .ok r => exact ihk _ _
    | .error kind => exact ihk _ _

theorem alike_eq : FailsAlike Eq := ⟨fun _ _ h => h ▸ rfl, fun _ _ h => h ▸ rfl⟩

theorem alike_none : FailsAlike (fun fs fs' => (∀ f ∈ fs, f = none) ∧ ∀ f ∈ fs', f = none) where
  head fs fs' h := by
    have key : ∀ fs : Fails, (∀ f ∈ fs, f = none) → fs.headD none = none := by
      intro fs h
      cases fs with
      | nil => rfl
      | cons f fs => exact h f (by simp)
    rw [key fs h.1, key fs' h.2]
  tail fs fs' h := ⟨fun f hf => h.1 f (List.mem_of_mem_tail hf), fun f hf => h.2 f (List.mem_of_mem_tail hf)⟩

/-! ## Showing that a program is well-typed -/

/-- Whatever fails, the computation is not stuck, and its result, if there is one, satisfies `Q`. -/
def Goes {α : Type} (env : Env) (q : PM α) (Q : α → Prop) : Prop :=
  ∀ fs : Fails, (∀ f ∈ fs, FailOK env f) → ∃ o, q fs = some o ∧ (∀ f ∈ o.fails, FailOK env f) ∧ ∀ a, o.res = .ok a → Q a

namespace Goes

variable {α β : Type} {q : PM α} {Q : α → Prop}

theorem wellTyped (h : Goes env q Q) : WellTyped env q := fun fs hfs hn => by
  obtain ⟨o, e, _⟩ := h fs hfs
  rw [hn] at e
  cases e

theorem pure {a : α} (h : Q a) : Goes env (Pure.pure a) Q :=
  fun fs hfs => ⟨⟨.ok a, fs, []⟩, rfl, hfs, fun b hb => by cases hb; exact h⟩

theorem panic {k : PanicKind} : Goes env (PM.panic k) Q := fun fs hfs => ⟨⟨.error k, fs, []⟩, rfl, hfs, fun b hb => by cases hb⟩

theorem bind {f : α → PM β} {R : β → Prop} (h : Goes env q Q) (hf : ∀ a, Q a → Goes env (f a) R) : Goes env (q >>= f) R := by
  intro fs hfs
  obtain ⟨⟨r, fs', es⟩, e, h1, h2⟩ := h fs hfs
  cases r with
  | error k => exact ⟨_, PM.bind_error e, h1, fun b hb => by cases hb⟩
  | ok a =>
    obtain ⟨o, e', k1, k2⟩ := hf a (h2 a rfl) fs' h1
    exact ⟨⟨o.res, o.fails, es ++ o.evs⟩, by rw [PM.bind_ok e, e']; rfl, k1, k2⟩

theorem andThen (h : Goes env q Q) (es : List Event) : Goes env (q.andThen es) Q := by
  intro fs hfs
  obtain ⟨o, e, h1, h2⟩ := h fs hfs
  exact ⟨⟨o.res, o.fails, o.evs ++ es⟩, by rw [PM.andThen, e]; rfl, h1, h2⟩

theorem catchUnwind (h : Goes env q Q) : Goes env q.catchUnwind (fun r => ∀ a, r = .ok a → Q a) := by
  intro fs hfs
  obtain ⟨⟨r, fs', es⟩, e, h1, h2⟩ := h fs hfs
  refine ⟨_, by rw [PM.catchUnwind, e]; rfl, ?_, ?_⟩
  · simp only
    split <;> exact h1
  · intro b hb a ha
    simp only at hb
    split at hb
    · cases hb
    · cases hb
      exact h2 a ha

theorem get [DecidableEq ι] {hs : PTable ι} {i : ι} {h : Nat} {e : EVal} (hh : hs[h]?.join = some (i, e)) :
    Goes env (plainGet hs i h) (fun x => x = e) := by
  rw [plainGet, hh]
  simp only [if_true]
  exact pure rfl

theorem make {D : ι → Dtors} {i : ι} {e : EVal} (hv : IsEnumValue rc (E i).decl e) :
    Goes env (plainNew rc E D i e) (fun _ => True) := by
  intro fs hfs
  have ht : ∀ f ∈ fs.tail, FailOK env f := fun f hf => hfs f (List.mem_of_mem_tail hf)
  rw [plainNew, if_pos hv]
  split
  · exact ⟨_, rfl, ht, fun _ _ => trivial⟩
  · exact ⟨_, rfl, ht, fun _ _ => trivial⟩

end Goes

end TB.Macro

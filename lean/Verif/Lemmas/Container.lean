import Verif.Lemmas.MacroInto
import Verif.Lemmas.Traits
import Verif.Spec.Container

/-!
# Lemmas: containers simulate plain values
-/

set_option autoImplicit false

namespace TB.Macro

variable {env : Env} {rc : Rustc} {sn en : String} {hd : Bool} {ts : List Tok} {decl : List VariantDef} {P : Program}
variable {β : Type}

/-! ## Destructor events -/

theorem dtors_refl (s : State) : dtorsBetween s s = [] := by simp [dtorsBetween]

theorem dtors_trans {s s' s'' : State} (h : s.trace <+: s'.trace) (h' : s'.trace <+: s''.trace) :
    dtorsBetween s s'' = dtorsBetween s s' ++ dtorsBetween s' s'' := by
  obtain ⟨a, ha⟩ := h
  obtain ⟨b, hb⟩ := h'
  simp only [dtorsBetween, ← hb, ← ha, List.append_assoc, List.drop_left]
  rw [← List.append_assoc, List.drop_left' (by simp), List.filter_append]

theorem dtors_log (s : State) (es : List Event) : dtorsBetween s (s.log es) = es.filter Event.isDtor := by
  simp [dtorsBetween, State.log]

theorem dropEvents_isDtor (sh : Shape) (v : Val) : (dropEvents sh v).filter Event.isDtor = dropEvents sh v := by
  rw [List.filter_eq_self]
  intro e he
  simp only [dropEvents, List.mem_filterMap] at he
  obtain ⟨p, _, hp⟩ := he
  split at hp
  · cases hp; rfl
  · cases hp

theorem enumDtor_isDtor (hd : Bool) (e : EVal) : (enumDtor hd e).filter Event.isDtor = enumDtor hd e := by
  cases hd <;> rfl

theorem dtors_boxed (s : State) (a : Nat) (sh : Shape) (v : Val) : dtorsBetween s (boxedState s a sh v) = [] := by
  simp [dtorsBetween, boxedState, Event.isDtor]

/-- Destructor events depend on the field types only. -/
theorem dropEvents_eq {fs : List (Nat × Leaf)} {tys : List Ty} (h : fs.map (·.2) = tys.map rc.leaf) (v : Val) :
    (fs.zip v).filterMap (fun p => if p.1.2.needsDrop then some (Event.drop p.1.2.id p.2) else none) =
      (tys.zip v).filterMap fun (t, v) => if (rc.leaf t).needsDrop then some (.drop (rc.leaf t).id v) else none := by
  induction fs generalizing tys v with
  | nil =>
    cases tys with
    | nil => rfl
    | cons _ _ => cases h
  | cons f fs ih =>
    cases tys with
    | nil => cases h
    | cons t tys =>
      simp only [List.map_cons, List.cons.injEq] at h
      cases v with
      | nil => rfl
      | cons x v => simp only [List.zip_cons_cons, List.filterMap_cons, ih h.2, h.1]

theorem find_decl (hn : (decl.map (·.name)).Nodup) {i : Nat} {d : VariantDef} (hdi : decl[i]? = some d) :
    decl.find? (fun d' => d'.name == d.name) = some d := by
  induction decl generalizing i with
  | nil => cases hdi
  | cons d' ds ih =>
    rw [List.map_cons, List.nodup_cons] at hn
    cases i with
    | zero =>
      rw [List.getElem?_cons_zero] at hdi
      cases hdi
      simp
    | succ i =>
      rw [List.getElem?_cons_succ] at hdi
      have hne : d'.name ≠ d.name := fun e => hn.1 (e ▸ List.mem_map.2 ⟨d, List.mem_of_getElem? hdi, rfl⟩)
      rw [List.find?_cons_of_neg (by simpa using hne)]
      exact ih hn.2 hdi

theorem shape_fields {f : Fields} {sh : Shape} (h : f.shape rc = some sh) :
    sh.fields.map (·.2) = f.types.map rc.leaf := by
  match f, h with
  | .tuple [t], h => cases h; rfl
  | .tuple (t :: t' :: ts), h =>
    cases h
    exact reprC_fields _
  | .record ms, h =>
    cases h
    simp only [Fields.types, List.map_map]
    exact reprC_fields _

theorem fieldDtors_eq (hn : (decl.map (·.name)).Nodup) {i : Nat} {d : VariantDef} {e : EVal} (hdi : decl[i]? = some d)
    (hv : e.variant = d.name) {sh : Shape} (hsh : d.fields.shape rc = some sh) :
    fieldDtors rc decl e = dropEvents sh e.payload.vals := by
  unfold fieldDtors
  rw [hv, find_decl hn hdi]
  exact (dropEvents_eq (shape_fields hsh) _).symm

theorem zeroSized_eq (hn : (decl.map (·.name)).Nodup) {i : Nat} {d : VariantDef} {e : EVal} (hdi : decl[i]? = some d)
    (hv : e.variant = d.name) {o : Option Shape} (ho : d.fields.shape rc = o) :
    zeroSized rc decl e = o.any (fun sh => sh.size == 0) := by
  unfold zeroSized
  rw [hv, find_decl hn hdi]
  subst ho
  simp only
  cases d.fields.shape rc <;> rfl

/-! ## Making a container -/

theorem NullBetween.trans {s s' s'' : State} (h : s.trace <+: s'.trace) (h' : s'.trace <+: s''.trace)
    (hn : NullBetween s s' ∨ NullBetween s' s'') : NullBetween s s'' := by
  obtain ⟨a, ha⟩ := h
  obtain ⟨b, hb⟩ := h'
  simp only [NullBetween, ← hb, ← ha, List.append_assoc, List.drop_left, List.mem_append] at hn ⊢
  rw [← List.append_assoc, List.drop_left' (by simp)] at hn
  rcases hn with ⟨x, y, hn⟩ | ⟨x, y, hn⟩
  · exact ⟨x, y, .inl hn⟩
  · exact ⟨x, y, .inr hn⟩

theorem from_step (h : env.OK) (hrc : rc.OK) (hc : Compiled rc env.cfg sn en hd ts decl P)
    (hlen : decl.length ≤ 2 ^ env.cfg.freeBits) (ho : env.debug = true ∨ env.InRange) {e : EVal}
    (hv : IsEnumValue rc decl e) {s : State} (hi : HeapInv env s) :
    ∃ fail s', FailOK env fail ∧ (env.InRange → ¬ NullBetween s s' → fail = none) ∧ HeapInv env s' ∧ Extends s s' ∧
      dtorsBetween s s' = (crateDtors rc decl hd).made e fail ∧
      match fail with
      | none => ∃ b i, containerFrom env rc P e s = .ret b s' ∧ Stores env rc decl s' b i e
      | some k => containerFrom env rc P e s = .panic k s' := by
  obtain ⟨i, hv⟩ := hv
  obtain ⟨hw, rfl⟩ := hc.wf
  obtain ⟨d, hdi, hvn, hf⟩ := id hv
  have hlt : i < 2 ^ env.cfg.freeBits := by
    have := (List.getElem?_eq_some_iff.1 hdi).1
    omega
  have heq : containerFrom env rc (programOf sn en hd decl) e = M.cleanup (enumDtor hd e) _ :=
    intoTaggedBox_eq (env := env) (sn := sn) (en := en) (hd := hd) hw.names hw.members hw.arity hdi hvn hf
  rcases storeOf_spec h hrc hi hf (numOf env i) with ⟨b, s', e1, i1, i2, _, i3⟩ | ⟨sh, h1, h2, h3, e1⟩ |
      ⟨sh, h1, h2, h3, h4, k, e1, h5⟩
  · have hr : containerFrom env rc (programOf sn en hd decl) e s = .ret b (s'.log (enumDtor hd e)) := by
      rw [heq]; exact cleanup_ret e1
    refine ⟨none, s'.log (enumDtor hd e), .inl rfl, fun _ _ => rfl, i1.log _, i2.trans (Extends.log _ _), ?_, b, i, hr,
      (into_stores h hrc hw.u8 hw.names hw.members hw.arity hv hi hr).2.2 hlt ho⟩
    rw [dtors_trans i2.trace (Extends.log _ _).trace, dtors_log, enumDtor_isDtor]
    show _ = (if zeroSized rc decl e then _ else _) ++ _
    congr 1
    rcases i3 with ⟨hn, rfl⟩ | ⟨sh, hsh, ⟨hz, rfl⟩ | ⟨hz, _, rfl⟩⟩
    · rw [zeroSized_eq hw.names hdi hvn hn, dtors_refl]; rfl
    · rw [zeroSized_eq hw.names hdi hvn hsh, dtors_log, dropEvents_isDtor, fieldDtors_eq hw.names hdi hvn hsh]
      simp [hz]
    · rw [zeroSized_eq hw.names hdi hvn hsh, dtors_boxed]
      have : (sh.size == 0) = false := by simp; omega
      simp [this]
  · have hE : Extends s ((s.log [.allocNull sh.size sh.align]).log (dropEvents sh e.payload.vals)) :=
      (Extends.log _ _).trans (Extends.log _ _)
    refine ⟨some .nullAlloc, (((s.log [.allocNull sh.size sh.align]).log (dropEvents sh e.payload.vals)).log (enumDtor hd e)),
      .inr (.inl rfl), fun _ hg => absurd ⟨sh.size, sh.align, by simp [State.log]⟩ hg, ((hi.log _).log _).log _, hE.trans (Extends.log _ _), ?_, ?_⟩
    · rw [dtors_trans hE.trace (Extends.log _ _).trace, dtors_trans (Extends.log _ _).trace (Extends.log _ _).trace, dtors_log,
        dtors_log, dtors_log, enumDtor_isDtor, dropEvents_isDtor]
      show _ = fieldDtors rc decl e ++ _
      rw [fieldDtors_eq hw.names hdi hvn h1]
      rfl
    · show containerFrom _ _ _ _ _ = _
      rw [heq]; exact cleanup_panic e1
  · rcases h5 with ⟨_, h5⟩ | ⟨rfl, _, h5⟩
    · exact absurd (numOf_ok h hw.u8 hlt) h5
    · have hw' := shape_wf hrc h1
      have hE := boxedState_extends h (s := s) hw' (shape_has hf h1) (by omega) h4
      refine ⟨some .pointer, _, .inr (.inr ⟨rfl, h3⟩), fun hg _ => absurd (hg _ _ _) h5,
        (boxedState_inv h hi (by omega) h4).log (enumDtor hd e), hE.trans (Extends.log _ _), ?_, ?_⟩
      · rw [dtors_trans hE.trace (Extends.log _ _).trace, dtors_log, enumDtor_isDtor, dtors_boxed]
        rfl
      · show containerFrom _ _ _ _ _ = _
        rw [heq]; exact cleanup_panic e1

/-! ## Looking -/

theorem seen_step (hc : Compiled rc env.cfg sn en hd ts decl P) {s : State} {b : TBox} {i : Nat} {x : EVal}
    (hs : Stores env rc decl s b i x) :
    Presents (taggable env rc P) s b x ((crateDtors rc decl hd).seen x) := by
  obtain ⟨hw, rfl⟩ := hc.wf
  obtain ⟨d, hdi, hv, hf⟩ := hs.1
  have := presents_stores (sn := sn) (en := en) (hd := hd) hw.u8 hw.names hw.members hs hdi
  have e : (crateDtors rc decl hd).seen x = observeDrops hd d := by
    obtain ⟨v, fl⟩ := d
    obtain ⟨xv, p⟩ := x
    cases hv
    match fl, p, hf with
    | .unit, .unit, _ => rfl
    | .tuple _, .tuple _, _ => rfl
    | .record _, .record _, _ => rfl
  rw [e]
  exact this

theorem seen_isDtor (x : EVal) :
    ((crateDtors rc decl hd).seen x).filter Event.isDtor = (crateDtors rc decl hd).seen x := by
  show (if _ then _ else _ : List Event).filter _ = if _ then _ else _
  split
  · exact enumDtor_isDtor hd x
  · rfl

/-! ## Simulation -/

/-- The containers of the client store the values of the plain client. -/
structure CSim (env : Env) (rc : Rustc) (decl : List VariantDef) (c : CState) (hs : List (Option EVal)) : Prop where
  inv : HeapInv env c.s
  len : c.handles.length = hs.length
  hnone : ∀ h, hs[h]?.join = none → c.get h = none
  hsome : ∀ h e, hs[h]?.join = some e → ∃ b i, c.get h = some b ∧ Stores env rc decl c.s b i e

variable {c : CState} {hs : List (Option EVal)}

theorem CSim.extend (hrc : rc.OK) (S : CSim env rc decl c hs) {s' : State} (hi : HeapInv env s') (he : Extends c.s s') :
    CSim env rc decl ⟨s', c.handles⟩ hs :=
  ⟨hi, S.len, S.hnone, fun h e hh => by
    obtain ⟨b, i, h1, h2⟩ := S.hsome h e hh
    exact ⟨b, i, h1, h2.mono hrc he⟩⟩

theorem CSim.push (S : CSim env rc decl c hs) {b : TBox} {i : Nat} {e : EVal} (hs' : Stores env rc decl c.s b i e) :
    CSim env rc decl ⟨c.s, c.handles ++ [some b]⟩ (hs ++ [some e]) := by
  refine ⟨S.inv, by simp [S.len], fun h hh => ?_, fun h e' hh => ?_⟩
  · simp only [CState.get, List.getElem?_append, S.len] at hh ⊢
    split at hh
    · rename_i hlt; rw [if_pos hlt]; exact S.hnone h hh
    · rename_i hlt
      rw [if_neg hlt]
      rw [List.getElem?_singleton] at hh ⊢
      split at hh
      · cases hh
      · rename_i h0; rw [if_neg h0]; rfl
  · simp only [CState.get, List.getElem?_append, S.len] at hh ⊢
    split at hh
    · rename_i hlt; rw [if_pos hlt]; exact S.hsome h e' hh
    · rename_i hlt
      rw [if_neg hlt]
      rw [List.getElem?_singleton] at hh ⊢
      split at hh
      · rename_i h0
        rw [if_pos h0]
        cases hh
        exact ⟨b, i, rfl, hs'⟩
      · cases hh

theorem join_set {α : Type} (l : List (Option α)) (h k : Nat) :
    (l.set h none)[k]?.join = if h = k then none else l[k]?.join := by
  rw [List.getElem?_set]
  split
  · split <;> rfl
  · rfl

theorem CSim.consume (S : CSim env rc decl c hs) (h : Nat) :
    CSim env rc decl ⟨c.s, c.handles.set h none⟩ (hs.set h none) := by
  refine ⟨S.inv, by simp [S.len], fun k hh => ?_, fun k e hh => ?_⟩
  · simp only [CState.get, join_set] at hh ⊢
    split
    · rfl
    · rename_i hne; rw [if_neg hne] at hh; exact S.hnone k hh
  · simp only [CState.get, join_set] at hh ⊢
    split at hh
    · cases hh
    · rename_i hne; rw [if_neg hne]; exact S.hsome k e hh

theorem cstepWith_ret {α : Type} {m : M α} {a : α} {s' : State} (f : α → CRes β × List (Option TBox)) (h : m c.s = .ret a s') :
    cstepWith c m f = some (((f a).1, dtorsBetween c.s s'), ⟨s', (f a).2⟩) := by
  simp only [cstepWith, h]

theorem cstepWith_panic {α : Type} {m : M α} {k : PanicKind} {s' : State} (f : α → CRes β × List (Option TBox))
    (h : m c.s = .panic k s') :
    cstepWith c m f = some ((.panicked k, dtorsBetween c.s s'), ⟨s', c.handles⟩) := by
  simp only [cstepWith, h]

/-- An operation that runs user code on stored values and then some destructors. -/
theorem CSim.user (hrc : rc.OK) (S : CSim env rc decl c hs) {A α : Type} {f : UserFn M A α} {x : A} (hf : f.OK env x) {m : M α}
    {es : List Event} (hes : es.filter Event.isDtor = es) (hm : m c.s = M.cleanup es (f.run x) c.s) (g : α → CRes β) :
    ∃ c', cstepWith c m (fun r => (g r, c.handles)) = some ((plainRes (f.out x) g, f.evs x ++ es), c') ∧
      CSim env rc decl c' hs ∧ c.s.trace <+: c'.s.trace := by
  obtain ⟨s', hi, he, hev, hr⟩ := hf c.s S.inv
  have hd : dtorsBetween c.s (s'.log es) = f.evs x ++ es := by
    rw [dtors_trans he.trace (Extends.log _ _).trace, dtors_log, hes, hev]
  refine ⟨⟨s'.log es, c.handles⟩, ?_, S.extend hrc (hi.log _) (he.trans (Extends.log _ _)), (he.trans (Extends.log _ _)).trace⟩
  cases ho : f.out x with
  | ok a =>
    rw [ho] at hr
    rw [cstepWith_ret _ (hm.trans (cleanup_ret hr)), hd]
    rfl
  | error k =>
    rw [ho] at hr
    rw [cstepWith_panic _ (hm.trans (cleanup_panic hr)), hd]
    rfl

/-- Making a container after some user code. -/
theorem CSim.make (h : env.OK) (hrc : rc.OK) (hc : Compiled rc env.cfg sn en hd ts decl P)
    (hlen : decl.length ≤ 2 ^ env.cfg.freeBits) (ho : env.debug = true ∨ env.InRange) (S : CSim env rc decl c hs) {e : EVal}
    (hv : IsEnumValue rc decl e) {s₁ : State} (hi : HeapInv env s₁) (he : Extends c.s s₁) {m : M TBox}
    (hm : m c.s = containerFrom env rc P e s₁) :
    ∃ fail c', FailOK env fail ∧ (env.InRange → ¬ NullBetween c.s c'.s → fail = none) ∧ c.s.trace <+: c'.s.trace ∧
      cstepWith (β := β) c m (fun b => (.handle c.handles.length, c.handles ++ [some b])) =
        some ((plainMake (crateDtors rc decl hd) fail hs e (dtorsBetween c.s s₁)).1, c') ∧
      CSim env rc decl c' (plainMake (β := β) (crateDtors rc decl hd) fail hs e (dtorsBetween c.s s₁)).2 := by
  obtain ⟨fail, s', hf, hg, hi', he', hev, hr⟩ := from_step h hrc hc hlen ho hv hi
  have S' := S.extend hrc hi' (he.trans he')
  have hg' : env.InRange → ¬ NullBetween c.s s' → fail = none := fun hin hn =>
    hg hin (fun hx => hn (NullBetween.trans he.trace he'.trace (.inr hx)))
  have hd : dtorsBetween c.s s' = dtorsBetween c.s s₁ ++ (crateDtors rc decl hd).made e fail := by
    rw [dtors_trans he.trace he'.trace, hev]
  cases fail with
  | none =>
    obtain ⟨b, i, hr, hst⟩ := hr
    refine ⟨none, ⟨s', _⟩, hf, hg', (he.trans he').trace, ?_, S'.push hst⟩
    rw [cstepWith_ret _ (hm.trans hr), hd, S.len]
    rfl
  | some k =>
    refine ⟨some k, ⟨s', _⟩, hf, hg', (he.trans he').trace, ?_, S'⟩
    rw [cstepWith_panic _ (hm.trans hr), hd]
    rfl

/-- One step. -/
theorem CSim.step (h : env.OK) (hrc : rc.OK) (hc : Compiled rc env.cfg sn en hd ts decl P)
    (hlen : decl.length ≤ 2 ^ env.cfg.freeBits) (ho : env.debug = true ∨ env.InRange) (S : CSim env rc decl c hs)
    {op : COp M β} (hop : op.OK env rc decl) :
    ∃ fail, FailOK env fail ∧
      ((cstep env rc P c op = none ∧ plainStep (crateDtors rc decl hd) fail hs op = none) ∨
       ∃ o c' hs', cstep env rc P c op = some (o, c') ∧
        plainStep (crateDtors rc decl hd) fail hs op = some (o, hs') ∧ CSim env rc decl c' hs' ∧
        c.s.trace <+: c'.s.trace ∧ (env.InRange → ¬ NullBetween c.s c'.s → fail = none)) := by
  have nofail : FailOK env none := .inl rfl
  -- a handle is known to both sides or to neither
  have lk : ∀ k, (hs[k]?.join = none ∧ c.get k = none) ∨
      ∃ e b i, hs[k]?.join = some e ∧ c.get k = some b ∧ Stores env rc decl c.s b i e := by
    intro k
    cases hk : hs[k]?.join with
    | none => exact .inl ⟨rfl, S.hnone k hk⟩
    | some e =>
      obtain ⟨b, i, h1, h2⟩ := S.hsome k e hk
      exact .inr ⟨e, b, i, rfl, h1, h2⟩
  -- comparisons
  have two : ∀ (α : Type) (hh hh' : Nat) (f : UserFn M (EVal × EVal) α) (g : α → CRes β) (m : TBox → TBox → M α)
      (_ : ∀ x y, IsEnumValue rc decl x → IsEnumValue rc decl y → f.OK env (x, y))
      (_ : ∀ a b i j x y, Stores env rc decl c.s a i x → Stores env rc decl c.s b j y →
        m a b c.s = M.cleanup ((crateDtors rc decl hd).seen y ++ (crateDtors rc decl hd).seen x) (f.run (x, y)) c.s),
      (((c.get hh).bind fun b => (c.get hh').bind fun b' => cstepWith c (m b b') (fun r => (g r, c.handles))) = none ∧
        (hs[hh]?.join.bind fun e => hs[hh']?.join.map fun e' => ((plainRes (f.out (e, e')) g,
          f.evs (e, e') ++ (crateDtors rc decl hd).seen e' ++ (crateDtors rc decl hd).seen e), hs)) = none) ∨
      ∃ o c' hs', ((c.get hh).bind fun b => (c.get hh').bind fun b' => cstepWith c (m b b') (fun r => (g r, c.handles))) =
          some (o, c') ∧
        (hs[hh]?.join.bind fun e => hs[hh']?.join.map fun e' => ((plainRes (f.out (e, e')) g,
          f.evs (e, e') ++ (crateDtors rc decl hd).seen e' ++ (crateDtors rc decl hd).seen e), hs)) = some (o, hs') ∧
        CSim env rc decl c' hs' ∧ c.s.trace <+: c'.s.trace ∧
        (env.InRange → ¬ NullBetween c.s c'.s → (none : Option PanicKind) = none) := by
    intro α hh hh' f g m hf hm
    rcases lk hh with ⟨e1, e2⟩ | ⟨e, b, i, e1, e2, hst⟩
    · exact .inl ⟨by rw [e2]; rfl, by rw [e1]; rfl⟩
    · rcases lk hh' with ⟨e1', e2'⟩ | ⟨e', b', i', e1', e2', hst'⟩
      · exact .inl ⟨by rw [e2, e2']; rfl, by rw [e1, e1']; rfl⟩
      · obtain ⟨c', h1, h2, h3⟩ := S.user hrc (hf e e' ⟨_, hst.1⟩ ⟨_, hst'.1⟩)
          (es := (crateDtors rc decl hd).seen e' ++ (crateDtors rc decl hd).seen e)
          (by rw [List.filter_append, seen_isDtor, seen_isDtor]) (hm b b' i i' e e' hst hst') g
        refine .inr ⟨_, c', hs, by rw [e2, e2']; exact h1, by rw [e1, e1', ← List.append_assoc]; rfl, h2, h3, fun _ _ => rfl⟩
  have one : ∀ (A α : Type) (hh : Nat) (f : UserFn M A α) (arg : EVal → A) (g : α → CRes β) (m : TBox → M α)
      (_ : ∀ x, IsEnumValue rc decl x → f.OK env (arg x))
      (_ : ∀ a i x, Stores env rc decl c.s a i x → m a c.s = M.cleanup ((crateDtors rc decl hd).seen x) (f.run (arg x)) c.s),
      (((c.get hh).bind fun b => cstepWith c (m b) (fun r => (g r, c.handles))) = none ∧
        (hs[hh]?.join.map fun e => ((plainRes (f.out (arg e)) g, f.evs (arg e) ++ (crateDtors rc decl hd).seen e), hs)) =
          none) ∨
      ∃ o c' hs', ((c.get hh).bind fun b => cstepWith c (m b) (fun r => (g r, c.handles))) = some (o, c') ∧
        (hs[hh]?.join.map fun e => ((plainRes (f.out (arg e)) g, f.evs (arg e) ++ (crateDtors rc decl hd).seen e), hs)) =
          some (o, hs') ∧ CSim env rc decl c' hs' ∧ c.s.trace <+: c'.s.trace ∧
        (env.InRange → ¬ NullBetween c.s c'.s → (none : Option PanicKind) = none) := by
    intro A α hh f arg g m hf hm
    rcases lk hh with ⟨e1, e2⟩ | ⟨e, b, i, e1, e2, hst⟩
    · exact .inl ⟨by rw [e2]; rfl, by rw [e1]; rfl⟩
    · obtain ⟨c', h1, h2, h3⟩ := S.user hrc (hf e ⟨_, hst.1⟩) (seen_isDtor e) (hm b i e hst) g
      exact .inr ⟨_, c', hs, by rw [e2]; exact h1, by rw [e1]; rfl, h2, h3, fun _ _ => rfl⟩
  have cmp : ∀ (α : Type) (f : EVal → EVal → M α) (dflt : α) (a b : TBox) (i j : Nat) (x y : EVal),
      Stores env rc decl c.s a i x → Stores env rc decl c.s b j y →
      (do let r ← (taggable env rc P).refFrom a (fun this => (taggable env rc P).refFrom b (fun other => f this other))
          pure (r.join.getD dflt) : M α) c.s =
        M.cleanup ((crateDtors rc decl hd).seen y ++ (crateDtors rc decl hd).seen x) (f x y) c.s :=
    fun α f dflt a b i j x y ha hb => nested_presents (seen_step hc ha) (seen_step hc hb) f dflt
  have fmt : ∀ (f : UserFmt EVal String) (a : TBox) (i : Nat) (x : EVal) (out : String), Stores env rc decl c.s a i x →
      (do let r ← (taggable env rc P).refFrom a (fun this => f this {} out); pure (r.getD (out, true)) : M (String × Bool)) c.s =
        M.cleanup ((crateDtors rc decl hd).seen x) (f x {} out) c.s := by
    intro f a i x out ha
    simp only [M.bind_def, seen_step hc ha _ _]
    unfold M.cleanup
    simp only [M.bind_def]
    cases f x {} out c.s <;> rfl
  cases op with
  | «from» e =>
    obtain ⟨fail, c', h1, h2, h2', h3, h4⟩ := S.make (β := β) h hrc hc hlen ho hop S.inv (Extends.refl _) (m := containerFrom env rc P e) rfl
    rw [dtors_refl] at h3 h4
    exact ⟨fail, h1, .inr ⟨_, c', _, h3, rfl, h4, h2', h2⟩⟩
  | clone hh f =>
    rcases lk hh with ⟨e1, e2⟩ | ⟨e, b, i, e1, e2, hst⟩
    · exact ⟨none, nofail, .inl ⟨by simp only [cstep, e2]; rfl, by simp only [plainStep, e1]; rfl⟩⟩
    · obtain ⟨hf, hy⟩ := hop e ⟨_, hst.1⟩
      obtain ⟨s', hi, he, hev, hr⟩ := hf c.s S.inv
      have hE : Extends c.s (s'.log ((crateDtors rc decl hd).seen e)) := he.trans (Extends.log _ _)
      have hd' : dtorsBetween c.s (s'.log ((crateDtors rc decl hd).seen e)) = f.evs e ++ (crateDtors rc decl hd).seen e := by
        rw [dtors_trans he.trace (Extends.log _ _).trace, dtors_log, seen_isDtor, hev]
      have hp := seen_step hc hst EVal (fun this => f.run this)
      cases hout : f.out e with
      | ok y =>
        rw [hout] at hr
        have hr1 : (taggable env rc P).refFrom b (fun this => f.run this) c.s =
            .ret (some y) (s'.log ((crateDtors rc decl hd).seen e)) := by
          rw [hp]; exact cleanup_ret (M.bind_of_ret hr)
        obtain ⟨fail, c', h1, h2, h2', h3, h4⟩ := S.make (β := β) h hrc hc hlen ho (hy y hout) (hi.log _) hE
          (m := TBox.clone (taggable env rc P) f.run b) (M.bind_of_ret hr1)
        rw [hd'] at h3 h4
        refine ⟨fail, h1, .inr ⟨_, c', _, by simp only [cstep, e2]; exact h3, ?_, h4, h2', h2⟩⟩
        simp only [plainStep, e1, Option.map_some, hout]
      | error k =>
        rw [hout] at hr
        have hr1 : (taggable env rc P).refFrom b (fun this => f.run this) c.s =
            .panic (.user k) (s'.log ((crateDtors rc decl hd).seen e)) := by
          rw [hp]; exact cleanup_panic (M.bind_of_panic hr)
        have hcl : TBox.clone (taggable env rc P) f.run b c.s = _ := M.bind_of_panic hr1
        refine ⟨none, nofail, .inr ⟨_, _, hs, by simp only [cstep, e2]; exact cstepWith_panic _ hcl, ?_,
          S.extend hrc (hi.log _) hE, hE.trace, fun _ _ => rfl⟩⟩
        simp only [plainStep, e1, Option.map_some, hout, hd']
  | copy hh =>
    refine ⟨none, nofail, ?_⟩
    rcases lk hh with ⟨e1, e2⟩ | ⟨e, b, i, e1, e2, hst⟩
    · exact .inl ⟨by simp only [cstep, e2]; rfl, by simp only [plainStep, e1]; rfl⟩
    · have hr : (pure b.copy : M TBox) c.s = .ret b c.s := rfl
      refine .inr ⟨(.handle hs.length, []), _, _, ?_, by simp only [plainStep, e1, Option.map_some], S.push hst,
        List.prefix_refl _, fun _ _ => rfl⟩
      simp only [cstep, e2, Option.bind_some, cstepWith_ret _ hr, dtors_refl, S.len]
  | eq hh hh' f =>
    exact ⟨none, nofail, two Bool hh hh' f .bool _ hop (fun a b i j x y ha hb => cmp Bool (fun x y => f.run (x, y)) false a b i j x y ha hb)⟩
  | partialCmp hh hh' f =>
    exact ⟨none, nofail, two _ hh hh' f .pord _ hop (fun a b i j x y ha hb => cmp (Option Ordering) (fun x y => f.run (x, y)) none a b i j x y ha hb)⟩
  | cmp hh hh' f =>
    exact ⟨none, nofail, two _ hh hh' f .ord _ hop (fun a b i j x y ha hb => cmp Ordering (fun x y => f.run (x, y)) Ordering.eq a b i j x y ha hb)⟩
  | observe hh f =>
    refine ⟨none, nofail, ?_⟩
    rcases lk hh with ⟨e1, e2⟩ | ⟨e, b, i, e1, e2, hst⟩
    · exact .inl ⟨by simp only [cstep, e2]; rfl, by simp only [plainStep, e1]; rfl⟩
    · obtain ⟨s', hi, he, hev, hr⟩ := hop e ⟨_, hst.1⟩ c.s S.inv
      have hE : Extends c.s (s'.log ((crateDtors rc decl hd).seen e)) := he.trans (Extends.log _ _)
      have hd' : dtorsBetween c.s (s'.log ((crateDtors rc decl hd).seen e)) = f.evs e ++ (crateDtors rc decl hd).seen e := by
        rw [dtors_trans he.trace (Extends.log _ _).trace, dtors_log, seen_isDtor, hev]
      have hp := seen_step hc hst β f.run
      cases hout : f.out e with
      | ok y =>
        rw [hout] at hr
        have hr1 := hp.trans (cleanup_ret (M.bind_of_ret hr))
        refine .inr ⟨_, _, hs, by simp only [cstep, e2]; exact cstepWith_ret _ hr1, ?_, S.extend hrc (hi.log _) hE, hE.trace,
          fun _ _ => rfl⟩
        simp only [plainStep, e1, Option.map_some, hout, hd', plainRes]
      | error k =>
        rw [hout] at hr
        have hr1 := hp.trans (cleanup_panic (M.bind_of_panic hr))
        refine .inr ⟨_, _, hs, by simp only [cstep, e2]; exact cstepWith_panic _ hr1, ?_, S.extend hrc (hi.log _) hE, hE.trace,
          fun _ _ => rfl⟩
        simp only [plainStep, e1, Option.map_some, hout, hd', plainRes]
  | debug hh f out =>
    exact ⟨none, nofail, one _ _ hh f (fun e => (e, {}, out)) .text
      (fun b => TBox.debugFmt (taggable env rc P) (fun e spec o => f.run (e, spec, o)) b {} out) hop
      (fun a i x ha => fmt (fun e spec o => f.run (e, spec, o)) a i x out ha)⟩
  | display hh f out =>
    exact ⟨none, nofail, one _ _ hh f (fun e => (e, {}, out)) .text
      (fun b => TBox.displayFmt (taggable env rc P) (fun e spec o => f.run (e, spec, o)) b {} out) hop
      (fun a i x ha => fmt (fun e spec o => f.run (e, spec, o)) a i x out ha)⟩
  | intoInner hh =>
    refine ⟨none, nofail, ?_⟩
    rcases lk hh with ⟨e1, e2⟩ | ⟨e, b, i, e1, e2, hst⟩
    · exact .inl ⟨by simp only [cstep, e2]; rfl, by simp only [plainStep, e1]; rfl⟩
    · obtain ⟨hw, rfl⟩ := hc.wf
      have hr := containerIntoInner_stores (sn := sn) (en := en) (hd := hd) hw.u8 hw.names hw.members hst
      refine .inr ⟨_, _, _, by simp only [cstep, e2]; exact cstepWith_ret _ hr, ?_, S.consume hh,
        List.prefix_refl _, fun _ _ => rfl⟩
      simp only [plainStep, e1, Option.map_some, dtors_refl]
  | drop hh =>
    refine ⟨none, nofail, ?_⟩
    rcases lk hh with ⟨e1, e2⟩ | ⟨e, b, i, e1, e2, hst⟩
    · exact .inl ⟨by simp only [cstep, e2]; rfl, by simp only [plainStep, e1]; rfl⟩
    · have hr : b.dropBox c.s = .ret () c.s := rfl
      refine .inr ⟨(.unit, []), _, _, ?_, by simp only [plainStep, e1, Option.map_some]; rfl, S.consume hh,
        List.prefix_refl _, fun _ _ => rfl⟩
      simp only [cstep, e2, Option.bind_some, cstepWith_ret _ hr, dtors_refl]

theorem forall_cons {α : Type} {Q : α → Prop} {a : α} {l : List α} (h : Q a) (h' : ∀ x ∈ l, Q x) : ∀ x ∈ a :: l, Q x := by
  intro x hx
  rcases List.mem_cons.1 hx with rfl | hx
  · exact h
  · exact h' x hx

theorem CSim.nil {s : State} (hi : HeapInv env s) : CSim env rc decl ⟨s, []⟩ [] :=
  ⟨hi, rfl, fun _ _ => rfl, fun h e hh => by
    have hh' : (none : Option EVal) = some e := hh
    cases hh'⟩

/-- All steps. -/
theorem run_plain (h : env.OK) (hrc : rc.OK) (hc : Compiled rc env.cfg sn en hd ts decl P)
    (hlen : decl.length ≤ 2 ^ env.cfg.freeBits) (ho : env.debug = true ∨ env.InRange) {p : CClient M β}
    (hp : p.OK env rc decl) {c₀ : CState} {hs₀ : List (Option EVal)} (S₀ : CSim env rc decl c₀ hs₀) : ∀ n, ∃ fails : List (Option PanicKind),
      fails.length = n ∧ (∀ f ∈ fails, FailOK env f) ∧
      ((runContainers env rc P p c₀ n = none ∧ runPlain (crateDtors rc decl hd) p hs₀ fails = none) ∨
       ∃ os c hs, runContainers env rc P p c₀ n = some (os, c) ∧ runPlain (crateDtors rc decl hd) p hs₀ fails = some (os, hs) ∧
        CSim env rc decl c hs ∧ c₀.s.trace <+: c.s.trace ∧
        (env.InRange → ¬ NullBetween c₀.s c.s → fails = List.replicate n none))
  | 0 => ⟨[], rfl, by simp, .inr ⟨_, _, _, rfl, rfl, S₀, List.prefix_refl _, fun _ _ => rfl⟩⟩
  | n + 1 => by
    obtain ⟨fails, h1, h2, h4⟩ := run_plain h hrc hc hlen ho hp S₀ n
    rcases h4 with ⟨e1, e2⟩ | ⟨os, c, hs, e1, e2, S, ht, h3⟩
    · exact ⟨none :: fails, by simp [h1], forall_cons (.inl rfl) h2,
        .inl ⟨by simp [runContainers, e1], by simp [runPlain, e2]⟩⟩
    · cases hop : p os with
      | none =>
        exact ⟨none :: fails, by simp [h1], forall_cons (.inl rfl) h2,
          .inr ⟨os, c, hs, by simp [runContainers, e1, hop], by simp [runPlain, e2, hop], S, ht, fun hin hn => by
            rw [h3 hin hn]; rfl⟩⟩
      | some op =>
        obtain ⟨fail, f1, f3⟩ := S.step h hrc hc hlen ho (hp os op hop)
        refine ⟨fail :: fails, by simp [h1], forall_cons f1 h2, ?_⟩
        rcases f3 with ⟨g1, g2⟩ | ⟨o, c', hs', g1, g2, S', ht', f2⟩
        · exact .inl ⟨by simp [runContainers, e1, hop, g1], by simp [runPlain, e2, hop, g2]⟩
        · refine .inr ⟨os ++ [o], c', hs', by simp [runContainers, e1, hop, g1], by simp [runPlain, e2, hop, g2], S', ht.trans ht',
            fun hin hn => ?_⟩
          rw [h3 hin (fun hx => hn (NullBetween.trans ht ht' (.inl hx))),
            f2 hin (fun hx => hn (NullBetween.trans ht ht' (.inr hx)))]
          rfl

end TB.Macro

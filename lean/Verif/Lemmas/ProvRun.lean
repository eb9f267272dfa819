import Verif.Macro.ProvRun
import Verif.Lemmas.Provenance
import Verif.Lemmas.Container

/-! # The generated code on the machine with provenance (helper lemmas) -/

set_option autoImplicit false

namespace TB

variable {env : Env}

/-! ## Tracking identities -/

/-- Nothing is freed or hidden; what is new is exposed. -/
structure Kept (σ σ' : PState) : Prop where
  live : ∀ x ∈ σ.live, x ∈ σ'.live
  exposed : ∀ i ∈ σ.exposed, i ∈ σ'.exposed
  next : σ.next ≤ σ'.next
  fresh : ∀ x ∈ σ'.live, x ∈ σ.live ∨ (x.1 ∈ σ'.exposed ∧ x.1 < σ'.next)
  grow : ∀ i ∈ σ'.exposed, i ∈ σ.exposed ∨ (σ.next ≤ i ∧ i < σ'.next)

theorem Kept.log (σ : PState) (es : List Event) : Kept σ (σ.log es) :=
  ⟨fun _ h => h, fun _ h => h, Nat.le_refl _, fun _ h => .inl h, fun _ h => .inl h⟩

theorem Kept.refl (σ : PState) : Kept σ σ :=
  ⟨fun _ h => h, fun _ h => h, Nat.le_refl _, fun _ h => .inl h, fun _ h => .inl h⟩

theorem Kept.thenLog {σ σ' : PState} (h : Kept σ σ') (es : List Event) : Kept σ (σ'.log es) :=
  ⟨h.live, h.exposed, h.next, h.fresh, h.grow⟩

theorem PState.OK.kept {σ σ' : PState} (h : σ.OK env) (k : Kept σ σ') (hi : HeapInv env σ'.toState) : σ'.OK env :=
  ⟨hi, fun x hx => by
    rcases k.fresh x hx with h' | h'
    · exact Nat.lt_of_lt_of_le (h.ids x h') k.next
    · exact h'.2, fun i hi => by
    rcases k.grow i hi with h' | h'
    · exact Nat.lt_of_lt_of_le (h.exposed i h') k.next
    · exact h'.2⟩

theorem PState.OK.log {σ : PState} (h : σ.OK env) (es : List Event) : (σ.log es).OK env :=
  ⟨h.heap.log es, h.ids, h.exposed⟩

theorem PExtends.refl (σ : PState) : PExtends σ σ := ⟨Extends.refl _, fun _ h => h, fun _ h => h⟩

theorem PExtends.trans {σ σ' σ'' : PState} (h : PExtends σ σ') (h' : PExtends σ' σ'') : PExtends σ σ'' :=
  ⟨h.mem.trans h'.mem, fun x hx => h'.live x (h.live x hx), fun x hx => h'.exposed x (h.exposed x hx)⟩

theorem PExtends.log (σ : PState) (es : List Event) : PExtends σ (σ.log es) := ⟨Extends.log _ _, fun _ h => h, fun _ h => h⟩

theorem Mine.mono {σ σ' : PState} {sh : Shape} {a : Nat} (h : Mine σ sh a) (e : PExtends σ σ') : Mine σ' sh a := fun hz => by
  obtain ⟨id, h1, h2⟩ := h hz
  exact ⟨id, e.live _ h1, e.exposed _ h2⟩

/-- Two outcomes are the same up to identities, nothing is freed or hidden, and what is new is exposed. -/
def Track {α : Type} (σ : PState) : Out α → POut α → Prop
  | .ret a s', .ret a' σ' => a' = a ∧ σ'.toState = s' ∧ Kept σ σ'
  | .panic k s', .panic k' σ' => k' = k ∧ σ'.toState = s' ∧ Kept σ σ'
  | _, _ => False

theorem Track.cleanup {α : Type} {σ : PState} {m : M α} {q : MP α} (h : Track σ (m σ.toState) (q σ)) (es : List Event) :
    Track σ (M.cleanup es m σ.toState) (MP.cleanup es q σ) := by
  unfold M.cleanup MP.cleanup
  generalize m σ.toState = x at h ⊢
  generalize q σ = y at h ⊢
  match x, y, h with
  | .ret a s', .ret a' σ', h =>
    obtain ⟨rfl, rfl, h⟩ := h
    exact ⟨rfl, rfl, h.thenLog es⟩
  | .panic a s', .panic a' σ', h =>
    obtain ⟨rfl, rfl, h⟩ := h
    exact ⟨rfl, rfl, h.thenLog es⟩

theorem newQ_track (ok : env.OK) (σ : PState) (sh : Shape) (v : Val) (d : env.cfg.Discr) :
    Track σ (TBox.new env sh v d σ.toState) (TBox.newQ env sh v d σ) := by
  by_cases hz : sh.size = 0
  · rw [new_zst hz, newQ_zst hz]
    exact ⟨rfl, rfl, Kept.log _ _⟩
  · by_cases ha : env.alloc σ.toState sh.size sh.align = 0
    · rw [new_null hz ha, newQ_null hz ha]
      exact ⟨rfl, rfl, (Kept.log _ _).thenLog _⟩
    · rw [new_alloc ok hz ha, newQ_alloc ok hz ha]
      have hk : Kept σ (boxedQ σ (env.alloc σ.toState sh.size sh.align) sh v) := by
        refine ⟨fun x hx => List.mem_cons_of_mem _ hx, fun i hi => List.mem_cons_of_mem _ (List.mem_cons_of_mem _ hi),
          Nat.le_succ _, fun x hx => ?_, fun i hi => ?_⟩
        · rcases List.mem_cons.1 hx with rfl | hx
          · exact .inr ⟨List.mem_cons_self, Nat.lt_succ_self _⟩
          · exact .inl hx
        · rcases List.mem_cons.1 hi with rfl | hi
          · exact .inr ⟨Nat.le_refl _, Nat.lt_succ_self _⟩
          rcases List.mem_cons.1 hi with rfl | hi
          · exact .inr ⟨Nat.le_refl _, Nat.lt_succ_self _⟩
          · exact .inl hi
      cases TPtr.new env.cfg env.debug (BitVec.ofNat 64 (env.alloc σ.toState sh.size sh.align)) d with
      | ok t => exact ⟨rfl, rfl, hk⟩
      | error k => exact ⟨rfl, rfl, hk⟩

namespace Macro

variable {rc : Rustc} {P : Program} {sn en : String} {hd : Bool} {ts : List Tok} {decl : List VariantDef} {β : Type}

/-! ## Making a container -/

theorem intoArm_track (ok : env.OK) (e : EVal) (a : IntoArm) :
    (a.run env rc P e = none ∧ a.runQ env rc P e = none) ∨
      ∃ m q, a.run env rc P e = some m ∧ a.runQ env rc P e = some q ∧ ∀ σ : PState, Track σ (m σ.toState) (q σ) := by
  obtain ⟨ev, pl⟩ := e
  cases a with
  | dangling v n ctr =>
    by_cases h : ev = v
    · exact .inr ⟨_, _, if_pos h, if_pos h, fun σ => ⟨rfl, rfl, Kept.refl σ⟩⟩
    · exact .inl ⟨if_neg h, if_neg h⟩
  | single v binder ty arg ctr =>
    by_cases h : ev = v
    · simp only [IntoArm.run, IntoArm.runQ, if_pos h]
      match pl with
      | .tuple [x] => exact .inr ⟨_, _, rfl, rfl, fun σ => newQ_track ok σ _ _ _⟩
      | .unit => exact .inl ⟨rfl, rfl⟩
      | .tuple [] => exact .inl ⟨rfl, rfl⟩
      | .tuple (_ :: _ :: _) => exact .inl ⟨rfl, rfl⟩
      | .record _ => exact .inl ⟨rfl, rfl⟩
    · exact .inl ⟨if_neg h, if_neg h⟩
  | tuple v binders tys args ctr =>
    by_cases h : ev = v
    · simp only [IntoArm.run, IntoArm.runQ, if_pos h]
      match pl with
      | .tuple xs => exact .inr ⟨_, _, rfl, rfl, fun σ => newQ_track ok σ _ _ _⟩
      | .unit => exact .inl ⟨rfl, rfl⟩
      | .record _ => exact .inl ⟨rfl, rfl⟩
    · exact .inl ⟨if_neg h, if_neg h⟩
  | record v binders ms inits ctr =>
    by_cases h : ev = v
    · simp only [IntoArm.run, IntoArm.runQ, if_pos h]
      match pl with
      | .record xs => exact .inr ⟨_, _, rfl, rfl, fun σ => newQ_track ok σ _ _ _⟩
      | .unit => exact .inl ⟨rfl, rfl⟩
      | .tuple _ => exact .inl ⟨rfl, rfl⟩
    · exact .inl ⟨if_neg h, if_neg h⟩

theorem firstInto_track (ok : env.OK) (e : EVal) (σ : PState) : ∀ arms : List IntoArm,
    Track σ (firstInto env rc P e arms σ.toState) (firstIntoQ env rc P e arms σ)
  | [] => ⟨rfl, rfl, Kept.refl σ⟩
  | a :: as => by
    rw [firstInto, firstIntoQ]
    rcases intoArm_track (rc := rc) (P := P) ok e a with ⟨h1, h2⟩ | ⟨m, q, h1, h2, h⟩
    · rw [h1, h2]; exact firstInto_track ok e σ as
    · rw [h1, h2]; exact h σ

theorem into_track (ok : env.OK) (e : EVal) (σ : PState) :
    Track σ (intoTaggedBox env rc P e σ.toState) (intoTaggedBoxQ env rc P e σ) :=
  (firstInto_track ok e σ P.into).cleanup _

/-! ## Reading -/

/-- What an arm of `into_inner` / `from_tagged_box` reads. -/
def ReadArm.reads (env : Env) (rc : Rustc) (a : ReadArm) : Option Shape :=
  match a.body with
  | .unit => none
  | .single ty => some (rc.leaf ty).shape
  | .ctuple _ .noEval => none
  | .ctuple tys (.access _) => some (structShape rc tys)
  | .rtuple _ .noEval => none
  | .rtuple tys (.access _) => some (tupleShape env rc tys)
  | .record decl _ _ => some (structShape rc (decl.map (·.2)))

/-- What an arm of `ref_from_tagged_box` reads. -/
def RefArm.reads (rc : Rustc) (a : RefArm) : Option Shape :=
  match a.body with
  | .unit => none
  | .single ty => some (rc.leaf ty).shape
  | .tuple _ .noEval _ => none
  | .tuple tys (.access _) _ => some (structShape rc tys)
  | .record decl _ _ => some (structShape rc (decl.map (·.2)))

theorem bind_follow {α γ : Type} {m : M α} {q : MP α} {f : α → γ} {σ : PState} {s' : State} {e : γ}
    (hq : ∀ a, m σ.toState = .ret a s' → q σ = .ret a σ)
    (hm : ∀ a s₁, m σ.toState = .ret a s₁ → s₁ = s')
    (h : (m >>= fun a => pure (f a)) σ.toState = .ret e s') : (q >>= fun a => pure (f a)) σ = .ret e σ := by
  obtain ⟨a, s₁, h1, h2⟩ := M.bind_ret_inv h
  cases hm a s₁ h1
  rw [MP.bind_def, hq a h1]
  cases h2
  rfl

theorem ptrRead_state {sh : Shape} {a : Nat} {s s' : State} {v : Val} (h : ptrRead sh a s = .ret v s') : s' = s :=
  (ptrRead_ret_iff.1 h).1

theorem read_follow {γ : Type} {sh : Shape} {a : Nat} {f : Val → γ} {σ : PState} {e : γ} (hm : Mine σ sh a)
    (h : (ptrRead sh a >>= fun v => pure (f v)) σ.toState = .ret e σ.toState) :
    (readQ sh (fromExposed a) >>= fun v => pure (f v)) σ = .ret e σ :=
  bind_follow (fun _ h' => readQ_ret hm h') (fun _ _ h' => ptrRead_state h') h

theorem readArm_follow {a : ReadArm} {b : TBox} {σ : PState} {e : EVal}
    (hm : ∀ sh, a.reads env rc = some sh → Mine σ sh (b.asPtr env))
    (h : a.run env rc P b σ.toState = .ret e σ.toState) : a.runQ env rc P b σ = .ret e σ := by
  obtain ⟨ctr, v, body⟩ := a
  cases body with
  | unit => cases h; rfl
  | single ty => exact read_follow (hm _ rfl) h
  | ctuple tys x =>
    cases x with
    | noEval => cases h; rfl
    | access is => exact read_follow (hm _ rfl) h
  | rtuple tys x =>
    cases x with
    | noEval => cases h; rfl
    | access is => exact read_follow (hm _ rfl) h
  | record ms binders inits => exact read_follow (hm _ rfl) h

theorem refArm_follow {a : RefArm} {b : TBox} {σ : PState} {p : EVal × List Event}
    (hm : ∀ sh, a.reads rc = some sh → Mine σ sh (b.asPtr env))
    (h : a.build env rc P b σ.toState = .ret p σ.toState) : a.buildQ env rc P b σ = .ret p σ := by
  obtain ⟨ctr, v, body⟩ := a
  cases body with
  | unit => cases h; rfl
  | single ty => exact read_follow (hm _ rfl) h
  | tuple tys x x' =>
    cases x with
    | noEval => cases h; rfl
    | access is =>
      have hm := hm _ rfl
      refine bind_follow (fun r h' => ?_) (fun r s₁ h' => ?_) h
      · exact read_follow hm h'
      · obtain ⟨_, _, h1, h2⟩ := M.bind_ret_inv h'
        cases h2
        exact ptrRead_state h1
  | record ms binders inits => exact read_follow (hm _ rfl) h

/-- The allocation of the value in box `b`, whose variant the discriminant says, is live and exposed. -/
def BoxMine (env : Env) (rc : Rustc) (decl : List VariantDef) (σ : PState) (b : TBox) : Prop :=
  ∀ d, decl[(b.discriminant env).toNat]? = some d → ∀ sh, d.fields.shape rc = some sh → Mine σ sh (b.asPtr env)

theorem BoxMine.mono {σ σ' : PState} {b : TBox} (h : BoxMine env rc decl σ b) (e : PExtends σ σ') : BoxMine env rc decl σ' b :=
  fun d hd sh hsh => (h d hd sh hsh).mono e

theorem reads_readArm {c : Bool} {d : VariantDef} (hc : c = false → TupleAgrees env rc d.fields) {sh : Shape}
    (h : (readArmOf c d).reads env rc = some sh) : d.fields.shape rc = some sh := by
  obtain ⟨v, f⟩ := d
  match f with
  | .unit => cases h
  | .tuple [] => cases c <;> cases h
  | .tuple [t] => exact h
  | .tuple (t :: t' :: ts) =>
    have hx : tupleExpOf (t :: t' :: ts).length = .access (List.range (t :: t' :: ts).length) := by
      rw [tupleExpOf, if_neg (by simp)]
    cases c with
    | true =>
      simp only [ReadArm.reads, readArmOf, if_true, hx] at h
      exact h
    | false =>
      simp only [ReadArm.reads, readArmOf, Bool.false_eq_true, if_false, hx, tupleShape] at h
      rw [hc rfl t t' ts rfl] at h
      exact h
  | .record ms =>
    simp only [ReadArm.reads, readArmOf, structShape, List.map_map] at h
    exact h

theorem reads_refArm {d : VariantDef} {sh : Shape} (h : (refArmOf d).reads rc = some sh) : d.fields.shape rc = some sh := by
  obtain ⟨v, f⟩ := d
  match f with
  | .unit => cases h
  | .tuple [] => cases h
  | .tuple [t] => exact h
  | .tuple (t :: t' :: ts) =>
    have hx : tupleExpOf (t :: t' :: ts).length = .access (List.range (t :: t' :: ts).length) := by
      rw [tupleExpOf, if_neg (by simp)]
    simp only [RefArm.reads, refArmOf, hx] at h
    exact h
  | .record ms =>
    simp only [RefArm.reads, refArmOf, structShape, List.map_map] at h
    exact h

theorem firstReadQ_eq (h8 : env.cfg.discrBits = 8) (hn : (decl.map (·.name)).Nodup) (c : Bool) (b : TBox) :
    firstReadQ env rc (programOf sn en hd decl) b (decl.map (readArmOf c)) =
      match decl[(b.discriminant env).toNat]? with
      | some d => (readArmOf c d).runQ env rc (programOf sn en hd decl) b
      | none => MP.panic .noVariant :=
  dispatch (ctr := ReadArm.ctr) (run := fun a => a.runQ env rc (programOf sn en hd decl) b) h8 hn (fun _ => rfl) b rfl
    (fun _ _ => rfl)

theorem firstRefQ_eq (h8 : env.cfg.discrBits = 8) (hn : (decl.map (·.name)).Nodup) (f : EVal → MP β) (b : TBox) :
    firstRefQ env rc (programOf sn en hd decl) b f (decl.map refArmOf) =
      match decl[(b.discriminant env).toNat]? with
      | some d => do
          let (e, es) ← (refArmOf d).buildQ env rc (programOf sn en hd decl) b
          MP.cleanup es (do let r ← f e; pure (some r))
      | none => MP.panic .noVariant :=
  dispatch (ctr := RefArm.ctr) (run := fun a => do
          let (e, es) ← a.buildQ env rc (programOf sn en hd decl) b
          MP.cleanup es (do let r ← f e; pure (some r))) h8 hn (fun _ => rfl) b rfl
    (fun _ _ => rfl)

theorem firstReadQ_stores (h8 : env.cfg.discrBits = 8) (hn : (decl.map (·.name)).Nodup)
    (hms : ∀ d ∈ decl, ∀ ms, d.fields = .record ms → (ms.map (·.1)).Nodup) {σ : PState} {b : TBox} {i : Nat} {e : EVal}
    (h : Stores env rc decl σ.toState b i e) (hm : BoxMine env rc decl σ b) {c : Bool}
    (hc : c = false → ∀ d, decl[i]? = some d → TupleAgrees env rc d.fields) :
    firstReadQ env rc (programOf sn en hd decl) b (decl.map (readArmOf c)) σ = .ret e σ := by
  obtain ⟨d, hdi, _⟩ := h.isValue
  rw [firstReadQ_eq h8 hn, h.discr, hdi]
  refine readArm_follow (fun sh hsh => ?_) (readArm_run hn hms h hdi (fun h' => hc h' d hdi))
  exact hm d (by rw [h.discr]; exact hdi) sh (reads_readArm (fun h' => hc h' d hdi) hsh)

/-- As `Presents`. -/
def PresentsQ (env : Env) (rc : Rustc) (P : Program) (σ : PState) (b : TBox) (e : EVal) (es : List Event) : Prop :=
  ∀ (β : Type) (f : EVal → MP β), firstRefQ env rc P b f P.ref σ = (MP.cleanup es (do let r ← f e; pure (some r))) σ

theorem seenQ_step (hc : Compiled rc env.cfg sn en hd ts decl P) {σ : PState} {b : TBox} {i : Nat} {x : EVal}
    (hs : Stores env rc decl σ.toState b i x) (hm : BoxMine env rc decl σ b) :
    PresentsQ env rc P σ b x ((crateDtors rc decl hd).seen x) := by
  obtain ⟨hw, rfl⟩ := hc.wf
  obtain ⟨d, hdi, hv, hf⟩ := hs.1
  have e : (crateDtors rc decl hd).seen x = observeDrops hd d := by
    obtain ⟨v, fl⟩ := d
    obtain ⟨xv, p⟩ := x
    cases hv
    match fl, p, hf with
    | .unit, .unit, _ => rfl
    | .tuple _, .tuple _, _ => rfl
    | .record _, .record _, _ => rfl
  rw [e]
  intro β f
  show firstRefQ env rc _ b f (decl.map refArmOf) σ = _
  rw [firstRefQ_eq hw.u8 hw.names, hs.discr, hdi]
  have := refArm_follow (fun sh hsh => hm d (by rw [hs.discr]; exact hdi) sh (reads_refArm hsh))
    (refArm_build (sn := sn) (en := en) (hd := hd) hw.names hw.members hs hdi)
  refine (MP.bind_def _ _ σ).trans ?_
  rw [this]

/-! ## Lockstep with the address-level machine -/

/-- Two outcomes are the same up to identities; the later state is a good one, and an extension of the earlier. -/
def Follows {α : Type} (env : Env) (σ : PState) : Out α → POut α → Prop
  | .ret a s', .ret a' σ' => a' = a ∧ σ'.toState = s' ∧ σ'.OK env ∧ PExtends σ σ'
  | .panic k s', .panic k' σ' => k' = k ∧ σ'.toState = s' ∧ σ'.OK env ∧ PExtends σ σ'
  | _, _ => False

theorem Follows.cleanup {α : Type} {σ : PState} {m : M α} {q : MP α} (h : Follows env σ (m σ.toState) (q σ)) (es : List Event) :
    Follows env σ (M.cleanup es m σ.toState) (MP.cleanup es q σ) := by
  unfold M.cleanup MP.cleanup
  generalize m σ.toState = x at h ⊢
  generalize q σ = y at h ⊢
  match x, y, h with
  | .ret a s', .ret a' σ', h =>
    obtain ⟨rfl, rfl, h, h'⟩ := h
    exact ⟨rfl, rfl, h.log es, h'.trans (PExtends.log _ _)⟩
  | .panic a s', .panic a' σ', h =>
    obtain ⟨rfl, rfl, h, h'⟩ := h
    exact ⟨rfl, rfl, h.log es, h'.trans (PExtends.log _ _)⟩

theorem Follows.map {α γ : Type} {σ : PState} {m : M α} {q : MP α} (h : Follows env σ (m σ.toState) (q σ)) (g : α → γ) :
    Follows env σ ((m >>= fun a => pure (g a)) σ.toState) ((q >>= fun a => pure (g a)) σ) := by
  rw [M.bind_def, MP.bind_def]
  generalize m σ.toState = x at h ⊢
  generalize q σ = y at h ⊢
  match x, y, h with
  | .ret a s', .ret a' σ', h =>
    obtain ⟨rfl, h⟩ := h
    exact ⟨rfl, h⟩
  | .panic a s', .panic a' σ', h =>
    obtain ⟨rfl, h⟩ := h
    exact ⟨rfl, h⟩

theorem cstepWithQ_follows {α : Type} {σ : PState} {hs : List (Option TBox)} {m : M α} {q : MP α}
    {f : α → CRes β × List (Option TBox)} (h : Follows env σ (m σ.toState) (q σ)) {o : CObs β} {c' : CState}
    (hstep : cstepWith ⟨σ.toState, hs⟩ m f = some (o, c')) :
    ∃ σ', cstepWithQ ⟨σ, hs⟩ q f = some (o, ⟨σ', c'.handles⟩) ∧ σ'.toState = c'.s ∧ σ'.OK env ∧ PExtends σ σ' := by
  simp only [cstepWith] at hstep
  generalize m σ.toState = x at h hstep
  simp only [cstepWithQ]
  generalize q σ = y at h ⊢
  match x, y, h with
  | .ret b s', .ret b' σ', h =>
    obtain ⟨rfl, rfl, h⟩ := h
    cases hstep
    exact ⟨σ', rfl, rfl, h⟩
  | .panic k s', .panic k' σ', h =>
    obtain ⟨rfl, rfl, h⟩ := h
    cases hstep
    exact ⟨σ', rfl, rfl, h⟩

/-! ### User code seen from the address-level machine -/

/-- Some state with identities. -/
def lift (s : State) : PState := ⟨s.mem, s.blocks.zipIdx.map (fun x => (x.2, x.1)), s.trace, s.blocks.length, []⟩

theorem lift_toState (s : State) : (lift s).toState = s := by
  obtain ⟨m, b, t⟩ := s
  simp [lift, PState.toState, Function.comp_def]

theorem lift_ok {s : State} (hi : HeapInv env s) : (lift s).OK env := by
  refine ⟨by rw [lift_toState]; exact hi, fun x hx => ?_, fun i hi => by cases hi⟩
  obtain ⟨y, hy, rfl⟩ := List.mem_map.1 hx
  have := (List.mem_zipIdx hy).2.1
  simpa [lift] using this

open Classical in
/-- `σ` for its own address-level state, some other state for the others. -/
noncomputable def pick (σ : PState) (s : State) : PState := if s = σ.toState then σ else lift s

theorem pick_toState (σ : PState) (s : State) : (pick σ s).toState = s := by
  unfold pick
  split
  · rename_i h; exact h.symm
  · exact lift_toState s

theorem pick_self (σ : PState) : pick σ σ.toState = σ := if_pos rfl

theorem pick_ok {σ : PState} (h : σ.OK env) {s : State} (hi : HeapInv env s) : (pick σ s).OK env := by
  unfold pick
  split
  · exact h
  · exact lift_ok hi

/-- Forget the identities. -/
def lowerOut {α : Type} : POut α → Out α
  | .ret a σ => .ret a σ.toState
  | .panic k σ => .panic k σ.toState
  | .ub k => .ub k

/-- The code as address-level code; in the state of `σ` it runs as it does in `σ`. -/
noncomputable def lower {α : Type} (σ : PState) (q : MP α) : M α := fun s => lowerOut (q (pick σ s))

/-- The same for user functions. -/
noncomputable def UserFn.lower {A α : Type} (σ : PState) (f : UserFn MP A α) : UserFn M A α :=
  ⟨fun x => Macro.lower σ (f.run x), f.out, f.evs⟩

theorem UserFn.lower_ok {A α : Type} {σ : PState} (hσ : σ.OK env) {f : UserFn MP A α} {x : A} (h : f.OKQ env x) :
    (f.lower σ).OK env x := by
  intro s hi
  obtain ⟨σ', h1, h2, h3, h4⟩ := h (pick σ s) (pick_ok hσ hi)
  rw [pick_toState] at h3
  refine ⟨σ'.toState, h1.heap, by have := h2.mem; rwa [pick_toState] at this, h3, ?_⟩
  show lowerOut (f.run x (pick σ s)) = _
  rw [h4]
  show lowerOut (match f.out x with | .ok a => _ | .error k => _) = match f.out x with | .ok a => _ | .error k => _
  cases f.out x <;> rfl

theorem UserFn.lower_follows {A α : Type} {σ : PState} (hσ : σ.OK env) {f : UserFn MP A α} {x : A} (h : f.OKQ env x) :
    Follows env σ ((f.lower σ).run x σ.toState) (f.run x σ) := by
  obtain ⟨σ', h1, h2, h3, h4⟩ := h σ hσ
  have : (f.lower σ).run x σ.toState = lowerOut (f.run x σ) := by
    show lowerOut (f.run x (pick σ σ.toState)) = _
    rw [pick_self]
  rw [this, h4]
  cases f.out x with
  | ok a => exact ⟨rfl, rfl, h1, h2⟩
  | error k => exact ⟨rfl, rfl, h1, h2⟩

/-- The same for operations. -/
noncomputable def COp.lower (σ : PState) : COp MP β → COp M β
  | .from e => .from e
  | .clone h f => .clone h (f.lower σ)
  | .copy h => .copy h
  | .eq h h' f => .eq h h' (f.lower σ)
  | .partialCmp h h' f => .partialCmp h h' (f.lower σ)
  | .cmp h h' f => .cmp h h' (f.lower σ)
  | .observe h f => .observe h (f.lower σ)
  | .debug h f out => .debug h (f.lower σ) out
  | .display h f out => .display h (f.lower σ) out
  | .intoInner h => .intoInner h
  | .drop h => .drop h

theorem COp.lower_ok {σ : PState} (hσ : σ.OK env) {op : COp MP β} (h : op.OKQ env rc decl) : (op.lower σ).OK env rc decl := by
  cases op with
  | «from» e => exact h
  | clone k f => exact fun x hx => ⟨UserFn.lower_ok hσ (h x hx).1, (h x hx).2⟩
  | copy k => trivial
  | eq k k' f => exact fun x y hx hy => UserFn.lower_ok hσ (h x y hx hy)
  | partialCmp k k' f => exact fun x y hx hy => UserFn.lower_ok hσ (h x y hx hy)
  | cmp k k' f => exact fun x y hx hy => UserFn.lower_ok hσ (h x y hx hy)
  | observe k f => exact fun x hx => UserFn.lower_ok hσ (h x hx)
  | debug k f out => exact fun x hx => UserFn.lower_ok hσ (h x hx)
  | display k f out => exact fun x hx => UserFn.lower_ok hσ (h x hx)
  | intoInner k => trivial
  | drop k => trivial

theorem plainStep_lower (D : Dtors) (fail : Option PanicKind) (hs : List (Option EVal)) (σ : PState) (op : COp MP β) :
    plainStep D fail hs (op.lower σ) = plainStep D fail hs op := by
  cases op <;> rfl

/-! ### Simulation -/

/-- The containers of the client store the values of the plain client, and their allocations are exposed. -/
structure QSim (env : Env) (rc : Rustc) (decl : List VariantDef) (c : QState) (hs : List (Option EVal)) : Prop where
  ok : c.σ.OK env
  sim : CSim env rc decl ⟨c.σ.toState, c.handles⟩ hs
  mine : ∀ k b, c.get k = some b → BoxMine env rc decl c.σ b

/-- Making a container keeps up. -/
theorem into_follows (h : env.OK) (hrc : rc.OK) (hc : Compiled rc env.cfg sn en hd ts decl P)
    (hlen : decl.length ≤ 2 ^ env.cfg.freeBits) (ho : env.debug = true ∨ env.InRange) {e : EVal}
    (hv : IsEnumValue rc decl e) {σ : PState} (hi : σ.OK env) :
    Follows env σ (intoTaggedBox env rc P e σ.toState) (intoTaggedBoxQ env rc P e σ) ∧
      ∀ b σ', intoTaggedBoxQ env rc P e σ = .ret b σ' → BoxMine env rc decl σ' b ∧ ∃ i, Stores env rc decl σ'.toState b i e := by
  have ht := into_track (rc := rc) (P := P) h e σ
  obtain ⟨fail, s', _, _, hi', he, _, hr⟩ := from_step h hrc hc hlen ho hv hi.heap
  cases fail with
  | some k =>
    have hr : intoTaggedBox env rc P e σ.toState = .panic k s' := hr
    rw [hr] at ht ⊢
    match hq : intoTaggedBoxQ env rc P e σ, ht with
    | .panic k' σ', ht =>
      obtain ⟨rfl, rfl, hk⟩ := ht
      exact ⟨⟨rfl, rfl, hi.kept hk hi', he, hk.live, hk.exposed⟩, fun b σ'' hx => by cases hx⟩
  | none =>
    obtain ⟨b, i, hr, hst⟩ := hr
    have hr : intoTaggedBox env rc P e σ.toState = .ret b s' := hr
    rw [hr] at ht ⊢
    match hq : intoTaggedBoxQ env rc P e σ, ht with
    | .ret b' σ', ht =>
      obtain ⟨rfl, rfl, hk⟩ := ht
      refine ⟨⟨rfl, rfl, hi.kept hk hi', he, hk.live, hk.exposed⟩, fun b σ'' hx => ?_⟩
      cases hx
      refine ⟨fun d hdi sh hsh hz => ?_, i, hst⟩
      obtain ⟨hw, rfl⟩ := hc.wf
      have hdi' : decl[i]? = some d := by rw [← hst.discr]; exact hdi
      have hown := (hst.2.2 d hdi' sh hsh).own hz
      have hlt : i < 2 ^ env.cfg.freeBits := by
        have := (List.getElem?_eq_some_iff.1 hdi').1
        omega
      have hnew := (into_fresh h hrc hw.u8 hw.names hw.members hw.arity hdi' hst.1 hlt ho hr hsh hz).1
      obtain ⟨⟨id, blk⟩, h1, rfl⟩ := List.mem_map.1 hown
      rcases hk.fresh _ h1 with h2 | h2
      · exact absurd (List.mem_map.2 ⟨_, h2, rfl⟩) hnew
      · exact ⟨id, h1, h2.1⟩

theorem MP.bind_of_ret {α γ : Type} {m : MP α} {f : α → MP γ} {σ σ' : PState} {a : α} (h : m σ = .ret a σ') :
    (m >>= f) σ = f a σ' := by rw [MP.bind_def, h]

theorem MP.bind_of_panic {α γ : Type} {m : MP α} {f : α → MP γ} {σ σ' : PState} {k : PanicKind} (h : m σ = .panic k σ') :
    (m >>= f) σ = .panic k σ' := by rw [MP.bind_def, h]

theorem log_appendQ (σ : PState) (es es' : List Event) : (σ.log es).log es' = σ.log (es ++ es') := by
  simp [PState.log]

theorem nestedQ_presents {α : Type} {σ : PState} {a b : TBox} {x y : EVal} {es es' : List Event}
    (hx : PresentsQ env rc P σ a x es) (hy : PresentsQ env rc P σ b y es') (f : EVal × EVal → MP α) (dflt : α) :
    compareQ env rc P f dflt a b σ = MP.cleanup (es' ++ es) (f (x, y)) σ := by
  unfold compareQ
  simp only [MP.bind_def, hx _ _]
  unfold MP.cleanup
  simp only [MP.bind_def, hy _ _]
  unfold MP.cleanup
  simp only [MP.bind_def]
  cases f (x, y) σ with
  | ret r s1 => show POut.ret r ((s1.log es').log es) = POut.ret r (s1.log (es' ++ es)); rw [log_appendQ]
  | panic k s1 => show POut.panic k ((s1.log es').log es) = POut.panic k (s1.log (es' ++ es)); rw [log_appendQ]
  | ub k => rfl

theorem fmtQ_presents {σ : PState} {a : TBox} {x : EVal} {es : List Event} (hx : PresentsQ env rc P σ a x es)
    (f : EVal × FmtSpec × String → MP (String × Bool)) (out : String) :
    fmtQ env rc P f a out σ = MP.cleanup es (f (x, {}, out)) σ := by
  unfold fmtQ
  simp only [MP.bind_def, hx _ _]
  unfold MP.cleanup
  simp only [MP.bind_def]
  cases f (x, {}, out) σ <;> rfl

theorem fmt_presents {s : State} {a : TBox} {x : EVal} {es : List Event} (hx : Presents (taggable env rc P) s a x es)
    (f : UserFmt EVal String) (out : String) :
    (do let r ← (taggable env rc P).refFrom a (fun this => f this {} out); pure (r.getD (out, true)) : M (String × Bool)) s =
      M.cleanup es (f x {} out) s := by
  simp only [M.bind_def, hx _ _]
  unfold M.cleanup
  simp only [M.bind_def]
  cases f x {} out s <;> rfl

/-- The boxes after a step are old ones or exposed ones. -/
theorem get_append {hs : List (Option TBox)} {b : TBox} {k : Nat} {x : TBox} (h : (hs ++ [some b])[k]?.join = some x) :
    hs[k]?.join = some x ∨ x = b := by
  rw [List.getElem?_append] at h
  split at h
  · exact .inl h
  · rw [List.getElem?_singleton] at h
    split at h
    · cases h; exact .inr rfl
    · cases h

theorem get_consume {hs : List (Option TBox)} {h k : Nat} {x : TBox} (e : (hs.set h none)[k]?.join = some x) :
    hs[k]?.join = some x := by
  rw [join_set] at e
  split at e
  · cases e
  · exact e

variable {c : QState} {hs : List (Option EVal)}

/-- Where the plain client is stuck, this one is. -/
theorem QSim.stuck (S : QSim env rc decl c hs) {D : Dtors} {fail : Option PanicKind} {op : COp MP β}
    (h : plainStep D fail hs op = none) : cstepQ env rc P c op = none := by
  have lk : ∀ k, hs[k]?.join = none → c.get k = none := S.sim.hnone
  have one : ∀ (α : Type) (k : Nat) (g : EVal → α) (γ : Type) (f : TBox → Option γ), hs[k]?.join.map g = none → (c.get k).bind f = none := by
    intro α k g γ f h
    rw [lk k (by simpa using h)]
    rfl
  have two : ∀ (α : Type) (k k' : Nat) (g : EVal → EVal → α) (γ : Type) (f : TBox → TBox → Option γ),
      (hs[k]?.join.bind fun e => hs[k']?.join.map (g e)) = none → ((c.get k).bind fun b => (c.get k').bind (f b)) = none := by
    intro α k k' g γ f h
    cases hk : hs[k]?.join with
    | none => rw [lk k hk]; rfl
    | some e =>
      rw [hk] at h
      have hk' : hs[k']?.join = none := by simpa using h
      rw [lk k' hk']
      cases c.get k <;> rfl
  cases op with
  | «from» e => cases h
  | clone k f => exact one _ k _ _ _ h
  | copy k => exact one _ k _ _ _ h
  | eq k k' f => exact two _ k k' (fun e e' => _) _ (fun b b' => _) h
  | partialCmp k k' f => exact two _ k k' (fun e e' => _) _ (fun b b' => _) h
  | cmp k k' f => exact two _ k k' (fun e e' => _) _ (fun b b' => _) h
  | observe k f => exact one _ k _ _ _ h
  | debug k f out => exact one _ k _ _ _ h
  | display k f out => exact one _ k _ _ _ h
  | intoInner k => exact one _ k _ _ _ h
  | drop k => exact one _ k _ _ _ h

/-- A step of the address-level machine is a step of this one. -/
theorem QSim.follow (h : env.OK) (hrc : rc.OK) (hc : Compiled rc env.cfg sn en hd ts decl P)
    (hlen : decl.length ≤ 2 ^ env.cfg.freeBits) (ho : env.debug = true ∨ env.InRange) (S : QSim env rc decl c hs)
    {op : COp MP β} (hop : op.OKQ env rc decl) {o : CObs β} {c' : CState}
    (hstep : cstep env rc P ⟨c.σ.toState, c.handles⟩ (op.lower c.σ) = some (o, c')) :
    ∃ σ', cstepQ env rc P c op = some (o, ⟨σ', c'.handles⟩) ∧ σ'.toState = c'.s ∧ σ'.OK env ∧ PExtends c.σ σ' ∧
      ∀ (k : Nat) (b : TBox), c'.handles[k]?.join = some b → c.handles[k]?.join = some b ∨ BoxMine env rc decl σ' b := by
  obtain ⟨σ, hds⟩ := c
  have hget : ∀ k, (⟨σ, hds⟩ : QState).get k = (⟨σ.toState, hds⟩ : CState).get k := fun _ => rfl
  have lk : ∀ k b, (⟨σ.toState, hds⟩ : CState).get k = some b → ∃ e i, Stores env rc decl σ.toState b i e ∧ BoxMine env rc decl σ b ∧
      Presents (taggable env rc P) σ.toState b e ((crateDtors rc decl hd).seen e) ∧
      PresentsQ env rc P σ b e ((crateDtors rc decl hd).seen e) := by
    intro k b hb
    cases hk : hs[k]?.join with
    | none => rw [S.sim.hnone k hk] at hb; cases hb
    | some e =>
      obtain ⟨b', i, h1, h2⟩ := S.sim.hsome k e hk
      rw [h1] at hb
      cases hb
      have hm := S.mine k _ h1
      exact ⟨e, i, h2, hm, seen_step hc h2, seenQ_step hc h2 hm⟩
  have keep : ∀ (α : Type) (m : M α) (q : MP α) (g : α → CRes β), Follows env σ (m σ.toState) (q σ) →
      cstepWith ⟨σ.toState, hds⟩ m (fun r => (g r, hds)) = some (o, c') →
      ∃ σ', cstepWithQ ⟨σ, hds⟩ q (fun r => (g r, hds)) = some (o, ⟨σ', c'.handles⟩) ∧ σ'.toState = c'.s ∧ σ'.OK env ∧ PExtends σ σ' ∧
        ∀ (k : Nat) (b : TBox), c'.handles[k]?.join = some b → hds[k]?.join = some b ∨ BoxMine env rc decl σ' b := by
    intro α m q g hf hst
    obtain ⟨σ', h1, h2, h3, h4⟩ := cstepWithQ_follows hf hst
    refine ⟨σ', h1, h2, h3, h4, fun k b hb => .inl ?_⟩
    simp only [cstepWith] at hst
    split at hst
    · cases hst; exact hb
    · cases hst; exact hb
    · cases hst
  have two : ∀ (α : Type) (k k' : Nat) (f : UserFn MP (EVal × EVal) α) (dflt : α) (g : α → CRes β)
      (_ : ∀ x y, IsEnumValue rc decl x → IsEnumValue rc decl y → f.OKQ env (x, y))
      (_ : (((⟨σ.toState, hds⟩ : CState).get k).bind fun b => ((⟨σ.toState, hds⟩ : CState).get k').bind fun b' =>
        cstepWith ⟨σ.toState, hds⟩ (do
          let r ← (taggable env rc P).refFrom b (fun this => (taggable env rc P).refFrom b' (fun other => (f.lower σ).run (this, other)))
          pure (r.join.getD dflt) : M α) (fun r => (g r, hds))) = some (o, c')),
      ∃ σ', (((⟨σ, hds⟩ : QState).get k).bind fun b => ((⟨σ, hds⟩ : QState).get k').bind fun b' =>
        cstepWithQ ⟨σ, hds⟩ (compareQ env rc P f.run dflt b b') (fun r => (g r, hds))) = some (o, ⟨σ', c'.handles⟩) ∧
        σ'.toState = c'.s ∧ σ'.OK env ∧ PExtends σ σ' ∧
        ∀ (k : Nat) (b : TBox), c'.handles[k]?.join = some b → hds[k]?.join = some b ∨ BoxMine env rc decl σ' b := by
    intro α k k' f dflt g hf hst
    simp only [Option.bind_eq_some_iff] at hst
    obtain ⟨b, hb, b', hb', hst⟩ := hst
    obtain ⟨e, i, hs1, hm1, p1, q1⟩ := lk k b hb
    obtain ⟨e', i', hs2, hm2, p2, q2⟩ := lk k' b' hb'
    simp only [hget, hb, hb', Option.bind_some]
    refine keep _ _ _ _ ?_ hst
    rw [nested_presents p1 p2 (fun x y => (f.lower σ).run (x, y)) dflt, nestedQ_presents q1 q2 f.run dflt]
    exact (UserFn.lower_follows S.ok (hf e e' ⟨_, hs1.1⟩ ⟨_, hs2.1⟩)).cleanup _
  have fmt : ∀ (k : Nat) (f : UserFn MP (EVal × FmtSpec × String) (String × Bool)) (out : String)
      (_ : ∀ x, IsEnumValue rc decl x → f.OKQ env (x, {}, out))
      (_ : (((⟨σ.toState, hds⟩ : CState).get k).bind fun b => cstepWith ⟨σ.toState, hds⟩ (do
          let r ← (taggable env rc P).refFrom b (fun this => (f.lower σ).run (this, {}, out))
          pure (r.getD (out, true)) : M (String × Bool)) (fun r => (.text r, hds))) = some (o, c')),
      ∃ σ', (((⟨σ, hds⟩ : QState).get k).bind fun b =>
        cstepWithQ ⟨σ, hds⟩ (fmtQ env rc P f.run b out) (fun r => (.text r, hds))) = some (o, ⟨σ', c'.handles⟩) ∧
        σ'.toState = c'.s ∧ σ'.OK env ∧ PExtends σ σ' ∧
        ∀ (k : Nat) (b : TBox), c'.handles[k]?.join = some b → hds[k]?.join = some b ∨ BoxMine env rc decl σ' b := by
    intro k f out hf hst
    simp only [Option.bind_eq_some_iff] at hst
    obtain ⟨b, hb, hst⟩ := hst
    obtain ⟨e, i, hs1, hm1, p1, q1⟩ := lk k b hb
    simp only [hget, hb, Option.bind_some]
    refine keep _ _ _ _ ?_ hst
    rw [fmt_presents p1 (fun x y z => (f.lower σ).run (x, y, z)) out, fmtQ_presents q1 f.run out]
    exact (UserFn.lower_follows S.ok (hf e ⟨_, hs1.1⟩)).cleanup _
  -- a step that makes a container
  have make : ∀ (m : M TBox) (q : MP TBox), Follows env σ (m σ.toState) (q σ) →
      (∀ b σ', q σ = .ret b σ' → BoxMine env rc decl σ' b) →
      cstepWith ⟨σ.toState, hds⟩ m (fun b => (.handle hds.length, hds ++ [some b])) = some (o, c') →
      ∃ σ', cstepWithQ ⟨σ, hds⟩ q (fun b => (.handle hds.length, hds ++ [some b])) = some (o, ⟨σ', c'.handles⟩) ∧
        σ'.toState = c'.s ∧ σ'.OK env ∧ PExtends σ σ' ∧
        ∀ (k : Nat) (b : TBox), c'.handles[k]?.join = some b → hds[k]?.join = some b ∨ BoxMine env rc decl σ' b := by
    intro m q hf hq hst
    obtain ⟨σ', h1, h2, h3, h4⟩ := cstepWithQ_follows hf hst
    refine ⟨σ', h1, h2, h3, h4, fun k b hb => ?_⟩
    simp only [cstepWithQ] at h1
    cases hqs : q σ with
    | ret b' σ'' =>
      rw [hqs] at h1
      simp only [Option.some.injEq, Prod.mk.injEq, QState.mk.injEq] at h1
      obtain ⟨_, rfl, e⟩ := h1
      rw [← e] at hb
      rcases get_append hb with hb | rfl
      · exact .inl hb
      · exact .inr (hq _ _ hqs)
    | panic k' σ'' =>
      rw [hqs] at h1
      simp only [Option.some.injEq, Prod.mk.injEq, QState.mk.injEq] at h1
      obtain ⟨_, rfl, e⟩ := h1
      rw [← e] at hb
      exact .inl hb
    | ub k' => rw [hqs] at h1; cases h1
  cases op with
  | «from» e =>
    obtain ⟨f1, f2⟩ := into_follows h hrc hc hlen ho hop S.ok
    exact make _ _ f1 (fun b σ' hq => (f2 b σ' hq).1) hstep
  | clone k f =>
    simp only [COp.lower, cstep, Option.bind_eq_some_iff] at hstep
    obtain ⟨b, hb, hst⟩ := hstep
    obtain ⟨e, i, hs1, hm1, p1, q1⟩ := lk k b hb
    obtain ⟨hf, hy⟩ := hop e ⟨_, hs1.1⟩
    simp only [cstepQ, hget, hb, Option.bind_some]
    obtain ⟨σ', g1, g2, g3, g4⟩ := hf σ S.ok
    have gl : (f.lower σ).run e σ.toState = lowerOut (f.run e σ) := by
      show lowerOut (f.run e (pick σ σ.toState)) = _
      rw [pick_self]
    cases hout : f.out e with
    | ok y =>
      rw [hout] at g4
      have r1 : (taggable env rc P).refFrom b (fun this => (f.lower σ).run this) σ.toState =
          .ret (some y) ((σ'.log ((crateDtors rc decl hd).seen e)).toState) := by
        rw [p1]
        refine cleanup_ret (s' := σ'.toState) (M.bind_of_ret ?_)
        rw [gl, g4]; rfl
      have r2 : firstRefQ env rc P b f.run P.ref σ = .ret (some y) (σ'.log ((crateDtors rc decl hd).seen e)) := by
        rw [q1]
        simp only [MP.cleanup, MP.bind_def, g4]
        rfl
      obtain ⟨f1, f2⟩ := into_follows h hrc hc hlen ho (hy y hout) (g1.log ((crateDtors rc decl hd).seen e))
      have m1 : TBox.clone (taggable env rc P) (f.lower σ).run b σ.toState =
          intoTaggedBox env rc P y (σ'.log ((crateDtors rc decl hd).seen e)).toState := M.bind_of_ret r1
      have m2 : cloneQ env rc P f.run b σ = intoTaggedBoxQ env rc P y (σ'.log ((crateDtors rc decl hd).seen e)) := MP.bind_of_ret r2
      refine make _ _ ?_ (fun b' σ'' hq => (f2 b' σ'' (m2 ▸ hq)).1) hst
      rw [m1, m2]
      have hE : PExtends σ (σ'.log ((crateDtors rc decl hd).seen e)) := g2.trans (PExtends.log _ _)
      generalize intoTaggedBox env rc P y _ = x1 at f1
      generalize intoTaggedBoxQ env rc P y _ = x2 at f1
      match x1, x2, f1 with
      | .ret _ _, .ret _ _, ⟨a1, a2, a3, a4⟩ => exact ⟨a1, a2, a3, hE.trans a4⟩
      | .panic _ _, .panic _ _, ⟨a1, a2, a3, a4⟩ => exact ⟨a1, a2, a3, hE.trans a4⟩
    | error y =>
      rw [hout] at g4
      have r1 : (taggable env rc P).refFrom b (fun this => (f.lower σ).run this) σ.toState =
          .panic (.user y) ((σ'.log ((crateDtors rc decl hd).seen e)).toState) := by
        rw [p1]
        refine cleanup_panic (s' := σ'.toState) (M.bind_of_panic ?_)
        rw [gl, g4]; rfl
      have r2 : firstRefQ env rc P b f.run P.ref σ = .panic (.user y) (σ'.log ((crateDtors rc decl hd).seen e)) := by
        rw [q1]
        simp only [MP.cleanup, MP.bind_def, g4]
      have m1 : TBox.clone (taggable env rc P) (f.lower σ).run b σ.toState =
          .panic (.user y) (σ'.log ((crateDtors rc decl hd).seen e)).toState := M.bind_of_panic r1
      have m2 : cloneQ env rc P f.run b σ = .panic (.user y) (σ'.log ((crateDtors rc decl hd).seen e)) := MP.bind_of_panic r2
      refine make _ _ ?_ (fun b' σ'' hq => by rw [m2] at hq; cases hq) hst
      rw [m1, m2]
      exact ⟨rfl, rfl, g1.log _, g2.trans (PExtends.log _ _)⟩
  | copy k =>
    simp only [COp.lower, cstep, Option.bind_eq_some_iff] at hstep
    obtain ⟨b, hb, hst⟩ := hstep
    simp only [cstepQ, hget, hb, Option.bind_some]
    refine make (pure b.copy) (pure b.copy) ⟨rfl, rfl, S.ok, PExtends.refl _⟩ (fun b' σ' hq => ?_) hst
    cases hq
    exact S.mine k _ hb
  | eq k k' f => exact two Bool k k' f false .bool hop hstep
  | partialCmp k k' f => exact two _ k k' f none .pord hop hstep
  | cmp k k' f => exact two _ k k' f .eq .ord hop hstep
  | observe k f =>
    simp only [COp.lower, cstep, Option.bind_eq_some_iff] at hstep
    obtain ⟨b, hb, hst⟩ := hstep
    obtain ⟨e, i, hs1, hm1, p1, q1⟩ := lk k b hb
    simp only [cstepQ, hget, hb, Option.bind_some]
    refine keep _ _ _ _ ?_ hst
    rw [p1, q1]
    exact ((UserFn.lower_follows S.ok (hop e ⟨_, hs1.1⟩)).map some).cleanup _
  | debug k f out => exact fmt k f out hop hstep
  | display k f out => exact fmt k f out hop hstep
  | intoInner k =>
    simp only [COp.lower, cstep, Option.bind_eq_some_iff] at hstep
    obtain ⟨b, hb, hst⟩ := hstep
    obtain ⟨e, i, hs1, hm1, p1, q1⟩ := lk k b hb
    simp only [cstepQ, hget, hb, Option.bind_some]
    obtain ⟨hw, rfl⟩ := hc.wf
    have hr := containerIntoInner_stores (sn := sn) (en := en) (hd := hd) hw.u8 hw.names hw.members hs1
    have hq : containerIntoInnerQ env rc (programOf sn en hd decl) b σ = .ret e σ :=
      firstReadQ_stores (c := true) hw.u8 hw.names hw.members hs1 hm1 (fun h => by cases h)
    simp only [cstepWith, hr] at hst
    cases hst
    refine ⟨σ, by simp only [cstepWithQ, hq], rfl, S.ok, PExtends.refl _, fun j x hx => .inl (get_consume hx)⟩
  | drop k =>
    simp only [COp.lower, cstep, Option.bind_eq_some_iff] at hstep
    obtain ⟨b, hb, hst⟩ := hstep
    simp only [cstepQ, hget, hb, Option.bind_some]
    have hr : b.dropBox σ.toState = .ret () σ.toState := rfl
    simp only [cstepWith, hr] at hst
    cases hst
    exact ⟨σ, rfl, rfl, S.ok, PExtends.refl _, fun j x hx => .inl (get_consume hx)⟩

/-- One step. -/
theorem QSim.step (h : env.OK) (hrc : rc.OK) (hc : Compiled rc env.cfg sn en hd ts decl P)
    (hlen : decl.length ≤ 2 ^ env.cfg.freeBits) (ho : env.debug = true ∨ env.InRange) (S : QSim env rc decl c hs)
    {op : COp MP β} (hop : op.OKQ env rc decl) :
    ∃ fail, FailOK env fail ∧
      ((cstepQ env rc P c op = none ∧ plainStep (crateDtors rc decl hd) fail hs op = none) ∨
       ∃ o c' hs', cstepQ env rc P c op = some (o, c') ∧
        plainStep (crateDtors rc decl hd) fail hs op = some (o, hs') ∧ QSim env rc decl c' hs' ∧ PExtends c.σ c'.σ ∧
        (env.InRange → ¬ NullBetween c.σ.toState c'.σ.toState → fail = none)) := by
  obtain ⟨fail, h1, h2⟩ := S.sim.step h hrc hc hlen ho (COp.lower_ok S.ok hop)
  refine ⟨fail, h1, ?_⟩
  rw [plainStep_lower] at h2
  rcases h2 with ⟨_, h2⟩ | ⟨o, c', hs', h2, h3, h4, h5, h6⟩
  · exact .inl ⟨S.stuck h2, h2⟩
  · obtain ⟨σ', g1, g2, g3, g4, g5⟩ := S.follow h hrc hc hlen ho hop h2
    obtain ⟨s', hds'⟩ := c'
    simp only at g1 g2 g5 h6
    subst g2
    refine .inr ⟨o, ⟨σ', hds'⟩, hs', g1, h3, ⟨g3, h4, fun k b hb => ?_⟩, g4, h6⟩
    rcases g5 k b hb with hb | hb
    · exact (S.mine k b hb).mono g4
    · exact hb

/-- All steps. -/
theorem runQ_plain (h : env.OK) (hrc : rc.OK) (hc : Compiled rc env.cfg sn en hd ts decl P)
    (hlen : decl.length ≤ 2 ^ env.cfg.freeBits) (ho : env.debug = true ∨ env.InRange) {p : CClient MP β}
    (hp : p.OKQ env rc decl) {c₀ : QState} {hs₀ : List (Option EVal)} (S₀ : QSim env rc decl c₀ hs₀) : ∀ n, ∃ fails : List (Option PanicKind),
      fails.length = n ∧ (∀ f ∈ fails, FailOK env f) ∧
      ((runContainersQ env rc P p c₀ n = none ∧ runPlain (crateDtors rc decl hd) p hs₀ fails = none) ∨
       ∃ os c hs, runContainersQ env rc P p c₀ n = some (os, c) ∧ runPlain (crateDtors rc decl hd) p hs₀ fails = some (os, hs) ∧
        QSim env rc decl c hs ∧ PExtends c₀.σ c.σ ∧
        (env.InRange → ¬ NullBetween c₀.σ.toState c.σ.toState → fails = List.replicate n none))
  | 0 => ⟨[], rfl, by simp, .inr ⟨_, _, _, rfl, rfl, S₀, PExtends.refl _, fun _ _ => rfl⟩⟩
  | n + 1 => by
    obtain ⟨fails, h1, h2, h4⟩ := runQ_plain h hrc hc hlen ho hp S₀ n
    rcases h4 with ⟨e1, e2⟩ | ⟨os, c, hs, e1, e2, S, ht, h3⟩
    · exact ⟨none :: fails, by simp [h1], forall_cons (.inl rfl) h2,
        .inl ⟨by simp [runContainersQ, e1], by simp [runPlain, e2]⟩⟩
    · cases hop : p os with
      | none =>
        exact ⟨none :: fails, by simp [h1], forall_cons (.inl rfl) h2,
          .inr ⟨os, c, hs, by simp [runContainersQ, e1, hop], by simp [runPlain, e2, hop], S, ht, fun hin hn => by
            rw [h3 hin hn]; rfl⟩⟩
      | some op =>
        obtain ⟨fail, f1, f3⟩ := S.step h hrc hc hlen ho (hp os op hop)
        refine ⟨fail :: fails, by simp [h1], forall_cons f1 h2, ?_⟩
        rcases f3 with ⟨g1, g2⟩ | ⟨o, c', hs', g1, g2, S', ht', f2⟩
        · exact .inl ⟨by simp [runContainersQ, e1, hop, g1], by simp [runPlain, e2, hop, g2]⟩
        · refine .inr ⟨os ++ [o], c', hs', by simp [runContainersQ, e1, hop, g1], by simp [runPlain, e2, hop, g2], S', ht.trans ht',
            fun hin hn => ?_⟩
          rw [h3 hin (fun hx => hn (NullBetween.trans ht.mem.trace ht'.mem.trace (.inl hx))),
            f2 hin (fun hx => hn (NullBetween.trans ht.mem.trace ht'.mem.trace (.inr hx)))]
          rfl

theorem QSim.nil {σ : PState} (hi : σ.OK env) : QSim env rc decl ⟨σ, []⟩ [] :=
  ⟨hi, CSim.nil hi.heap, fun k b hb => by
    have hb' : (none : Option TBox) = some b := hb
    cases hb'⟩

/-! ## What gets exposed -/

theorem growOut_panic {α : Type} (k : PanicKind) (σ : PState) : GrowOut σ ((MP.panic k : MP α) σ) := Grow.refl σ

theorem growOut_cleanup {α : Type} {m : MP α} {σ : PState} (h : GrowOut σ (m σ)) (es : List Event) : GrowOut σ (MP.cleanup es m σ) := by
  unfold MP.cleanup
  match m σ, h with
  | .ret _ _, h => exact h
  | .panic _ _, h => exact h
  | .ub _, _ => trivial

theorem growOut_intoArm (e : EVal) (a : IntoArm) {q : MP TBox} (h : a.runQ env rc P e = some q) (σ : PState) : GrowOut σ (q σ) := by
  cases a with
  | dangling v n ctr =>
    simp only [IntoArm.runQ] at h
    split at h
    · cases h; exact growOut_pure _ _
    · cases h
  | single v binder ty arg ctr =>
    simp only [IntoArm.runQ] at h
    split at h
    · split at h
      · cases h; exact growOut_new _ _ _ _
      · cases h
    · cases h
  | tuple v binders tys args ctr =>
    simp only [IntoArm.runQ] at h
    split at h
    · split at h
      · cases h; exact growOut_new _ _ _ _
      · cases h
    · cases h
  | record v binders ms inits ctr =>
    simp only [IntoArm.runQ] at h
    split at h
    · split at h
      · cases h; exact growOut_new _ _ _ _
      · cases h
    · cases h

theorem growOut_firstInto (e : EVal) (σ : PState) : ∀ arms : List IntoArm, GrowOut σ (firstIntoQ env rc P e arms σ)
  | [] => growOut_panic _ _
  | a :: as => by
    rw [firstIntoQ]
    cases h : a.runQ env rc P e with
    | none => exact growOut_firstInto e σ as
    | some q => exact growOut_intoArm e a h σ

theorem growOut_into (e : EVal) (σ : PState) : GrowOut σ (intoTaggedBoxQ env rc P e σ) :=
  growOut_cleanup (growOut_firstInto e σ P.into) _

theorem growOut_readArm (a : ReadArm) (b : TBox) (σ : PState) : GrowOut σ (a.runQ env rc P b σ) := by
  obtain ⟨ctr, v, body⟩ := a
  cases body with
  | unit => exact growOut_pure _ _
  | single ty => exact (growOut_read _ _ _).bind fun _ _ => growOut_pure _ _
  | ctuple tys x =>
    cases x with
    | noEval => exact growOut_pure _ _
    | access is => exact (growOut_read _ _ _).bind fun _ _ => growOut_pure _ _
  | rtuple tys x =>
    cases x with
    | noEval => exact growOut_pure _ _
    | access is => exact (growOut_read _ _ _).bind fun _ _ => growOut_pure _ _
  | record ms binders inits => exact (growOut_read _ _ _).bind fun _ _ => growOut_pure _ _

theorem growOut_firstRead (b : TBox) (σ : PState) : ∀ arms : List ReadArm, GrowOut σ (firstReadQ env rc P b arms σ)
  | [] => growOut_panic _ _
  | a :: as => by
    rw [firstReadQ]
    split
    · exact growOut_readArm a b σ
    · exact growOut_firstRead b σ as

theorem growOut_refArm (a : RefArm) (b : TBox) (σ : PState) : GrowOut σ (a.buildQ env rc P b σ) := by
  obtain ⟨ctr, v, body⟩ := a
  cases body with
  | unit => exact growOut_pure _ _
  | single ty => exact (growOut_read _ _ _).bind fun _ _ => growOut_pure _ _
  | tuple tys x x' =>
    cases x with
    | noEval => exact (growOut_pure _ _).bind fun _ _ => growOut_pure _ _
    | access is => exact ((growOut_read _ _ _).bind fun _ _ => growOut_pure _ _).bind fun _ _ => growOut_pure _ _
  | record ms binders inits => exact (growOut_read _ _ _).bind fun _ _ => growOut_pure _ _

theorem growOut_firstRef {α : Type} (b : TBox) {f : EVal → MP α} (hf : ∀ e σ, GrowOut σ (f e σ)) (σ : PState) :
    ∀ arms : List RefArm, GrowOut σ (firstRefQ env rc P b f arms σ)
  | [] => growOut_panic _ _
  | a :: as => by
    rw [firstRefQ]
    split
    · exact (growOut_refArm a b σ).bind fun x σ' => growOut_cleanup ((hf x.1 σ').bind fun _ _ => growOut_pure _ _) _
    · exact growOut_firstRef b hf σ as

theorem growOut_clone {f : EVal → MP EVal} (hf : ∀ e σ, GrowOut σ (f e σ)) (b : TBox) (σ : PState) :
    GrowOut σ (cloneQ env rc P f b σ) :=
  (growOut_firstRef b hf σ P.ref).bind fun x σ' => by
    cases x with
    | none => exact growOut_panic _ _
    | some e => exact growOut_into e σ'

theorem growOut_compare {α : Type} {f : EVal × EVal → MP α} (hf : ∀ e σ, GrowOut σ (f e σ)) (dflt : α) (a b : TBox) (σ : PState) :
    GrowOut σ (compareQ env rc P f dflt a b σ) :=
  (growOut_firstRef a (fun x σ' => growOut_firstRef b (fun y σ'' => hf (x, y) σ'') σ' P.ref) σ P.ref).bind fun _ _ => growOut_pure _ _

theorem growOut_fmt {f : EVal × FmtSpec × String → MP (String × Bool)} (hf : ∀ e σ, GrowOut σ (f e σ)) (b : TBox) (out : String) (σ : PState) :
    GrowOut σ (fmtQ env rc P f b out σ) :=
  (growOut_firstRef b (fun _ σ' => hf _ σ') σ P.ref).bind fun _ _ => growOut_pure _ _

theorem growOut_cstepWith {α : Type} {c : QState} {q : MP α} {f : α → CRes β × List (Option TBox)}
    (h : GrowOut c.σ (q c.σ)) {o : CObs β} {c' : QState} (e : cstepWithQ c q f = some (o, c')) : Grow c.σ c'.σ := by
  simp only [cstepWithQ] at e
  generalize q c.σ = y at h e
  match y, h with
  | .ret _ _, h => cases e; exact h
  | .panic _ _, h => cases e; exact h

theorem UserFn.Discreet.grow {A α : Type} {f : UserFn MP A α} (h : f.Discreet) (x : A) (σ : PState) : GrowOut σ (f.run x σ) := by
  have := h x σ
  match f.run x σ, this with
  | .ret _ _, h => exact h
  | .panic _ _, h => exact h
  | .ub _, _ => trivial

theorem cstepQ_grow {op : COp MP β} (hop : op.Discreet) {o : CObs β} {c' : QState} (e : cstepQ env rc P c op = some (o, c')) :
    Grow c.σ c'.σ := by
  cases op with
  | «from» x => exact growOut_cstepWith (growOut_into x c.σ) e
  | clone k f =>
    simp only [cstepQ, Option.bind_eq_some_iff] at e
    obtain ⟨b, _, e⟩ := e
    exact growOut_cstepWith (growOut_clone (fun x σ => UserFn.Discreet.grow hop x σ) b c.σ) e
  | copy k =>
    simp only [cstepQ, Option.bind_eq_some_iff] at e
    obtain ⟨b, _, e⟩ := e
    exact growOut_cstepWith (growOut_pure _ _) e
  | eq k k' f =>
    simp only [cstepQ, Option.bind_eq_some_iff] at e
    obtain ⟨b, _, b', _, e⟩ := e
    exact growOut_cstepWith (growOut_compare (fun x σ => UserFn.Discreet.grow hop x σ) _ b b' c.σ) e
  | partialCmp k k' f =>
    simp only [cstepQ, Option.bind_eq_some_iff] at e
    obtain ⟨b, _, b', _, e⟩ := e
    exact growOut_cstepWith (growOut_compare (fun x σ => UserFn.Discreet.grow hop x σ) _ b b' c.σ) e
  | cmp k k' f =>
    simp only [cstepQ, Option.bind_eq_some_iff] at e
    obtain ⟨b, _, b', _, e⟩ := e
    exact growOut_cstepWith (growOut_compare (fun x σ => UserFn.Discreet.grow hop x σ) _ b b' c.σ) e
  | observe k f =>
    simp only [cstepQ, Option.bind_eq_some_iff] at e
    obtain ⟨b, _, e⟩ := e
    exact growOut_cstepWith (growOut_firstRef b (fun x σ => UserFn.Discreet.grow hop x σ) c.σ P.ref) e
  | debug k f out =>
    simp only [cstepQ, Option.bind_eq_some_iff] at e
    obtain ⟨b, _, e⟩ := e
    exact growOut_cstepWith (growOut_fmt (fun x σ => UserFn.Discreet.grow hop x σ) b out c.σ) e
  | display k f out =>
    simp only [cstepQ, Option.bind_eq_some_iff] at e
    obtain ⟨b, _, e⟩ := e
    exact growOut_cstepWith (growOut_fmt (fun x σ => UserFn.Discreet.grow hop x σ) b out c.σ) e
  | intoInner k =>
    simp only [cstepQ, Option.bind_eq_some_iff] at e
    obtain ⟨b, _, e⟩ := e
    exact growOut_cstepWith (growOut_firstRead b c.σ P.inner) e
  | drop k =>
    simp only [cstepQ, Option.bind_eq_some_iff] at e
    obtain ⟨b, _, e⟩ := e
    exact growOut_cstepWith (growOut_pure _ _) e

theorem runContainersQ_grow {p : CClient MP β} (hp : p.Discreet) (c₀ : QState) :
    ∀ n {os c}, runContainersQ env rc P p c₀ n = some (os, c) → Grow c₀.σ c.σ
  | 0, os, c, h => by cases h; exact Grow.refl _
  | n + 1, os, c, h => by
    simp only [runContainersQ, Option.bind_eq_some_iff] at h
    obtain ⟨⟨os', c'⟩, h1, h2⟩ := h
    have ih := runContainersQ_grow hp c₀ n h1
    cases hop : p os' with
    | none => simp only [hop] at h2; cases h2; exact ih
    | some op =>
      simp only [hop, Option.map_eq_some_iff] at h2
      obtain ⟨⟨o, c''⟩, h3, h4⟩ := h2
      cases h4
      exact ih.trans (cstepQ_grow (hp os' op hop) h3)

end Macro
end TB

import Verif.Spec.SourceHistory
import Verif.Props.SourceRun
import Verif.Props.History

/-!
# Histories of box operations, run from the text (C84)
-/

set_option autoImplicit false

namespace TB.Props

open TB TB.Rust TB.Spec

variable {E : Type} {env : Env}

/-- A client state of the model, as one of the interpreter. -/
def textState (c : CState) : TState E := ⟨c.s, c.handles.map (·.map boxV)⟩

theorem textState_get (c : CState) (h : Nat) : (textState (E := E) c).get h = (c.get h).map boxV := by
  simp only [textState, TState.get, CState.get, List.getElem?_map]
  cases c.handles[h]? with
  | none => rfl
  | some x => cases x <;> rfl

set_option maxRecDepth 8000 in
theorem kindOf_panicMsg (d : env.cfg.Discr) (k : PanicKind) : kindOf (panicMsg (E := E) d k) = some k := by
  cases k with
  | discriminant =>
    simp only [panicMsg, kindOf]
    rw [if_neg (by decide)]
    rfl
  | pointer =>
    simp only [panicMsg, kindOf]
    rw [if_neg (by decide), if_neg (by decide)]
    exact if_pos rfl
  | nullAlloc => rfl
  | noVariant => rfl
  | cloneNone => rfl
  | user _ => rfl
  | abort => rfl

/-- A step on the box behind a handle. -/
theorem get_eq {c : CState} {h : Nat} {F : V E → Option (Obs env × TState E)} {G : TBox → Option (Obs env × CState)}
    (H : ∀ b, c.get h = some b → F (boxV b) = (G b).map fun r => (r.1, textState r.2)) :
    ((textState c).get h).bind F = ((c.get h).bind G).map fun r => (r.1, textState r.2) := by
  rw [textState_get]
  cases hb : c.get h with
  | none => rfl
  | some b => exact H b hb

theorem set_text (c : CState) (h : Nat) (b : Option TBox) : (textState (E := E) c).handles.set h (b.map boxV) = (textState (E := E) ⟨c.s, c.handles.set h b⟩).handles := by
  simp [textState, List.map_set]

theorem snoc_text (c : CState) (b : TBox) : (textState (E := E) c).handles ++ [some (boxV b)] = (textState (E := E) ⟨c.s, c.handles ++ [some b]⟩).handles := by
  simp [textState]

theorem len_text (c : CState) : (textState (E := E) c).handles.length = c.handles.length := by
  simp [textState]

/-- What the client does itself is what the model's step does. -/
theorem itself_eq {α : Type} (c : CState) (m : M α) (f : α → Res env × List (Option TBox)) (g : α → State → Option (Obs env × TState E))
    (H : ∀ a s', g a s' = shows (textState c) s' (f a).1 ((f a).2.map (·.map boxV))) :
    itself (textState c) (m c.s) g = (stepWith c m f).map fun r => (r.1, textState r.2) := by
  unfold itself stepWith
  cases m c.s with
  | ret a s' =>
    simp only [H]
    rfl
  | panic k s' => rfl
  | ub k => rfl

theorem set_same {c : CState} {h : Nat} {b : TBox} (hb : c.get h = some b) : c.handles.set h (some b) = c.handles := by
  have h1 : c.handles[h]? = some (some b) := by
    unfold CState.get at hb
    cases hx : c.handles[h]? with
    | none => rw [hx] at hb; cases hb
    | some x => rw [hx] at hb; rw [show x = some b from hb]
  apply List.ext_getElem?
  intro i
  rw [List.getElem?_set]
  split
  · rename_i e
    subst e
    rw [h1, if_pos]
    exact (List.getElem?_eq_some_iff.1 h1).1
  · rfl

/-- The step of the text is the step of the model. -/
theorem textStep_eq [InTable env] (user : User E) (T : Shape) (c : CState) (op : Op env) (hz : ∀ sh v d, op = .new sh v d → sh.size < 2 ^ 64) :
    textStep (src env user) T (textState c) op = (step env c op).map fun r => (r.1, textState r.2) := by
  have hs : (textState (E := E) c).s = c.s := rfl
  cases op with
  | new sh v d =>
    have h := Rust.b_new env user 120 sh (hz sh v d rfl) v d .unknown [] c.s
    have h' : (src env user).call "TaggedBox" "new" [.opaque sh] none [.obj sh v, discr env.cfg d.toNat] .unknown c.s =
        XOut.of boxV (panicMsg d) [] (TBox.new env sh v d c.s) := by
      rw [discr_toNat' env]
      exact h
    show called _ (Crate.call _ _ _ _ _ _ _ c.s) _ = _
    rw [h']
    simp only [step, stepWith]
    cases TBox.new env sh v d c.s with
    | ret b s' => simp [XOut.of, called, shows, textState]
    | panic k s' => simp [XOut.of, called, textState, kindOf_panicMsg]
    | ub k => rfl
  | copy h =>
    refine get_eq fun b _ => ?_
    rw [snoc_text, len_text]
    rfl
  | discr h =>
    refine get_eq fun b _ => ?_
    have h1 : (src env user).call "TaggedBox" "discriminant" [] (some (boxV b)) [] .unknown c.s = .ret (dV (b.discriminant env)) [] c.s :=
      Rust.b_discriminant env user 140 b .unknown [] c.s
    rw [hs, h1]
    have h2 : ((b.discriminant env).setWidth 64).setWidth env.cfg.discrBits = b.discriminant env := by
      apply BitVec.eq_of_toNat_eq
      rw [BitVec.toNat_setWidth, discr_toNat env, Nat.mod_eq_of_lt (BitVec.isLt _)]
    simp only [called, dV, h2]
    rfl
  | ptrEq h h' =>
    refine get_eq fun b _ => get_eq fun b' _ => ?_
    have h1 : ∀ b, (src env user).call "TaggedBox" "as_ptr" [.opaque T] (some (boxV b)) [] .unknown c.s = .ret (.ptr (.opaque T) (b.asPtr env)) [] c.s := fun b =>
      Rust.b_asPtr env user 140 b T .unknown [] c.s
    rw [hs, h1]
    simp only [called]
    rw [h1]
    rfl
  | read h sh =>
    refine get_eq fun b _ => ?_
    have h1 : (src env user).call "TaggedBox" "as_ref" [.opaque sh] (some (boxV b)) [] .unknown c.s =
        XOut.of (fun _ => .ref (.opaque sh) (b.asPtr env)) .kind [] (b.asRef env sh c.s) := Rust.b_asRef env user 140 b sh .unknown [] c.s
    rw [hs, h1]
    simp only [stepWith]
    cases hr : b.asRef env sh c.s with
    | ret v s' =>
      have e : s' = c.s := (ptrRead_ret_iff.1 hr).1
      subst e
      simp only [XOut.of, called, itself, show ptrRead sh (b.asPtr env) c.s = _ from hr]
      rfl
    | panic k s' => rfl
    | ub k => rfl
  | assign h sh v =>
    refine get_eq fun b hb => ?_
    have h1 : (src env user).call "TaggedBox" "as_mut_ref" [.opaque sh] (some (boxV b)) [] .unknown c.s =
        XOut.of (fun _ => .ref (.opaque sh) (b.asMutPtr env)) .kind [] (ptrRead sh (b.asMutPtr env) c.s) := Rust.b_asMutRef env user 140 b sh .unknown [] c.s
    rw [hs, h1]
    have hc : c.handles.set h (some b) = c.handles := set_same hb
    have hm : b.asMutRefAssign env sh v c.s = ((do
        let old ← ptrRead sh (b.asMutPtr env)
        dropVal sh old
        ptrWrite sh (b.asMutPtr env) v) >>= fun _ => (pure b : M TBox)) c.s := by
      simp only [TBox.asMutRefAssign, TBox.asMutPtr, m_bind]
      cases ptrRead sh (b.boxed.asMutPtr env.cfg env.ptrBits) c.s <;> rfl
    simp only [stepWith, hm, m_bind]
    cases hr : ptrRead sh (b.asMutPtr env) c.s with
    | ret old s1 =>
      have e : s1 = c.s := (ptrRead_ret_iff.1 hr).1
      subst e
      simp only [XOut.of, called, itself, m_bind, hr]
      cases dropVal sh old c.s with
      | ret u s2 =>
        simp only
        cases ptrWrite sh (b.asMutPtr env) v s2 with
        | ret u s3 =>
          simp only [m_pure, hc]
          rfl
        | panic k s3 => rfl
        | ub k => rfl
      | panic k s2 => rfl
      | ub k => rfl
    | panic k s' => rfl
    | ub k => rfl
  | write h sh v =>
    refine get_eq fun b hb => ?_
    have h1 : (src env user).call "TaggedBox" "as_mut_ptr" [.opaque sh] (some (boxV b)) [] .unknown c.s = .ret (.ptr (.opaque sh) (b.asMutPtr env)) [] c.s :=
      Rust.b_asMutPtr env user 140 b sh .unknown [] c.s
    rw [hs, h1]
    have hc : c.handles.set h (some b) = c.handles := set_same hb
    simp only [called, stepWith, TBox.asMutPtrWrite, m_bind]
    cases hw : ptrWrite sh (b.asMutPtr env) v c.s with
    | ret u s3 =>
      simp only [itself, m_pure, hc]
      rfl
    | panic k s3 => rfl
    | ub k => rfl
  | intoInner h sh =>
    refine get_eq fun b _ => ?_
    have h1 : (src env user).call "TaggedBox" "into_inner" [.opaque sh] none [boxV b] .unknown c.s = XOut.of (.obj sh) .kind [] (b.intoInner env sh c.s) :=
      Rust.b_intoInner env user 120 b sh .unknown [] c.s
    rw [hs, h1]
    simp only [stepWith]
    cases b.intoInner env sh c.s with
    | ret v s' => 
      simp only [XOut.of, called]
      rw [show (none : Option (V E)) = (none : Option TBox).map boxV from rfl, set_text]
      rfl
    | panic k s' => rfl
    | ub k => rfl
  | drop h =>
    refine get_eq fun b _ => ?_
    have h1 : findTrait "Drop" "TaggedBox" "drop" (src env user).traitFns = none := rfl
    rw [h1]
    simp only
    rw [show (none : Option (V E)) = (none : Option TBox).map boxV from rfl, set_text]
    rfl
  | rawRoundtrip h =>
    refine get_eq fun b _ => ?_
    have h1 : (src env user).call "TaggedBox" "discriminant" [] (some (boxV b)) [] .unknown c.s = .ret (dV (b.discriminant env)) [] c.s :=
      Rust.b_discriminant env user 140 b .unknown [] c.s
    have h2 : (src env user).call "TaggedBox" "into_raw" [.opaque T] none [boxV b] .unknown c.s = .ret (.ptr (.opaque T) (b.intoRaw env)) [] c.s :=
      Rust.b_intoRaw env user 140 b T .unknown [] c.s
    have h3 : (src env user).call "TaggedBox" "from_raw" [.opaque T] none [.ptr (.opaque T) (b.intoRaw env), dV (b.discriminant env)] .unknown c.s =
        XOut.of boxV (panicMsg (b.discriminant env)) [] (TBox.fromRaw env (b.intoRaw env) (b.discriminant env) c.s) := Rust.b_fromRaw env user 120 T _ _ .unknown [] c.s
    rw [hs, h1]
    simp only [called]
    rw [h2]
    simp only
    rw [h3]
    simp only [stepWith]
    cases TBox.fromRaw env (b.intoRaw env) (b.discriminant env) c.s with
    | ret b' s' =>
      simp only [XOut.of]
      rw [show some (boxV (E := E) b') = (some b').map boxV from rfl, set_text]
      rfl
    | panic k s' => simp [XOut.of, textState, kindOf_panicMsg]
    | ub k => rfl
  | boxDrop h sh =>
    refine get_eq fun b _ => ?_
    have h1 : (src env user).call "TaggedBox" "into_box" [.opaque sh] none [boxV b] .unknown c.s = .ret (.boxed (.opaque sh) (b.intoBox env).addr) [] c.s :=
      Rust.b_intoBox env user 120 b sh .unknown [] c.s
    rw [hs, h1]
    refine itself_eq c ((b.intoBox env).drop sh) _ _ fun _ s' => ?_
    rw [show (none : Option (V E)) = (none : Option TBox).map boxV from rfl, set_text]
    rfl
  | boxTake h sh =>
    refine get_eq fun b _ => ?_
    have h1 : (src env user).call "TaggedBox" "into_box" [.opaque sh] none [boxV b] .unknown c.s = .ret (.boxed (.opaque sh) (b.intoBox env).addr) [] c.s :=
      Rust.b_intoBox env user 120 b sh .unknown [] c.s
    rw [hs, h1]
    refine itself_eq c ((b.intoBox env).intoValue sh) _ _ fun _ s' => ?_
    rw [show (none : Option (V E)) = (none : Option TBox).map boxV from rfl, set_text]
    rfl

/-- The run of the text is the run of the model. -/
theorem runText_eq [InTable env] (user : User E) (T : Shape) (p : Client env) (hz : Sized p) (s : State) (n : Nat) :
    runText (src env user) T p s n = (runClient env p s n).map fun r => (r.1, textState r.2) := by
  induction n with
  | zero => rfl
  | succ n ih =>
    rw [runText, runClient, ih]
    cases runClient env p s n with
    | none => rfl
    | some r =>
      obtain ⟨os, c⟩ := r
      simp only [Option.map_some, Option.bind_some]
      cases hp : p os with
      | none => rfl
      | some op =>
        simp only
        rw [textStep_eq user T c op (fun sh v d e => hz os sh v d (by rw [hp, e]))]
        cases step env c op <;> rfl

/-- **C84.** A client that keeps the documented contract, and whose operations call the functions of `TaggedBox` as they stand in the text, never reaches undefined behaviour, for any
number of steps, and everything it observes is what the abstract store allows (C27). At every point the live allocations are those that existed before and exactly one for each
live location of the store of non-zero size (C21). -/
theorem C84 (ok : env.OK) (hr : env.debug = true ∨ env.InRange) {s : State} (hi : HeapInv env s) (user : User E) (T : Shape) (p : Client env) (hz : Sized p) (hp : WellBehaved p)
    (n : Nat) :
    ∃ cr, sourceCrate env user = some cr ∧ ∃ os c a, runText cr T p s n = some (os, c) ∧ SpecReach p os a ∧
      (c.s.blocks.map (fun b => (b.size, b.align))).Perm (a.footprint ++ s.blocks.map (fun b => (b.size, b.align))) ∧
      ∀ b ∈ s.blocks, b ∈ c.s.blocks := by
  haveI : InTable env := ⟨ok.cfg_mem⟩
  obtain ⟨os, c, a, h1, h2, h3, h4⟩ := C21_heap_footprint ok hr hi p hp n
  refine ⟨_, sourceCrate_eq env user, os, textState c, a, ?_, h2, h3, h4⟩
  rw [runText_eq user T p hz, h1]
  rfl

/-- **C84**, the model. For every client, whether or not it keeps the contract, the run from the text is the run of the model. -/
theorem C84_model (hc : env.cfg ∈ table) (user : User E) (T : Shape) (p : Client env) (hz : Sized p) (s : State) (n : Nat) :
    ∃ cr, sourceCrate env user = some cr ∧
      runText cr T p s n = (runClient env p s n).map fun r => (r.1, ⟨r.2.s, r.2.handles.map (·.map boxV)⟩) := by
  haveI : InTable env := ⟨hc⟩
  exact ⟨_, sourceCrate_eq env user, runText_eq user T p hz s n⟩

/-- C84 is not vacuous: the client of C27's example. -/
example (user : User Unit) : Sized demoClient ∧ WellBehaved demoClient ∧
    ∃ cr, sourceCrate (env60 true) user = some cr ∧ ∃ os c a, runText cr u32L.shape demoClient state0 4 = some (os, c) ∧ SpecReach demoClient os a := by
  have hz : Sized demoClient := by
    intro os sh v d h
    unfold demoClient at h
    split at h <;> cases h
    decide
  obtain ⟨cr, h, os, c, a, h1, h2, _⟩ := C84 (env60_ok true) (.inl rfl) (state0_inv _) user u32L.shape demoClient hz demoClient_wellBehaved 4
  exact ⟨hz, demoClient_wellBehaved, cr, h, os, c, a, h1, h2⟩

end TB.Props

import Verif.Lemmas.RsBox
import Verif.Spec.SourceRun

/-! # Running the trait implementations of `TaggedBox` (helper lemmas; no property theorems here) -/

set_option autoImplicit false
set_option linter.unusedSectionVars false
set_option linter.unusedSimpArgs false

namespace TB.Rust

open TB TB.Rust.Code TB.Spec

variable {E : Type}

/-- The closure's body does what `f` does and leaves the variables `g` of the result. -/
def Does {α : Type} (body : XOut E Unit) (x : String × Option (V E)) (g : α → Locals E) : Out α → Prop
  | .ret a s' => body = .ret () (x :: g a) s'
  | .panic k s' => ∃ l', body = .panic (.kind k) l' s'
  | .ub k => body = .ub k

theorem callRef_nat (cr : Crate E) (hN : Natural cr.user.taggable) (b : TBox) (x : String) (body : X E Unit) (l : Locals E) (s : State)
    {α : Type} (f : E → M α) (g : α → Locals E)
    (h : ∀ e s, Does (body ((x, some (.refv (.user e))) :: l) s) (x, some (.refv (.user e))) g (f e s)) :
    callRef cr b x body l s = match cr.user.taggable.refFrom b f s with
      | .ret (some a) s' => .ret .unit (g a) s'
      | .ret none s' => .ret .unit l s'
      | .panic k s' => .panic (.kind k) l s'
      | .ub k => .ub k := by
  have hf : closureM x body l = fun e => (f e >>= fun a => pure (some (g a))) := by
    funext e s
    have := h e s
    rw [m_bind]
    unfold closureM
    cases hfe : f e s with
    | ret a s' => rw [hfe] at this; simp only [Does] at this; rw [this]; rfl
    | panic k s' => rw [hfe] at this; obtain ⟨l', this⟩ := this; rw [this]; rfl
    | ub k => rw [hfe] at this; simp only [Does] at this; rw [this]
  unfold callRef
  rw [hf, hN _ _ (fun a => some (g a)) b f s, m_bind]
  cases cr.user.taggable.refFrom b f s with
  | ret r s' => cases r <;> rfl
  | panic k s' => rfl
  | ub k => rfl

section
variable (env : Env) (user : User E) [InTable env]

@[rs high] theorem toBox_boxV (b : TBox) : toBox (boxV b : V E) = some b := rfl
@[rs high] theorem toBox_refv (b : TBox) : toBox (.refv (boxV b) : V E) = some b := rfl

theorem t_clone (hN : Natural user.taggable) (n : Nat) (b : TBox) (exp : RT) (l : Locals E) (s : State) :
    callFn (src env user) (n + 60) box_Clone_clone "TaggedBox" [] (some (boxV b)) [] exp l s =
      match user.taggable.refFrom b user.clone s with
      | .ret (some e) s' => XOut.of boxV .kind l (user.taggable.intoTaggedBox e s')
      | .ret none s' => .panic (.text "\"The inner value could not be fetched\"" []) l s'
      | .panic k s' => .panic (.kind k) l s'
      | .ub k => .ub k := by
  simp [callFn_eq, box_Clone_clone, rs]
  rw [callRef_nat (src env user) hN b "this" _ _ _ user.clone
    (fun e => [("output", some (someV (.user e))), ("self", some (.refv (boxV b)))])]
  · cases hr : user.taggable.refFrom b user.clone s with
    | ret r s' =>
      cases r with
      | none => simp [rs, hr, XOut.of, m_panic, libMethod, noneV]
      | some e =>
        cases hb : user.taggable.intoTaggedBox e s' <;> simp [rs, hr, XOut.of, libMethod, someV, hb]
    | panic k s' => simp [rs, hr, XOut.of, noneV]
    | ub k => simp [rs, hr, XOut.of]
  · intro e s
    cases h : user.clone e s <;> simp [rs, Does, libFn, libMethod, h, noneV, someV]

theorem binOp_user (a b : E) (l : Locals E) (s : State) : binOpV (src env user) .eq (.user a) (.user b) l s =
    match user.eq a b s with
    | .ret r s' => .ret (.bool r) l s'
    | .panic k s' => .panic (.kind k) l s'
    | .ub k => .ub k := by
  cases h : user.eq a b s <;> simp [binOpV, rs, h]

theorem t_eq (hN : Natural user.taggable) (n : Nat) (a b : TBox) (exp : RT) (l : Locals E) (s : State) :
    callFn (src env user) (n + 60) box_PartialEq_eq "TaggedBox" [] (some (boxV a)) [.refv (boxV b)] exp l s =
      XOut.of .bool .kind l (TBox.eq user.taggable user.eq a b s) := by
  simp [callFn_eq, box_PartialEq_eq, rs]
  rw [callRef_nat (src env user) hN a "this" _ _ _ (fun this => user.taggable.refFrom b (fun other => user.eq this other))
    (fun r => [("eq", some (match r with
      | some r => .bool r
      | none => .bool false)), ("other", some (.refv (boxV b))), ("self", some (.refv (boxV a)))])]
  · unfold TBox.eq
    rw [m_bind]
    cases hr : user.taggable.refFrom a (fun this => user.taggable.refFrom b (fun other => user.eq this other)) s with
    | ret r s' => rcases r with _ | _ | r <;> simp [rs, hr, XOut.of, m_pure]
    | panic k s' => simp [rs, hr, XOut.of]
    | ub k => simp [rs, hr, XOut.of]
  · intro e s
    simp [rs]
    rw [callRef_nat (src env user) hN b "other" _ _ _ (fun other => user.eq e other)
      (fun r => [("this", some (.refv (.user e))), ("eq", some (.bool r)), ("other", some (.refv (boxV b))), ("self", some (.refv (boxV a)))])]
    · cases hr : user.taggable.refFrom b (fun other => user.eq e other) s with
      | ret r s' => rcases r with _ | r <;> simp [rs, hr, Does]
      | panic k s' => simp [rs, hr, Does]
      | ub k => simp [rs, hr, Does]
    · intro e' s
      cases h : user.eq e e' s <;> simp [rs, Does, libMethod, binOp_user, h]

theorem t_partialCmp (hN : Natural user.taggable) (n : Nat) (a b : TBox) (exp : RT) (l : Locals E) (s : State) :
    callFn (src env user) (n + 60) box_PartialOrd_partial_cmp "TaggedBox" [] (some (boxV a)) [.refv (boxV b)] exp l s =
      XOut.of optOrd .kind l (TBox.partialCmp user.taggable user.partialCmp a b s) := by
  simp [callFn_eq, box_PartialOrd_partial_cmp, rs]
  rw [callRef_nat (src env user) hN a "this" _ _ _ (fun this => user.taggable.refFrom b (fun other => user.partialCmp this other))
    (fun r => [("cmp", some (match r with
      | some r => optOrd r
      | none => noneV)), ("other", some (.refv (boxV b))), ("self", some (.refv (boxV a)))])]
  · unfold TBox.partialCmp
    rw [m_bind]
    cases hr : user.taggable.refFrom a (fun this => user.taggable.refFrom b (fun other => user.partialCmp this other)) s with
    | ret r s' => rcases r with _ | _ | _ | r <;> simp [rs, hr, XOut.of, m_pure, optOrd, noneV, someV]
    | panic k s' => simp [rs, hr, XOut.of, optOrd, noneV, someV]
    | ub k => simp [rs, hr, XOut.of]
  · intro e s
    simp [rs]
    rw [callRef_nat (src env user) hN b "other" _ _ _ (fun other => user.partialCmp e other)
      (fun r => [("this", some (.refv (.user e))), ("cmp", some (optOrd r)), ("other", some (.refv (boxV b))), ("self", some (.refv (boxV a)))])]
    · cases hr : user.taggable.refFrom b (fun other => user.partialCmp e other) s with
      | ret r s' => rcases r with _ | r <;> simp [rs, hr, Does]
      | panic k s' => simp [rs, hr, Does]
      | ub k => simp [rs, hr, Does]
    · intro e' s
      cases h : user.partialCmp e e' s <;> simp [rs, Does, libMethod, binOp_user, h, optOrd, noneV, someV]

theorem t_cmp (hN : Natural user.taggable) (n : Nat) (a b : TBox) (exp : RT) (l : Locals E) (s : State) :
    callFn (src env user) (n + 60) box_Ord_cmp "TaggedBox" [] (some (boxV a)) [.refv (boxV b)] exp l s =
      XOut.of .ordering .kind l (TBox.cmp user.taggable user.cmp a b s) := by
  simp [callFn_eq, box_Ord_cmp, rs]
  rw [callRef_nat (src env user) hN a "this" _ _ _ (fun this => user.taggable.refFrom b (fun other => user.cmp this other))
    (fun r => [("cmp", some (match r with
      | some r => .ordering r
      | none => .ordering .eq)), ("other", some (.refv (boxV b))), ("self", some (.refv (boxV a)))])]
  · unfold TBox.cmp
    rw [m_bind]
    cases hr : user.taggable.refFrom a (fun this => user.taggable.refFrom b (fun other => user.cmp this other)) s with
    | ret r s' => rcases r with _ | _ | r <;> simp [rs, hr, XOut.of, m_pure]
    | panic k s' => simp [rs, hr, XOut.of]
    | ub k => simp [rs, hr, XOut.of]
  · intro e s
    simp [rs]
    rw [callRef_nat (src env user) hN b "other" _ _ _ (fun other => user.cmp e other)
      (fun r => [("this", some (.refv (.user e))), ("cmp", some (.ordering r)), ("other", some (.refv (boxV b))), ("self", some (.refv (boxV a)))])]
    · cases hr : user.taggable.refFrom b (fun other => user.cmp e other) s with
      | ret r s' => rcases r with _ | r <;> simp [rs, hr, Does]
      | panic k s' => simp [rs, hr, Does]
      | ub k => simp [rs, hr, Does]
    · intro e' s
      cases h : user.cmp e e' s <;> simp [rs, Does, libMethod, binOp_user, h]

end

end TB.Rust

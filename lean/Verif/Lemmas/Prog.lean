import Verif.Macro.Prog
import Verif.Lemmas.Threads
import Verif.Lemmas.Container

/-!
# Lemmas: the small-step programs of `Macro/Prog.lean`, run alone, are the functions they mirror
-/

set_option autoImplicit false

namespace TB

theorem Leaf.shape_inBounds (l : Leaf) : l.shape.inBounds = true := by simp [Shape.inBounds, Leaf.shape]

theorem Shape.WF.inBounds {sh : Shape} (h : sh.WF) : sh.inBounds = true := by
  simp only [Shape.inBounds, List.all_eq_true, decide_eq_true_eq]
  exact fun f hf => (h.field f hf).2.1

theorem run_newP (env : Env) {sh : Shape} (hb : sh.inBounds = true) (v : Val) (d : env.cfg.Discr) :
    (TBox.newP env sh v d).run env = TBox.new env sh v d := by
  unfold TBox.newP TBox.new
  by_cases hz : sh.size = 0
  · rw [if_pos hz, if_pos hz]; rfl
  · rw [if_neg hz, if_neg hz]
    simp only [Prog.run, if_neg hz]
    show M.bind _ _ = M.bind _ _
    congr 1
    funext a
    split
    · rfl
    · simp only [Prog.run, if_pos hb]
      show M.bind _ _ = M.bind _ _
      congr 1
      funext _
      cases TPtr.new env.cfg env.debug (BitVec.ofNat 64 a) d <;> rfl

theorem run_read_ret (env : Env) {sh : Shape} (hb : sh.inBounds = true) (a : Nat) :
    (Prog.read sh a .ret).run env = ptrRead sh a := by
  simp only [Prog.run, if_pos hb]
  funext s
  simp only [M.bind]
  cases ptrRead sh a s <;> rfl

theorem run_cleanup' (env : Env) {α : Type} (es : List Event) (p : Prog α) :
    (p.cleanup es).run env = M.cleanup es (p.run env) := funext (Prog.run_cleanup env es p)

namespace Macro

variable {env : Env} {rc : Rustc} {P : Program}

theorem structShape_inBounds (hrc : rc.OK) (tys : List Ty) : (structShape rc tys).inBounds = true :=
  (reprC_wf (by simpa using fun t _ => hrc.leaf_wf t)).inBounds

theorem tupleShape_inBounds (h : env.TupleLegal) (hrc : rc.OK) (tys : List Ty) : (tupleShape env rc tys).inBounds = true :=
  (h _ (by simpa using fun t _ => hrc.leaf_wf t)).1.inBounds

theorem run_intoArm (hrc : rc.OK) (e : EVal) (a : IntoArm) :
    (a.runP env rc P e).map (·.run env) = a.run env rc P e := by
  obtain ⟨ev, pl⟩ := e
  cases a with
  | dangling v _ ctr => simp only [IntoArm.runP, IntoArm.run]; split <;> rfl
  | single v binder ty arg ctr =>
    simp only [IntoArm.runP, IntoArm.run]
    split
    · match pl with
      | .tuple [x] => exact congrArg some (run_newP env (Leaf.shape_inBounds _) _ _)
      | .tuple [] => rfl
      | .tuple (_ :: _ :: _) => rfl
      | .unit => rfl
      | .record _ => rfl
    · rfl
  | tuple v binders tys args ctr =>
    simp only [IntoArm.runP, IntoArm.run]
    split
    · match pl with
      | .tuple xs => exact congrArg some (run_newP env (structShape_inBounds hrc _) _ _)
      | .unit => rfl
      | .record _ => rfl
    · rfl
  | record v binders decl inits ctr =>
    simp only [IntoArm.runP, IntoArm.run]
    split
    · match pl with
      | .record xs => exact congrArg some (run_newP env (structShape_inBounds hrc _) _ _)
      | .unit => rfl
      | .tuple _ => rfl
    · rfl

theorem run_firstInto (hrc : rc.OK) (e : EVal) : ∀ as, (firstIntoP env rc P e as).run env = firstInto env rc P e as
  | [] => rfl
  | a :: as => by
    have h := run_intoArm (env := env) (P := P) hrc e a
    simp only [firstIntoP, firstInto]
    cases h1 : a.runP env rc P e with
    | none => rw [h1] at h; rw [← h]; exact run_firstInto hrc e as
    | some m => rw [h1] at h; rw [← h]; rfl

theorem run_intoP (hrc : rc.OK) (e : EVal) : (intoTaggedBoxP env rc P e).run env = intoTaggedBox env rc P e := by
  rw [intoTaggedBoxP, run_cleanup', run_firstInto hrc]; rfl

theorem run_readArm (h : env.TupleLegal) (hrc : rc.OK) (a : ReadArm) (b : TBox) :
    (a.runP env rc P b).run env = a.run env rc P b := by
  obtain ⟨v, ctr, body⟩ := a
  simp only [ReadArm.runP, ReadArm.run]
  cases body with
  | unit => rfl
  | single ty => simp only [Prog.run_bind, TBox.intoInnerP, run_read_ret env (Leaf.shape_inBounds _)]; rfl
  | ctuple tys x => cases x with
    | noEval => rfl
    | access is => simp only [Prog.run_bind, TBox.intoInnerP, run_read_ret env (structShape_inBounds hrc _)]; rfl
  | rtuple tys x => cases x with
    | noEval => rfl
    | access is => simp only [Prog.run_bind, TBox.intoInnerP, run_read_ret env (tupleShape_inBounds h hrc _)]; rfl
  | record decl binders inits => simp only [Prog.run_bind, TBox.intoInnerP, run_read_ret env (structShape_inBounds hrc _)]; rfl

theorem run_firstRead (h : env.TupleLegal) (hrc : rc.OK) (b : TBox) :
    ∀ as, (firstReadP env rc P b as).run env = firstRead env rc P b as
  | [] => rfl
  | a :: as => by
    simp only [firstReadP, firstRead]
    split
    · exact run_readArm h hrc a b
    · exact run_firstRead h hrc b as

theorem run_refArm (hrc : rc.OK) (a : RefArm) (b : TBox) : (a.buildP env rc P b).run env = a.build env rc P b := by
  obtain ⟨v, ctr, body⟩ := a
  simp only [RefArm.buildP, RefArm.build]
  cases body with
  | unit => rfl
  | single ty => simp only [Prog.run_bind, TBox.derefP, run_read_ret env (Leaf.shape_inBounds _)]; rfl
  | tuple tys x x' => cases x with
    | noEval => rfl
    | access is => simp only [Prog.run_bind, TBox.derefP, run_read_ret env (structShape_inBounds hrc _)]; rfl
  | record decl binders inits => simp only [Prog.run_bind, TBox.derefP, run_read_ret env (structShape_inBounds hrc _)]; rfl

theorem run_firstRef (hrc : rc.OK) {β : Type} (b : TBox) (f : EVal → Prog β) :
    ∀ as, (firstRefP env rc P b f as).run env = firstRef env rc P b (fun x => (f x).run env) as
  | [] => rfl
  | a :: as => by
    simp only [firstRefP, firstRef]
    split
    · rw [Prog.run_bind, run_refArm hrc]
      show M.bind _ _ = M.bind _ _
      congr 1
      funext x
      rw [run_cleanup', Prog.run_bind]
      rfl
    · exact run_firstRef hrc b f as

theorem run_clone (hrc : rc.OK) (f : EVal → Prog EVal) (b : TBox) :
    (cloneP env rc P f b).run env = TBox.clone (taggable env rc P) (fun x => (f x).run env) b := by
  rw [cloneP, Prog.run_bind, run_firstRef hrc]
  show M.bind _ _ = M.bind _ _
  congr 1
  funext o
  cases o with
  | none => rfl
  | some e => exact run_intoP hrc e

theorem run_compare (hrc : rc.OK) {α : Type} (f : EVal × EVal → Prog α) (dflt : α) (a b : TBox) :
    (compareP env rc P f dflt a b).run env = (do
      let r ← (taggable env rc P).refFrom a (fun this => (taggable env rc P).refFrom b (fun other => (f (this, other)).run env))
      pure (r.join.getD dflt)) := by
  rw [compareP, Prog.run_bind, run_firstRef hrc]
  simp only [run_firstRef hrc]
  rfl

theorem run_fmt (hrc : rc.OK) (f : EVal × FmtSpec × String → Prog (String × Bool)) (b : TBox) (out : String) :
    (fmtP env rc P f b out).run env = (do
      let r ← (taggable env rc P).refFrom b (fun this => (f (this, {}, out)).run env)
      pure (r.getD (out, true))) := by
  rw [fmtP, Prog.run_bind, run_firstRef hrc]
  rfl

/-! ## Clients -/

variable {β : Type}

/-- The result of a step as an outcome. -/
def packed {γ : Type} : Option (γ × CState) → Out (γ × Handles) → Prop
  | some (o, c), x => x = .ret (o, c.handles) c.s
  | none, x => ∃ k, x = .ub k

theorem run_stepP {α : Type} (c : CState) (p : Prog α) (f : α → CRes β × Handles) :
    packed (cstepWith c (p.run env) f) ((stepP c.handles p f).run env c.s) := by
  rw [stepP, Prog.run_bind]
  simp only [M.bind, Prog.run_observe, cstepWith]
  cases p.run env c.s with
  | ret a s' => simp [Prog.observed, packed, Prog.run, M.pure, dtorsBetween]
  | panic k s' => simp [Prog.observed, packed, Prog.run, M.pure, dtorsBetween]
  | ub k => exact ⟨k, rfl⟩

theorem run_withHandle {γ : Type} (c : CState) (h : Nat) (f : TBox → Prog (γ × Handles)) (g : TBox → Option (γ × CState))
    (hf : ∀ b, packed (g b) ((f b).run env c.s)) :
    packed ((c.get h).bind g) ((withHandle c.handles h f).run env c.s) := by
  unfold withHandle
  show packed (Option.bind (c.handles[h]?.join) g) _
  cases c.handles[h]?.join with
  | none => exact ⟨_, rfl⟩
  | some b => exact hf b

theorem run_cstep (h : env.TupleLegal) (hrc : rc.OK) (c : CState) (op : COp Prog β) :
    packed (cstep env rc P c (op.at env)) ((cstepP env rc P c.handles op).run env c.s) := by
  cases op with
  | «from» e =>
    have := run_stepP (env := env) c (intoTaggedBoxP env rc P e) (fun b => (.handle c.handles.length, c.handles ++ [some b]) : TBox → CRes β × Handles)
    rw [run_intoP hrc] at this
    exact this
  | clone k f =>
    refine run_withHandle c k _ _ fun b => ?_
    have := run_stepP (env := env) c (cloneP env rc P f.run b) (fun b => (.handle c.handles.length, c.handles ++ [some b]) : TBox → CRes β × Handles)
    rw [run_clone hrc] at this
    exact this
  | copy k => exact run_withHandle c k _ _ fun b => run_stepP c (.ret b.copy) _
  | eq k k' f =>
    refine run_withHandle c k _ _ fun b => run_withHandle c k' _ _ fun b' => ?_
    have := run_stepP (env := env) c (compareP env rc P f.run false b b') (fun r => (.bool r, c.handles) : Bool → CRes β × Handles)
    rw [run_compare hrc] at this
    exact this
  | partialCmp k k' f =>
    refine run_withHandle c k _ _ fun b => run_withHandle c k' _ _ fun b' => ?_
    have := run_stepP (env := env) c (compareP env rc P f.run none b b') (fun r => (.pord r, c.handles) : _ → CRes β × Handles)
    rw [run_compare hrc] at this
    exact this
  | cmp k k' f =>
    refine run_withHandle c k _ _ fun b => run_withHandle c k' _ _ fun b' => ?_
    have := run_stepP (env := env) c (compareP env rc P f.run .eq b b') (fun r => (.ord r, c.handles) : _ → CRes β × Handles)
    rw [run_compare hrc] at this
    exact this
  | observe k f =>
    refine run_withHandle c k _ _ fun b => ?_
    have := run_stepP (env := env) c (firstRefP env rc P b f.run P.ref)
      (fun r => (match r with | some x => .seen x | none => .unit, c.handles) : Option β → CRes β × Handles)
    rw [run_firstRef hrc] at this
    exact this
  | debug k f out =>
    refine run_withHandle c k _ _ fun b => ?_
    have := run_stepP (env := env) c (fmtP env rc P f.run b out) (fun r => (.text r, c.handles) : _ → CRes β × Handles)
    rw [run_fmt hrc] at this
    exact this
  | display k f out =>
    refine run_withHandle c k _ _ fun b => ?_
    have := run_stepP (env := env) c (fmtP env rc P f.run b out) (fun r => (.text r, c.handles) : _ → CRes β × Handles)
    rw [run_fmt hrc] at this
    exact this
  | intoInner k =>
    refine run_withHandle c k _ _ fun b => ?_
    have := run_stepP (env := env) c (containerIntoInnerP env rc P b) (fun e => (.val e, c.handles.set k none) : _ → CRes β × Handles)
    rw [containerIntoInnerP, run_firstRead h hrc] at this
    exact this
  | drop k => exact run_withHandle c k _ _ fun b => run_stepP c (.ret ()) _

/-- A client run alone as a program does what `runContainers` says. -/
theorem run_client (h : env.TupleLegal) (hrc : rc.OK) (p : CClient Prog β) (c₀ : CState) :
    ∀ n, packed (runContainers env rc P (p.at env) c₀ n) ((clientP env rc P p c₀.handles n).run env c₀.s)
  | 0 => rfl
  | n + 1 => by
    have ih := run_client h hrc p c₀ n
    simp only [runContainers, clientP]
    rw [Prog.run_bind]
    simp only [M.bind]
    cases h1 : runContainers env rc P (p.at env) c₀ n with
    | none =>
      rw [h1] at ih
      obtain ⟨k, ih⟩ := ih
      rw [ih]
      exact ⟨k, rfl⟩
    | some r =>
      obtain ⟨os, c⟩ := r
      rw [h1] at ih
      rw [show (clientP env rc P p c₀.handles n).run env c₀.s = .ret (os, c.handles) c.s from ih]
      simp only [Option.bind_some, CClient.at]
      cases p os with
      | none => rfl
      | some op =>
        have h2 := run_cstep (P := P) h hrc c op
        simp only [Option.map_some]
        rw [Prog.run_bind]
        simp only [M.bind]
        cases h3 : cstep env rc P c (op.at env) with
        | none =>
          rw [h3] at h2
          obtain ⟨k, h2⟩ := h2
          rw [h2]
          exact ⟨k, rfl⟩
        | some r =>
          obtain ⟨o, c'⟩ := r
          rw [h3] at h2
          rw [show (cstepP env rc P c.handles op).run env c.s = .ret (o, c'.handles) c'.s from h2]
          rfl

end Macro
end TB

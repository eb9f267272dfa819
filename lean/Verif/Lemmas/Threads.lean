import Verif.Spec.Threads
import Verif.Lemmas.Box
import Verif.Traits

/-!
# Lemmas: programs and interleavings
-/

set_option autoImplicit false

namespace TB

namespace Prog

variable {α β : Type} (env : Env)

theorem run_bind (p : Prog α) (f : α → Prog β) : (p.bind f).run env = M.bind (p.run env) (fun a => (f a).run env) := by
  have assoc : ∀ {A : Type} (m : M A) (g : A → M α), M.bind m (fun a => M.bind (g a) (fun a => (f a).run env)) =
      M.bind (M.bind m g) (fun a => (f a).run env) := by
    intro A m g
    funext s
    simp only [M.bind]
    cases m s <;> rfl
  induction p with
  | ret a => rfl
  | panic k => rfl
  | ub k => rfl
  | alloc size align next ih =>
    simp only [bind, run, ih]
    split
    · rfl
    · exact assoc _ _
  | dealloc a size align next ih => simp only [bind, run, ih]; exact assoc _ _
  | read sh a next ih =>
    simp only [bind, run, ih]
    split
    · exact assoc _ _
    · rfl
  | write sh a v next ih =>
    simp only [bind, run, ih]
    split
    · exact assoc _ _
    · rfl
  | log es next ih => simp only [bind, run, ih]; exact assoc _ _

/-! ### Single actions -/

theorem allocM_eq (size align : Nat) (s : State) :
    allocM env size align s = .ret (env.alloc s size align) (answered s size align (env.alloc s size align)) := by
  simp only [allocM, answered]
  split
  · rename_i h; rw [h]
  · rfl

theorem answered_trace (s : State) (size align a : Nat) :
    (answered s size align a).trace = s.trace ++ [if a = 0 then .allocNull size align else .alloc ⟨a, size, align⟩] := by
  unfold answered
  split <;> rfl

theorem deallocM_cases (a size align : Nat) (s : State) :
    (∃ k, deallocM a size align s = .ub k) ∨
    ((⟨a, size, align⟩ : Block) ∈ s.blocks ∧ deallocM a size align s =
      .ret () { s with blocks := s.blocks.erase ⟨a, size, align⟩, trace := s.trace ++ [.dealloc ⟨a, size, align⟩] }) := by
  unfold deallocM
  split
  · rename_i h; exact .inr ⟨h, rfl⟩
  · exact .inl ⟨_, rfl⟩

theorem ptrRead_cases (sh : Shape) (a : Nat) (s : State) :
    (∃ k, ptrRead sh a s = .ub k) ∨ (validPtr s a sh.size sh.align = true ∧ ptrRead sh a s = .ret (getVal s.mem a sh) s) := by
  unfold ptrRead
  split
  · rename_i h
    split
    · exact .inr ⟨h, rfl⟩
    · exact .inl ⟨_, rfl⟩
  · exact .inl ⟨_, rfl⟩

theorem ptrWrite_cases (sh : Shape) (a : Nat) (v : Val) (s : State) :
    (∃ k, ptrWrite sh a v s = .ub k) ∨
    (validPtr s a sh.size sh.align = true ∧ ptrWrite sh a v s = .ret () { s with mem := putVal s.mem a sh v }) := by
  unfold ptrWrite
  split
  · rename_i h; exact .inr ⟨h, rfl⟩
  · exact .inl ⟨_, rfl⟩

/-- A program has ended, is about to run into undefined behaviour, or does an action and goes on. -/
theorem run_cases (p : Prog α) (s : State) :
    Conf.Ended p ∨ (∃ k, p.run env s = .ub k) ∨
    (∃ size align next, p = .alloc size align next ∧ size ≠ 0 ∧
      p.run env s = (next (env.alloc s size align)).run env (answered s size align (env.alloc s size align))) ∨
    (∃ p' s', (∀ inRange, Act env inRange p s p' s') ∧ (∀ al, p.run (env.withAlloc al) s = p'.run (env.withAlloc al) s') ∧
      p.run env s = p'.run env s') := by
  cases p with
  | ret a => exact .inl trivial
  | panic k => exact .inl trivial
  | ub k => exact .inr (.inl ⟨k, rfl⟩)
  | alloc size align next =>
    by_cases h : size = 0
    · exact .inr (.inl ⟨_, by simp only [run, if_pos h]; rfl⟩)
    · refine .inr (.inr (.inl ⟨size, align, next, rfl, h, ?_⟩))
      simp only [run, if_neg h]
      exact M.bind_of_ret (allocM_eq env size align s)
  | dealloc a size align next =>
    rcases deallocM_cases a size align s with ⟨k, h⟩ | ⟨_, h⟩
    · exact .inr (.inl ⟨k, M.bind_of_ub h⟩)
    · exact .inr (.inr (.inr ⟨_, _, fun _ => .dealloc h, fun _ => M.bind_of_ret h, M.bind_of_ret h⟩))
  | read sh a next =>
    by_cases hb : sh.inBounds = true
    · simp only [run, if_pos hb]
      rcases ptrRead_cases sh a s with ⟨k, h⟩ | ⟨_, h⟩
      · exact .inr (.inl ⟨k, M.bind_of_ub h⟩)
      · exact .inr (.inr (.inr ⟨_, _, fun _ => .read hb h, fun _ => M.bind_of_ret h, M.bind_of_ret h⟩))
    · exact .inr (.inl ⟨_, by simp only [run, if_neg hb]; rfl⟩)
  | write sh a v next =>
    by_cases hb : sh.inBounds = true
    · simp only [run, if_pos hb]
      rcases ptrWrite_cases sh a v s with ⟨k, h⟩ | ⟨_, h⟩
      · exact .inr (.inl ⟨k, M.bind_of_ub h⟩)
      · exact .inr (.inr (.inr ⟨_, _, fun _ => .write hb h, fun _ => M.bind_of_ret h, M.bind_of_ret h⟩))
    · exact .inr (.inl ⟨_, by simp only [run, if_neg hb]; rfl⟩)
  | log es next => exact .inr (.inr (.inr ⟨_, _, fun _ => .log, fun _ => rfl, rfl⟩))

theorem act_mono {inRange : Bool} {p p' : Prog α} {s s' : State} (h : Act env inRange p s p' s') : s.trace <+: s'.trace := by
  cases h with
  | alloc h1 h2 => rw [answered_trace]; exact List.prefix_append _ _
  | dealloc h1 =>
    rename_i a size align
    rcases deallocM_cases a size align s with ⟨k, h⟩ | ⟨_, h⟩
    · rw [h] at h1; cases h1
    · rw [h] at h1; cases h1; exact List.prefix_append _ _
  | read _ h1 => rw [(ptrRead_ret_iff.1 h1).1]; exact List.prefix_refl _
  | write _ h1 =>
    rename_i sh a v _
    rcases ptrWrite_cases sh a v s with ⟨k, h⟩ | ⟨_, h⟩
    · rw [h] at h1; cases h1
    · rw [h] at h1; cases h1; exact List.prefix_refl _
  | log => exact List.prefix_append _ _

theorem run_cleanup (es : List Event) (p : Prog α) (s : State) : (p.cleanup es).run env s = M.cleanup es (p.run env) s := by
  have ret : ∀ {A : Type} {m : M A} {g g' : A → M α} {s a s'}, m s = .ret a s' → g' a s' = M.cleanup es (g a) s' →
      M.bind m g' s = M.cleanup es (M.bind m g) s := by
    intro A m g g' s a s' h h'
    simp only [M.bind, M.cleanup, h] at h' ⊢
    exact h'
  have ubb : ∀ {A : Type} {m : M A} {g g' : A → M α} {s k}, m s = .ub k → M.bind m g' s = M.cleanup es (M.bind m g) s := by
    intro A m g g' s k h
    simp only [M.bind, M.cleanup, h]
  induction p generalizing s with
  | ret a => rfl
  | panic k => rfl
  | ub k => rfl
  | alloc size align next ih =>
    simp only [cleanup, run]
    split
    · rfl
    · exact ret (allocM_eq env size align s) (ih _ _)
  | dealloc a size align next ih =>
    rcases deallocM_cases a size align s with ⟨k, h⟩ | ⟨_, h⟩
    · exact ubb h
    · exact ret h (ih _)
  | read sh a next ih =>
    simp only [cleanup, run]
    split
    · rcases ptrRead_cases sh a s with ⟨k, h⟩ | ⟨_, h⟩
      · exact ubb h
      · exact ret h (ih _ _)
    · rfl
  | write sh a v next ih =>
    simp only [cleanup, run]
    split
    · rcases ptrWrite_cases sh a v s with ⟨k, h⟩ | ⟨_, h⟩
      · exact ubb h
      · exact ret h (ih _)
    · rfl
  | log es next ih => exact ret rfl (ih _)

/-- The result of `observe`. -/
def observed (acc : List Event) (s : State) : Out α → Out (Except PanicKind α × List Event)
  | .ret a s' => .ret (.ok a, acc ++ s'.trace.drop s.trace.length) s'
  | .panic k s' => .ret (.error k, acc ++ s'.trace.drop s.trace.length) s'
  | .ub k => .ub k

/-- The outcome's trace continues that of `s`. -/
def Grows (s : State) : Out α → Prop
  | .ret _ s' => s.trace <+: s'.trace
  | .panic _ s' => s.trace <+: s'.trace
  | .ub _ => True

theorem Grows.step {s s' : State} {o : Out α} (h : s.trace <+: s'.trace) (g : Grows s' o) : Grows s o := by
  cases o with
  | ret a s'' => exact h.trans g
  | panic k s'' => exact h.trans g
  | ub k => trivial

theorem run_grows (p : Prog α) (s : State) : Grows s (p.run env s) := by
  induction p generalizing s with
  | ret a => exact List.prefix_refl _
  | panic k => exact List.prefix_refl _
  | ub k => trivial
  | alloc size align next ih =>
    simp only [run]
    split
    · trivial
    · rw [show M.bind (allocM env size align) (fun a => (next a).run env) s = _ from M.bind_of_ret (allocM_eq env size align s)]
      exact Grows.step (by rw [answered_trace]; exact List.prefix_append _ _) (ih _ _)
  | dealloc a size align next ih =>
    rcases deallocM_cases a size align s with ⟨k, h⟩ | ⟨_, h⟩
    · rw [show run env (.dealloc a size align next) s = _ from M.bind_of_ub h]; trivial
    · rw [show run env (.dealloc a size align next) s = _ from M.bind_of_ret h]
      exact Grows.step (List.prefix_append _ _) (ih _)
  | read sh a next ih =>
    simp only [run]
    split
    · rcases ptrRead_cases sh a s with ⟨k, h⟩ | ⟨_, h⟩
      · rw [show M.bind (ptrRead sh a) _ s = _ from M.bind_of_ub h]; trivial
      · rw [show M.bind (ptrRead sh a) _ s = _ from M.bind_of_ret h]; exact ih _ _
    · trivial
  | write sh a v next ih =>
    simp only [run]
    split
    · rcases ptrWrite_cases sh a v s with ⟨k, h⟩ | ⟨_, h⟩
      · rw [show M.bind (ptrWrite sh a v) _ s = _ from M.bind_of_ub h]; trivial
      · rw [show M.bind (ptrWrite sh a v) _ s = _ from M.bind_of_ret h]; exact Grows.step (List.prefix_refl _) (ih _)
    · trivial
  | log es next ih => exact Grows.step (List.prefix_append _ _) (ih _)

theorem observed_step {acc es : List Event} {s s' : State} {o : Out α} (h : s'.trace = s.trace ++ es) (g : Grows s' o) :
    observed (acc ++ es) s' o = observed acc s o := by
  have key : ∀ s'' : State, s'.trace <+: s''.trace → acc ++ es ++ s''.trace.drop s'.trace.length = acc ++ s''.trace.drop s.trace.length := by
    rintro s'' ⟨t, ht⟩
    rw [← ht, List.drop_left, h, List.append_assoc s.trace, List.drop_left, List.append_assoc]
  cases o with
  | ret a s'' => simp only [observed, key s'' g]
  | panic k s'' => simp only [observed, key s'' g]
  | ub k => rfl

theorem run_observe (p : Prog α) (acc : List Event) (s : State) :
    (p.observe acc).run env s = observed acc s (p.run env s) := by
  induction p generalizing s acc with
  | ret a => simp [observe, run, observed, M.pure]
  | panic k => simp [observe, run, observed, M.pure, M.panic]
  | ub k => rfl
  | alloc size align next ih =>
    simp only [observe, run]
    split
    · rfl
    · rw [show M.bind (allocM env size align) (fun a => (next a).run env) s = _ from M.bind_of_ret (allocM_eq env size align s),
        show M.bind (allocM env size align) _ s = _ from M.bind_of_ret (allocM_eq env size align s), ih,
        observed_step (answered_trace s size align _) (run_grows env _ _)]
  | dealloc a size align next ih =>
    rcases deallocM_cases a size align s with ⟨k, h⟩ | ⟨_, h⟩
    · rw [show run env (.dealloc a size align next) s = _ from M.bind_of_ub h,
        show run env (observe acc (.dealloc a size align next)) s = _ from M.bind_of_ub h]; rfl
    · rw [show run env (.dealloc a size align next) s = _ from M.bind_of_ret h,
        show run env (observe acc (.dealloc a size align next)) s = _ from M.bind_of_ret h, ih,
        observed_step rfl (run_grows env _ _)]
  | read sh a next ih =>
    simp only [observe, run]
    split
    · rcases ptrRead_cases sh a s with ⟨k, h⟩ | ⟨_, h⟩
      · rw [show M.bind (ptrRead sh a) (fun v => (next v).run env) s = _ from M.bind_of_ub h,
          show M.bind (ptrRead sh a) _ s = _ from M.bind_of_ub h]; rfl
      · rw [show M.bind (ptrRead sh a) (fun v => (next v).run env) s = _ from M.bind_of_ret h,
          show M.bind (ptrRead sh a) _ s = _ from M.bind_of_ret h]; exact ih _ _ _
    · rfl
  | write sh a v next ih =>
    simp only [observe, run]
    split
    · rcases ptrWrite_cases sh a v s with ⟨k, h⟩ | ⟨_, h⟩
      · rw [show M.bind (ptrWrite sh a v) (fun _ => next.run env) s = _ from M.bind_of_ub h,
          show M.bind (ptrWrite sh a v) _ s = _ from M.bind_of_ub h]; rfl
      · rw [show M.bind (ptrWrite sh a v) (fun _ => next.run env) s = _ from M.bind_of_ret h,
          show M.bind (ptrWrite sh a v) _ s = _ from M.bind_of_ret h, ih]
        rfl
    · rfl
  | log es next ih =>
    show (next.observe (acc ++ es)).run env (s.log es) = observed acc s (next.run env (s.log es))
    rw [ih, observed_step rfl (run_grows env _ _)]

end Prog

/-! ## Running alone -/

variable {env : Env} {inRange : Bool} {α : Type}

/-- An action other than an allocation does not depend on the allocator. -/
theorem act_run {p p' : Prog α} {s s' : State} (h : Act env inRange p s p' s') :
    (∀ al, p.run (env.withAlloc al) s = p'.run (env.withAlloc al) s') ∨
    ∃ size align next a, p = .alloc size align next ∧ p' = next a ∧ s' = answered s size align a ∧ size ≠ 0 ∧
      Answer env inRange s.blocks size align a ∧
      ∀ al, al s size align = a → p.run (env.withAlloc al) s = p'.run (env.withAlloc al) s' := by
  cases h with
  | alloc h1 h2 =>
    refine .inr ⟨_, _, _, _, rfl, rfl, rfl, h1, h2, fun al e => ?_⟩
    simp only [Prog.run, if_neg h1]
    refine (M.bind_of_ret (Prog.allocM_eq _ _ _ s)).trans ?_
    rw [show (env.withAlloc al).alloc s _ _ = _ from e]
  | dealloc h1 => exact .inl fun al => M.bind_of_ret h1
  | read hb h1 => exact .inl fun al => by simp only [Prog.run, if_pos hb]; exact M.bind_of_ret h1
  | write hb h1 => exact .inl fun al => by simp only [Prog.run, if_pos hb]; exact M.bind_of_ret h1
  | log => exact .inl fun al => rfl

open Classical in
/-- The allocator's answers on the way can be given by a lawful allocator. -/
theorem Solo.alloc {p p' : Prog α} {s s' : State} (h : Solo env inRange p s p' s') :
    ∃ al, AllocOK env inRange al ∧
      ∀ al', (∀ t : State, t.trace.length < s'.trace.length → al' t = al t) →
        p.run (env.withAlloc al') s = p'.run (env.withAlloc al') s' := by
  induction h with
  | refl => exact ⟨fun _ _ _ => 0, ⟨fun _ _ _ _ h => absurd rfl h, fun _ _ _ _ => Nat.two_pow_pos _⟩, fun _ _ => rfl⟩
  | @step p₁ s₁ p₂ s₂ _ ha ih =>
    obtain ⟨al, hal, hrun⟩ := ih
    have hm := (Prog.act_mono env ha).length_le
    rcases act_run ha with h1 | ⟨size, align, next, a, rfl, rfl, rfl, hs, hans, h1⟩
    · exact ⟨al, hal, fun al' h => (hrun al' (fun t ht => h t (by omega))).trans (h1 al')⟩
    · refine ⟨fun t sz ag => if t = s₁ ∧ sz = size ∧ ag = align then a else al t sz ag, ⟨?_, ?_⟩, fun al' h => ?_⟩
      · intro t sz ag hz hne
        simp only [Env.withAlloc] at hne ⊢
        split at hne
        · rename_i e
          obtain ⟨rfl, rfl, rfl⟩ := e
          simp only [and_self, if_true]
          rcases hans with h0 | ⟨a1, a2, a3, _⟩
          · exact absurd h0 hne
          · exact ⟨a1, a2, a3⟩
        · rename_i e
          rw [if_neg e]
          exact hal.1 t sz ag hz hne
      · intro hr t sz ag
        show (if _ then _ else _) < _
        split
        · rcases hans with rfl | ⟨_, _, _, a4⟩
          · exact Nat.two_pow_pos _
          · exact a4 hr
        · exact hal.2 hr t sz ag
      · have hl : s₁.trace.length < (answered s₁ size align a).trace.length := by rw [Prog.answered_trace]; simp
        refine (hrun al' (fun t ht => ?_)).trans (h1 al' ?_)
        · rw [h t (by omega)]
          funext sz ag
          exact if_neg (fun e => by rw [e.1] at ht; omega)
        · rw [h s₁ hl]
          exact if_pos ⟨rfl, rfl, rfl⟩

/-- Where a safe program has got to. -/
theorem Solo.run {p p' : Prog α} {s s' : State} (h : Solo env inRange p s p' s') :
    ∃ al, AllocOK env inRange al ∧ p.run (env.withAlloc al) s = p'.run (env.withAlloc al) s' := by
  obtain ⟨al, h1, h2⟩ := h.alloc
  exact ⟨al, h1, h2 al (fun _ _ => rfl)⟩

/-- A safe program that has not ended can do an action. -/
theorem Solo.progress {p p' : Prog α} {s s' : State} (hs : Safe env inRange p s) (h : Solo env inRange p s p' s')
    (he : ¬ Conf.Ended p') : ∃ p'' s'', Act env inRange p' s' p'' s'' := by
  obtain ⟨al, h1, h2⟩ := h.run
  rcases Prog.run_cases (env.withAlloc al) p' s' with h3 | ⟨k, h3⟩ | ⟨size, align, next, rfl, hz, _⟩ | ⟨p'', s'', h3, _⟩
  · exact absurd h3 he
  · exact absurd (h2.trans h3) (hs al h1 k)
  · exact ⟨_, _, .alloc hz (.inl rfl)⟩
  · have := h3 inRange
    refine ⟨p'', s'', ?_⟩
    cases this with
    | alloc a b => exact .alloc a b
    | dealloc a => exact .dealloc a
    | read a b => exact .read a b
    | write a b => exact .write a b
    | log => exact .log

/-! ## Locality of actions -/

theorem getVal_local {sh : Shape} (hb : sh.inBounds = true) {m m' : Nat → MByte} {a : Nat}
    (h : ∀ x, a ≤ x → x < a + sh.size → m x = m' x) : getVal m a sh = getVal m' a sh := by
  unfold getVal
  apply List.map_congr_left
  intro f hf
  have := List.all_eq_true.1 hb f hf
  simp only [decide_eq_true_eq] at this
  exact readBytes_congr (fun i h1 h2 => h i (by omega) (by omega))

theorem putFields_local : ∀ (fs : List (Nat × Leaf)) (v : Val) (m m' : Nat → MByte) (a n x : Nat),
    (fs.all (fun f => decide (f.1 + f.2.size ≤ n))) = true →
    (m x = m' x → putFields m a fs v x = putFields m' a fs v x) ∧
    (x < a ∨ a + n ≤ x → putFields m a fs v x = m x)
  | [], _, _, _, _, _, _, _ => ⟨fun h => h, fun _ => rfl⟩
  | _ :: _, [], _, _, _, _, _, _ => ⟨fun h => h, fun _ => rfl⟩
  | f :: fs, y :: v, m, m', a, n, x, h => by
    simp only [List.all_cons, Bool.and_eq_true, decide_eq_true_eq] at h
    have ih := putFields_local fs v (overlay m (a + f.1) (y.take f.2.size)) (overlay m' (a + f.1) (y.take f.2.size)) a n x h.2
    refine ⟨fun e => ih.1 ?_, fun hx => (ih.2 hx).trans (overlay_out (by rw [List.length_take]; omega))⟩
    unfold overlay
    split
    · rfl
    · exact e

theorem putVal_local {sh : Shape} {v : Val} (hf : sh.inBounds = true) (m m' : Nat → MByte) (a x : Nat) :
    (a ≤ x ∧ x < a + sh.size → putVal m a sh v x = putVal m' a sh v x) ∧
    (m x = m' x → putVal m a sh v x = putVal m' a sh v x) ∧
    (x < a ∨ a + sh.size ≤ x → putVal m a sh v x = m x) := by
  have key := putFields_local sh.fields v (overlay m a (List.replicate sh.size none)) (overlay m' a (List.replicate sh.size none))
    a sh.size x hf
  refine ⟨fun h => key.1 ?_, fun h => key.1 ?_, fun h => (key.2 h).trans (overlay_out (by simpa using h))⟩
  · simp [overlay, h]
  · unfold overlay
    split
    · rfl
    · exact h

/-! ## Interleavings -/

namespace Conf

variable {ι : Type} [DecidableEq ι] {β : ι → Type}

theorem setAt_same {γ : ι → Type} (f : (i : ι) → γ i) (i : ι) (x : γ i) : setAt f i x i = x := by simp [setAt]

theorem setAt_ne {γ : ι → Type} (f : (i : ι) → γ i) {i j : ι} (x : γ i) (h : j ≠ i) : setAt f i x j = f j := by simp [setAt, h]

theorem Sharing.update {C : Conf ι β} {shared : List Block} {L : ι → State} (h : C.Sharing env shared L) (i : ι) (p : Prog (β i)) {s l : State}
    (hs : HeapInv env s) (hl : HeapInv env l) (sub : ∀ b ∈ l.blocks, b ∈ s.blocks)
    (others : ∀ j, j ≠ i → ∀ b ∈ (L j).blocks, b ∈ s.blocks ∧ (b ∈ l.blocks → b ∈ shared) ∧
      ∀ x, b.base ≤ x → x < b.base + b.size → s.mem x = C.mem x)
    (bytes : ∀ b ∈ l.blocks, ∀ x, b.base ≤ x → x < b.base + b.size → s.mem x = l.mem x) (tr : s.trace = l.trace) :
    (C.update i p s).Sharing env shared (setAt L i l) where
  inv := ⟨hs.block, hs.disjoint⟩
  own j := by
    by_cases e : j = i
    · subst e; rw [setAt_same]; exact hl
    · rw [setAt_ne _ _ e]; exact h.own j
  sub j b hb := by
    by_cases e : j = i
    · subst e; rw [setAt_same] at hb; exact sub b hb
    · rw [setAt_ne _ _ e] at hb; exact (others j e b hb).1
  apart j k hne b hb := by
    by_cases e : j = i
    · subst e
      rw [setAt_same] at hb
      rw [setAt_ne _ _ (Ne.symm hne)]
      exact fun hb' => (others k (Ne.symm hne) b hb').2.1 hb
    · rw [setAt_ne _ _ e] at hb
      by_cases e' : k = i
      · subst e'; rw [setAt_same]; exact (others j e b hb).2.1
      · rw [setAt_ne _ _ e']; exact h.apart j k hne b hb
  bytes j b hb x h1 h2 := by
    by_cases e : j = i
    · subst e; rw [setAt_same] at hb ⊢; exact bytes b hb x h1 h2
    · rw [setAt_ne _ _ e] at hb ⊢
      exact ((others j e b hb).2.2 x h1 h2).trans (h.bytes j b hb x h1 h2)
  trace j := by
    show setAt C.trace i s.trace j = _
    by_cases e : j = i
    · subst e; rw [setAt_same, setAt_same]; exact tr
    · rw [setAt_ne _ _ e, setAt_ne _ _ e]; exact h.trace j

theorem answered_inv {s : State} (h : HeapInv env s) {size align a : Nat} (hz : size ≠ 0)
    (ha : Answer env inRange s.blocks size align a) : HeapInv env (answered s size align a) := by
  unfold answered
  split
  · exact h.log _
  · rename_i hne
    rcases ha with h0 | ⟨a1, a2, a3, _⟩
    · exact absurd h0 hne
    · refine ⟨?_, ?_⟩
      · intro b hb
        rcases List.mem_cons.1 hb with rfl | hb
        · exact ⟨hne, by show 0 < size; omega, a2, a1⟩
        · exact h.block b hb
      · exact List.pairwise_cons.2 ⟨a3, h.disjoint⟩

theorem Answer.sub {bs bs' : List Block} {size align a : Nat} (h : Answer env inRange bs size align a)
    (hs : ∀ b ∈ bs', b ∈ bs) : Answer env inRange bs' size align a := by
  rcases h with h | ⟨a1, a2, a3, a4⟩
  · exact .inl h
  · exact .inr ⟨a1, a2, fun b hb => a3 b (hs b hb), a4⟩

/-- What an action of thread `i` does to the heap, it does to the thread's part; the other parts stay as they are. -/
theorem Sharing.act {C : Conf ι β} {shared : List Block} {L : ι → State} (h : C.Sharing env shared L) (i : ι) {p : Prog (β i)} {s : State}
    (ha : Act env inRange (C.prog i) (C.view i) p s) (hl : ∃ p' l, Act env inRange (C.prog i) (L i) p' l)
    (hsp : ∀ a n, access (C.prog i) = some (a, n, true) → ∀ b ∈ shared, ∀ x, a ≤ x → x < a + n → ¬ (b.base ≤ x ∧ x < b.base + b.size)) :
    ∃ l, Act env inRange (C.prog i) (L i) p l ∧ (C.update i p s).Sharing env shared (setAt L i l) := by
  generalize hp : C.prog i = q at ha hl hsp
  have hv : HeapInv env (C.view i) := ⟨h.inv.block, h.inv.disjoint⟩
  have htr : (C.view i).trace = (L i).trace := h.trace i
  cases ha with
  | @alloc _ size align next a hz hans =>
    have hans' : Answer env inRange (L i).blocks size align a := Answer.sub hans (h.sub i)
    refine ⟨_, .alloc hz hans', h.update i _ (answered_inv hv hz hans) (answered_inv (h.own i) hz hans') ?_ ?_ ?_ ?_⟩
    · unfold answered
      split
      · exact h.sub i
      · intro b hb
        rcases List.mem_cons.1 hb with rfl | hb
        · exact List.mem_cons_self
        · exact List.mem_cons_of_mem _ (h.sub i b hb)
    · intro j hj b hb
      have hbC := h.sub j b hb
      unfold answered
      split
      · exact ⟨hbC, h.apart j i hj b hb, fun _ _ _ => rfl⟩
      · rename_i hne
        rcases hans with h0 | ⟨_, _, a3, _⟩
        · exact absurd h0 hne
        · have hd := a3 b hbC
          have hpos := (h.inv.block b hbC).2.1
          simp only [Block.Disjoint] at hd
          refine ⟨List.mem_cons_of_mem _ hbC, ?_, fun x h1 h2 => ?_⟩
          · intro hb'
            rcases List.mem_cons.1 hb' with rfl | hb'
            · simp only at hd hpos; omega
            · exact h.apart j i hj b hb hb'
          · exact overlay_out (by simp only [List.length_replicate]; omega)
    · intro b hb x h1 h2
      unfold answered at hb ⊢
      split at hb
      · rename_i h0
        rw [if_pos h0, if_pos h0]; exact h.bytes i b hb x h1 h2
      · rename_i h0
        rw [if_neg h0, if_neg h0]
        simp only [overlay]
        split
        · rfl
        · rename_i hx
          rcases List.mem_cons.1 hb with rfl | hb
          · simp only [List.length_replicate] at hx h1 h2
            exact absurd ⟨h1, h2⟩ hx
          · exact h.bytes i b hb x h1 h2
    · rw [Prog.answered_trace, Prog.answered_trace, htr]
  | @dealloc _ _ a size align next h1 =>
    obtain ⟨p', l, hl⟩ := hl
    cases hl with
    | dealloc h2 =>
      rcases Prog.deallocM_cases a size align (L i) with ⟨k, h3⟩ | ⟨hm, h3⟩
      · rw [h3] at h2; cases h2
      rcases Prog.deallocM_cases a size align (C.view i) with ⟨k, h4⟩ | ⟨hm', h4⟩
      · rw [h4] at h1; cases h1
      rw [h4] at h1
      cases h1
      refine ⟨_, .dealloc h3, h.update i p (freedState_inv hv _) (freedState_inv (h.own i) _) ?_ ?_ ?_ ?_⟩
      · intro b hb
        have hnd : (L i).blocks.Nodup := (h.own i).disjoint.imp_of_mem (by
          intro x y hx _ hd e
          subst e
          have := ((h.own i).block x hx).2.1
          simp only [Block.Disjoint] at hd
          omega)
        rw [hnd.mem_erase_iff] at hb
        exact (List.mem_erase_of_ne hb.1).2 (h.sub i b hb.2)
      · intro j hj b hb
        have hne : b ≠ ⟨a, size, align⟩ := fun e => by
          have hsh := h.apart j i hj b hb (e ▸ hm)
          have hpos := (h.inv.block b (h.sub j b hb)).2.1
          subst e
          exact hsp a size rfl _ hsh a (Nat.le_refl _) (by simp only at hpos; omega) ⟨Nat.le_refl _, by simp only at hpos ⊢; omega⟩
        exact ⟨(List.mem_erase_of_ne hne).2 (h.sub j b hb), fun hb' => h.apart j i hj b hb (List.mem_of_mem_erase hb'),
          fun _ _ _ => rfl⟩
      · intro b hb x h1 h2
        exact h.bytes i b (List.mem_of_mem_erase hb) x h1 h2
      · show _ ++ _ = _ ++ _
        rw [htr]
  | @read _ _ sh a next v hb h1 =>
    obtain ⟨p', l, hl⟩ := hl
    cases hl with
    | read _ h2 =>
      rcases Prog.ptrRead_cases sh a (L i) with ⟨k, h3⟩ | ⟨hm, h3⟩
      · rw [h3] at h2; cases h2
      rcases Prog.ptrRead_cases sh a (C.view i) with ⟨k, h4⟩ | ⟨hm', h4⟩
      · rw [h4] at h1; cases h1
      rw [h4] at h1
      cases h1
      have e : getVal (C.view i).mem a sh = getVal (L i).mem a sh := by
        refine getVal_local hb (fun x h1 h2 => ?_)
        rcases (validPtr_iff.1 hm).2.2 with h0 | ⟨b, hbm, h5, h6⟩
        · omega
        · exact h.bytes i b hbm x (by omega) (by omega)
      rw [e]
      refine ⟨_, .read hb h3, h.update i _ hv (h.own i) (h.sub i) ?_ (h.bytes i) htr⟩
      exact fun j hj b hb => ⟨h.sub j b hb, h.apart j i hj b hb, fun _ _ _ => rfl⟩
  | @write _ _ sh a v next hb h1 =>
    obtain ⟨p', l, hl⟩ := hl
    cases hl with
    | write _ h2 =>
      rcases Prog.ptrWrite_cases sh a v (L i) with ⟨k, h3⟩ | ⟨hm, h3⟩
      · rw [h3] at h2; cases h2
      rcases Prog.ptrWrite_cases sh a v (C.view i) with ⟨k, h4⟩ | ⟨hm', h4⟩
      · rw [h4] at h1; cases h1
      rw [h4] at h1
      cases h1
      refine ⟨_, .write hb h3, h.update i p ⟨hv.block, hv.disjoint⟩ ⟨(h.own i).block, (h.own i).disjoint⟩ (h.sub i) ?_ ?_ htr⟩
      · intro j hj b hbj
        refine ⟨h.sub j b hbj, h.apart j i hj b hbj, fun x h1 h2 => ?_⟩
        refine (putVal_local hb _ (fun _ => none) a x).2.2 ?_
        rcases (validPtr_iff.1 hm).2.2 with h0 | ⟨b', hbm, h5, h6⟩
        · omega
        · rcases h.inv.eq_or_disjoint (h.sub j b hbj) (h.sub i b' hbm) with e | hd
          · subst e
            have := hsp a sh.size rfl b (h.apart j i hj b hbj hbm) x
            omega
          · simp only [Block.Disjoint] at hd
            omega
      · intro b hbi x h1 h2
        exact (putVal_local hb _ _ a x).2.1 (h.bytes i b hbi x h1 h2)
  | log =>
    refine ⟨_, .log, h.update i p (hv.log _) ((h.own i).log _) (h.sub i) ?_ (h.bytes i) ?_⟩
    · exact fun j hj b hb => ⟨h.sub j b hb, h.apart j i hj b hb, fun _ _ _ => rfl⟩
    · show _ ++ _ = _ ++ _
      rw [htr]

omit [DecidableEq ι] in
/-- Whatever thread `i` can do in its part, it can do in the heap. -/
theorem Sharing.can {C : Conf ι β} {shared : List Block} {L : ι → State} (h : C.Sharing env shared L) (i : ι)
    (hl : ∃ p' l, Act env inRange (C.prog i) (L i) p' l) : ∃ p s, Act env inRange (C.prog i) (C.view i) p s := by
  obtain ⟨p', l, hl⟩ := hl
  have valid : ∀ {a size align}, validPtr (L i) a size align = true → validPtr (C.view i) a size align = true := by
    intro a size align hv
    rw [validPtr_iff] at hv ⊢
    refine ⟨hv.1, hv.2.1, ?_⟩
    rcases hv.2.2 with h0 | ⟨b, hb, h1⟩
    · exact .inl h0
    · exact .inr ⟨b, h.sub i b hb, h1⟩
  generalize C.prog i = q at hl ⊢
  cases hl with
  | alloc hz _ => exact ⟨_, _, .alloc hz (.inl rfl)⟩
  | @dealloc _ _ a size align next h1 =>
    rcases Prog.deallocM_cases a size align (L i) with ⟨k, h3⟩ | ⟨hm, h3⟩
    · rw [h3] at h1; cases h1
    · exact ⟨_, _, .dealloc (deallocM_ret (s := C.view i) (h.sub i _ hm))⟩
  | @read _ _ sh a next v hb h1 =>
    rcases Prog.ptrRead_cases sh a (L i) with ⟨k, h3⟩ | ⟨hm, h3⟩
    · rw [h3] at h1; cases h1
    have e : getVal (C.view i).mem a sh = getVal (L i).mem a sh := by
      refine getVal_local hb (fun x h1 h2 => ?_)
      rcases (validPtr_iff.1 hm).2.2 with h0 | ⟨b, hbm, h5, h6⟩
      · omega
      · exact h.bytes i b hbm x (by omega) (by omega)
    have hfv : fieldsValid sh (getVal (L i).mem a sh) = true := by
      unfold ptrRead at h3
      rw [if_pos hm] at h3
      by_cases hf : fieldsValid sh (getVal (L i).mem a sh) = true
      · exact hf
      · rw [if_neg hf] at h3; cases h3
    refine ⟨_, _, .read hb (v := getVal (C.view i).mem a sh) (s' := C.view i) ?_⟩
    unfold ptrRead
    rw [if_pos (valid hm), e, if_pos hfv]
  | @write _ _ sh a v next hb h1 =>
    rcases Prog.ptrWrite_cases sh a v (L i) with ⟨k, h3⟩ | ⟨hm, h3⟩
    · rw [h3] at h1; cases h1
    · exact ⟨_, _, .write hb (ptrWrite_ret (valid hm))⟩
  | log => exact ⟨_, _, .log⟩

/-- What the next action accesses belongs to the thread's part. -/
theorem access_own {α : Type} {p p' : Prog α} {l l' : State} (h : Act env inRange p l p' l') {a n : Nat} {w : Bool}
    (ha : access p = some (a, n, w)) {x : Nat} (h1 : a ≤ x) (h2 : x < a + n) :
    ∃ b ∈ l.blocks, b.base ≤ x ∧ x < b.base + b.size := by
  have valid : ∀ {sh : Shape} {a}, validPtr l a sh.size sh.align = true → a ≤ x → x < a + sh.size →
      ∃ b ∈ l.blocks, b.base ≤ x ∧ x < b.base + b.size := by
    intro sh a hv h1 h2
    rcases (validPtr_iff.1 hv).2.2 with h0 | ⟨b, hb, h3, h4⟩
    · omega
    · exact ⟨b, hb, by omega, by omega⟩
  cases h with
  | alloc => cases ha
  | @dealloc _ _ a size align next h3 =>
    rcases Prog.deallocM_cases a size align l with ⟨k, h4⟩ | ⟨hm, h4⟩
    · rw [h4] at h3; cases h3
    · cases ha; exact ⟨_, hm, h1, h2⟩
  | @read _ _ sh a next v hb h3 =>
    rcases Prog.ptrRead_cases sh a l with ⟨k, h4⟩ | ⟨hm, h4⟩
    · rw [h4] at h3; cases h3
    · cases ha; exact valid hm h1 h2
  | @write _ _ sh a v next hb h3 =>
    rcases Prog.ptrWrite_cases sh a v l with ⟨k, h4⟩ | ⟨hm, h4⟩
    · rw [h4] at h3; cases h3
    · cases ha; exact valid hm h1 h2
  | log => cases ha

/-- Invariant of all interleavings of safe programs. -/
theorem reach_inv {C C' : Conf ι β} {shared : List Block} {L : ι → State} (h : C.Sharing env shared L)
    (safe : ∀ i, Safe env inRange (C.prog i) (L i)) (spares : ∀ i, Spares env inRange shared (C.prog i) (L i))
    (hr : Reach env inRange C C') :
    ∃ L', C'.Sharing env shared L' ∧ ∀ i, Solo env inRange (C.prog i) (L i) (C'.prog i) (L' i) := by
  induction hr with
  | refl => exact ⟨L, h, fun _ => .refl⟩
  | @step C' i p s _ ha ih =>
    obtain ⟨L', hp, hs⟩ := ih
    have hne : ¬ Ended (C'.prog i) := by
      intro he
      generalize C'.prog i = q at ha he
      cases ha <;> cases he
    obtain ⟨l, hl, hp'⟩ := hp.act i ha ((hs i).progress (safe i) hne) (spares i _ _ (hs i))
    refine ⟨_, hp', fun j => ?_⟩
    show Solo env inRange (C.prog j) (L j) (setAt C'.prog i p j) (setAt L' i l j)
    by_cases e : j = i
    · subst e; rw [setAt_same, setAt_same]; exact (hs j).step hl
    · rw [setAt_ne _ _ e, setAt_ne _ _ e]; exact hs j

omit [DecidableEq ι] in
theorem Parts.sharing {C : Conf ι β} {L : ι → State} (h : C.Parts env L) : C.Sharing env [] L :=
  ⟨h.inv, h.own, h.sub, fun i j hij b h1 h2 => absurd h2 (h.apart i j hij b h1), h.bytes, h.trace⟩

theorem spares_nil {α : Type} (p : Prog α) (s : State) : Spares env inRange [] p s := fun _ _ _ _ _ _ b hb => by cases hb

/-- Actions that spare live blocks leave them as they are. -/
theorem act_keeps {α : Type} {F : List Block} {p p' : Prog α} {s s' : State} (ha : Act env inRange p s p' s') (hi : HeapInv env s)
    (hF : ∀ b ∈ F, b ∈ s.blocks)
    (hsp : ∀ a n, access p = some (a, n, true) → ∀ b ∈ F, ∀ x, a ≤ x → x < a + n → ¬ (b.base ≤ x ∧ x < b.base + b.size)) :
    HeapInv env s' ∧ ∀ b ∈ F, b ∈ s'.blocks ∧ ∀ x, b.base ≤ x → x < b.base + b.size → s'.mem x = s.mem x := by
  cases ha with
  | @alloc _ size align next a hz hans =>
    refine ⟨answered_inv hi hz hans, fun b hb => ?_⟩
    unfold answered
    split
    · exact ⟨hF b hb, fun _ _ _ => rfl⟩
    · rename_i hne
      rcases hans with h0 | ⟨_, _, a3, _⟩
      · exact absurd h0 hne
      · have hd := a3 b (hF b hb)
        simp only [Block.Disjoint] at hd
        exact ⟨List.mem_cons_of_mem _ (hF b hb), fun x h1 h2 => overlay_out (by simp only [List.length_replicate]; omega)⟩
  | @dealloc _ _ a size align next h1 =>
    rcases Prog.deallocM_cases a size align s with ⟨k, h3⟩ | ⟨hm, h3⟩
    · rw [h3] at h1; cases h1
    · rw [h3] at h1
      cases h1
      refine ⟨freedState_inv hi _, fun b hb => ⟨(List.mem_erase_of_ne ?_).2 (hF b hb), fun _ _ _ => rfl⟩⟩
      intro e
      have hpos := (hi.block b (hF b hb)).2.1
      subst e
      exact hsp a size rfl _ hb a (Nat.le_refl _) (by simp only at hpos; omega) ⟨Nat.le_refl _, by simp only at hpos ⊢; omega⟩
  | @read _ _ sh a next v hb h1 =>
    rcases Prog.ptrRead_cases sh a s with ⟨k, h3⟩ | ⟨hm, h3⟩
    · rw [h3] at h1; cases h1
    · rw [h3] at h1; cases h1; exact ⟨hi, fun b hb => ⟨hF b hb, fun _ _ _ => rfl⟩⟩
  | @write _ _ sh a v next hb h1 =>
    rcases Prog.ptrWrite_cases sh a v s with ⟨k, h3⟩ | ⟨hm, h3⟩
    · rw [h3] at h1; cases h1
    · rw [h3] at h1
      cases h1
      refine ⟨⟨hi.block, hi.disjoint⟩, fun b hbF => ⟨hF b hbF, fun x h1 h2 => (putVal_local hb _ (fun _ => none) a x).2.2 ?_⟩⟩
      have := hsp a sh.size rfl b hbF x
      omega
  | log => exact ⟨hi.log _, fun b hb => ⟨hF b hb, fun _ _ _ => rfl⟩⟩

/-- The shared blocks stay as they are. -/
theorem reach_shared {C C' : Conf ι β} {shared : List Block} {L : ι → State} (h : C.Sharing env shared L)
    (safe : ∀ i, Safe env inRange (C.prog i) (L i)) (spares : ∀ i, Spares env inRange shared (C.prog i) (L i))
    (hF : ∀ b ∈ shared, b ∈ C.blocks) (hr : Reach env inRange C C') :
    ∀ b ∈ shared, b ∈ C'.blocks ∧ ∀ x, b.base ≤ x → x < b.base + b.size → C'.mem x = C.mem x := by
  induction hr with
  | refl => exact fun b hb => ⟨hF b hb, fun _ _ _ => rfl⟩
  | @step C' i p s hr ha ih =>
    obtain ⟨L', hp, hs⟩ := reach_inv h safe spares hr
    have hi : HeapInv env (C'.view i) := ⟨hp.inv.block, hp.inv.disjoint⟩
    have h1 := (act_keeps ha hi (fun b hb => (ih b hb).1) (spares i _ _ (hs i))).2
    exact fun b hb => ⟨(h1 b hb).1, fun x x1 x2 => ((h1 b hb).2 x x1 x2).trans ((ih b hb).2 x x1 x2)⟩

/-! ## Programs that spare what was there when they started -/

/-- `Spares`, by recursion on the program. -/
def Tame (env : Env) (inRange : Bool) (F : List Block) {α : Type} : Prog α → State → Prop
  | .ret _, _ => True
  | .panic _, _ => True
  | .ub _, _ => True
  | .alloc size align next, s => size ≠ 0 → ∀ a, Answer env inRange s.blocks size align a →
      Tame env inRange F (next a) (answered s size align a)
  | .dealloc a size align next, s => (∀ b ∈ F, ∀ x, a ≤ x → x < a + size → ¬ (b.base ≤ x ∧ x < b.base + b.size)) ∧
      ∀ s', deallocM a size align s = .ret () s' → Tame env inRange F next s'
  | .read sh a next, s => sh.inBounds = true → ∀ v s', ptrRead sh a s = .ret v s' → Tame env inRange F (next v) s'
  | .write sh a v next, s => (∀ b ∈ F, ∀ x, a ≤ x → x < a + sh.size → ¬ (b.base ≤ x ∧ x < b.base + b.size)) ∧
      (sh.inBounds = true → ∀ s', ptrWrite sh a v s = .ret () s' → Tame env inRange F next s')
  | .log es next, s => Tame env inRange F next (s.log es)

theorem Tame.access {F : List Block} {α : Type} {p : Prog α} {s : State} (h : Tame env inRange F p s) {a n : Nat}
    (ha : access p = some (a, n, true)) : ∀ b ∈ F, ∀ x, a ≤ x → x < a + n → ¬ (b.base ≤ x ∧ x < b.base + b.size) := by
  cases p <;> cases ha
  · exact h.1
  · exact h.1

theorem Tame.act {F : List Block} {α : Type} {p p' : Prog α} {s s' : State} (h : Tame env inRange F p s)
    (ha : Act env inRange p s p' s') : Tame env inRange F p' s' := by
  cases ha with
  | alloc hz hans => exact h hz _ hans
  | dealloc h1 => exact h.2 _ h1
  | read hb h1 => exact h hb _ _ h1
  | write hb h1 => exact h.2 hb _ h1
  | log => exact h

theorem Tame.spares {F : List Block} {α : Type} {p : Prog α} {s : State} (h : Tame env inRange F p s) :
    Spares env inRange F p s := by
  have key : ∀ p' s', Solo env inRange p s p' s' → Tame env inRange F p' s' := by
    intro p' s' hs
    induction hs with
    | refl => exact h
    | step _ ha ih => exact ih.act ha
  exact fun p' s' hs a n ha => (key p' s' hs).access ha

theorem Solo.cons {α : Type} {p p' q : Prog α} {s s' t : State} (ha : Act env inRange p s p' s') (h : Solo env inRange p' s' q t) :
    Solo env inRange p s q t := by
  induction h with
  | refl => exact .step .refl ha
  | step _ hb ih => exact .step ih hb

theorem Tame.of_spares {F : List Block} {α : Type} (p : Prog α) : ∀ s, Spares env inRange F p s → Tame env inRange F p s := by
  have tail : ∀ {p p' : Prog α} {s s' : State}, Act env inRange p s p' s' → Spares env inRange F p s → Spares env inRange F p' s' :=
    fun ha h q t hs => h q t (Solo.cons ha hs)
  induction p with
  | ret _ => exact fun _ _ => trivial
  | panic _ => exact fun _ _ => trivial
  | ub _ => exact fun _ _ => trivial
  | alloc size align next ih => exact fun s h hz a ha => ih a _ (tail (.alloc hz ha) h)
  | dealloc a size align next ih => exact fun s h => ⟨h _ _ .refl _ _ rfl, fun s' h1 => ih _ (tail (.dealloc h1) h)⟩
  | read sh a next ih => exact fun s h hb v s' h1 => ih v _ (tail (.read hb h1) h)
  | write sh a v next ih => exact fun s h => ⟨h _ _ .refl _ _ rfl, fun hb s' h1 => ih _ (tail (.write hb h1) h)⟩
  | log es next ih => exact fun s h => ih _ (tail .log h)

theorem Tame.bind {F : List Block} {α γ : Type} {f : α → Prog γ}
    (hf : ∀ a s, HeapInv env s → (∀ b ∈ F, b ∈ s.blocks) → Tame env inRange F (f a) s) (p : Prog α) :
    ∀ s, HeapInv env s → (∀ b ∈ F, b ∈ s.blocks) → Tame env inRange F p s → Tame env inRange F (p.bind f) s := by
  have next : ∀ {p p' : Prog α} {s s' : State}, HeapInv env s → (∀ b ∈ F, b ∈ s.blocks) → Tame env inRange F p s →
      Act env inRange p s p' s' → HeapInv env s' ∧ (∀ b ∈ F, b ∈ s'.blocks) := by
    intro p p' s s' hi hF h ha
    have := act_keeps ha hi hF (fun a n e => h.access e)
    exact ⟨this.1, fun b hb => (this.2 b hb).1⟩
  induction p with
  | ret a => exact fun s hi hF _ => hf a s hi hF
  | panic _ => exact fun _ _ _ _ => trivial
  | ub _ => exact fun _ _ _ _ => trivial
  | alloc size align nxt ih =>
    intro s hi hF h hz a ha
    obtain ⟨i1, i2⟩ := next hi hF h (.alloc hz ha)
    exact ih a _ i1 i2 (h hz a ha)
  | dealloc a size align nxt ih =>
    intro s hi hF h
    refine ⟨h.1, fun s' h1 => ?_⟩
    obtain ⟨i1, i2⟩ := next hi hF h (.dealloc h1)
    exact ih _ i1 i2 (h.2 s' h1)
  | read sh a nxt ih =>
    intro s hi hF h hb v s' h1
    obtain ⟨i1, i2⟩ := next hi hF h (.read hb h1)
    exact ih v _ i1 i2 (h hb v s' h1)
  | write sh a v nxt ih =>
    intro s hi hF h
    refine ⟨h.1, fun hb s' h1 => ?_⟩
    obtain ⟨i1, i2⟩ := next hi hF h (.write hb h1)
    exact ih _ i1 i2 (h.2 hb s' h1)
  | log es nxt ih =>
    intro s hi hF h
    obtain ⟨i1, i2⟩ := next hi hF h .log
    exact ih _ i1 i2 h

theorem Tame.cleanup {F : List Block} {α : Type} (es : List Event) (p : Prog α) :
    ∀ s, Tame env inRange F p s → Tame env inRange F (p.cleanup es) s := by
  induction p with
  | ret _ => exact fun _ _ => trivial
  | panic _ => exact fun _ _ => trivial
  | ub _ => exact fun _ _ => trivial
  | alloc size align next ih => exact fun s h hz a ha => ih a _ (h hz a ha)
  | dealloc a size align next ih => exact fun s h => ⟨h.1, fun s' h1 => ih _ (h.2 s' h1)⟩
  | read sh a next ih => exact fun s h hb v s' h1 => ih v _ (h hb v s' h1)
  | write sh a v next ih => exact fun s h => ⟨h.1, fun hb s' h1 => ih _ (h.2 hb s' h1)⟩
  | log es next ih => exact fun s h => ih _ h

theorem Tame.observe {F : List Block} {α : Type} (p : Prog α) :
    ∀ acc s, Tame env inRange F p s → Tame env inRange F (p.observe acc) s := by
  induction p with
  | ret _ => exact fun _ _ _ => trivial
  | panic _ => exact fun _ _ _ => trivial
  | ub _ => exact fun _ _ _ => trivial
  | alloc size align next ih => exact fun acc s h hz a ha => ih a _ _ (h hz a ha)
  | dealloc a size align next ih => exact fun acc s h => ⟨h.1, fun s' h1 => ih _ _ (h.2 s' h1)⟩
  | read sh a next ih => exact fun acc s h hb v s' h1 => ih v _ _ (h hb v s' h1)
  | write sh a v next ih => exact fun acc s h => ⟨h.1, fun hb s' h1 => ih _ _ (h.2 hb s' h1)⟩
  | log es next ih => exact fun acc s h => ih _ _ h

/-! ## Consequences -/

/-- Isolation, with shared blocks that nobody modifies. -/
theorem isolation {C C' : Conf ι β} {shared : List Block} {L : ι → State} (h : C.Sharing env shared L)
    (safe : ∀ i, Safe env inRange (C.prog i) (L i)) (spares : ∀ i, Spares env inRange shared (C.prog i) (L i))
    (hr : C.Reach env inRange C') :
    (∀ i, ¬ C'.Stuck env inRange i) ∧ (∀ i j, i ≠ j → ¬ C'.Race i j) ∧
    ∀ i, Conf.Ended (C'.prog i) → ∃ al, AllocOK env inRange al ∧
      EndsAs (C'.prog i) ((C.prog i).run (env.withAlloc al) (L i)) ∧
      ∀ s, ((∃ a, (C.prog i).run (env.withAlloc al) (L i) = .ret a s) ∨
            (∃ k, (C.prog i).run (env.withAlloc al) (L i) = .panic k s)) → s.trace = C'.trace i ∧ Extends s (C'.view i) := by
  obtain ⟨L', hp, hs⟩ := Conf.reach_inv h safe spares hr
  refine ⟨fun i hst => ?_, fun i j hij hrace => ?_, fun i he => ?_⟩
  · obtain ⟨p, s, ha⟩ := hp.can i ((hs i).progress (safe i) hst.1)
    exact hst.2 p s ha
  · obtain ⟨a, n, w, a', n', w', h1, h2, hw, x, x1, x2, x3, x4⟩ := hrace
    have own : ∀ k {a n : Nat} {w : Bool}, Conf.access (C'.prog k) = some (a, n, w) → a ≤ x → x < a + n →
        ∃ b ∈ (L' k).blocks, b.base ≤ x ∧ x < b.base + b.size := by
      intro k a n w hk h1 h2
      have hne : ¬ Conf.Ended (C'.prog k) := by
        intro he
        cases hq : C'.prog k <;> rw [hq] at hk he <;> first | exact False.elim he | cases hk
      obtain ⟨_, _, ha⟩ := (hs k).progress (safe k) hne
      exact Conf.access_own ha hk h1 h2
    obtain ⟨b, hb, b1, b2⟩ := own i h1 x1 x2
    obtain ⟨b', hb', b1', b2'⟩ := own j h2 x3 x4
    have hne : b ≠ b' := fun e => by
      subst e
      have hsh := hp.apart i j hij b hb hb'
      rcases hw with rfl | rfl
      · exact spares i _ _ (hs i) _ _ h1 b hsh x x1 x2 ⟨b1, b2⟩
      · exact spares j _ _ (hs j) _ _ h2 b hsh x x3 x4 ⟨b1, b2⟩
    rcases hp.inv.eq_or_disjoint (hp.sub i b hb) (hp.sub j b' hb') with h | h | h
    · exact hne h
    · omega
    · omega
  · obtain ⟨al, hal, hrun⟩ := (hs i).run
    refine ⟨al, hal, ?_⟩
    rw [hrun]
    cases hq : C'.prog i <;> rw [hq] at he <;> first | cases he | skip
    · refine ⟨rfl, ?_⟩
      rintro s (⟨_, e⟩ | ⟨_, e⟩) <;> cases e
      exact ⟨(hp.trace i).symm, hp.sub i, hp.bytes i, (hp.trace i) ▸ List.prefix_refl _⟩
    · refine ⟨rfl, ?_⟩
      rintro s (⟨_, e⟩ | ⟨_, e⟩) <;> cases e
      exact ⟨(hp.trace i).symm, hp.sub i, hp.bytes i, (hp.trace i) ▸ List.prefix_refl _⟩

/-- Progress. -/
theorem finish {C C' : Conf ι β} {shared : List Block} {L : ι → State} (h : C.Sharing env shared L)
    (safe : ∀ i, Safe env inRange (C.prog i) (L i)) (spares : ∀ i, Spares env inRange shared (C.prog i) (L i))
    (hr : C.Reach env inRange C') (i : ι) : ∃ C'', C.Reach env inRange C'' ∧ C'.Reach env inRange C'' ∧ Conf.Ended (C''.prog i) := by
  have trans : ∀ {A B : Conf ι β}, C.Reach env inRange A → A.Reach env inRange B → C.Reach env inRange B := by
    intro A B h1 h2
    induction h2 with
    | refl => exact h1
    | step i _ ha ih => exact .step i ih ha
  have can : ∀ C₁ : Conf ι β, C.Reach env inRange C₁ → ¬ Conf.Ended (C₁.prog i) →
      ∃ p s, Act env inRange (C₁.prog i) (C₁.view i) p s := by
    intro C₁ h1 hne
    refine Classical.byContradiction fun hno => (isolation h safe spares h1).1 i ⟨hne, fun p s ha => hno ⟨p, s, ha⟩⟩
  have key : ∀ (p : Prog (β i)) (C₁ : Conf ι β), C.Reach env inRange C₁ → C'.Reach env inRange C₁ → C₁.prog i = p →
      ∃ C'', C'.Reach env inRange C'' ∧ Conf.Ended (C''.prog i) := by
    intro p
    induction p with
    | ret a => exact fun C₁ _ h2 e => ⟨C₁, h2, by rw [e]; trivial⟩
    | panic k => exact fun C₁ _ h2 e => ⟨C₁, h2, by rw [e]; trivial⟩
    | ub k =>
      intro C₁ h1 h2 e
      obtain ⟨p, s, ha⟩ := can C₁ h1 (by rw [e]; exact fun h => h)
      rw [e] at ha; cases ha
    | alloc size align next ih =>
      intro C₁ h1 h2 e
      obtain ⟨p, s, ha⟩ := can C₁ h1 (by rw [e]; exact fun h => h)
      have h1' := Conf.Reach.step i h1 ha
      have h2' := Conf.Reach.step i h2 ha
      rw [e] at ha; cases ha
      exact ih _ _ h1' h2' (Conf.setAt_same _ _ _)
    | dealloc a size align next ih =>
      intro C₁ h1 h2 e
      obtain ⟨p, s, ha⟩ := can C₁ h1 (by rw [e]; exact fun h => h)
      have h1' := Conf.Reach.step i h1 ha
      have h2' := Conf.Reach.step i h2 ha
      rw [e] at ha; cases ha
      exact ih _ h1' h2' (Conf.setAt_same _ _ _)
    | read sh a next ih =>
      intro C₁ h1 h2 e
      obtain ⟨p, s, ha⟩ := can C₁ h1 (by rw [e]; exact fun h => h)
      have h1' := Conf.Reach.step i h1 ha
      have h2' := Conf.Reach.step i h2 ha
      rw [e] at ha; cases ha
      exact ih _ _ h1' h2' (Conf.setAt_same _ _ _)
    | write sh a v next ih =>
      intro C₁ h1 h2 e
      obtain ⟨p, s, ha⟩ := can C₁ h1 (by rw [e]; exact fun h => h)
      have h1' := Conf.Reach.step i h1 ha
      have h2' := Conf.Reach.step i h2 ha
      rw [e] at ha; cases ha
      exact ih _ h1' h2' (Conf.setAt_same _ _ _)
    | log es next ih =>
      intro C₁ h1 h2 e
      obtain ⟨p, s, ha⟩ := can C₁ h1 (by rw [e]; exact fun h => h)
      have h1' := Conf.Reach.step i h1 ha
      have h2' := Conf.Reach.step i h2 ha
      rw [e] at ha; cases ha
      exact ih _ h1' h2' (Conf.setAt_same _ _ _)
  obtain ⟨C'', h2, he⟩ := key _ C' hr .refl rfl
  exact ⟨C'', trans hr h2, h2, he⟩

end Conf
end TB

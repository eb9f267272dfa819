import Verif.Props.Threads
import Verif.Lemmas.Sharing

/-!
# Properties of containers shared between threads
-/

set_option autoImplicit false

namespace TB.Props

open TB.Macro

/-! ## C58 -/

section

variable {ι : Type} [DecidableEq ι] {β : ι → Type} {env : Env} {inRange : Bool}

/-- **C58**, for programs in general: threads that share blocks which none of them modifies or frees when it runs alone, and that own the
rest of their parts of the heap, do not notice each other (cf. `C47_isolation`). -/
theorem C58_isolation {C C' : Conf ι β} {shared : List Block} {L : ι → State} (h : C.Sharing env shared L)
    (safe : ∀ i, Safe env inRange (C.prog i) (L i)) (spares : ∀ i, Spares env inRange shared (C.prog i) (L i))
    (hr : C.Reach env inRange C') :
    (∀ i, ¬ C'.Stuck env inRange i) ∧ (∀ i j, i ≠ j → ¬ C'.Race i j) ∧
    ∀ i, Conf.Ended (C'.prog i) → ∃ al, AllocOK env inRange al ∧
      EndsAs (C'.prog i) ((C.prog i).run (env.withAlloc al) (L i)) ∧
      ∀ s, ((∃ a, (C.prog i).run (env.withAlloc al) (L i) = .ret a s) ∨
            (∃ k, (C.prog i).run (env.withAlloc al) (L i) = .panic k s)) → s.trace = C'.trace i ∧ Extends s (C'.view i) :=
  Conf.isolation h safe spares hr

/-- **C58**, progress: every such thread can always be run to its end. -/
theorem C58_finish {C C' : Conf ι β} {shared : List Block} {L : ι → State} (h : C.Sharing env shared L)
    (safe : ∀ i, Safe env inRange (C.prog i) (L i)) (spares : ∀ i, Spares env inRange shared (C.prog i) (L i))
    (hr : C.Reach env inRange C') (i : ι) : ∃ C'', C.Reach env inRange C'' ∧ C'.Reach env inRange C'' ∧ Conf.Ended (C''.prog i) :=
  Conf.finish h safe spares hr i

end

/-- The containers a thread that has ended gives back. -/
def givenBack {γ : Type} : Prog (List (CObs γ) × Handles) → Handles
  | .ret r => r.2
  | _ => []

section

variable {ι : Type} [DecidableEq ι] {β : ι → Type} {env : Env} {inRange : Bool} {rc : Rustc} {sn en : String} {hd : Bool} {ts : List Tok}
  {decl : List VariantDef} {P : Program}

/-- A client that starts with containers, alone. -/
theorem client_alone (h : env.OK) (hrc : rc.OK) (hc : Compiled rc env.cfg sn en hd ts decl P)
    (hlen : decl.length ≤ 2 ^ env.cfg.DISCRIMINANT_BITS) (ho : env.debug = true ∨ inRange = true) {γ : Type} {p : CClient Prog γ} {n : Nat}
    {c₀ : CState} {vs : List (Option EVal)} (S₀ : CSim env rc decl c₀ vs)
    (typed : ∀ al, AllocOK env inRange al → (p.at (env.withAlloc al)).OK (env.withAlloc al) rc decl)
    (moves : ∀ fails, (∀ f ∈ fails, FailOK env f) → runPlain (crateDtors rc decl hd) p vs fails ≠ none)
    {al : State → Nat → Nat → Nat} (hal : AllocOK env inRange al) :
    ∃ os c fails vs', (clientP env rc P p c₀.handles n).run (env.withAlloc al) c₀.s = .ret (os, c.handles) c.s ∧
      fails.length = n ∧ (∀ f ∈ fails, FailOK env f) ∧
      runPlain (crateDtors rc decl hd) p vs fails = some (os, vs') ∧ CSim env rc decl c vs' ∧
      (inRange = true → ¬ NullBetween c₀.s c.s → fails = List.replicate n none) := by
  obtain ⟨fails, h1, h2, h3⟩ := run_plain (withAlloc_ok h hal) hrc hc hlen (ho.imp id hal.2) (typed al hal) (S₀.withAlloc al) n
  rw [runPlain_at] at h3
  rcases h3 with ⟨_, e⟩ | ⟨os, c, vs', e1, e2, S, _, h4⟩
  · exact absurd e (moves fails h2)
  · have := run_client (P := P) (withAlloc_ok h hal).tuple_legal hrc p c₀ n
    rw [e1, clientP_withAlloc] at this
    exact ⟨os, c, fails, vs', this, h1, h2, e2, S.ofAlloc, fun hin => h4 (hal.2 hin)⟩

/-- **C58**: fork and join. A client makes containers and then starts any number of threads, all of which get all its containers (by
reference, or by `Copy`); the threads also make their own. The user code they run looks at what the containers hold without modifying
it. Under every schedule, and whatever the allocator answers within its contract,
 * no thread runs into undefined behaviour, and there are no data races;
 * each thread that has ended has returned normally and has observed what it would have observed on copies of the plain values, up to
   allocation failures (and exactly that, if the allocator keeps to the reserved width and has not returned null to this thread);
 * the first client (after waiting for any of the threads, in any order, and taking the containers they give back) goes on as it would
   with plain values: its containers and those of the threads hold what they should. -/
theorem C58_containers (h : env.OK) (hrc : rc.OK) (hc : Compiled rc env.cfg sn en hd ts decl P)
    (hlen : decl.length ≤ 2 ^ env.cfg.DISCRIMINANT_BITS) (ho : env.debug = true ∨ inRange = true) (hin : inRange = true → env.InRange)
    {β₀ : Type} {p₀ : CClient M β₀} (hp₀ : p₀.OK env rc decl) {s₀ : State} (hi : HeapInv env s₀) {n₀ : Nat} {os₀ : List (CObs β₀)}
    {c : CState} (h₀ : runContainers env rc P p₀ ⟨s₀, []⟩ n₀ = some (os₀, c))
    {p : (i : ι) → CClient Prog (β i)} {n : ι → Nat}
    (typed : ∀ i al, AllocOK env inRange al → ((p i).at (env.withAlloc al)).OK (env.withAlloc al) rc decl)
    (looks : ∀ i, (p i).LeavesAlone env inRange)
    (moves : ∀ fails₀ vs, runPlain (crateDtors rc decl hd) p₀ [] fails₀ = some (os₀, vs) → ∀ i fails, (∀ f ∈ fails, FailOK env f) →
      runPlain (crateDtors rc decl hd) (p i) vs fails ≠ none)
    {C : Conf ι (fun i => List (CObs (β i)) × Handles)}
    (hr : Conf.Reach env inRange ⟨c.s.mem, c.s.blocks, fun i => clientP env rc P (p i) c.handles (n i), fun _ => []⟩ C) :
    (∀ i, ¬ C.Stuck env inRange i) ∧ (∀ i j, i ≠ j → ¬ C.Race i j) ∧
    ∃ fails₀ vs, fails₀.length = n₀ ∧ (∀ f ∈ fails₀, FailOK env f) ∧
      runPlain (crateDtors rc decl hd) p₀ [] fails₀ = some (os₀, vs) ∧
      ∃ V : ι → List (Option EVal),
        (∀ i, Conf.Ended (C.prog i) → ∃ os handles fails, C.prog i = .ret (os, handles) ∧
          fails.length = n i ∧ (∀ f ∈ fails, FailOK env f) ∧
          runPlain (crateDtors rc decl hd) (p i) vs fails = some (os, V i) ∧
          (inRange = true → (∀ size align, Event.allocNull size align ∉ C.trace i) → fails = List.replicate (n i) none)) ∧
        ∀ is : List ι, (∀ i ∈ is, Conf.Ended (C.prog i)) → ∀ (γ : Type) (q : CClient M γ), q.OK env rc decl → ∀ tr m, ∃ fails,
          fails.length = m ∧ (∀ f ∈ fails, FailOK env f) ∧
          (runContainers env rc P q ⟨⟨C.mem, C.blocks, tr⟩, c.handles ++ is.flatMap (fun i => givenBack (C.prog i))⟩ m).map (·.1) =
            (runPlain (crateDtors rc decl hd) q (vs ++ is.flatMap V) fails).map (·.1) := by
  have ho' : env.debug = true ∨ env.InRange := ho.imp id hin
  obtain ⟨fails₀, f1, f2, f3⟩ := run_plain h hrc hc hlen ho' hp₀ (CSim.nil hi) n₀
  rcases f3 with ⟨e, _⟩ | ⟨_, _, vs, e1, e2, S, _, _⟩
  · rw [e] at h₀; cases h₀
  rw [e1] at h₀
  cases h₀
  have hi1 : HeapInv env ⟨c.s.mem, c.s.blocks, []⟩ := ⟨S.inv.block, S.inv.disjoint⟩
  have S1 : CSim env rc decl ⟨⟨c.s.mem, c.s.blocks, []⟩, c.handles⟩ vs := S.move hrc hi1 (fun b hb => ⟨hb, fun _ _ _ => rfl⟩)
  have sharing : Conf.Sharing env
      (⟨c.s.mem, c.s.blocks, fun i => clientP env rc P (p i) c.handles (n i), fun _ => []⟩ : Conf ι (fun i => List (CObs (β i)) × Handles))
      c.s.blocks (fun _ => ⟨c.s.mem, c.s.blocks, []⟩) :=
    ⟨hi1, fun _ => hi1, fun _ b hb => hb, fun _ _ _ b hb _ => hb, fun _ _ _ _ _ _ => rfl, fun _ => rfl⟩
  have alone := fun i al (hal : AllocOK env inRange al) =>
    client_alone (n := n i) h hrc hc hlen ho S1 (typed i) (moves fails₀ vs e2 i) hal
  have safe : ∀ i, Safe env inRange (clientP env rc P (p i) c.handles (n i)) ⟨c.s.mem, c.s.blocks, []⟩ := by
    intro i al hal k hub
    obtain ⟨os, c', _, _, e, _⟩ := alone i al hal
    rw [e] at hub; cases hub
  have spares : ∀ i, Spares env inRange c.s.blocks (clientP env rc P (p i) c.handles (n i)) ⟨c.s.mem, c.s.blocks, []⟩ :=
    fun i => (calm_client (looks i) _ _ _ hi1 (fun _ hb => hb)).spares
  obtain ⟨h1, h2, h3⟩ := C58_isolation sharing safe spares hr
  obtain ⟨_, hsh, _⟩ := Conf.reach_inv sharing safe spares hr
  have hkeep := Conf.reach_shared sharing safe spares (fun b hb => hb) hr
  refine ⟨h1, h2, fails₀, vs, f1, f2, e2, ?_⟩
  -- what each thread has done
  have key : ∀ i, ∃ v, Conf.Ended (C.prog i) → (∃ os handles fails, C.prog i = .ret (os, handles) ∧
      fails.length = n i ∧ (∀ f ∈ fails, FailOK env f) ∧ runPlain (crateDtors rc decl hd) (p i) vs fails = some (os, v) ∧
      (inRange = true → (∀ size align, Event.allocNull size align ∉ C.trace i) → fails = List.replicate (n i) none)) ∧
      ∀ tr, CSim env rc decl ⟨⟨C.mem, C.blocks, tr⟩, givenBack (C.prog i)⟩ v := by
    intro i
    by_cases he : Conf.Ended (C.prog i)
    · obtain ⟨al, hal, h4, h5⟩ := h3 i he
      obtain ⟨os, c', fails, v, e, g1, g2, g3, S', g4⟩ := alone i al hal
      obtain ⟨t1, t2⟩ := h5 c'.s (.inl ⟨_, e⟩)
      have h4 : EndsAs (C.prog i) ((clientP env rc P (p i) c.handles (n i)).run (env.withAlloc al) ⟨c.s.mem, c.s.blocks, []⟩) := h4
      rw [e] at h4
      have h4 : C.prog i = .ret (os, c'.handles) := h4
      refine ⟨v, fun _ => ⟨⟨os, c'.handles, fails, h4, g1, g2, g3, fun hin hn => g4 hin ?_⟩, fun tr => ?_⟩⟩
      · rintro ⟨size, align, hm⟩
        exact hn size align (t1 ▸ List.mem_of_mem_drop hm)
      · rw [h4]
        exact S'.move hrc ⟨hsh.inv.block, hsh.inv.disjoint⟩ (fun b hb => ⟨t2.blocks b hb, t2.bytes b hb⟩)
    · exact ⟨[], fun h => absurd h he⟩
  refine ⟨fun i => (key i).choose, fun i he => ((key i).choose_spec he).1, ?_⟩
  intro is his γ q hq tr m
  have hi2 : HeapInv env ⟨C.mem, C.blocks, tr⟩ := ⟨hsh.inv.block, hsh.inv.disjoint⟩
  have S2 : CSim env rc decl ⟨⟨C.mem, C.blocks, tr⟩, c.handles⟩ vs := S.move hrc hi2 hkeep
  have S3 := S2.append (CSim.flatMap hi2 is fun i hi => ((key i).choose_spec (his i hi)).2 tr)
  obtain ⟨fails, k1, k2, k3⟩ := run_plain h hrc hc hlen ho' hq S3 m
  refine ⟨fails, k1, k2, ?_⟩
  rcases k3 with ⟨a1, a2⟩ | ⟨os, c', hs, a1, a2, _⟩
  · rw [a1, a2]; rfl
  · rw [a1, a2]; rfl

end

/-! Non-vacuity: a client makes a container; infinitely many threads look at it and clone it, and every second one takes the value out
of the shared container itself. -/

/-- Make one container. -/
def demoMain (e : EVal) : CClient M Unit := fun os =>
  match os with
  | [] => some (.from e)
  | _ => none

/-- Look at the shared container, clone it, take out the value of the clone (or of the shared container). -/
def demoReader (k : Nat) : CClient Prog Unit := fun os =>
  match os with
  | [] => some (.observe 0 ⟨fun _ => .alloc 8 8 fun a => if a = 0 then .panic (.user 1) else .dealloc a 8 8 (.panic (.user 1)),
      fun _ => .error 1, fun _ => []⟩)
  | [_] => some (.clone 0 ⟨fun x => .ret x, fun x => .ok x, fun _ => []⟩)
  | [_, (.handle _, _)] => some (.intoInner (k % 2))
  | _ => none

theorem demoMain_plain (D : Dtors) (e : EVal) : ∀ fails, ∃ r, runPlain D (demoMain e) [] fails = some r ∧
    (r = ([], []) ∨ (∃ es, r = ([(.handle 0, es)], [some e])) ∨ (∃ k es, r = ([(.panicked k, es)], [])))
  | [] => ⟨_, rfl, .inl rfl⟩
  | f :: fails => by
    obtain ⟨r, h, hr⟩ := demoMain_plain D e fails
    simp only [runPlain, h, Option.bind_some]
    rcases hr with rfl | ⟨es, rfl⟩ | ⟨k, es, rfl⟩
    · cases f with
      | none => exact ⟨_, rfl, .inr (.inl ⟨_, rfl⟩)⟩
      | some k => exact ⟨_, rfl, .inr (.inr ⟨_, _, rfl⟩)⟩
    · exact ⟨_, rfl, .inr (.inl ⟨_, rfl⟩)⟩
    · exact ⟨_, rfl, .inr (.inr ⟨_, _, rfl⟩)⟩

theorem demoReader_plain (D : Dtors) (e : EVal) (k : Nat) : ∀ fails, ∃ r, runPlain D (demoReader k) [some e] fails = some r ∧
    (r = ([], [some e]) ∨ (∃ o, r = ([o], [some e])) ∨ (∃ o es, r = ([o, (.handle 1, es)], [some e, some e])) ∨
      (∃ o k es, r = ([o, (.panicked k, es)], [some e])) ∨ (∃ o es o' vs, r = ([o, (.handle 1, es), o'], vs)))
  | [] => ⟨_, rfl, .inl rfl⟩
  | f :: fails => by
    obtain ⟨r, h, hr⟩ := demoReader_plain D e k fails
    simp only [runPlain, h, Option.bind_some]
    rcases hr with rfl | ⟨o, rfl⟩ | ⟨o, es, rfl⟩ | ⟨o, k', es, rfl⟩ | ⟨o, es, o', vs, rfl⟩
    · exact ⟨_, rfl, .inr (.inl ⟨_, rfl⟩)⟩
    · cases f with
      | none => exact ⟨_, rfl, .inr (.inr (.inl ⟨_, _, rfl⟩))⟩
      | some k => exact ⟨_, rfl, .inr (.inr (.inr (.inl ⟨_, _, _, rfl⟩)))⟩
    · have hk : ([some e, some e] : List (Option EVal))[k % 2]?.join = some e := by
        rcases Nat.mod_two_eq_zero_or_one k with h | h <;> rw [h] <;> rfl
      refine ⟨_, by simp only [demoReader, plainStep, hk, Option.map_some]; rfl, .inr (.inr (.inr (.inr ⟨_, _, _, _, rfl⟩)))⟩
    · exact ⟨_, rfl, .inr (.inr (.inr (.inl ⟨_, _, _, rfl⟩)))⟩
    · exact ⟨_, rfl, .inr (.inr (.inr (.inr ⟨_, _, _, _, rfl⟩)))⟩

theorem demoReader_typed {rc : Rustc} {decl : List VariantDef} (k : Nat) {env : Env} (h : env.AllocLawful) :
    ((demoReader k).at env).OK env rc decl := by
  intro os op ho
  match os with
  | [] =>
    cases ho
    intro x _ s hi
    have hrun : ((Prog.alloc 8 8 fun a => if a = 0 then .panic (.user 1) else .dealloc a 8 8 (.panic (.user 1)) : Prog Unit)).run env s =
        .panic (.user 1) (if env.alloc s 8 8 = 0 then s.log [.allocNull 8 8] else
          freedState (answered s 8 8 (env.alloc s 8 8)) ⟨env.alloc s 8 8, 8, 8⟩) := by
      simp only [Prog.run]
      rw [if_neg (by decide)]
      simp only [M.bind, Prog.allocM_eq]
      by_cases h0 : env.alloc s 8 8 = 0
      · simp [h0, Prog.run, M.panic, answered]
      · rw [if_neg h0, if_neg h0]
        simp only [Prog.run, M.bind]
        rw [deallocM_ret (by simp [answered, h0])]
        rfl
    by_cases h0 : env.alloc s 8 8 = 0
    · rw [if_pos h0] at hrun
      exact ⟨_, hi.log _, Extends.log _ _, by simp [dtorsBetween, State.log]; rfl, hrun⟩
    · rw [if_neg h0] at hrun
      have hl := h s 8 8 (by decide) h0
      refine ⟨_, freedState_inv (Conf.answered_inv (inRange := false) hi (by decide) (.inr ⟨hl.1, hl.2.1, hl.2.2, by simp⟩)) _,
        ⟨?_, ?_, ?_⟩, ?_, hrun⟩
      · intro b hb
        simpa [freedState, answered, h0] using hb
      · intro b hb x h1 h2
        have hd := hl.2.2 b hb
        simp only [Block.Disjoint] at hd
        simp only [freedState, answered, h0, if_false]
        exact overlay_out (by simp only [List.length_replicate]; omega)
      · simp [freedState, answered, h0]
      · simp [dtorsBetween, freedState, answered, h0, Event.isDtor, UserFn.at]
  | [_] => cases ho; exact fun x hx => ⟨fun s hi => ⟨s, hi, Extends.refl _, dtors_refl s, rfl⟩, fun y hy => by cases hy; exact hx⟩
  | [_, (.handle _, _)] => cases ho; trivial
  | [_, (.panicked _, _)] => cases ho
  | [_, (.val _, _)] => cases ho
  | [_, (.bool _, _)] => cases ho
  | [_, (.pord _, _)] => cases ho
  | [_, (.ord _, _)] => cases ho
  | [_, (.seen _, _)] => cases ho
  | [_, (.text _, _)] => cases ho
  | [_, (.unit, _)] => cases ho
  | _ :: (r, _) :: _ :: _ => cases r <;> cases ho

theorem demoReader_looks (env : Env) (inRange : Bool) (k : Nat) : (demoReader k).LeavesAlone env inRange := by
  intro os op ho
  match os with
  | [] =>
    cases ho
    intro x s hi
    refine Conf.Tame.spares ?_
    intro _ a ha
    show Conf.Tame env inRange s.blocks (if a = 0 then _ else _) _
    split
    · trivial
    · rename_i h0
      refine ⟨fun b hb x h1 h2 => ?_, fun _ _ => trivial⟩
      rcases ha with h | ⟨_, _, h3, _⟩
      · exact absurd h h0
      · have := h3 b hb
        simp only [Block.Disjoint] at this
        omega
  | [_] => cases ho; exact fun x s hi => Conf.Tame.spares (p := .ret x) trivial
  | [_, (.handle _, _)] => cases ho; trivial
  | [_, (.panicked _, _)] => cases ho
  | [_, (.val _, _)] => cases ho
  | [_, (.bool _, _)] => cases ho
  | [_, (.pord _, _)] => cases ho
  | [_, (.ord _, _)] => cases ho
  | [_, (.seen _, _)] => cases ho
  | [_, (.text _, _)] => cases ho
  | [_, (.unit, _)] => cases ho
  | _ :: (r, _) :: _ :: _ => cases r <;> cases ho

/-- They meet the hypotheses of `C58_containers`. -/
example : ∃ (e : EVal) (os₀ : List (CObs Unit)) (c : CState),
    (demoMain e).OK (env60 true) rcDemo declMix ∧
    runContainers (env60 true) rcDemo progMix (demoMain e) ⟨state0, []⟩ 1 = some (os₀, c) ∧ c.handles.length = 1 ∧
    (∀ (i : Nat) al, AllocOK (env60 true) true al →
      ((demoReader i).at ((env60 true).withAlloc al)).OK ((env60 true).withAlloc al) rcDemo declMix) ∧
    (∀ i : Nat, (demoReader i).LeavesAlone (env60 true) true) ∧
    ∀ fails₀ vs, runPlain (crateDtors rcDemo declMix false) (demoMain e) [] fails₀ = some (os₀, vs) →
      ∀ (i : Nat) fails, (∀ f ∈ fails, FailOK (env60 true) f) → runPlain (crateDtors rcDemo declMix false) (demoReader i) vs fails ≠ none := by
  refine ⟨⟨"Heap", .tuple [List.replicate 8 (some 1#8)]⟩, _, _, ?_, rfl, rfl, fun i al hal => demoReader_typed i hal.1,
    demoReader_looks _ _, fun fails₀ vs h i fails _ => ?_⟩
  · intro os op h
    match os with
    | [] => cases h; exact ⟨2, _, rfl, rfl, ⟨rfl, by decide⟩, trivial⟩
    | _ :: _ => cases h
  · obtain ⟨r, h1, h2⟩ := demoMain_plain (crateDtors rcDemo declMix false) ⟨"Heap", .tuple [List.replicate 8 (some 1#8)]⟩ fails₀
    rw [h] at h1
    cases h1
    rcases h2 with e | ⟨es, e⟩ | ⟨k, es, e⟩
    · cases e
    · cases e
      obtain ⟨r, h3, _⟩ := demoReader_plain (crateDtors rcDemo declMix false) ⟨"Heap", .tuple [List.replicate 8 (some 1#8)]⟩ i fails
      rw [h3]
      exact fun h => by cases h
    · cases e

end TB.Props

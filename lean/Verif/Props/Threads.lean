import Verif.DemoMacro
import Verif.Lemmas.Prog

/-!
# Properties of concurrent executions
-/

set_option autoImplicit false

namespace TB.Props

open TB.Macro

/-! ## C47 -/

section

variable {ι : Type} [DecidableEq ι] {β : ι → Type} {env : Env} {inRange : Bool}

/-- **C47**, for programs in general: threads that own disjoint parts of the heap, and that are free of undefined behaviour when they
run alone, do not notice each other, under any schedule and whatever the (shared) allocator answers. No thread gets stuck in undefined
behaviour, there are no data races, and a thread that has ended has ended, with the same record of events, as it does when it runs alone
on its part with some lawful allocator; the blocks and bytes it leaves alone are there in the common heap. -/
theorem C47_isolation {C C' : Conf ι β} {L : ι → State} (h : C.Parts env L) (safe : ∀ i, Safe env inRange (C.prog i) (L i))
    (hr : C.Reach env inRange C') :
    (∀ i, ¬ C'.Stuck env inRange i) ∧ (∀ i j, i ≠ j → ¬ C'.Race i j) ∧
    ∀ i, Conf.Ended (C'.prog i) → ∃ al, AllocOK env inRange al ∧
      EndsAs (C'.prog i) ((C.prog i).run (env.withAlloc al) (L i)) ∧
      ∀ s, ((∃ a, (C.prog i).run (env.withAlloc al) (L i) = .ret a s) ∨
            (∃ k, (C.prog i).run (env.withAlloc al) (L i) = .panic k s)) → s.trace = C'.trace i ∧ Extends s (C'.view i) :=
  Conf.isolation h.sharing safe (fun _ => Conf.spares_nil _ _) hr

/-- **C47**, progress: wherever such threads have got to, every one of them can be run to its end. -/
theorem C47_finish {C C' : Conf ι β} {L : ι → State} (h : C.Parts env L) (safe : ∀ i, Safe env inRange (C.prog i) (L i))
    (hr : C.Reach env inRange C') (i : ι) : ∃ C'', C.Reach env inRange C'' ∧ C'.Reach env inRange C'' ∧ Conf.Ended (C''.prog i) :=
  Conf.finish h.sharing safe (fun _ => Conf.spares_nil _ _) hr i

end

/-- A thread that works with containers of one `tagged_box!` type: the declaration, the program the macro makes of it, the client and
the number of steps it may take. -/
structure ThreadSpec (rc : Rustc) (env : Env) (β : Type) where
  sn : String
  en : String
  hasDrop : Bool
  toks : List Tok
  decl : List VariantDef
  P : Program
  compiled : Compiled rc env.cfg sn en hasDrop toks decl P
  fits : decl.length ≤ 2 ^ env.cfg.DISCRIMINANT_BITS
  client : CClient Prog β
  steps : Nat

/-- The client is well-typed, its user code is safe code whatever the allocator does, and the compiler's move checker accepts it: it
never uses a container it has moved away. -/
structure ThreadSpec.OK {rc : Rustc} {env : Env} {β : Type} (inRange : Bool) (t : ThreadSpec rc env β) : Prop where
  typed : ∀ al, AllocOK env inRange al → (t.client.at (env.withAlloc al)).OK (env.withAlloc al) rc t.decl
  moves : ∀ fails, (∀ f ∈ fails, FailOK env f) → runPlain (crateDtors rc t.decl t.hasDrop) t.client [] fails ≠ none

/-- The thread's program. -/
def ThreadSpec.prog {rc : Rustc} {env : Env} {β : Type} (t : ThreadSpec rc env β) : Prog (List (CObs β) × Handles) :=
  clientP env rc t.P t.client [] t.steps

theorem runPlain_at {β : Type} (env : Env) (D : Dtors) (p : CClient Prog β) (hs₀ : List (Option EVal)) :
    ∀ fails, runPlain D (p.at env) hs₀ fails = runPlain D p hs₀ fails
  | [] => rfl
  | fail :: fails => by
    simp only [runPlain, runPlain_at env D p hs₀ fails]
    congr 1
    funext r
    simp only [CClient.at]
    cases p r.1 with
    | none => rfl
    | some op => cases op <;> rfl

section

variable (env : Env) (al : State → Nat → Nat → Nat) (rc : Rustc) (P : Program)

theorem firstIntoP_withAlloc (e : EVal) : ∀ as, firstIntoP (env.withAlloc al) rc P e as = firstIntoP env rc P e as
  | [] => rfl
  | a :: as => by
    have h : a.runP (env.withAlloc al) rc P e = a.runP env rc P e := by cases a <;> rfl
    simp only [firstIntoP, h, firstIntoP_withAlloc e as]

theorem firstReadP_withAlloc (b : TBox) : ∀ as, firstReadP (env.withAlloc al) rc P b as = firstReadP env rc P b as
  | [] => rfl
  | a :: as => by
    have h : a.runP (env.withAlloc al) rc P b = a.runP env rc P b := rfl
    have h' : Macro.guard (env.withAlloc al) P a.ctr b = Macro.guard env P a.ctr b := rfl
    simp only [firstReadP, h, h', firstReadP_withAlloc b as]

theorem firstRefP_withAlloc {γ : Type} (b : TBox) (f : EVal → Prog γ) :
    ∀ as, firstRefP (env.withAlloc al) rc P b f as = firstRefP env rc P b f as
  | [] => rfl
  | a :: as => by
    have h : a.buildP (env.withAlloc al) rc P b = a.buildP env rc P b := rfl
    have h' : Macro.guard (env.withAlloc al) P a.ctr b = Macro.guard env P a.ctr b := rfl
    simp only [firstRefP, h, h', firstRefP_withAlloc b f as]

theorem cstepP_withAlloc {β : Type} (hs : Handles) (op : COp Prog β) :
    cstepP (env.withAlloc al) rc P hs op = cstepP env rc P hs op := by
  cases op <;> simp only [cstepP, cloneP, compareP, fmtP, intoTaggedBoxP, containerIntoInnerP, firstIntoP_withAlloc,
    firstReadP_withAlloc, firstRefP_withAlloc]

/-- The program of a client does not mention the allocator. -/
theorem clientP_withAlloc {β : Type} (p : CClient Prog β) (hs₀ : Handles) :
    ∀ n, clientP (env.withAlloc al) rc P p hs₀ n = clientP env rc P p hs₀ n
  | 0 => rfl
  | n + 1 => by simp only [clientP, clientP_withAlloc p hs₀ n, cstepP_withAlloc]

end

section

variable {ι : Type} [DecidableEq ι] {β : ι → Type} {env : Env} {inRange : Bool} {rc : Rustc}

theorem withAlloc_ok (h : env.OK) {al : State → Nat → Nat → Nat} (hal : AllocOK env inRange al) : (env.withAlloc al).OK :=
  ⟨h.cfg_mem, h.target, hal.1, h.tuple_legal, h.enumAlign_pow⟩

/-- A container thread alone. -/
theorem thread_alone (h : env.OK) (hrc : rc.OK) (ho : env.debug = true ∨ inRange = true) {γ : Type} (t : ThreadSpec rc env γ)
    (ht : t.OK inRange) {al : State → Nat → Nat → Nat} (hal : AllocOK env inRange al) {s : State} (hi : HeapInv env s) :
    ∃ os c, runContainers (env.withAlloc al) rc t.P (t.client.at (env.withAlloc al)) ⟨s, []⟩ t.steps = some (os, c) ∧
      t.prog.run (env.withAlloc al) s = .ret (os, c.handles) c.s ∧
      ∃ fails : List (Option PanicKind), fails.length = t.steps ∧ (∀ f ∈ fails, FailOK env f) ∧
        (runPlain (crateDtors rc t.decl t.hasDrop) t.client [] fails).map (·.1) = some os ∧
        (inRange = true → ¬ NullBetween s c.s → fails = List.replicate t.steps none) := by
  obtain ⟨fails, h1, h2, h3⟩ := run_plain (withAlloc_ok h hal) hrc t.compiled t.fits (ho.imp id hal.2) (ht.typed al hal)
    (CSim.nil (s := s) ⟨hi.block, hi.disjoint⟩) t.steps
  rw [runPlain_at] at h3
  rcases h3 with ⟨_, e⟩ | ⟨os, c, hs, e1, e2, _, _, h4⟩
  · exact absurd e (ht.moves fails h2)
  · have := run_client (P := t.P) (withAlloc_ok h hal).tuple_legal hrc t.client ⟨s, []⟩ t.steps
    rw [e1, clientP_withAlloc] at this
    exact ⟨os, c, e1, this, fails, h1, h2, by rw [e2]; rfl, fun hin => h4 (hal.2 hin)⟩

/-- **C47**: any number of threads work with containers, each with its own containers, types, user code and number of steps; they share
the allocator. Under every schedule, and whatever the allocator answers within its contract,
 * no thread runs into undefined behaviour, and there are no data races;
 * each thread that has ended has returned normally, and has observed what it observes when it runs alone with some lawful allocator;
 * these are the observations of the thread working with plain values, apart from allocation failures, and if there were none (the
   allocator keeps to the reserved width and has not returned null to this thread), then exactly those. -/
theorem C47_containers (h : env.OK) (hrc : rc.OK) (ho : env.debug = true ∨ inRange = true) (t : (i : ι) → ThreadSpec rc env (β i))
    (ht : ∀ i, (t i).OK inRange) (mem : Nat → MByte) (blocks : List Block) (hi : HeapInv env ⟨mem, blocks, []⟩)
    {C : Conf ι (fun i => List (CObs (β i)) × Handles)}
    (hr : Conf.Reach env inRange ⟨mem, blocks, fun i => (t i).prog, fun _ => []⟩ C) :
    (∀ i, ¬ C.Stuck env inRange i) ∧ (∀ i j, i ≠ j → ¬ C.Race i j) ∧
    ∀ i, Conf.Ended (C.prog i) → ∃ os handles, C.prog i = .ret (os, handles) ∧
      (∃ al, AllocOK env inRange al ∧
        (runContainers (env.withAlloc al) rc (t i).P ((t i).client.at (env.withAlloc al)) ⟨⟨mem, [], []⟩, []⟩ (t i).steps).map
          (fun r => (r.1, r.2.handles, r.2.s.trace)) = some (os, handles, C.trace i)) ∧
      ∃ fails : List (Option PanicKind), fails.length = (t i).steps ∧ (∀ f ∈ fails, FailOK env f) ∧
        (runPlain (crateDtors rc (t i).decl (t i).hasDrop) (t i).client [] fails).map (·.1) = some os ∧
        (inRange = true → (∀ size align, Event.allocNull size align ∉ C.trace i) → fails = List.replicate (t i).steps none) := by
  have hi0 : HeapInv env ⟨mem, [], []⟩ := ⟨fun b hb => (by cases hb), List.Pairwise.nil⟩
  have parts : Conf.Parts env (⟨mem, blocks, fun i => (t i).prog, fun _ => []⟩ : Conf ι (fun i => List (CObs (β i)) × Handles))
      (fun _ => ⟨mem, [], []⟩) :=
    ⟨hi, fun _ => hi0, fun _ b hb => (by cases hb), fun _ _ _ b hb => (by cases hb), fun _ b hb => (by cases hb), fun _ => rfl⟩
  have safe : ∀ i, Safe env inRange (t i).prog ⟨mem, [], []⟩ := by
    intro i al hal k hub
    obtain ⟨os, c, _, e, _⟩ := thread_alone h hrc ho (t i) (ht i) hal hi0
    rw [e] at hub; cases hub
  obtain ⟨h1, h2, h3⟩ := C47_isolation parts safe hr
  refine ⟨h1, h2, fun i he => ?_⟩
  obtain ⟨al, hal, h4, h5⟩ := h3 i he
  obtain ⟨os, c, e1, e2, fails, f1, f2, f3, f4⟩ := thread_alone h hrc ho (t i) (ht i) hal hi0
  have h5 := (h5 c.s (.inl ⟨_, e2⟩)).1
  have h4 : EndsAs (C.prog i) ((t i).prog.run (env.withAlloc al) ⟨mem, [], []⟩) := h4
  rw [e2] at h4
  refine ⟨os, c.handles, h4, ⟨al, hal, by rw [e1, ← h5]; rfl⟩, fails, f1, f2, f3, fun hin hn => f4 hin ?_⟩
  rintro ⟨size, align, hm⟩
  exact hn size align (h5 ▸ List.mem_of_mem_drop hm)

end

/-! Non-vacuity: infinitely many threads, of which the even ones work with `Item` and the odd ones with unit variants. -/

/-- Make a container; if that succeeded, panic in a closure that looks at it, then take the value out. -/
def demoWorker (e : EVal) : CClient Prog Unit := fun os =>
  match os with
  | [] => some (.from e)
  | [(.handle _, _)] => some (.observe 0 ⟨fun _ => .panic (.user 7), fun _ => .error 7, fun _ => []⟩)
  | [(.handle _, _), _] => some (.intoInner 0)
  | _ => none

theorem demoWorker_typed {rc : Rustc} {decl : List VariantDef} {e : EVal} (he : IsEnumValue rc decl e) (env : Env) :
    ((demoWorker e).at env).OK env rc decl := by
  intro os op h
  match os with
  | [] => cases h; exact he
  | [(.handle _, _)] => cases h; exact fun x _ s hi => ⟨s, hi, Extends.refl _, dtors_refl s, rfl⟩
  | [(.handle _, _), _] => cases h; trivial
  | (.handle _, _) :: _ :: _ :: _ => cases h
  | (.panicked _, _) :: _ => cases h
  | (.val _, _) :: _ => cases h
  | (.bool _, _) :: _ => cases h
  | (.pord _, _) :: _ => cases h
  | (.ord _, _) :: _ => cases h
  | (.seen _, _) :: _ => cases h
  | (.text _, _) :: _ => cases h
  | (.unit, _) :: _ => cases h

theorem demoWorker_moves (D : Dtors) (e : EVal) : ∀ fails, ∃ r, runPlain D (demoWorker e) [] fails = some r ∧
    (r = ([], []) ∨ (∃ es, r = ([(.handle 0, es)], [some e])) ∨ (∃ k es, r = ([(.panicked k, es)], [])) ∨
      (∃ es o, r = ([(.handle 0, es), o], [some e])) ∨ (∃ es o o', r = ([(.handle 0, es), o, o'], [none])))
  | [] => ⟨_, rfl, .inl rfl⟩
  | f :: fails => by
    obtain ⟨r, h, hr⟩ := demoWorker_moves D e fails
    simp only [runPlain, h, Option.bind_some]
    rcases hr with rfl | ⟨es, rfl⟩ | ⟨k, es, rfl⟩ | ⟨es, o, rfl⟩ | ⟨es, o, o', rfl⟩
    · cases f with
      | none => exact ⟨_, rfl, .inr (.inl ⟨_, rfl⟩)⟩
      | some k => exact ⟨_, rfl, .inr (.inr (.inl ⟨_, _, rfl⟩))⟩
    · exact ⟨_, rfl, .inr (.inr (.inr (.inl ⟨_, _, rfl⟩)))⟩
    · exact ⟨_, rfl, .inr (.inr (.inl ⟨_, _, rfl⟩))⟩
    · exact ⟨_, rfl, .inr (.inr (.inr (.inr ⟨_, _, _, rfl⟩)))⟩
    · exact ⟨_, rfl, .inr (.inr (.inr (.inr ⟨_, _, _, rfl⟩)))⟩

/-- The threads. -/
def demoThread (i : Nat) : ThreadSpec rcDemo (env60 true) Unit :=
  if i % 2 = 0 then
    { sn := "Container", en := "Item", hasDrop := false, toks := toksMix, decl := declMix, P := progMix,
      compiled := mix_compiled true, fits := by decide,
      client := demoWorker ⟨"Heap", .tuple [List.replicate 8 (some 1#8)]⟩, steps := i }
  else
    { sn := "Container", en := "Item", hasDrop := true, toks := toksUnits 2, decl := declUnits 2,
      P := programOf "Container" "Item" true (declUnits 2),
      compiled := units_compiled rfl true (by decide), fits := by decide,
      client := demoWorker ⟨unitName 0, .unit⟩, steps := i }

/-- They meet the hypotheses of `C47_containers`. -/
example : (env60 true).OK ∧ rcDemo.OK ∧ ((env60 true).debug = true ∨ true = true) ∧ (∀ i, (demoThread i).OK true) ∧
    HeapInv (env60 true) ⟨state0.mem, [], []⟩ := by
  refine ⟨env60_ok _, rcDemo_ok, .inl rfl, fun i => ?_, ⟨fun b hb => (by cases hb), List.Pairwise.nil⟩⟩
  have hv : IsEnumValue rcDemo declMix ⟨"Heap", .tuple [List.replicate 8 (some 1#8)]⟩ :=
    ⟨2, _, rfl, rfl, ⟨rfl, by decide⟩, trivial⟩
  unfold demoThread
  split
  · exact ⟨fun al _ => demoWorker_typed hv _, fun fails _ h => by
      obtain ⟨r, h', _⟩ := demoWorker_moves _ _ fails
      rw [h'] at h; cases h⟩
  · exact ⟨fun al _ => demoWorker_typed ⟨0, units_value (by decide)⟩ _, fun fails _ h => by
      obtain ⟨r, h', _⟩ := demoWorker_moves _ _ fails
      rw [h'] at h; cases h⟩

end TB.Props

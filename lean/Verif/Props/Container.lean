import Verif.DemoMacro
import Verif.Lemmas.Container

/-!
# Properties of histories of container operations
-/

set_option autoImplicit false

namespace TB.Props

open TB.Macro

variable {env : Env} {rc : Rustc} {sn en : String} {hd : Bool} {ts : List Tok} {decl : List VariantDef} {P : Program}

/-! ## C46 -/

/-- The observations of any client on containers are those of the same client on plain values (some of whose attempts to make
containers fail for lack of memory), where destructors run as `D` says. -/
def LikePlain (env : Env) (rc : Rustc) (decl : List VariantDef) (P : Program) (D : Dtors) : Prop :=
  ∀ (β : Type) (p : CClient M β), p.OK env rc decl → ∀ s, HeapInv env s → ∀ n, ∃ fails : List (Option PanicKind),
    fails.length = n ∧ (∀ f ∈ fails, FailOK env f) ∧
    (runContainers env rc P p ⟨s, []⟩ n).map (·.1) = (runPlain D p [] fails).map (·.1) ∧
    (∀ os c, runContainers env rc P p ⟨s, []⟩ n = some (os, c) → env.InRange → ¬ NullBetween s c.s → fails = List.replicate n none)

/-- The claim: containers behave like the values they hold. -/
def C46_Statement (env : Env) (rc : Rustc) (decl : List VariantDef) (hd : Bool) (P : Program) : Prop :=
  LikePlain env rc decl P (rustDtors rc decl hd)

/-- **C46**, the part that holds: for every enum whose variants fit the discriminant bits, every client (adaptive, of any length,
with arbitrary safe user code in `clone`, `eq`, `partial_cmp`, `cmp`, closures and formatting, which may panic) observes on containers
exactly what it observes on plain values, results and panics, except that
 * making a container may panic for lack of memory (only if the allocator returned null or, in a debug build, an address outside the
   reserved width), and
 * destructors run as described by `crateDtors`: those of the payload not at all (or too early, if it has size zero), and the enum's
   own at conversions and when unit variants are looked at.
There is no undefined behaviour: the run on containers gets stuck only where the plain one does, i.e. at the use of a moved value.
Missing: destructors as for plain values, which is false (`C46_refuted`, `C46_refuted_drop`). -/
theorem C46_partial (h : env.OK) (hrc : rc.OK) (hc : Compiled rc env.cfg sn en hd ts decl P)
    (hlen : decl.length ≤ 2 ^ env.cfg.DISCRIMINANT_BITS) (ho : env.debug = true ∨ env.InRange) :
    LikePlain env rc decl P (crateDtors rc decl hd) := by
  intro β p hp s hi n
  obtain ⟨fails, h1, h2, h3⟩ := run_plain h hrc hc hlen ho hp (CSim.nil hi) n
  refine ⟨fails, h1, h2, ?_, fun os c hr hin hn => ?_⟩
  · rcases h3 with ⟨e1, e2⟩ | ⟨os, c, hs, e1, e2, _⟩
    · rw [e1, e2]; rfl
    · rw [e1, e2]; rfl
  · rcases h3 with ⟨e1, e2⟩ | ⟨os', c', hs, e1, e2, _, _, h4⟩
    · rw [e1] at hr; cases hr
    · rw [e1] at hr; cases hr; exact h4 hin hn

/-- The results of plain runs do not depend on the destructors, as long as the client does not look at them. -/
theorem plain_results {β : Type} {p : CClient M β} (hp : ∀ os os', os.map (·.1) = os'.map (·.1) → p os = p os') (D D' : Dtors) :
    ∀ fails, (runPlain D p [] fails).map (fun r => (r.1.map (·.1), r.2)) = (runPlain D' p [] fails).map (fun r => (r.1.map (·.1), r.2))
  | [] => rfl
  | fail :: fails => by
    have ih := plain_results hp D D' fails
    simp only [runPlain]
    cases h1 : runPlain D p [] fails with
    | none =>
      rw [h1] at ih
      cases h2 : runPlain D' p [] fails with
      | none => rfl
      | some _ => rw [h2] at ih; cases ih
    | some r =>
      rw [h1] at ih
      cases h2 : runPlain D' p [] fails with
      | none => rw [h2] at ih; cases ih
      | some r' =>
        rw [h2] at ih
        obtain ⟨os, hs⟩ := r
        obtain ⟨os', hs'⟩ := r'
        simp only [Option.map_some, Option.some.injEq, Prod.mk.injEq] at ih
        obtain ⟨e1, rfl⟩ := ih
        simp only [Option.bind_some]
        rw [hp os os' e1]
        cases p os' with
        | none => simp [e1]
        | some op =>
          have make : ∀ e es es', ((plainMake (β := β) D fail hs e es).1.1, (plainMake (β := β) D fail hs e es).2) =
              ((plainMake (β := β) D' fail hs e es').1.1, (plainMake (β := β) D' fail hs e es').2) := by
            intro e es es'
            cases fail <;> rfl
          have key : (plainStep D fail hs op).map (fun r => (r.1.1, r.2)) = (plainStep D' fail hs op).map (fun r => (r.1.1, r.2)) := by
            cases op with
            | «from» e => exact congrArg some (make e [] [])
            | clone k f =>
              simp only [plainStep]
              cases hs[k]?.join with
              | none => rfl
              | some e =>
                simp only [Option.map_some]
                cases f.out e with
                | ok y => exact congrArg some (make y _ _)
                | error _ => rfl
            | copy k => rfl
            | eq k k' f => simp only [plainStep]; cases hs[k]?.join <;> cases hs[k']?.join <;> rfl
            | partialCmp k k' f => simp only [plainStep]; cases hs[k]?.join <;> cases hs[k']?.join <;> rfl
            | cmp k k' f => simp only [plainStep]; cases hs[k]?.join <;> cases hs[k']?.join <;> rfl
            | observe k f => simp only [plainStep]; cases hs[k]?.join <;> rfl
            | debug k f out => simp only [plainStep]; cases hs[k]?.join <;> rfl
            | display k f out => simp only [plainStep]; cases hs[k]?.join <;> rfl
            | intoInner k => rfl
            | drop k => simp only [plainStep]; cases hs[k]?.join <;> rfl
          cases k1 : plainStep D fail hs op with
          | none =>
            rw [k1] at key
            cases k2 : plainStep D' fail hs op with
            | none => simp only [k1, k2, Option.map_none]
            | some _ => rw [k2] at key; cases key
          | some r =>
            rw [k1] at key
            cases k2 : plainStep D' fail hs op with
            | none => rw [k2] at key; cases key
            | some r' =>
              rw [k2] at key
              simp only [Option.map_some, Option.some.injEq, Prod.mk.injEq] at key
              simp [k1, k2, e1, key.1, key.2]

/-- **C46**, corollary: a client that does not watch destructors cannot tell containers from plain values (except by running out of
memory). -/
theorem C46_results_partial (h : env.OK) (hrc : rc.OK) (hc : Compiled rc env.cfg sn en hd ts decl P)
    (hlen : decl.length ≤ 2 ^ env.cfg.DISCRIMINANT_BITS) (ho : env.debug = true ∨ env.InRange) (β : Type) (p : CClient M β)
    (hp : p.OK env rc decl) (hb : ∀ os os', os.map (·.1) = os'.map (·.1) → p os = p os') (s : State) (hi : HeapInv env s) (n : Nat) :
    ∃ fails : List (Option PanicKind), fails.length = n ∧ (∀ f ∈ fails, FailOK env f) ∧
      (runContainers env rc P p ⟨s, []⟩ n).map (fun r => r.1.map (·.1)) =
        (runPlain (rustDtors rc decl hd) p [] fails).map (fun r => r.1.map (·.1)) ∧
      (∀ os c, runContainers env rc P p ⟨s, []⟩ n = some (os, c) → env.InRange → ¬ NullBetween s c.s → fails = List.replicate n none) := by
  obtain ⟨fails, h1, h2, h3, h4⟩ := C46_partial h hrc hc hlen ho β p hp s hi n
  refine ⟨fails, h1, h2, ?_, h4⟩
  have e1 := congrArg (Option.map (List.map Prod.fst)) h3
  have e2 := congrArg (Option.map Prod.fst) (plain_results hb (crateDtors rc decl hd) (rustDtors rc decl hd) fails)
  simp only [Option.map_map] at e1 e2
  exact e1.trans e2

/-- Make a container holding an owned value, then drop it. -/
def demoLeak : CClient M Unit := fun os =>
  match os with
  | [] => some (.from ⟨"Heap", .tuple [List.replicate 8 (some 1#8)]⟩)
  | [_] => some (.drop 0)
  | _ => none

theorem demoLeak_ok (debug : Bool) : demoLeak.OK (env60 debug) rcDemo declMix := by
  intro os op h
  match os with
  | [] => cases h; exact ⟨2, _, rfl, rfl, ⟨rfl, by decide⟩, trivial⟩
  | [_] => cases h; trivial
  | _ :: _ :: _ => cases h

/-- **C46 does not hold**: dropping a container does not run the destructor of its payload. -/
theorem C46_refuted (debug : Bool) : ¬ C46_Statement (env60 debug) rcDemo declMix false progMix := by
  intro h
  obtain ⟨fails, h1, h2, h3, _⟩ := h Unit demoLeak (demoLeak_ok debug) state0 (state0_inv _) 2
  have hr : (runContainers (env60 debug) rcDemo progMix demoLeak ⟨state0, []⟩ 2).map (·.1) =
      some [(.handle 0, []), (.unit, [])] := by cases debug <;> rfl
  rw [hr] at h3
  match fails, h1 with
  | [f2, f1], _ =>
    cases f1 with
    | none =>
      have : (runPlain (rustDtors rcDemo declMix false) demoLeak [] [f2, none]).map (·.1) =
          some [(.handle 0, []), (.unit, [.drop 5 (List.replicate 8 (some 1#8))])] := by rfl
      rw [this] at h3
      injection h3 with h3
      injection h3 with _ h3
      injection h3 with h3
      injection h3 with _ h3
      cases h3
    | some k =>
      have : (runPlain (rustDtors rcDemo declMix false) demoLeak [] [f2, some k]).map (·.1) = none := by rfl
      rw [this] at h3
      cases h3

/-- Make a container from a unit variant. -/
def demoUnit : CClient M Unit := fun os =>
  match os with
  | [] => some (.from ⟨unitName 0, .unit⟩)
  | _ => none

/-- **C46 does not hold** for enums that implement `Drop`: the destructor runs when the container is made. -/
theorem C46_refuted_drop (debug : Bool) :
    Compiled rcDemo (env60 debug).cfg "Container" "Item" true (toksUnits 2) (declUnits 2)
      (programOf "Container" "Item" true (declUnits 2)) ∧
    ¬ C46_Statement (env60 debug) rcDemo (declUnits 2) true (programOf "Container" "Item" true (declUnits 2)) := by
  refine ⟨units_compiled rfl true (by decide), fun h => ?_⟩
  have hok : demoUnit.OK (env60 debug) rcDemo (declUnits 2) := by
    intro os op h
    match os with
    | [] => cases h; exact ⟨0, units_value (by decide)⟩
    | _ :: _ => cases h
  obtain ⟨fails, h1, h2, h3, _⟩ := h Unit demoUnit hok state0 (state0_inv _) 1
  have hr : (runContainers (env60 debug) rcDemo (programOf "Container" "Item" true (declUnits 2)) demoUnit ⟨state0, []⟩ 1).map (·.1) =
      some [(.handle 0, [.dropEnum (unitName 0)])] := by cases debug <;> rfl
  rw [hr] at h3
  match fails, h1 with
  | [f1], _ =>
    cases f1 with
    | none =>
      have : (runPlain (rustDtors rcDemo (declUnits 2) true) demoUnit [] [none]).map (·.1) = some [(.handle 0, [])] := by rfl
      rw [this] at h3
      injection h3 with h3
      injection h3 with h3
      injection h3 with _ h3
      cases h3
    | some k =>
      have : (runPlain (rustDtors rcDemo (declUnits 2) true) demoUnit [] [some k]).map (fun r => r.1.map (·.1)) =
        some [.panicked k] := by rfl
      have h4 := congrArg (Option.map (List.map Prod.fst)) h3
      rw [Option.map_map] at h4
      have h5 := h4.trans this
      injection h5 with h5
      injection h5 with h5
      cases h5

/-- A `clone` that copies the representation, an `eq` that compares it, a closure that panics. -/
def cloneFn : UserFn M EVal EVal := ⟨fun x => pure x, fun x => .ok x, fun _ => []⟩
def eqFn : UserFn M (EVal × EVal) Bool :=
  ⟨fun x => pure (decide (x.1.payload.vals = x.2.payload.vals)), fun x => .ok (decide (x.1.payload.vals = x.2.payload.vals)), fun _ => []⟩
def panicFn : UserFn M EVal Unit := ⟨fun _ => M.panic (.user 7), fun _ => .error 7, fun _ => []⟩

/-- Make, clone, compare, panic in a closure, drop the original, take the clone's value out. -/
def demoMany : CClient M Unit := fun os =>
  match os with
  | [] => some (.from ⟨"Heap", .tuple [List.replicate 8 (some 1#8)]⟩)
  | [_] => some (.clone 0 cloneFn)
  | [_, _] => some (.eq 0 1 eqFn)
  | [_, _, _] => some (.observe 1 panicFn)
  | [_, _, _, _] => some (.drop 0)
  | [_, _, _, _, _] => some (.intoInner 1)
  | _ => none

/-- Non-vacuity: a history with every kind of step meets the hypotheses, and what it observes. -/
example : demoMany.OK (env60 true) rcDemo declMix ∧
    declMix.length ≤ 2 ^ (env60 true).cfg.DISCRIMINANT_BITS ∧
    (runContainers (env60 true) rcDemo progMix demoMany ⟨state0, []⟩ 6).map (·.1) =
      some [(.handle 0, []), (.handle 1, []), (.bool true, []), (.panicked (.user 7), []), (.unit, []),
        (.val ⟨"Heap", .tuple [List.replicate 8 (some 1#8)]⟩, [])] := by
  have ret : ∀ {A α : Type} (f : UserFn M A α) (x : A) (a : α), f.run x = pure a → f.out x = .ok a → f.evs x = [] →
      f.OK (env60 true) x := by
    intro A α f x a h1 h2 h3 s hi
    exact ⟨s, hi, Extends.refl _, by rw [dtors_refl, h3], by rw [h1, h2]; rfl⟩
  refine ⟨?_, by decide, by rfl⟩
  intro os op h
  match os with
  | [] => cases h; exact ⟨2, _, rfl, rfl, ⟨rfl, by decide⟩, trivial⟩
  | [_] => cases h; exact fun x hx => ⟨ret _ _ _ rfl rfl rfl, fun y hy => by cases hy; exact hx⟩
  | [_, _] => cases h; exact fun x y _ _ => ret _ _ _ rfl rfl rfl
  | [_, _, _] => cases h; exact fun x _ s hi => ⟨s, hi, Extends.refl _, dtors_refl s, rfl⟩
  | [_, _, _, _] => cases h; trivial
  | [_, _, _, _, _] => cases h; trivial
  | _ :: _ :: _ :: _ :: _ :: _ :: _ => cases h

end TB.Props

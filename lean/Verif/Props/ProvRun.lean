import Verif.Lemmas.ProvRun
import Verif.Props.Provenance
import Verif.Props.Container

/-!
# Containers and pointer provenance (C71)

`runContainersQ` runs clients on containers as `runContainers` does, on a machine whose pointers carry provenance
(`Provenance.lean`, `Macro/ProvRun.lean`).
-/

set_option autoImplicit false

namespace TB.Props

open TB TB.Macro

variable {env : Env} {rc : Rustc} {sn en : String} {hd : Bool} {ts : List Tok} {decl : List VariantDef} {P : Program}

/-- **C71** For every enum whose variants fit the discriminant bits, every client of containers (adaptive, of any length, with arbitrary
safe user code, which may allocate, expose and panic) keeps to the provenance rules: its run gets stuck only where the same client on
plain values does, i.e. at the use of a moved value, and otherwise it observes exactly what that client observes (with the exceptions
named in C46: running out of memory, and which destructors run). Whatever was allocated at the start, exposed or not, is still allocated
at the end, and has the same bytes. -/
theorem C71_no_ub (h : env.OK) (hrc : rc.OK) (hc : Compiled rc env.cfg sn en hd ts decl P)
    (hlen : decl.length ≤ 2 ^ env.cfg.DISCRIMINANT_BITS) (ho : env.debug = true ∨ env.InRange) (β : Type) (p : CClient MP β)
    (hp : p.OKQ env rc decl) (σ : PState) (hi : σ.OK env) (n : Nat) :
    ∃ fails : List (Option PanicKind), fails.length = n ∧ (∀ f ∈ fails, FailOK env f) ∧
      (runContainersQ env rc P p ⟨σ, []⟩ n).map (·.1) = (runPlain (crateDtors rc decl hd) p [] fails).map (·.1) ∧
      ∀ os c, runContainersQ env rc P p ⟨σ, []⟩ n = some (os, c) →
        (env.InRange → ¬ NullBetween σ.toState c.σ.toState → fails = List.replicate n none) ∧
        (∀ x ∈ σ.live, x ∈ c.σ.live ∧ ∀ i, x.2.base ≤ i → i < x.2.base + x.2.size → c.σ.mem i = σ.mem i) := by
  obtain ⟨fails, h1, h2, h3⟩ := runQ_plain h hrc hc hlen ho hp (QSim.nil hi) n
  refine ⟨fails, h1, h2, ?_, fun os c hr => ?_⟩
  · rcases h3 with ⟨e1, e2⟩ | ⟨os, c, hs, e1, e2, _⟩
    · rw [e1, e2]; rfl
    · rw [e1, e2]; rfl
  · rcases h3 with ⟨e1, e2⟩ | ⟨os', c', hs, e1, e2, _, h4, h5⟩
    · rw [e1] at hr; cases hr
    · rw [e1] at hr; cases hr
      exact ⟨h5, fun x hx => ⟨h4.live x hx, h4.mem.bytes x.2 (List.mem_map.2 ⟨x, hx, rfl⟩)⟩⟩

/-- **C71** The generated code exposes nothing but what it allocates: if the user code makes no foreign allocation reachable from an integer,
neither does the run (of any client, well-typed or not). -/
theorem C71_foreign_stays_private (β : Type) (p : CClient MP β) (hp : p.Discreet) (σ : PState) (n : Nat) (os : List (CObs β)) (c : QState)
    (h : runContainersQ env rc P p ⟨σ, []⟩ n = some (os, c)) (id : Nat) (hid : id < σ.next) (hx : id ∉ σ.exposed) : id ∉ c.σ.exposed := by
  intro hc
  rcases (runContainersQ_grow hp ⟨σ, []⟩ n h).2 id hc with h | h
  · exact hx h
  · have : σ.next ≤ id := h
    omega

/-- **C71** `from_tagged_box` keeps to the rules as well: a box made by `into_tagged_box` can be turned back into the value, in any later state
(for variants with several unnamed fields, if rustc lays out the tuple of their types like the `#[repr(C)]` structure; see C30). -/
theorem C71_from_tagged_box (h : env.OK) (hrc : rc.OK) (hc : Compiled rc env.cfg sn en hd ts decl P)
    (hlen : decl.length ≤ 2 ^ env.cfg.DISCRIMINANT_BITS) (ho : env.debug = true ∨ env.InRange) (e : EVal)
    (hv : IsEnumValue rc decl e) (hl : ∀ d ∈ decl, d.name = e.variant → ∀ tys, d.fields = .tuple tys → 2 ≤ tys.length →
      env.tuple (tys.map rc.leaf) = reprC (tys.map rc.leaf))
    (σ : PState) (hi : σ.OK env) (b : TBox) (σ₁ : PState) (hr : intoTaggedBoxQ env rc P e σ = .ret b σ₁)
    (σ₂ : PState) (he : PExtends σ₁ σ₂) : fromTaggedBoxQ env rc P b σ₂ = .ret e σ₂ := by
  obtain ⟨hm, i, hs⟩ := (into_follows h hrc hc hlen ho hv hi).2 b σ₁ hr
  obtain ⟨hw, rfl⟩ := hc.wf
  refine firstReadQ_stores (c := false) hw.u8 hw.names hw.members (hs.mono hrc he.mem) (hm.mono he) (fun _ d hdi t t' tys hf => ?_)
  obtain ⟨d', hdi', hvn, _⟩ := hs.1
  rw [hdi] at hdi'
  cases hdi'
  exact hl d (List.mem_of_getElem? hdi) hvn.symm _ hf (by simp)

/-! ## An example -/

/-- A comparison that makes an allocation of its own, which it never exposes. -/
def eqFnQ : UserFn MP (EVal × EVal) Bool :=
  ⟨fun x => do
    let _ ← allocQ (env60 true) 8 8
    pure (decide (x.1.payload.vals = x.2.payload.vals)), fun x => .ok (decide (x.1.payload.vals = x.2.payload.vals)), fun _ => []⟩

/-- A closure that panics. -/
def panicFnQ : UserFn MP EVal Unit := ⟨fun _ => MP.panic (.user 7), fun _ => .error 7, fun _ => []⟩

/-- A `clone` that copies the representation. -/
def cloneFnQ : UserFn MP EVal EVal := ⟨fun x => pure x, fun x => .ok x, fun _ => []⟩

/-- Make, clone, compare, panic in a closure, drop the original, take the clone's value out. -/
def demoManyQ : CClient MP Unit := fun os =>
  match os with
  | [] => some (.from ⟨"Heap", .tuple [List.replicate 8 (some 1#8)]⟩)
  | [_] => some (.clone 0 cloneFnQ)
  | [_, _] => some (.eq 0 1 eqFnQ)
  | [_, _, _] => some (.observe 1 panicFnQ)
  | [_, _, _, _] => some (.drop 0)
  | [_, _, _, _, _] => some (.intoInner 1)
  | _ => none

theorem eqFnQ_ok (x : EVal × EVal) : eqFnQ.OKQ (env60 true) x := by
  intro σ hσ
  by_cases ha : (env60 true).alloc σ.toState 8 8 = 0
  · refine ⟨σ.log [.allocNull 8 8], hσ.log _, PExtends.log _ _, dtors_log _ _, ?_⟩
    show ((allocQ (env60 true) 8 8 >>= _) σ : POut Bool) = _
    rw [MP.bind_def, allocQ]
    simp only [ha, if_true]
    rfl
  · obtain ⟨l1, l2, l3⟩ := (env60_ok true).lawful σ.toState 8 8 (by omega) ha
    let σ' : PState := { mem := overlay σ.mem ((env60 true).alloc σ.toState 8 8) (List.replicate 8 none),
                         live := (σ.next, ⟨(env60 true).alloc σ.toState 8 8, 8, 8⟩) :: σ.live,
                         trace := σ.trace ++ [.alloc ⟨(env60 true).alloc σ.toState 8 8, 8, 8⟩],
                         next := σ.next + 1,
                         exposed := σ.exposed }
    have hinv : HeapInv (env60 true) σ'.toState := by
      have := boxedState_inv (env60_ok true) hσ.heap (sh := u64L.shape) (v := []) (by decide) ha
      exact ⟨this.block, this.disjoint⟩
    refine ⟨σ', ⟨hinv, fun y hy => ?_, fun i hi => Nat.lt_succ_of_lt (hσ.exposed i hi)⟩,
      ⟨⟨fun b hb => List.mem_cons_of_mem _ hb, fun b hb i h1 h2 => ?_, List.prefix_append _ _⟩,
        fun y hy => List.mem_cons_of_mem _ hy, fun i hi => hi⟩, ?_, ?_⟩
    · rcases List.mem_cons.1 hy with rfl | hy
      · exact Nat.lt_succ_self _
      · exact Nat.lt_succ_of_lt (hσ.ids y hy)
    · have hd := l3 b hb
      simp only [Block.Disjoint] at hd
      exact overlay_out (by simp; omega)
    · show ((σ.trace ++ _).drop σ.trace.length).filter _ = []
      rw [List.drop_left]
      rfl
    · show ((allocQ (env60 true) 8 8 >>= _) σ : POut Bool) = _
      rw [MP.bind_def, allocQ]
      simp only [ha, if_false]
      rfl

theorem demoManyQ_ok : demoManyQ.OKQ (env60 true) rcDemo declMix := by
  intro os op h
  match os with
  | [] => cases h; exact ⟨2, _, rfl, rfl, ⟨rfl, by decide⟩, trivial⟩
  | [_] => cases h; exact fun x hx => ⟨fun σ hσ => ⟨σ, hσ, PExtends.refl _, dtors_refl _, rfl⟩, fun y hy => by cases hy; exact hx⟩
  | [_, _] => cases h; exact fun x y _ _ => eqFnQ_ok (x, y)
  | [_, _, _] => cases h; exact fun x _ σ hσ => ⟨σ, hσ, PExtends.refl _, dtors_refl _, rfl⟩
  | [_, _, _, _] => cases h; trivial
  | [_, _, _, _, _] => cases h; trivial
  | _ :: _ :: _ :: _ :: _ :: _ :: _ => cases h

theorem demoManyQ_discreet : demoManyQ.Discreet := by
  intro os op h
  match os with
  | [] => cases h; trivial
  | [_] => cases h; exact fun x σ => ⟨Nat.le_refl _, fun _ h => .inl h⟩
  | [_, _] =>
    cases h
    intro x σ
    have hx : eqFnQ.run x σ = (allocQ (env60 true) 8 8 >>= fun _ => pure (decide (x.1.payload.vals = x.2.payload.vals))) σ := rfl
    rw [hx, MP.bind_def, allocQ]
    by_cases ha : (env60 true).alloc σ.toState 8 8 = 0
    · simp only [ha, if_true]
      exact ⟨Nat.le_refl _, fun _ h => .inl h⟩
    · simp only [ha, if_false]
      exact ⟨Nat.le_succ _, fun _ h => .inl h⟩
  | [_, _, _] => cases h; exact fun x σ => ⟨Nat.le_refl _, fun _ h => .inl h⟩
  | [_, _, _, _] => cases h; trivial
  | [_, _, _, _, _] => cases h; trivial
  | _ :: _ :: _ :: _ :: _ :: _ :: _ => cases h

theorem pstate0_ok : pstate0.OK (env60 true) :=
  ⟨⟨by simp [pstate0, PState.toState, env60, demoEnv], by simp [pstate0, PState.toState]⟩, by simp [pstate0], by simp [pstate0]⟩

deriving instance DecidableEq for CRes

/-- Non-vacuity: a history on the heap of C64, with an allocation that is not exposed. The containers' allocations (1 and 2) are exposed;
the program's (0) and that of the user's comparison (3) are not. -/
example : demoManyQ.OKQ (env60 true) rcDemo declMix ∧ demoManyQ.Discreet ∧ pstate0.OK (env60 true) ∧
    (runContainersQ (env60 true) rcDemo progMix demoManyQ ⟨pstate0, []⟩ 6).map (fun r => (r.1, r.2.σ.live.map (·.1), r.2.σ.exposed)) =
      some ([(.handle 0, []), (.handle 1, []), (.bool true, []), (.panicked (.user 7), []), (.unit, []),
        (.val ⟨"Heap", .tuple [List.replicate 8 (some 1#8)]⟩, [])], [3, 2, 1, 0], [2, 2, 1, 1]) :=
  ⟨demoManyQ_ok, demoManyQ_discreet, pstate0_ok, by decide +kernel⟩

/-- Non-vacuity of the last statement: a value of a variant with two unnamed fields. -/
example : ∃ b σ₁, intoTaggedBoxQ (env60 true) rcDemo progMix ⟨"Pair", .tuple [[some 1#8], List.replicate 4 (some 2#8)]⟩ pstate0 = .ret b σ₁ ∧
    fromTaggedBoxQ (env60 true) rcDemo progMix b σ₁ = .ret ⟨"Pair", .tuple [[some 1#8], List.replicate 4 (some 2#8)]⟩ σ₁ :=
  ⟨_, _, rfl, C71_from_tagged_box (env60_ok true) rcDemo_ok (mix_compiled true) (by decide) (.inl rfl)
    ⟨"Pair", .tuple [[some 1#8], List.replicate 4 (some 2#8)]⟩ ⟨1, _, rfl, rfl, ⟨rfl, by decide⟩, ⟨rfl, by decide⟩, trivial⟩ (fun _ _ _ _ _ _ => rfl) pstate0 pstate0_ok _ _ rfl _ (PExtends.refl _)⟩

end TB.Props

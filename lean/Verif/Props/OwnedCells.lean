import Verif.Props.Owned

/-!
# Payloads that own memory and can be changed through a shared reference

`Cell<Box<u8>>`, `RefCell<Vec<u8>>`, `OnceCell<String>`: safe code can change such a payload when it is given `&Enum`, and
`ref_from_tagged_box` gives it to its closure.
-/

set_option autoImplicit false

namespace TB.Props

open TB.Macro

variable {env : Env} {rc : Rustc} {sn en : String} {ts : List Tok} {decl : List VariantDef} {P : Program}
variable {X β : Type} {O : Ownership X} {body : Nat → List MByte → M Unit}

/-! ## C77 -/

/-- The claim: C60 also for clients that change payloads through the reference that they are given by `ref_from_tagged_box`: what a client
observes is what it observes with abstract values, where such a change is a change of the value in the container; in particular there is no
undefined behaviour. -/
def C77_Statement (env : Env) (rc : Rustc) (decl : List VariantDef) (P : Program) (O : Ownership X)
    (body : Nat → List MByte → M Unit) (β : Type) : Prop :=
  ∀ p : OClient X β, p.Safe env rc decl O → ∀ s, HeapInv env s → ∀ n, ∃ fails : List (Option PanicKind),
    fails.length = n ∧ (∀ f ∈ fails, OFailOK env f) ∧
    (runOwned env rc P body p s n).map (·.1) = (runAbstract p fails).map (·.1)

/-- **C77**, the part that holds: if the changes made through shared references leave the bytes of the payload as they are (they are made in
the memory that the payload owns: `*cell.borrow_mut() = 9` for a `Box<RefCell<u8>>`).
Missing: changes of the bytes of the payload itself, for which it is false (`C77_refuted`). -/
theorem C77_partial (h : env.OK) (hrc : rc.OK) (hc : Compiled rc env.cfg sn en false ts decl P)
    (hlen : decl.length ≤ 2 ^ env.cfg.DISCRIMINANT_BITS) (ho : env.debug = true ∨ env.InRange) (hz : NoZeroSizedDtors rc decl)
    (hO : O.Lawful) (hB : DropOK env rc decl O body) (p : OClient X β) (hp : p.Safe env rc decl O)
    (hin : ∀ os op, p os = some op → op.InPlace) (s : State) (hi : HeapInv env s) (n : Nat) :
    ∃ fails : List (Option PanicKind), fails.length = n ∧ (∀ f ∈ fails, OFailOK env f) ∧
      (runOwned env rc P body p s n).map (·.1) = (runAbstract p fails).map (·.1) := by
  obtain ⟨fails, h1, h2, h3, _⟩ := C60_owned h hrc hc hlen ho hz hO hB p (fun os op hop => ⟨hp os op hop, hin os op hop⟩) s hi n
  exact ⟨fails, h1, h2, h3⟩

def ORes.isPanic : ORes β → Bool
  | .panicked _ => true
  | _ => false

/-- A client that does these operations one after the other, until one of them panics. -/
def untilPanic (ops : List (OOp X β)) : OClient X β := fun os =>
  if os.any ORes.isPanic then none else ops[os.length]?

theorem untilPanic_mem {ops : List (OOp X β)} {os : List (ORes β)} {op : OOp X β} (h : untilPanic ops os = some op) : op ∈ ops := by
  unfold untilPanic at h
  split at h
  · cases h
  · exact List.mem_of_getElem? h

/-- ```
let c = Container::from(Item::Heap(Box::new(7)));
c.with(|x| **x = 9);                              // through the pointer
look(&c);
``` -/
def inPlaceScript (env : Env) : List (OOp Item Item) :=
  [.make (makeHeap env 7#8), .wrap 0, .change 0 (setItem 9#8), .look 0 lookItem]

/-- The hypotheses of `C77_partial` are met. -/
example (debug : Bool) (n : Nat) : ∃ fails : List (Option PanicKind), fails.length = n ∧ (∀ f ∈ fails, OFailOK (env60 debug) f) ∧
    (runOwned (env60 debug) rcDemo progMix itemBody (untilPanic (inPlaceScript (env60 debug))) state0 n).map (·.1) =
      (runAbstract (untilPanic (inPlaceScript (env60 debug))) fails).map (·.1) := by
  refine C77_partial (env60_ok debug) rcDemo_ok (mix_compiled debug) (by cases debug <;> decide)
    (.inr (env60_inRange debug)) item_noZst ownItem_lawful item_drop _ (fun os op hop => ?_) (fun os op hop => ?_) _ (state0_inv _) n
  · have := untilPanic_mem hop
    simp only [inPlaceScript, List.mem_cons, List.not_mem_nil, or_false] at this
    rcases this with rfl | rfl | rfl | rfl
    · exact makeHeap_ok (env60_ok debug) _
    · trivial
    · exact setItem_ok _
    · exact lookItem_ok
  · have := untilPanic_mem hop
    simp only [inPlaceScript, List.mem_cons, List.not_mem_nil, or_false] at this
    rcases this with rfl | rfl | rfl | rfl
    · trivial
    · trivial
    · exact setItem_inPlace _
    · trivial

/-- The change is seen through the container. -/
example : (runOwned (env60 false) rcDemo progMix itemBody (untilPanic (inPlaceScript (env60 false))) state0 4).map (·.1) =
    some [.handle 0, .unit, .seen itemTag, .seen (.inl 9#8)] := by decide +kernel

/-- ```
let c = Container::from(Item::Heap(Cell::new(Box::new(7))));
c.with(|x| x.set(Box::new(9)));                   // the old box is dropped
look(&c);
``` -/
def swapScript (env : Env) : List (OOp Item Item) :=
  [.make (makeHeap env 7#8), .wrap 0, .change 0 (swapItem env 9#8), .look 0 lookItem]

theorem swapScript_safe (h : env.OK) : (untilPanic (swapScript env)).Safe env rcDemo declMix ownItem := by
  intro os op hop
  have := untilPanic_mem hop
  simp only [swapScript, List.mem_cons, List.not_mem_nil, or_false] at this
  rcases this with rfl | rfl | rfl | rfl
  · exact makeHeap_ok h _
  · trivial
  · exact swapItem_ok h _
  · exact lookItem_ok

/-- Whatever runs out of memory, with abstract values this client can do all it does. -/
theorem swapScript_plain (env : Env) (f₀ f₁ f₂ f₃ : Option PanicKind) :
    runAbstract (untilPanic (swapScript env)) [f₃, f₂, f₁, f₀] ≠ none := by
  have stop : ∀ fails os hs, runAbstract (untilPanic (swapScript env)) fails = some (os, hs) →
      os.any ORes.isPanic = true → ∀ f,
      runAbstract (untilPanic (swapScript env)) (f :: fails) = some (os, hs) := by
    intro fails os hs h1 h2 f
    have : untilPanic (swapScript env) os = none := by unfold untilPanic; rw [if_pos h2]
    simp only [runAbstract, h1, Option.bind_some, this]
    split <;> rfl
  have first : ∀ f, runAbstract (untilPanic (swapScript env)) [f] = some ([.handle 0], [some (false, .inl 7#8)]) ∨
      runAbstract (untilPanic (swapScript env)) [f] = some ([.panicked .abort], []) := by
    intro f
    cases f with
    | none => exact .inl rfl
    | some k => cases k <;> first | exact .inl rfl | exact .inr rfl
  rcases first f₀ with e0 | e0
  · have e1 : runAbstract (untilPanic (swapScript env)) [f₁, f₀] = some ([.handle 0, .unit], [some (true, .inl 7#8)]) ∨
        ∃ k, runAbstract (untilPanic (swapScript env)) [f₁, f₀] = some ([.handle 0, .panicked k], [none]) := by
      rw [runAbstract, e0]
      cases f₁ with
      | none => exact .inl rfl
      | some k => exact .inr ⟨k, rfl⟩
    rcases e1 with e1 | ⟨k, e1⟩
    · have e2 : runAbstract (untilPanic (swapScript env)) [f₂, f₁, f₀] = some ([.handle 0, .unit, .seen itemTag], [some (true, .inl 9#8)]) ∨
          runAbstract (untilPanic (swapScript env)) [f₂, f₁, f₀] = some ([.handle 0, .unit, .panicked .abort], [some (true, .inl 7#8)]) := by
        rw [runAbstract, e1]
        cases f₂ with
        | none => exact .inl rfl
        | some k => cases k <;> first | exact .inl rfl | exact .inr rfl
      rcases e2 with e2 | e2
      · rw [runAbstract, e2]
        cases f₃ with
        | none => exact Option.some_ne_none _
        | some k => cases k <;> exact Option.some_ne_none _
      · rw [stop _ _ _ e2 rfl]; simp
    · rw [stop _ _ _ (stop _ _ _ e1 rfl f₂) rfl]; simp
  · rw [stop _ _ _ (stop _ _ _ (stop _ _ _ e0 rfl f₁) rfl f₂) rfl]; simp

/-- **C77** is false, e.g. for `Cell<Box<u8>>`: `ref_from_tagged_box` gives the closure a copy of the payload; the closure sets the cell,
which frees the old box; and the container still points to it. The next look is a use after free. -/
theorem C77_refuted : ¬ C77_Statement (env60 false) rcDemo declMix progMix ownItem itemBody Item := by
  intro H
  obtain ⟨fails, h1, _, h3⟩ := H _ (swapScript_safe (env60_ok false)) state0 (state0_inv _) 4
  have hk : ((runOwned (env60 false) rcDemo progMix itemBody (untilPanic (swapScript (env60 false))) state0 4).map (·.1)).isNone = true := by
    decide +kernel
  rw [h3] at hk
  match fails, h1 with
  | [f₃, f₂, f₁, f₀], _ =>
    cases hr : runAbstract (untilPanic (swapScript (env60 false))) [f₃, f₂, f₁, f₀] with
    | none => exact swapScript_plain _ _ _ _ _ hr
    | some r => rw [hr] at hk; cases hk

/-- Without the last look there is no undefined behaviour yet, and a value that is not in a container is changed as expected. -/
example : ((runOwned (env60 false) rcDemo progMix itemBody (untilPanic (swapScript (env60 false))) state0 3).map (·.1) =
      some [.handle 0, .unit, .seen itemTag]) ∧
    (runOwned (env60 false) rcDemo progMix itemBody (untilPanic [.make (makeHeap (env60 false) 7#8), .change 0 (swapItem (env60 false) 9#8),
      .look 0 lookItem, .take 0 freeItem]) state0 4).map (·.1) =
      some [.handle 0, .seen itemTag, .seen (.inl 9#8), .seen itemTag] := by
  constructor <;> decide +kernel

/-- Taking the value out and dropping it instead of looking at it: a double free. -/
example : ((runOwned (env60 false) rcDemo progMix itemBody (untilPanic [.make (makeHeap (env60 false) 7#8), .wrap 0,
    .change 0 (swapItem (env60 false) 9#8), .unwrap 0, .take 0 freeItem]) state0 5).map (·.1)).isNone = true := by decide +kernel

/-- **C77**, what happens instead, for every enum, every notion of ownership and every closure that is safe code: a value is put into a
container, and `ref_from_tagged_box` calls the closure. What the closure makes of the payload is forgotten, and the container gives back what
was put into it. If the closure gave up a block that the payload had owned, then that is not a value any more: nothing with these bytes owns
that block. -/
theorem C77_exact (h : env.OK) (hrc : rc.OK) (hc : Compiled rc env.cfg sn en false ts decl P)
    (hlen : decl.length ≤ 2 ^ env.cfg.DISCRIMINANT_BITS) (ho : env.debug = true ∨ env.InRange) (hz : NoZeroSizedDtors rc decl)
    (hO : O.Lawful) (hB : DropOK env rc decl O body) {s₀ s s' : State} (hi : HeapInv env s₀) {b : TBox} {e e' : EVal} {F : List Block}
    {x : X} {a : β} (hv : OwnsVal rc decl O s₀ F e x) (hb : withBodies body (containerFrom env rc P e) s₀ = .ret b s)
    (f : ModifyFn X β) (hf : f.OK env rc decl O) (hr : f.run e s = .ret (e', a) s') :
    (taggable env rc P).refFrom b f.run s = .ret (some (e', a)) s' ∧
    containerIntoInner env rc P b s' = .ret e s' ∧
    ∀ k ∈ F, k ∉ s'.blocks → ∀ F' x', k ∈ F' → ¬ O.own s' F' e x' := by
  obtain ⟨fail, s₁, _, _, hi', hC₁, hr₁⟩ := wrap_step h hrc hc hlen ho hz hO hB (List.prefix_refl _) (dtors_refl _)
    (m := containerFrom env rc P e) rfl hi hv
  cases fail with
  | some k => rw [hb] at hr₁; cases hr₁
  | none =>
    obtain ⟨b', i, hr₁, _, hs, hown, hfr⟩ := hr₁
    rw [hb] at hr₁
    cases hr₁
    have hE := hf s F e x hi' ⟨⟨_, hs.1⟩, hown⟩
    have hC : ChangesOnly F s s' := by
      obtain ⟨s'', _, _, ⟨h1, _⟩ | ⟨h1, _, r, h2, _⟩⟩ := hE
      · rw [hr] at h1; cases h1
      · rw [hr] at h2; cases h2; exact h1
    have hs' : Stores env rc decl s' b i e :=
      hs.frame hrc (hC.keeps fun k hk => ⟨hs.blocks_live k hk, fun hx => hfr k hk (hO.live hv.2 k hx)⟩)
    refine ⟨?_, ?_, fun k hk hn F' x' hF' ho => hn (hO.live ho k hF')⟩
    · rw [refFrom_owned hc hs f.run]
      exact M.bind_of_ret hr
    · obtain ⟨hw, rfl⟩ := hc.wf
      exact containerIntoInner_stores (sn := sn) (en := en) (hd := false) hw.u8 hw.names hw.members hs'

/-- An item that owns a block, and a closure that gives it up. -/
example : ∃ e s₀ b s e' s' k, OwnsVal rcDemo declMix ownItem s₀ [k] e (.inl 7#8) ∧
    withBodies itemBody (containerFrom (env60 false) rcDemo progMix e) s₀ = .ret b s ∧
    (swapItem (env60 false) 9#8).run e s = .ret (e', itemTag) s' ∧ k ∉ s'.blocks := by
  refine ⟨heapAt 8, ⟨fun a => if a = 8 then some 7#8 else none, [⟨8, 1, 1⟩], []⟩, _, _, _, _, ⟨8, 1, 1⟩,
    ⟨heapAt_value (by decide) (by decide), 8, rfl, by decide, by decide, rfl, List.mem_singleton.2 rfl, rfl⟩, rfl, rfl, ?_⟩
  decide

end TB.Props

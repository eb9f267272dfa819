import Verif.DemoOwned

/-!
# Properties of containers whose payloads own memory
-/

set_option autoImplicit false

namespace TB.Props

open TB.Macro

variable {env : Env} {rc : Rustc} {sn en : String} {ts : List Tok} {decl : List VariantDef} {P : Program}
variable {X β : Type} {O : Ownership X} {body : Nat → List MByte → M Unit}

/-! ## C60 -/

/-- **C60**: payloads may own memory (`String`, `Vec`, `Box`). For every enum whose variants fit the discriminant bits, every notion of
ownership, and every client (adaptive, of any length) whose user code respects ownership: makes new values, clones deeply, looks, compares,
changes and consumes values it holds, with destructors that free what a value owns, the client observes with containers exactly what it
observes with abstract values, where putting a value into a container and taking it out have no effect at all. In particular there is no
undefined behaviour such as a dangling payload, a double free or two containers sharing what one of them owns. Exceptions: making a
container may panic for lack of memory, user code may abort for lack of memory, and neither happens unless the allocator returned null (or,
in a debug build, an address outside the reserved width). -/
theorem C60_owned (h : env.OK) (hrc : rc.OK) (hc : Compiled rc env.cfg sn en false ts decl P)
    (hlen : decl.length ≤ 2 ^ env.cfg.DISCRIMINANT_BITS) (ho : env.debug = true ∨ env.InRange) (hz : NoZeroSizedDtors rc decl)
    (hO : O.Lawful) (hB : DropOK env rc decl O body) (p : OClient X β) (hp : p.OK env rc decl O) (s : State) (hi : HeapInv env s)
    (n : Nat) : ∃ fails : List (Option PanicKind),
      fails.length = n ∧ (∀ f ∈ fails, OFailOK env f) ∧
      (runOwned env rc P body p s n).map (·.1) = (runAbstract p fails).map (·.1) ∧
      (∀ os c, runOwned env rc P body p s n = some (os, c) → env.InRange → ¬ NullBetween s c.s → fails = List.replicate n none) := by
  obtain ⟨fails, h1, h2, h3⟩ := run_owned h hrc hc hlen ho hz hO hB hp (os₀ := []) (OSim.nil hi) n
  rw [← runFrom_nil, ← plainFrom_nil] at h3
  refine ⟨fails, h1, h2, ?_, fun os c hr hin hn => ?_⟩
  · rcases h3 with ⟨e1, e2⟩ | ⟨os, c, hs, e1, e2, _⟩
    · rw [e1, e2]; rfl
    · rw [e1, e2]; rfl
  · rcases h3 with ⟨e1, e2⟩ | ⟨os', c', hs, e1, e2, _, _, h4⟩
    · rw [e1] at hr; cases hr
    · rw [e1] at hr; cases hr; exact h4 hin hn

/-- A client that does these operations one after the other. -/
def script (ops : List (OOp X β)) : OClient X β := fun os => ops[os.length]?

theorem script_ok {ops : List (OOp X β)} (h : ∀ op ∈ ops, op.Safe env rc decl O ∧ op.InPlace) : (script ops).OK env rc decl O :=
  fun _ _ hop => h _ (List.mem_of_getElem? hop)

/-- ```
let mut x = Item::Heap(Box::new(7));     // 0
let c = Container::from(x);
let d = c.clone();                       // 1
let mut x = c.into_inner();
*x = 9;                                  // `d` is not affected
look(&d); let c = Container::from(x); c == d;
drop(d);
look(&c); free(c.into_inner());
``` -/
def demoScript (env : Env) : List (OOp Item Item) :=
  [.make (makeHeap env 7#8), .wrap 0, .clone 0 (cloneItem env), .unwrap 0, .modify 0 (setItem 9#8), .look 1 lookItem, .wrap 0,
   .eq 0 1 eqItem, .drop 1, .look 0 lookItem, .unwrap 0, .take 0 freeItem]

theorem demoScript_ok (h : env.OK) : (script (demoScript env)).OK env rcDemo declMix ownItem := by
  refine script_ok fun op hop => ?_
  simp only [demoScript, List.mem_cons, List.not_mem_nil, or_false] at hop
  rcases hop with rfl | rfl | rfl | rfl | rfl | rfl | rfl | rfl | rfl | rfl | rfl | rfl
  · exact ⟨makeHeap_ok h _, trivial⟩
  · exact ⟨trivial, trivial⟩
  · exact ⟨cloneItem_ok h, trivial⟩
  · exact ⟨trivial, trivial⟩
  · exact ⟨setItem_ok _, trivial⟩
  · exact ⟨lookItem_ok, trivial⟩
  · exact ⟨trivial, trivial⟩
  · exact ⟨eqItem_ok, trivial⟩
  · exact ⟨trivial, trivial⟩
  · exact ⟨lookItem_ok, trivial⟩
  · exact ⟨trivial, trivial⟩
  · exact ⟨freeItem_ok, trivial⟩

def itemTag : Item := .inr ⟨"Tag", .unit⟩

/-- What the client is to see. -/
def demoSeen : List (ORes Item) :=
  [.handle 0, .unit, .handle 1, .unit, .seen itemTag, .seen (.inl 7#8), .unit, .bool false, .unit, .seen (.inl 9#8), .unit, .seen itemTag]

/-- The hypotheses are met by a `Box<u8>` payload. -/
example (debug : Bool) (n : Nat) : ∃ fails : List (Option PanicKind), fails.length = n ∧ (∀ f ∈ fails, OFailOK (env60 debug) f) ∧
    (runOwned (env60 debug) rcDemo progMix itemBody (script (demoScript (env60 debug))) state0 n).map (·.1) =
      (runAbstract (script (demoScript (env60 debug))) fails).map (·.1) := by
  obtain ⟨fails, h1, h2, h3, _⟩ := C60_owned (env60_ok debug) rcDemo_ok (mix_compiled debug) (by cases debug <;> decide)
    (.inr (env60_inRange debug)) item_noZst ownItem_lawful item_drop _ (demoScript_ok (env60_ok debug)) _ (state0_inv _) n
  exact ⟨fails, h1, h2, h3⟩

/-- The run is the expected one: the clone is deep. -/
example (debug : Bool) :
    (runAbstract (script (demoScript (env60 debug))) (List.replicate 12 none)).map (·.1) = some demoSeen := rfl

deriving instance DecidableEq for ORes

example : (runOwned (env60 false) rcDemo progMix itemBody (script (demoScript (env60 false))) state0 12).map (·.1) = some demoSeen := by
  decide +kernel

/-! ## C61 -/

/-- **C61**: such a client never touches memory that was alive before it started: everything is still alive, with the same contents (as long
as the process has not aborted). -/
theorem C61_isolated (h : env.OK) (hrc : rc.OK) (hc : Compiled rc env.cfg sn en false ts decl P)
    (hlen : decl.length ≤ 2 ^ env.cfg.DISCRIMINANT_BITS) (ho : env.debug = true ∨ env.InRange) (hz : NoZeroSizedDtors rc decl)
    (hO : O.Lawful) (hB : DropOK env rc decl O body) (p : OClient X β) (hp : p.OK env rc decl O) (s : State) (hi : HeapInv env s)
    (n : Nat) (os : List (ORes β)) (c : OState) (hr : runOwned env rc P body p s n = some (os, c)) (ha : aborted os = false) :
    ∀ b ∈ s.blocks, b ∈ c.s.blocks ∧ ∀ i, b.base ≤ i → i < b.base + b.size → c.s.mem i = s.mem i := by
  obtain ⟨fails, h1, h2, h3⟩ := run_owned h hrc hc hlen ho hz hO hB hp (os₀ := []) (OSim.nil hi) n
  rw [← runFrom_nil] at h3
  rcases h3 with ⟨e1, e2⟩ | ⟨os', c', hs, e1, e2, h4, _⟩
  · rw [e1] at hr; cases hr
  · rw [e1] at hr; cases hr
    obtain ⟨K, G, _, _, hk⟩ := h4.resolve_left (by rw [ha]; simp)
    exact hk

/-- Somebody else's block, with contents, before and after the run of C60's example. -/
example : (runOwned (env60 false) rcDemo progMix itemBody (script (demoScript (env60 false)))
    ⟨fun a => if a = 8 then some 42#8 else none, [⟨8, 8, 8⟩], []⟩ 12).map
      (fun r => (aborted r.1, r.2.s.mem 8, decide ((⟨8, 8, 8⟩ : Block) ∈ r.2.s.blocks))) = some (false, some 42#8, true) := by
  decide +kernel

/-! ## C62 -/

/-- After this run, the memory in use is what it was. -/
def GivesBack (env : Env) (rc : Rustc) (P : Program) (body : Nat → List MByte → M Unit) (ops : List (OOp X X)) (s : State) : Prop :=
  ∀ os c, runOwned env rc P body (script ops) s ops.length = some (os, c) → aborted os = false →
    ∀ b, b ∈ c.s.blocks ↔ b ∈ s.blocks

/-- The claim: if making a value and getting rid of it gives all memory back, then so does a detour through a container, and so does
dropping the container. -/
def C62_Statement (env : Env) (rc : Rustc) (decl : List VariantDef) (P : Program) (O : Ownership X)
    (body : Nat → List MByte → M Unit) : Prop :=
  ∀ (f : MakeFn X) (g : TakeFn X X), f.OK env rc decl O → g.OK env rc decl O →
    (∀ s, HeapInv env s → GivesBack env rc P body [.make f, .take 0 g] s) →
    ∀ s, HeapInv env s →
      GivesBack env rc P body [.make f, .wrap 0, .unwrap 0, .take 0 g] s ∧ GivesBack env rc P body [.make f, .wrap 0, .drop 0] s

/-- **C62** is false: both leak, e.g. for a `Box<u8>`. Taking the value out leaves the container's own block behind, dropping the container
also leaves behind what the payload owns. -/
theorem C62_refuted : ¬ C62_Statement (env60 false) rcDemo declMix progMix ownItem itemBody := by
  intro H
  have hb : ∀ s, HeapInv (env60 false) s →
      GivesBack (env60 false) rcDemo progMix itemBody [.make (makeHeap (env60 false) 7#8), .take 0 freeItem] s := by
    intro s hi os c hr ha b
    by_cases h0 : (env60 false).alloc s 1 1 = 0
    · have h1 : ostep (env60 false) rcDemo progMix itemBody ⟨s, []⟩ (.make (makeHeap (env60 false) 7#8) : OOp Item Item) =
          some (.panicked .abort, _) := ostepWith_panic (boxNew_null 7#8 h0)
      simp only [List.length, runOwned, script, Option.bind_some, aborted, List.getLast?_nil, List.getElem?_cons_zero, h1,
        Option.map_some, List.nil_append] at hr
      simp at hr
      obtain ⟨rfl, rfl⟩ := hr
      simp [aborted] at ha
    · have hv := boxNew_ends (env60_ok false) hi 7#8
      have h1 : ostep (env60 false) rcDemo progMix itemBody ⟨s, []⟩ (.make (makeHeap (env60 false) 7#8) : OOp Item Item) =
          some (.handle 0, _) := ostepWith_ret (boxNew_some 7#8 h0)
      have h3 : (env60 false).alloc s 1 1 < 2 ^ 64 := by
        have := (env60_ok false).lawful s 1 1 (by omega) h0
        have := (env60_ok false).pow_le
        omega
      have hf : freeItem.run (heapAt ((env60 false).alloc s 1 1)) (boxedState s ((env60 false).alloc s 1 1) u8L.shape [[some 7#8]]) =
          .ret _ _ := M.bind_of_ret (by
            simp only [itemFree, itemPtr_heap h3]
            exact deallocM_ret List.mem_cons_self)
      have h2 : ostep (env60 false) rcDemo progMix itemBody
          ⟨boxedState s ((env60 false).alloc s 1 1) u8L.shape [[some 7#8]], [some (.val (heapAt ((env60 false).alloc s 1 1)))]⟩
          (.take 0 freeItem : OOp Item Item) = some (.seen itemTag, _) := ostepWith_ret hf
      simp only [List.length, runOwned, script, Option.bind_some, aborted, List.getLast?_nil, List.getElem?_cons_zero, h1,
        Option.map_some, List.nil_append, List.getLast?_singleton, Bool.false_eq_true, if_false, List.getElem?_cons_succ, h2] at hr
      cases hr
      simp [boxedState, freedState, Leaf.shape, u8L, intLeaf]
  obtain ⟨h1, h2⟩ := H _ _ (makeHeap_ok (env60_ok false) 7#8) freeItem_ok hb state0 (state0_inv _)
  have key : (runOwned (env60 false) rcDemo progMix itemBody (script [.make (makeHeap (env60 false) 7#8), .wrap 0, .unwrap 0,
      .take 0 freeItem]) state0 4).map (fun r => (aborted r.1, r.2.s.blocks.length)) = some (false, 1) := by decide +kernel
  cases hr : runOwned (env60 false) rcDemo progMix itemBody (script [.make (makeHeap (env60 false) 7#8), .wrap 0, .unwrap 0,
      .take 0 freeItem]) state0 4 with
  | none => rw [hr] at key; cases key
  | some r =>
    obtain ⟨os, c⟩ := r
    rw [hr] at key
    simp only [Option.map_some, Option.some.injEq, Prod.mk.injEq] at key
    cases hc : c.s.blocks with
    | nil => rw [hc] at key; cases key.2
    | cons b bs =>
      have := (h1 os c hr key.1 b).1 (by rw [hc]; exact List.mem_cons_self)
      cases this

/-- Dropping the container: two blocks are left. -/
example : (runOwned (β := Item) (env60 false) rcDemo progMix itemBody (script [.make (makeHeap (env60 false) 7#8), .wrap 0, .drop 0]) state0 3).map
    (fun r => (aborted r.1, r.2.s.blocks.length)) = some (false, 2) := by decide +kernel

/-- **C62**, the part that holds: if no variant has payload bytes, the detour through a container gives everything back.
Missing: variants with payload bytes, for which it is false (`C62_refuted`); and dropping the container, which never frees anything. -/
theorem C62_partial (h : env.OK) (hrc : rc.OK) (hc : Compiled rc env.cfg sn en false ts decl P)
    (hlen : decl.length ≤ 2 ^ env.cfg.DISCRIMINANT_BITS) (ho : env.debug = true ∨ env.InRange) (hz : NoZeroSizedDtors rc decl)
    (hE : ∀ d ∈ decl, ∀ sh, d.fields.shape rc = some sh → sh.size = 0)
    (f : MakeFn X) (g : TakeFn X X) (hf : f.OK env rc decl O) (s : State) (hi : HeapInv env s)
    (hb : GivesBack env rc P body [.make f, .take 0 g] s) : GivesBack env rc P body [.make f, .wrap 0, .unwrap 0, .take 0 g] s := by
  intro os c hr ha
  obtain ⟨s', ht, ⟨h1, h2⟩ | ⟨hi', hC, hd, ⟨e, x, hx, h2, F, h3, h4⟩ | ⟨k, hk, h2⟩⟩⟩ := (hf s hi).cases
  · have k1 : ostep env rc P body ⟨s, []⟩ (.make f : OOp X X) = some (.panicked .abort, _) := ostepWith_panic h1
    simp [runOwned, script, aborted, k1] at hr
    obtain ⟨rfl, rfl⟩ := hr
    simp [aborted] at ha
  · have k1 : ostep env rc P body ⟨s, []⟩ (.make f : OOp X X) = some (.handle 0, ⟨s', [some (.val e)]⟩) := ostepWith_ret h2
    obtain ⟨b, i, hw, hst⟩ := from_empty h hrc hc hlen ho hz hE h3.1 hi'
    have k2 : ostep env rc P body ⟨s', [some (.val e)]⟩ (.wrap 0 : OOp X X) = some (.unit, ⟨s', [some (.box b)]⟩) :=
      ostepWith_ret (withBodies_ret hw (dtors_refl _))
    obtain ⟨hwf, hP⟩ := hc.wf
    have hu : containerIntoInner env rc P b s' = .ret e s' := by
      rw [hP]
      exact containerIntoInner_stores (sn := sn) (en := en) (hd := false) hwf.u8 hwf.names hwf.members hst
    have k3 : ostep env rc P body ⟨s', [some (.box b)]⟩ (.unwrap 0 : OOp X X) = some (.unit, ⟨s', [some (.val e)]⟩) :=
      ostepWith_ret (withBodies_ret hu (dtors_refl _))
    cases k4 : ostep env rc P body ⟨s', [some (.val e)]⟩ (.take 0 g : OOp X X) with
    | none => simp [runOwned, script, aborted, k1, k2, k3, k4] at hr
    | some r =>
      obtain ⟨o, c'⟩ := r
      simp [runOwned, script, aborted, k1, k2, k3, k4] at hr
      obtain ⟨rfl, rfl⟩ := hr
      refine hb [.handle 0, o] c' ?_ ?_
      · simp [runOwned, script, aborted, k1, k4]
      · simpa [aborted] using ha
  · have k1 : ostep env rc P body ⟨s, []⟩ (.make f : OOp X X) = some (.panicked (.user k), ⟨s', []⟩) := ostepWith_panic h2
    have k2 : ostep env rc P body ⟨s', []⟩ (.wrap 0 : OOp X X) = none := rfl
    simp [runOwned, script, aborted, k1, k2] at hr

/-- Enums of unit variants are of this kind. -/
example (n : Nat) : ∀ d ∈ declUnits n, ∀ sh, d.fields.shape rcDemo = some sh → sh.size = 0 := by
  intro d hd sh hsh
  obtain ⟨i, _, rfl⟩ := List.mem_map.1 hd
  cases hsh

/-- **C62**, what happens instead, for every client as in C60: whatever is done after a container has been made, also when it is given up,
its memory remains allocated and keeps its contents for ever. -/
theorem C62_never_freed (h : env.OK) (hrc : rc.OK) (hc : Compiled rc env.cfg sn en false ts decl P)
    (hlen : decl.length ≤ 2 ^ env.cfg.DISCRIMINANT_BITS) (ho : env.debug = true ∨ env.InRange) (hz : NoZeroSizedDtors rc decl)
    (hO : O.Lawful) (hB : DropOK env rc decl O body) (p : OClient X β) (hp : p.OK env rc decl O) (s : State) (hi : HeapInv env s)
    (n m : Nat) (os os' : List (ORes β)) (c c' : OState) (hr : runOwned env rc P body p s n = some (os, c))
    (hr' : runOwned env rc P body p s (n + m) = some (os', c')) (ha : aborted os' = false)
    (k : Nat) (b : TBox) (hb : c.cells[k]? = some (some (.box b))) :
    ∃ i e, Stores env rc decl c.s b i e ∧ Stores env rc decl c'.s b i e := by
  obtain ⟨fails, h1, h2, h3⟩ := run_owned h hrc hc hlen ho hz hO hB hp (os₀ := []) (OSim.nil hi) n
  rw [← runFrom_nil] at h3
  rcases h3 with ⟨e1, e2⟩ | ⟨os'', c'', hs, e1, e2, h4, _⟩
  · rw [e1] at hr; cases hr
  · rw [e1] at hr; cases hr
    rw [runFrom_nil, runFrom_add, ← runFrom_nil, e1] at hr'
    simp only [Option.bind_some] at hr'
    have hna : aborted os = true → aborted os' = true := by
      intro hx
      have : ∀ m, runFrom env rc P body p os c m = some (os, c) := by
        intro m
        induction m with
        | zero => rfl
        | succ m ih => simp [runFrom, ih, hx]
      rw [this] at hr'
      cases hr'
      exact hx
    obtain ⟨K, G, S, _, _⟩ := h4.resolve_left (fun hx => by rw [hna hx] at ha; cases ha)
    obtain ⟨fails', h1', h2', h3'⟩ := run_owned h hrc hc hlen ho hz hO hB hp (os₀ := os) S m
    rcases h3' with ⟨d1, _⟩ | ⟨o3, c3, hs3, d1, _, d4, _⟩
    · rw [d1] at hr'; cases hr'
    · rw [d1] at hr'; cases hr'
      obtain ⟨_, _, _, _, hk⟩ := d4.resolve_left (by rw [ha]; simp)
      have hrel := S.rel k
      rw [hb] at hrel
      match hs[k]?.join, hrel with
      | some (true, x), hrel =>
        obtain ⟨i, e, g1, g2, g3⟩ := hrel
        exact ⟨i, e, g2, g2.frame hrc (hk.sub g1)⟩
      | some (false, x), hrel => exact hrel.elim
      | none, hrel => exact hrel.elim

/-- The demonstration has a container after two steps, which is given up later on. -/
example : (runOwned (env60 false) rcDemo progMix itemBody (script (demoScript (env60 false))) state0 2).map
    (fun r => r.2.cells.map fun c => match c with | some (.box _) => true | _ => false) = some [true] := by decide +kernel

end TB.Props

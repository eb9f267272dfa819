import Verif.DemoMacro
import Verif.Lemmas.RecursiveOrder

/-!
# Properties of recursive enums
-/

set_option autoImplicit false

namespace TB.Props

open TB.Macro

variable {ι : Type} [DecidableEq ι] {env : Env} {rc : Rustc} {F : Family ι}

/-! ## C63 -/

/-- **C63**: an enum may refer to its own container, `Cons(u8, List)`, and to those of other enums, which may refer back to it. For every
family of such enums (any number of enums, any number of container fields anywhere) whose variants fit the discriminant bits, and every client
(adaptive, of any length) that builds structures container by container, takes them apart with `into_inner`, walks through them by nested
`ref_from_tagged_box`, and uses derived `clone`, `eq`, `partial_cmp` and `cmp` (which recurse through the containers), the client observes
exactly what it observes with finite trees: no undefined behaviour, no sharing between a structure and its clone, no difference between
comparison of structures and of trees. Exceptions: building and cloning may panic for lack of memory, and walking,
cloning and comparing may overflow the stack, the latter only if the tree is deeper than the stack. Neither happens if the allocator never
returns null (nor, in a debug build, an address outside the reserved width) and the trees are not too deep. -/
theorem C63_recursive (h : env.OK) (hrc : rc.OK) (hF : F.OK env rc) (ho : env.debug = true ∨ env.InRange)
    (L : LeafOps) (stack : Nat) (p : RClient ι) (hp : p.OK rc F) (s : State) (hi : HeapInv env s) (n : Nat) :
    (∃ fails : List (Option PanicKind), fails.length = n ∧ (∀ f ∈ fails, FailOK env f ∨ f = some .abort) ∧
      (runRec env rc F L stack p s n).map (·.1) = (runTrees F L stack p fails).map (·.1)) ∧
    (∀ os c, runRec env rc F L stack p s n = some (os, c) → env.InRange → ¬ NullBetween s c.s →
      (∀ k < n, ∀ os hs, runTrees F L stack p (List.replicate k none) = some (os, hs) → ∀ u t, some (u, t) ∈ hs → t.depth ≤ stack) →
      (runTrees F L stack p (List.replicate n none)).map (·.1) = some os) := by
  obtain ⟨fails, h1, h2, h3⟩ := run_rec (L := L) (stack := stack) h hrc hF ho hp hi n
  refine ⟨⟨fails, h1, h2, ?_⟩, fun os c hr hin hn hd => ?_⟩
  · rcases h3 with ⟨e1, e2⟩ | ⟨os, c, hs, e1, e2, _⟩
    · rw [e1, e2]; rfl
    · rw [e1, e2]; rfl
  · rcases h3 with ⟨e1, e2⟩ | ⟨os', c', hs, e1, e2, _, _, _, h4⟩
    · rw [e1] at hr; cases hr
    · rw [e1] at hr
      cases hr
      have := runTrees_deep (F := F) (L := L) (stack := stack) (p := p) (h4 hin hn) (h1 ▸ hd)
      rw [← h1, ← this, e2]
      rfl

/-- **C63** (no sharing): at any point of such a history every container the client holds is the root of a structure whose containers all
have memory of their own: the blocks found by walking through the structure are live and pairwise disjoint, and disjoint from the blocks of
every other container the client holds. In particular a clone shares no memory with its original, at any depth. -/
theorem C63_separate (h : env.OK) (hrc : rc.OK) (hF : F.OK env rc) (ho : env.debug = true ∨ env.InRange)
    (L : LeafOps) (stack : Nat) (p : RClient ι) (hp : p.OK rc F) (s : State) (hi : HeapInv env s) (n : Nat)
    {os : List RRes} {c : RState ι} (hr : runRec env rc F L stack p s n = some (os, c)) :
    (∀ (k : Nat) u b, c.handles[k]? = some (some (u, b)) → ∃ l m₀, ∀ m ≥ m₀, blocksRec env rc F m u b c.s = .ret l c.s) ∧
    (∀ (k : Nat) u b m l s', c.handles[k]? = some (some (u, b)) → blocksRec env rc F m u b c.s = .ret l s' →
      s' = c.s ∧ (∀ x ∈ l, x ∈ c.s.blocks) ∧ l.Pairwise Block.Disjoint) ∧
    (∀ (k k' : Nat) u u' b b' m m' l l' s' s'', k ≠ k' → c.handles[k]? = some (some (u, b)) → c.handles[k']? = some (some (u', b')) →
      blocksRec env rc F m u b c.s = .ret l s' → blocksRec env rc F m' u' b' c.s = .ret l' s'' → ∀ x ∈ l, ∀ y ∈ l', x.Disjoint y) := by
  obtain ⟨_, _, _, ⟨e1, _⟩ | ⟨os', c', hs, e1, _, hi', _, ⟨fps, S⟩, _⟩⟩ :=
    run_rec (L := L) (stack := stack) h hrc hF ho hp hi n
  · rw [e1] at hr; cases hr
  rw [e1] at hr
  cases hr
  have hrep : ∀ (k : Nat) u b, c.handles[k]? = some (some (u, b)) → ∃ t, Rep env rc F c.s u b t (fps[k]?.getD []) := by
    intro k u b hk
    rcases S.look k with ⟨h1, _⟩ | ⟨u', b', t, h1, _, hb⟩
    · rw [hk] at h1; cases h1
    · rw [hk] at h1; cases h1; exact ⟨t, hb⟩
  have hdet : ∀ (k : Nat) u b m l s', c.handles[k]? = some (some (u, b)) → blocksRec env rc F m u b c.s = .ret l s' → s' = c.s ∧ l = fps[k]?.getD [] := by
    intro k u b m l s' hk hl
    obtain ⟨t, hb⟩ := hrep k u b hk
    rcases blocksRec_spec hF m u b t _ hb with hx | ⟨hx, _⟩
    · rw [hx] at hl; cases hl; exact ⟨rfl, rfl⟩
    · rw [hx] at hl; cases hl
  have hdisj : ∀ x ∈ c.s.blocks, ∀ y ∈ c.s.blocks, x ≠ y → x.Disjoint y := fun x hx y hy hne =>
    (hi'.eq_or_disjoint hx hy).resolve_left hne
  refine ⟨fun k u b hk => ?_, fun k u b m l s' hk hl => ?_, fun k k' u u' b b' m m' l l' s' s'' hne hk hk' hl hl' x hx y hy => ?_⟩
  · obtain ⟨t, hb⟩ := hrep k u b hk
    refine ⟨fps[k]?.getD [], t.depth, fun m hm => ?_⟩
    rcases blocksRec_spec hF m u b t _ hb with hx | ⟨_, hd⟩
    · exact hx
    · omega
  · obtain ⟨rfl, rfl⟩ := hdet k u b m l s' hk hl
    obtain ⟨t, hb⟩ := hrep k u b hk
    refine ⟨rfl, hb.live, ?_⟩
    have hnd : (fps[k]?.getD []).Nodup := List.nodup_iff_count.2 fun x => by
      have := count_set x fps k
      have := S.one x
      omega
    exact hnd.imp_of_mem fun hx hy hxy => hdisj _ (hb.live _ hx) _ (hb.live _ hy) hxy
  · obtain ⟨_, rfl⟩ := hdet k u b m l s' hk hl
    obtain ⟨_, rfl⟩ := hdet k' u' b' m' l' s'' hk' hl'
    obtain ⟨t, hb⟩ := hrep k u b hk
    obtain ⟨t', hb'⟩ := hrep k' u' b' hk'
    refine hdisj x (hb.live x hx) y (hb'.live y hy) fun hxy => ?_
    subst hxy
    have h1 := count_set x fps k
    have h2 := count_set x (fps.set k []) k'
    have h3 := S.one x
    rw [List.getElem?_set_ne hne] at h2
    have h4 := List.count_pos_iff.2 hx
    have h5 := List.count_pos_iff.2 hy
    omega

/-- **C63** (comparisons): suppose the data in the fields is compared lawfully (`eq` an equivalence, `cmp` a total order, `partial_cmp` and
`cmp == Equal` in agreement with them). Then so are the containers a client holds at any point of such a history: given enough stack,
`a == b`, `a.partial_cmp(&b)` and `a.cmp(&b)` return, change nothing, and are an equivalence, and a total order in agreement with it. -/
theorem C63_lawful (h : env.OK) (hrc : rc.OK) (hF : F.OK env rc) (ho : env.debug = true ∨ env.InRange)
    (L : LeafOps) (hL : L.Lawful rc) (stack : Nat) (p : RClient ι) (hp : p.OK rc F) (s : State) (hi : HeapInv env s) (n : Nat)
    {os : List RRes} {c : RState ι} (hr : runRec env rc F L stack p s n = some (os, c)) (u : ι) :
    ∃ (eq : Nat → Nat → Bool) (cmp : Nat → Nat → Ordering),
      (∀ (k k' : Nat) b b', c.handles[k]? = some (some (u, b)) → c.handles[k']? = some (some (u, b')) → ∃ m₀, ∀ m ≥ m₀,
        compareRec env rc F L.forEq TBox.eq m u b b' c.s = .ret (eq k k') c.s ∧
        compareRec env rc F L.forPartialCmp TBox.partialCmp m u b b' c.s = .ret (some (cmp k k')) c.s ∧
        compareRec env rc F L.forCmp TBox.cmp m u b b' c.s = .ret (cmp k k') c.s) ∧
      (let held := fun k : Nat => ∃ b, c.handles[k]? = some (some (u, b))
       (∀ k, held k → eq k k = true) ∧
       (∀ k k', held k → held k' → eq k k' = eq k' k) ∧
       (∀ k k' k'', held k → held k' → held k'' → eq k k' = true → eq k' k'' = true → eq k k'' = true) ∧
       (∀ k k', held k → held k' → cmp k' k = (cmp k k').swap) ∧
       (∀ k k' k'', held k → held k' → held k'' → cmp k k' ≠ .gt → cmp k' k'' ≠ .gt → cmp k k'' ≠ .gt) ∧
       (∀ k k', held k → held k' → (cmp k k' = .eq ↔ eq k k' = true))) := by
  obtain ⟨_, _, _, ⟨e1, _⟩ | ⟨os', c', hs, e1, _, _, _, ⟨fps, S⟩, _⟩⟩ := run_rec (L := L) (stack := stack) h hrc hF ho hp hi n
  · rw [e1] at hr; cases hr
  rw [e1] at hr
  cases hr
  have hrep : ∀ (k : Nat) b, c.handles[k]? = some (some (u, b)) →
      ∃ t, hs[k]?.join = some (u, t) ∧ Rep env rc F c.s u b t (fps[k]?.getD []) := by
    intro k b hk
    rcases S.look k with ⟨h1, _⟩ | ⟨u', b', t, h1, h2, hb⟩
    · rw [hk] at h1; cases h1
    · rw [hk] at h1; cases h1; exact ⟨t, h2, hb⟩
  let tr : Nat → Tree := fun k => match hs[k]?.join with
    | some (_, t) => t
    | none => .leaf []
  have htr : ∀ (k : Nat) b, c.handles[k]? = some (some (u, b)) → Rep env rc F c.s u b (tr k) (fps[k]?.getD []) := by
    intro k b hk
    obtain ⟨t, h1, h2⟩ := hrep k b hk
    have : tr k = t := by simp only [tr, h1]
    rw [this]; exact h2
  have hty : ∀ k : Nat, (∃ b, c.handles[k]? = some (some (u, b))) → (tr k).Typed rc F u := fun k ⟨b, hb⟩ => (htr k b hb).typed hF
  have hag := fun k k' hk hk' => Tree.agree hL (tr k) (tr k') u (hty k hk) (hty k' hk')
  have hsw := fun k k' hk hk' => Tree.cmp_swap hL (tr k) (tr k') u (hty k hk) (hty k' hk')
  have hch := fun k k' k'' hk hk' hk'' => Tree.cmp_chain hL (tr k) (tr k') (tr k'') u (hty k hk) (hty k' hk') (hty k'' hk'')
  refine ⟨fun k k' => (tr k).compare F L.forEq u (tr k'), fun k k' => (tr k).compare F L.forCmp u (tr k'), ?_,
    fun k hk => Tree.eq_refl hL _ u (hty k hk), ?_, ?_, hsw, ?_, fun k k' hk hk' => (hag k k' hk hk').1⟩
  · intro k k' b b' hk hk'
    refine ⟨(tr k).depth, fun m hm => ?_⟩
    have hn : ∀ {γ : Type} {r : Out γ} {a : γ} {q : Prop}, Looks c.s r a (m < (tr k).depth ∧ q) → r = .ret a c.s := by
      intro γ r a q hl
      rcases hl with hx | ⟨_, hx, _⟩
      · exact hx
      · omega
    refine ⟨hn (compareRec_spec hF eq_compares m u b _ _ b' _ _ (htr k b hk) (htr k' b' hk')), ?_,
      hn (compareRec_spec hF cmp_compares m u b _ _ b' _ _ (htr k b hk) (htr k' b' hk'))⟩
    rw [← (hag k k' ⟨b, hk⟩ ⟨b', hk'⟩).2]
    exact hn (compareRec_spec hF partialCmp_compares m u b _ _ b' _ _ (htr k b hk) (htr k' b' hk'))
  · intro k k' hk hk'
    have a1 := (hag k k' hk hk').1
    have a2 := (hag k' k hk' hk).1
    have a3 := hsw k k' hk hk'
    rw [Bool.eq_iff_iff, ← a1, ← a2, a3]
    cases Tree.compare F L.forCmp u (tr k) (tr k') <;> decide
  · intro k k' k'' hk hk' hk'' h1 h2
    rw [← (hag k k' hk hk').1] at h1
    rw [← (hag k' k'' hk' hk'').1] at h2
    rw [← (hag k k'' hk hk'').1, hch k k' k'' hk hk' hk'' (by rw [h1]; decide) (by rw [h2]; decide), h1, h2]
    rfl
  · intro k k' k'' hk hk' hk'' h1 h2
    change Tree.compare F L.forCmp u (tr k) (tr k') ≠ .gt at h1
    change Tree.compare F L.forCmp u (tr k') (tr k'') ≠ .gt at h2
    show Tree.compare F L.forCmp u (tr k) (tr k'') ≠ .gt
    rw [hch k k' k'' hk hk' hk'' h1 h2]
    revert h1 h2
    cases Tree.compare F L.forCmp u (tr k) (tr k') <;> cases Tree.compare F L.forCmp u (tr k') (tr k'') <;> simp [Ordering.then]

/-! A linked list, and a tree and a forest that refer to one another. -/

/-- The container types of the examples. -/
def isBox (t : Ty) : Bool :=
  tyCode t == tyCode (.named "List") || tyCode t == tyCode (.named "Rose") || tyCode t == tyCode (.named "Forest")

/-- `rcDemo` with container types. -/
def rcList : Rustc :=
  { rcDemo with
    leaf := fun t => if isBox t then u64L else rcDemo.leaf t
    isCopy := fun t => if isBox t then false else rcDemo.isCopy t }

theorem rcList_ok : rcList.OK where
  leaf_wf t := by
    show (if _ then _ else _ : Leaf).WF
    split
    · exact u64L_wf
    · exact rcDemo_ok.leaf_wf t
  copy_no_drop t h := by
    change (if _ then _ else _) = true at h
    show (if _ then _ else _ : Leaf).needsDrop = false
    split at h
    · cases h
    · rename_i hn; rw [if_neg hn]; exact rcDemo_ok.copy_no_drop t h

/-- `struct List, enum Node { Cons(u8, List), Nil }` -/
def toksList : List Tok :=
  [.ident "Cons", .group .paren [.ident "u8", .comma, .ident "List"], .comma, .ident "Nil", .comma]

def declList : List VariantDef := [⟨"Cons", .tuple [.named "u8", .named "List"]⟩, ⟨"Nil", .unit⟩]

def progList : Program := programOf "List" "Node" false declList

/-- The list alone. -/
def famList : Family Unit where
  toks _ := toksList
  decl _ := declList
  prog _ := progList
  sub t := if tyCode t == tyCode (.named "List") then some () else none

theorem famList_ok (b : Bool) : famList.OK (env60 b) rcList where
  compiled := fun () => ⟨.cons (.tuple (.cons ⟨by simp, 0, rfl, rfl⟩ (.one ⟨by simp, 0, rfl, rfl⟩))) (.cons .unit .nil), by rfl⟩
  fits i := by cases b <;> cases i <;> decide
  sub t i := by
    show (if _ then _ else _) = _ ↔ (tyCode t == tyCode (.named "List")) = true
    split <;> simp_all
  layout t i h := by
    have h : (if _ then _ else _) = some i := h
    have : rcList.leaf t = u64L := by
      show (if isBox t then u64L else rcDemo.leaf t) = u64L
      refine if_pos ?_
      split at h
      · simp_all [isBox]
      · cases h
    rw [this]
    exact ⟨rfl, fun bs _ h2 => h2⟩

/-- `struct Rose, enum RoseNode { Node(u8, Forest) }` -/
def toksRose : List Tok := [.ident "Node", .group .paren [.ident "u8", .comma, .ident "Forest"], .comma]

def declRose : List VariantDef := [⟨"Node", .tuple [.named "u8", .named "Forest"]⟩]

/-- `struct Forest, enum ForestNode { Cons { head: Rose, tail: Forest }, Nil }` -/
def toksForest : List Tok :=
  [.ident "Cons", .group .brace [.ident "head", .colon, .ident "Rose", .comma, .ident "tail", .colon, .ident "Forest"], .comma,
   .ident "Nil", .comma]

def declForest : List VariantDef := [⟨"Cons", .record [("head", .named "Rose"), ("tail", .named "Forest")]⟩, ⟨"Nil", .unit⟩]

def progRose : Program := programOf "Rose" "RoseNode" false declRose
def progForest : Program := programOf "Forest" "ForestNode" false declForest

/-- Trees (`true`) and forests (`false`). -/
def famRose : Family Bool where
  toks i := if i then toksRose else toksForest
  decl i := if i then declRose else declForest
  prog i := if i then progRose else progForest
  sub t := if tyCode t == tyCode (.named "Rose") then some true else if tyCode t == tyCode (.named "Forest") then some false else none

theorem famRose_ok (b : Bool) : famRose.OK (env60 b) rcList where
  compiled i := match i with
    | true => ⟨.cons (.tuple (.cons ⟨by simp, 0, rfl, rfl⟩ (.one ⟨by simp, 0, rfl, rfl⟩))) .nil, by rfl⟩
    | false => ⟨.cons (.record (.cons ⟨_, rfl, by simp, 0, rfl, rfl⟩ (.one ⟨_, rfl, by simp, 0, rfl, rfl⟩))) (.cons .unit .nil), by rfl⟩
  fits i := by cases b <;> cases i <;> decide
  sub t i := by
    have hne : tyCode (.named "Rose") ≠ tyCode (.named "Forest") := by decide
    show (if _ then _ else if _ then _ else _) = _ ↔ (tyCode t == tyCode (.named (if i then progRose else progForest).structName)) = true
    cases i
    · show _ ↔ (tyCode t == tyCode (.named "Forest")) = true
      split <;> rename_i h1
      · simp only [beq_iff_eq] at h1 ⊢
        simp [h1, hne]
      · split <;> simp_all
    · show _ ↔ (tyCode t == tyCode (.named "Rose")) = true
      split <;> rename_i h1
      · simp_all
      · split <;> simp_all
  layout t i h := by
    have h : (if _ then _ else if _ then _ else _) = some i := h
    have : rcList.leaf t = u64L := by
      show (if isBox t then u64L else rcDemo.leaf t) = u64L
      refine if_pos ?_
      split at h
      · simp_all [isBox]
      · split at h
        · simp_all [isBox]
        · cases h
    rw [this]
    exact ⟨rfl, fun bs _ h2 => h2⟩

/-- A client that does these operations one after the other. -/
def rscript {ι : Type} (ops : List (ROp ι)) : RClient ι := fun os => ops[os.length]?

/-- ```
let nil = List::from(Node::Nil);             // 0
let l = List::from(Node::Cons(2, nil));      // 1
let l = List::from(Node::Cons(1, l));        // 2
let m = l.clone();                           // 3
l == m; walk(&l);
let Node::Cons(_, rest) = l.into_inner();    // rest: 4
rest == m; rest.cmp(&m); walk(&m); drop(rest);
``` -/
def listScript : List (ROp Unit) :=
  [.make () "Nil" [], .make () "Cons" [.inl [some 2#8], .inr 0], .make () "Cons" [.inl [some 1#8], .inr 1], .clone 2, .eq 2 3, .walk 2,
   .open 2, .eq 4 3, .cmp 4 3, .walk 3, .drop 4]

theorem listScript_ok : (rscript listScript).OK rcList famList := by
  intro os op hop
  have := List.mem_of_getElem? hop
  simp only [listScript, List.mem_cons, List.not_mem_nil, or_false] at this
  rcases this with rfl | rfl | rfl | rfl | rfl | rfl | rfl | rfl | rfl | rfl | rfl
  · exact ⟨_, .tail _ (.head _), rfl, trivial⟩
  · exact ⟨_, .head _, rfl, ⟨by decide, by decide, by decide⟩, by decide, trivial⟩
  · exact ⟨_, .head _, rfl, ⟨by decide, by decide, by decide⟩, by decide, trivial⟩
  all_goals trivial

def list12 : Tree := .node "Cons" [.leaf [some 1#8], .node "Cons" [.leaf [some 2#8], .node "Nil" []]]

/-- What the client is to see. -/
def listSeen : List RRes :=
  [.handle 0, .handle 1, .handle 2, .handle 3, .bool true, .tree list12, .opened "Cons" [.inl [some 1#8], .inr 4], .bool false, .ord .gt,
   .tree list12, .unit]

/-- The number in little-endian bytes. -/
def natOf (bs : Bytes) : Nat := bs.foldr (fun b n => (b.getD 0#8).toNat + 256 * n) 0

/-- Data is compared as unsigned numbers. -/
def unsigned : LeafOps where
  eq _ a b := decide (natOf a = natOf b)
  partialCmp _ a b := some (compare (natOf a) (natOf b))
  cmp _ a b := compare (natOf a) (natOf b)

theorem unsigned_lawful (rc : Rustc) : unsigned.Lawful rc where
  refl _ _ _ := by simp [unsigned]
  symm _ _ _ _ _ h := by simp_all [unsigned]
  trans _ _ _ _ _ _ _ h h' := by simp_all [unsigned]
  swap _ _ _ _ _ := (Nat.compare_swap _ _).symm
  le_trans _ x y z _ _ _ h h' := by
    simp only [unsigned, ne_eq, Nat.compare_eq_gt] at *
    omega
  agree _ _ _ _ _ := by simp [unsigned]
  partial_cmp _ _ _ _ _ := rfl

/-- The hypotheses are met by the list. -/
example (debug : Bool) (stack n : Nat) : ∃ fails : List (Option PanicKind),
    fails.length = n ∧ (∀ f ∈ fails, FailOK (env60 debug) f ∨ f = some .abort) ∧
    (runRec (env60 debug) rcList famList unsigned stack (rscript listScript) state0 n).map (·.1) =
      (runTrees famList unsigned stack (rscript listScript) fails).map (·.1) :=
  (C63_recursive (env60_ok debug) rcList_ok (famList_ok debug) (.inr (env60_inRange debug))
    unsigned stack _ listScript_ok state0 (state0_inv _) n).1

/-- Both runs are the expected one. -/
example : (runTrees famList unsigned 10 (rscript listScript) (List.replicate 11 none)).map (·.1) = some listSeen := rfl

mutual
def sameTree : Tree → Tree → Bool
  | .leaf x, .leaf y => decide (x = y)
  | .node v fs, .node v' fs' => decide (v = v') && sameTrees fs fs'
  | _, _ => false
def sameTrees : List Tree → List Tree → Bool
  | [], [] => true
  | f :: fs, g :: gs => sameTree f g && sameTrees fs gs
  | _, _ => false
end

/-- Equality of observations, decided. -/
def sameRes : RRes → RRes → Bool
  | .handle a, .handle b => a == b
  | .opened v fs, .opened v' fs' => decide (v = v') && decide (fs = fs')
  | .tree t, .tree t' => sameTree t t'
  | .bool b, .bool b' => b == b'
  | .pord b, .pord b' => b == b'
  | .ord b, .ord b' => b == b'
  | .unit, .unit => true
  | _, _ => false

example : (runRec (env60 false) rcList famList unsigned 10 (rscript listScript) state0 11).map
    (fun r => (List.zipWith sameRes r.1 listSeen)) = some (List.replicate 11 true) := by
  decide +kernel

/-- A stack that is too small for the list. -/
example : (runRec (env60 false) rcList famList unsigned 2 (rscript listScript) state0 11).map (fun r => (r.1.length, raborted r.1)) =
    some (4, true) := by
  decide +kernel

/-- The addresses and sizes of the blocks of the containers a client holds. -/
def heldBlocks {ι : Type} (F : Family ι) (c : RState ι) : List (List (Nat × Nat)) :=
  c.handles.map fun h => match h with
    | none => []
    | some (i, b) => match blocksRec (env60 false) rcList F 10 i b c.s with
      | .ret l _ => l.map fun x => (x.base, x.size)
      | _ => []

/-- After building the list `[1, 2]` and cloning it (the first four operations) there are four blocks of 16 bytes: two of the list (handle
2) and two of the clone (handle 3); `Nil` needs no memory, and handles 0 and 1 have been moved. -/
example : (runRec (env60 false) rcList famList unsigned 10 (rscript (listScript.take 4)) state0 4).map (fun r => heldBlocks famList r.2) =
    some [[], [], [(4112, 16), (4096, 16)], [(4144, 16), (4128, 16)]] := by
  decide +kernel

/-- `C63_separate` applies to the list. -/
example (debug : Bool) (stack n : Nat) {os : List RRes} {c : RState Unit}
    (hr : runRec (env60 debug) rcList famList unsigned stack (rscript listScript) state0 n = some (os, c)) :
    ∀ (k : Nat) u b, c.handles[k]? = some (some (u, b)) → ∃ l m₀, ∀ m ≥ m₀, blocksRec (env60 debug) rcList famList m u b c.s = .ret l c.s :=
  (C63_separate (env60_ok debug) rcList_ok (famList_ok debug) (.inr (env60_inRange debug))
    unsigned stack _ listScript_ok state0 (state0_inv _) n hr).1

/-- ```
let nil = Forest::from(ForestNode::Nil);                          // 0
let a = Rose::from(RoseNode::Node(7, nil));                       // 1
let nil = Forest::from(ForestNode::Nil);                          // 2
let f = Forest::from(ForestNode::Cons { head: a, tail: nil });    // 3
let b = Rose::from(RoseNode::Node(5, f));                         // 4
let c = b.clone();                                                // 5
b == c; b.partial_cmp(&c);
let RoseNode::Node(_, f) = b.into_inner();                        // f: 6
let ForestNode::Cons { head, tail } = f.into_inner();             // head: 7, tail: 8
head.cmp(&c); walk(&c);
``` -/
def roseScript : List (ROp Bool) :=
  [.make false "Nil" [], .make true "Node" [.inl [some 7#8], .inr 0], .make false "Nil" [], .make false "Cons" [.inr 1, .inr 2],
   .make true "Node" [.inl [some 5#8], .inr 3], .clone 4, .eq 4 5, .partialCmp 4 5, .open 4, .open 6, .cmp 7 5, .walk 5]

theorem roseScript_ok : (rscript roseScript).OK rcList famRose := by
  intro os op hop
  have := List.mem_of_getElem? hop
  simp only [roseScript, List.mem_cons, List.not_mem_nil, or_false] at this
  rcases this with rfl | rfl | rfl | rfl | rfl | rfl | rfl | rfl | rfl | rfl | rfl | rfl
  · exact ⟨_, .tail _ (.head _), rfl, trivial⟩
  · exact ⟨_, .head _, rfl, ⟨by decide, by decide, by decide⟩, by decide, trivial⟩
  · exact ⟨_, .tail _ (.head _), rfl, trivial⟩
  · exact ⟨_, .head _, rfl, by decide, by decide, trivial⟩
  · exact ⟨_, .head _, rfl, ⟨by decide, by decide, by decide⟩, by decide, trivial⟩
  all_goals trivial

def rose57 : Tree :=
  .node "Node" [.leaf [some 5#8], .node "Cons" [.node "Node" [.leaf [some 7#8], .node "Nil" []], .node "Nil" []]]

def roseSeen : List RRes :=
  [.handle 0, .handle 1, .handle 2, .handle 3, .handle 4, .handle 5, .bool true, .pord (some .eq), .opened "Node" [.inl [some 5#8], .inr 6],
   .opened "Cons" [.inr 7, .inr 8], .ord .gt, .tree rose57]

/-- The hypotheses are met by trees and forests. -/
example (debug : Bool) (stack n : Nat) : ∃ fails : List (Option PanicKind),
    fails.length = n ∧ (∀ f ∈ fails, FailOK (env60 debug) f ∨ f = some .abort) ∧
    (runRec (env60 debug) rcList famRose unsigned stack (rscript roseScript) state0 n).map (·.1) =
      (runTrees famRose unsigned stack (rscript roseScript) fails).map (·.1) :=
  (C63_recursive (env60_ok debug) rcList_ok (famRose_ok debug) (.inr (env60_inRange debug))
    unsigned stack _ roseScript_ok state0 (state0_inv _) n).1

example : (runTrees famRose unsigned 10 (rscript roseScript) (List.replicate 12 none)).map (·.1) = some roseSeen := rfl

example : (runRec (env60 false) rcList famRose unsigned 10 (rscript roseScript) state0 12).map
    (fun r => (List.zipWith sameRes r.1 roseSeen)) = some (List.replicate 12 true) := by
  decide +kernel

/-- `C63_lawful` applies to trees and forests. -/
example (debug : Bool) (stack n : Nat) {os : List RRes} {c : RState Bool}
    (hr : runRec (env60 debug) rcList famRose unsigned stack (rscript roseScript) state0 n = some (os, c)) :=
  C63_lawful (env60_ok debug) rcList_ok (famRose_ok debug) (.inr (env60_inRange debug)) unsigned (unsigned_lawful _) stack _ roseScript_ok
    state0 (state0_inv _) n hr true

/-- A forest where a tree is required does not type-check. -/
example : (runRec (env60 false) rcList famRose unsigned 10 (rscript [.make false "Nil" [], .make false "Nil" [], .make false "Cons" [.inr 0, .inr 1]])
    state0 3).isNone = true := by
  decide +kernel

end TB.Props

import Verif.Spec.Owned

/-!
# Clients of recursive enums

The variants of an enum may have fields of the container type itself, or of the containers of other enums, which may refer back to it:

```
tagged_box! { #[derive(Clone, PartialEq)] struct List, enum Node { Cons(u8, List), Nil } }

tagged_box! { #[derive(Clone, PartialEq)] struct Rose, enum RoseNode { Node(u8, Forest) } }
tagged_box! { #[derive(Clone, PartialEq)] struct Forest, enum ForestNode { Cons(Rose, Forest), Nil } }
```

`rstep` is a safe-code client that builds such structures container by container, takes them apart, walks through them by reference, and
uses the derived `clone`, `eq`, `partial_cmp` and `cmp`, which recurse. `rplain` is the same client with finite trees instead of containers.

Fields that are not containers are plain data here: derived code copies their bytes and compares them with a given function.
(For fields that own memory see `Spec/Owned`.)
-/

set_option autoImplicit false

namespace TB.Macro

/-! ## Containers as fields -/

/-- The eight bytes of a container in memory (little endian; which order it is does not matter). `TaggedPointer`, `TaggedBox` and the
container are `repr(transparent)` wrappers of a `u64`. `src/tagged_pointer.rs:11-15`, `src/tagged_box.rs:15-19`, `mod.rs:740-743` -/
def boxBytes (b : TBox) : Bytes := (List.range 8).map fun i => some (BitVec.ofNat 8 (b.boxed.raw.toNat / 256 ^ i))

/-- The container in eight bytes. -/
def bytesBox (bs : Bytes) : TBox := ⟨⟨BitVec.ofNat 64 (bs.foldr (fun b n => (b.getD 0#8).toNat + 256 * n) 0)⟩⟩

/-- A family of enums, declared one by one, with names `ι`. -/
structure Family (ι : Type) where
  toks : ι → List Tok
  decl : ι → List VariantDef
  prog : ι → Program
  /-- the container type of the family that a type is, if any -/
  sub : Ty → Option ι

/-- The declarations compile (none of the enums implements `Drop`, which would exclude container fields, since they are not `Copy`), their
variants fit the discriminant bits, and rustc knows which types are the containers of the family and that a container is a `u64`: any eight
initialised bytes. -/
structure Family.OK {ι : Type} (env : Env) (rc : Rustc) (F : Family ι) : Prop where
  compiled : ∀ i, Compiled rc env.cfg (F.prog i).structName (F.prog i).enumName false (F.toks i) (F.decl i) (F.prog i)
  fits : ∀ i, (F.decl i).length ≤ 2 ^ env.cfg.DISCRIMINANT_BITS
  sub : ∀ t i, F.sub t = some i ↔ sameTy rc t (.named (F.prog i).structName) = true
  layout : ∀ t i, F.sub t = some i → (rc.leaf t).size = 8 ∧
    ∀ bs : Bytes, bs.length = 8 → bs.all (·.isSome) = true → (rc.leaf t).valid bs = true

/-! ## Trees -/

/-- What a field stands for: data, or the structure below a container. -/
inductive Tree where
  | leaf (bytes : Bytes)
  | node (variant : String) (fields : List Tree)

mutual
/-- How many containers there are below one another. -/
def Tree.depth : Tree → Nat
  | .leaf _ => 0
  | .node _ fs => 1 + Tree.depths fs
def Tree.depths : List Tree → Nat
  | [] => 0
  | t :: ts => max t.depth (Tree.depths ts)
end

/-- The types of the fields of a variant. -/
def fieldTypes (defs : List VariantDef) (v : String) : List Ty :=
  match lookupDef defs v with
  | some f => f.types
  | none => []

/-- `Node::v(vals)`, or `Node::v { .. }` with the fields in declaration order. -/
def mkVal (defs : List VariantDef) (v : String) (vals : List Bytes) : EVal :=
  ⟨v, match lookupDef defs v with
    | some (.tuple _) => .tuple vals
    | some (.record ms) => .record ((ms.map (·.1)).zip vals)
    | _ => .unit⟩

/-- What a derived comparison (`eq`, `partial_cmp` or `cmp`) does, given how data is compared. -/
structure Comparison (γ : Type) where
  /-- there are no (more) fields -/
  same : γ
  /-- look at the next field after this result? -/
  goOn : γ → Bool
  /-- values of different variants, by their positions in the declaration -/
  variants : Nat → Nat → γ
  /-- data of a type -/
  leaf : Ty → Bytes → Bytes → γ

/-- Comparisons of data, by type. -/
structure LeafOps where
  eq : Ty → Bytes → Bytes → Bool
  partialCmp : Ty → Bytes → Bytes → Option Ordering
  cmp : Ty → Bytes → Bytes → Ordering

/-- `#[derive(PartialEq)]` -/
def LeafOps.forEq (L : LeafOps) : Comparison Bool := ⟨true, fun r => r, fun _ _ => false, L.eq⟩

/-- `#[derive(PartialOrd)]`: lexicographic; "when derived on enums, variants are ordered primarily by their discriminants". -/
def LeafOps.forPartialCmp (L : LeafOps) : Comparison (Option Ordering) :=
  ⟨some .eq, fun r => decide (r = some .eq), fun i j => some (compare i j), L.partialCmp⟩

/-- `#[derive(Ord)]` -/
def LeafOps.forCmp (L : LeafOps) : Comparison Ordering := ⟨.eq, fun r => decide (r = .eq), fun i j => compare i j, L.cmp⟩

/-- The comparisons of data of each type are as `Eq`, `PartialOrd` and `Ord` require: an equivalence, a total order, and in agreement. -/
structure LeafOps.Lawful (L : LeafOps) (rc : Rustc) : Prop where
  refl : ∀ t x, (rc.leaf t).Has x → L.eq t x x = true
  symm : ∀ t x y, (rc.leaf t).Has x → (rc.leaf t).Has y → L.eq t x y = true → L.eq t y x = true
  trans : ∀ t x y z, (rc.leaf t).Has x → (rc.leaf t).Has y → (rc.leaf t).Has z → L.eq t x y = true → L.eq t y z = true → L.eq t x z = true
  swap : ∀ t x y, (rc.leaf t).Has x → (rc.leaf t).Has y → L.cmp t y x = (L.cmp t x y).swap
  le_trans : ∀ t x y z, (rc.leaf t).Has x → (rc.leaf t).Has y → (rc.leaf t).Has z → L.cmp t x y ≠ .gt → L.cmp t y z ≠ .gt → L.cmp t x z ≠ .gt
  agree : ∀ t x y, (rc.leaf t).Has x → (rc.leaf t).Has y → (L.cmp t x y = .eq ↔ L.eq t x y = true)
  partial_cmp : ∀ t x y, (rc.leaf t).Has x → (rc.leaf t).Has y → L.partialCmp t x y = some (L.cmp t x y)

/-- Position of a variant in the declaration. -/
def position (defs : List VariantDef) (v : String) : Nat := defs.findIdx (fun d => d.name == v)

section Trees

variable {ι γ : Type} (F : Family ι) (K : Comparison γ)

mutual
/-- Comparison of two trees of the same enum. -/
def Tree.compare (i : ι) : Tree → Tree → γ
  | .node v fs, .node v' fs' =>
    if v = v' then Tree.compares (fieldTypes (F.decl i) v) fs fs' else K.variants (position (F.decl i) v) (position (F.decl i) v')
  | _, _ => K.same
/-- Comparison of fields with these types. -/
def Tree.compares : List Ty → List Tree → List Tree → γ
  | t :: ts, f :: fs, g :: gs =>
    let r := match F.sub t with
      | some j => Tree.compare j f g
      | none => match f, g with
        | .leaf x, .leaf y => K.leaf t x y
        | _, _ => K.same
    if K.goOn r then Tree.compares ts fs gs else r
  | _, _, _ => K.same
end

end Trees

/-! ## Operations and observations -/

/-- Operations. A field is given as data or as the number of a container. -/
inductive ROp (ι : Type) where
  /-- `Container::from(Node::v(fields))` for enum `i`; the containers among the fields are moved -/
  | make (i : ι) (v : String) (fields : List (Bytes ⊕ Nat))
  /-- `match c.into_inner() { Node::v(fields) => .. }`; containers among the fields get new numbers -/
  | open (h : Nat)
  /-- walk through the whole structure by reference -/
  | walk (h : Nat)
  | clone (h : Nat)
  | eq (h h' : Nat)
  | partialCmp (h h' : Nat)
  | cmp (h h' : Nat)
  | drop (h : Nat)

/-- Observations. -/
inductive RRes where
  | handle (h : Nat)
  | opened (v : String) (fields : List (Bytes ⊕ Nat))
  | tree (t : Tree)
  | bool (b : Bool)
  | pord (o : Option Ordering)
  | ord (o : Ordering)
  | unit
  | panicked (k : PanicKind)

/-- An adaptive client. -/
abbrev RClient (ι : Type) := List RRes → Option (ROp ι)

/-- The process is gone. -/
def raborted (os : List RRes) : Bool :=
  match os.getLast? with
  | some (.panicked .abort) => true
  | _ => false

section Fields

variable {ι α : Type} [DecidableEq ι] (F : Family ι)

/-- Move the containers among the fields out of their places, if they are of the types required. (Otherwise the client does not
type-check.) -/
def takeFields (cells : List (Option (ι × α))) : List Ty → List (Bytes ⊕ Nat) → Option (List (Bytes ⊕ α) × List (Option (ι × α)))
  | _ :: ts, .inl x :: fs => (takeFields cells ts fs).map fun r => (.inl x :: r.1, r.2)
  | t :: ts, .inr h :: fs => cells[h]?.join.bind fun a =>
      if F.sub t = some a.1 then (takeFields (cells.set h none) ts fs).map fun r => (.inr a.2 :: r.1, r.2) else none
  | _, _ => some ([], cells)

/-- Give new places to the containers among the fields. -/
def giveFields (cells : List (Option (ι × α))) : List (Bytes ⊕ (ι × α)) → List (Bytes ⊕ Nat) × List (Option (ι × α))
  | [] => ([], cells)
  | .inl x :: r => (.inl x :: (giveFields cells r).1, (giveFields cells r).2)
  | .inr a :: r => (.inr cells.length :: (giveFields (cells ++ [some a]) r).1, (giveFields (cells ++ [some a]) r).2)

end Fields

/-! ## The real thing -/

section Real

variable {ι : Type} (env : Env) (rc : Rustc) (F : Family ι)

/-- Bytes of a field. -/
def fieldBytes : Bytes ⊕ TBox → Bytes
  | .inl x => x
  | .inr b => boxBytes b

/-- The fields of a value, by type. -/
def splitFields : List Ty → List Bytes → List (Bytes ⊕ (ι × TBox))
  | t :: ts, x :: xs => (match F.sub t with | some j => .inr (j, bytesBox x) | none => .inl x) :: splitFields ts xs
  | _, _ => []

/-- Derived `clone`, field by field; `cl` clones containers. -/
def cloneFields (cl : ι → TBox → M TBox) : List Ty → List Bytes → M (List Bytes)
  | t :: ts, x :: xs => do
    let y ← (match F.sub t with | some j => do let b ← cl j (bytesBox x); pure (boxBytes b) | none => pure x)
    let ys ← cloneFields cl ts xs
    pure (y :: ys)
  | _, _ => pure []

/-- Derived `clone` of the containers and of the enums, calling one another. The first argument is how many nested calls fit on the stack;
overflow aborts the process. -/
def cloneRec : Nat → ι → TBox → M TBox
  | 0, _, _ => M.panic .abort
  | n + 1, i, b => TBox.clone (taggable env rc (F.prog i)) (fun e => do
      let vs ← cloneFields F (cloneRec n) (fieldTypes (F.prog i).defs e.variant) e.payload.vals
      pure (mkVal (F.prog i).defs e.variant vs)) b

section Compare

variable {γ : Type} (K : Comparison γ)

/-- Derived comparison, field by field, stopping at the first difference. -/
def compareFields (q : ι → TBox → TBox → M γ) : List Ty → List Bytes → List Bytes → M γ
  | t :: ts, x :: xs, y :: ys => do
    let r ← (match F.sub t with | some j => q j (bytesBox x) (bytesBox y) | none => pure (K.leaf t x y))
    if K.goOn r then compareFields q ts xs ys else pure r
  | _, _, _ => pure K.same

/-- Derived comparison of the containers and of the enums; `top` is the method of `TaggedBox`. -/
def compareRec (top : Taggable EVal → (EVal → EVal → M γ) → TBox → TBox → M γ) : Nat → ι → TBox → TBox → M γ
  | 0, _, _, _ => M.panic .abort
  | n + 1, i, a, b => top (taggable env rc (F.prog i)) (fun e e' =>
      if e.variant = e'.variant then
        compareFields F K (compareRec top n) (fieldTypes (F.prog i).defs e.variant) e.payload.vals e'.payload.vals
      else pure (K.variants (position (F.prog i).defs e.variant) (position (F.prog i).defs e'.variant))) a b

end Compare

/-- The fields seen by reference. -/
def walkFields (w : ι → TBox → M Tree) : List Ty → List Bytes → M (List Tree)
  | t :: ts, x :: xs => do
    let f ← (match F.sub t with | some j => w j (bytesBox x) | none => pure (.leaf x))
    let fs ← walkFields w ts xs
    pure (f :: fs)
  | _, _ => pure []

/-- User code that walks through the structure by nested `ref_from_tagged_box`
(`let mut r = None; Node::ref_from_tagged_box(&c, |e| r = Some(..)); r.unwrap()`). -/
def walkRec : Nat → ι → TBox → M Tree
  | 0, _, _ => M.panic .abort
  | n + 1, i, b => do
    let r ← (taggable env rc (F.prog i)).refFrom b (fun e => do
      let fs ← walkFields F (walkRec n) (fieldTypes (F.prog i).defs e.variant) e.payload.vals
      pure (Tree.node e.variant fs))
    match r with
    | some t => pure t
    | none => M.panic (.user 0)

/-- The block of the payload of a container with this variant: none if the payload is empty. -/
def payloadBlock (defs : List VariantDef) (b : TBox) (v : String) : List Block :=
  match (lookupDef defs v).bind (·.shape rc) with
  | none => []
  | some sh => if 0 < sh.size then [⟨b.asPtr env, sh.size, sh.align⟩] else []

/-- The blocks below the fields. -/
def blocksFields (w : ι → TBox → M (List Block)) : List Ty → List Bytes → M (List Block)
  | t :: ts, x :: xs => do
    let l ← (match F.sub t with | some j => w j (bytesBox x) | none => pure [])
    let ls ← blocksFields w ts xs
    pure (l ++ ls)
  | _, _ => pure []

/-- The memory of a structure: the blocks of all its containers, found by walking through it as `walkRec` does. -/
def blocksRec : Nat → ι → TBox → M (List Block)
  | 0, _, _ => M.panic .abort
  | n + 1, i, b => do
    let r ← (taggable env rc (F.prog i)).refFrom b (fun e => do
      let ls ← blocksFields F (blocksRec n) (fieldTypes (F.prog i).defs e.variant) e.payload.vals
      pure (payloadBlock env rc (F.prog i).defs b e.variant ++ ls))
    match r with
    | some l => pure l
    | none => M.panic (.user 0)

/-- State of the client: the containers it holds, with their types. -/
structure RState (ι : Type) where
  s : State
  handles : List (Option (ι × TBox))

/-- Run a computation and package the outcome. -/
def rstepWith {α : Type} (s : State) (m : M α) (ret : α → RRes × List (Option (ι × TBox))) (unwound : List (Option (ι × TBox))) :
    Option (RRes × RState ι) :=
  match m s with
  | .ret a s' => some ((ret a).1, ⟨s', (ret a).2⟩)
  | .panic k s' => some (.panicked k, ⟨s', unwound⟩)
  | .ub _ => none

variable [DecidableEq ι] (L : LeafOps)

/-- One client step. `none`: undefined behaviour (or the use of a container that has been moved or is of another type, which does not
compile). -/
def rstep (stack : Nat) (c : RState ι) : ROp ι → Option (RRes × RState ι)
  | .make i v fields => (takeFields F c.handles (fieldTypes (F.prog i).defs v) fields).bind fun r =>
      rstepWith c.s (containerFrom env rc (F.prog i) (mkVal (F.prog i).defs v (r.1.map fieldBytes)))
        (fun b => (.handle r.2.length, r.2 ++ [some (i, b)])) r.2
  | .open h => c.handles[h]?.join.bind fun (i, b) =>
      rstepWith c.s (containerIntoInner env rc (F.prog i) b)
        (fun e =>
          let g := giveFields (c.handles.set h none) (splitFields F (fieldTypes (F.prog i).defs e.variant) e.payload.vals)
          (.opened e.variant g.1, g.2))
        (c.handles.set h none)
  | .walk h => c.handles[h]?.join.bind fun (i, b) => rstepWith c.s (walkRec env rc F stack i b) (fun t => (.tree t, c.handles)) c.handles
  | .clone h => c.handles[h]?.join.bind fun (i, b) =>
      rstepWith c.s (cloneRec env rc F stack i b) (fun b' => (.handle c.handles.length, c.handles ++ [some (i, b')])) c.handles
  | .eq h h' => c.handles[h]?.join.bind fun (i, b) => c.handles[h']?.join.bind fun (i', b') =>
      if i = i' then rstepWith c.s (compareRec env rc F L.forEq TBox.eq stack i b b') (fun r => (.bool r, c.handles)) c.handles else none
  | .partialCmp h h' => c.handles[h]?.join.bind fun (i, b) => c.handles[h']?.join.bind fun (i', b') =>
      if i = i' then
        rstepWith c.s (compareRec env rc F L.forPartialCmp TBox.partialCmp stack i b b') (fun r => (.pord r, c.handles)) c.handles
      else none
  | .cmp h h' => c.handles[h]?.join.bind fun (i, b) => c.handles[h']?.join.bind fun (i', b') =>
      if i = i' then rstepWith c.s (compareRec env rc F L.forCmp TBox.cmp stack i b b') (fun r => (.ord r, c.handles)) c.handles else none
  | .drop h => c.handles[h]?.join.bind fun (_, b) =>
      rstepWith c.s b.dropBox (fun _ => (.unit, c.handles.set h none)) (c.handles.set h none)

/-- Run a client for at most `n` steps, starting with nothing. -/
def runRec (stack : Nat) (p : RClient ι) (s : State) : Nat → Option (List RRes × RState ι)
  | 0 => some ([], ⟨s, []⟩)
  | n + 1 => (runRec stack p s n).bind fun (os, c) =>
      if raborted os then some (os, c) else
      match p os with
      | none => some (os, c)
      | some op => (rstep env rc F L stack c op).map fun (o, c') => (os ++ [o], c')

end Real

/-! ## Plain trees -/

section Plain

variable {ι : Type} (F : Family ι)

/-- A field of a tree. -/
def fieldTree : Bytes ⊕ Tree → Tree
  | .inl x => .leaf x
  | .inr t => t

/-- The fields of a tree, by type. -/
def splitTrees : List Ty → List Tree → List (Bytes ⊕ (ι × Tree))
  | t :: ts, f :: fs => (match F.sub t, f with | some j, f => .inr (j, f) | none, .leaf x => .inl x | none, _ => .inl []) :: splitTrees ts fs
  | _, _ => []

variable [DecidableEq ι] (L : LeafOps)

/-- One client step on trees. `fail` says whether the operation failed: for lack of memory (`make` and `clone`), or because the stack was
not deep enough for this tree. -/
def rplain (stack : Nat) (fail : Option PanicKind) (hs : List (Option (ι × Tree))) : ROp ι → Option (RRes × List (Option (ι × Tree)))
  | .make i v fields => (takeFields F hs (fieldTypes (F.decl i) v) fields).map fun r =>
      match fail with
      | none | some .abort => (.handle r.2.length, r.2 ++ [some (i, .node v (r.1.map fieldTree))])
      | some k => (.panicked k, r.2)
  | .open h => hs[h]?.join.bind fun (i, t) =>
      match t with
      | .node v fs =>
        let g := giveFields (hs.set h none) (splitTrees F (fieldTypes (F.decl i) v) fs)
        some (.opened v g.1, g.2)
      | .leaf _ => none
  | .walk h => hs[h]?.join.map fun (_, t) =>
      if fail = some .abort ∧ stack < t.depth then (.panicked .abort, hs) else (.tree t, hs)
  | .clone h => hs[h]?.join.map fun (i, t) =>
      match fail with
      | none => (.handle hs.length, hs ++ [some (i, t)])
      | some .abort => if stack < t.depth then (.panicked .abort, hs) else (.handle hs.length, hs ++ [some (i, t)])
      | some k => (.panicked k, hs)
  | .eq h h' => hs[h]?.join.bind fun (i, t) => hs[h']?.join.bind fun (i', t') =>
      if i = i' then
        some (if fail = some .abort ∧ stack < t.depth ∧ stack < t'.depth then .panicked .abort else .bool (t.compare F L.forEq i t'), hs)
      else none
  | .partialCmp h h' => hs[h]?.join.bind fun (i, t) => hs[h']?.join.bind fun (i', t') =>
      if i = i' then
        some (if fail = some .abort ∧ stack < t.depth ∧ stack < t'.depth then .panicked .abort
          else .pord (t.compare F L.forPartialCmp i t'), hs)
      else none
  | .cmp h h' => hs[h]?.join.bind fun (i, t) => hs[h']?.join.bind fun (i', t') =>
      if i = i' then
        some (if fail = some .abort ∧ stack < t.depth ∧ stack < t'.depth then .panicked .abort else .ord (t.compare F L.forCmp i t'), hs)
      else none
  | .drop h => hs[h]?.join.map fun _ => (.unit, hs.set h none)

/-- Run a client on trees, one step for each element of `fails` (newest first). -/
def runTrees (stack : Nat) (p : RClient ι) : List (Option PanicKind) → Option (List RRes × List (Option (ι × Tree)))
  | [] => some ([], [])
  | fail :: fails => (runTrees stack p fails).bind fun (os, hs) =>
      if raborted os then some (os, hs) else
      match p os with
      | none => some (os, hs)
      | some op => (rplain F L stack fail hs op).map fun (o, hs') => (os ++ [o], hs')

end Plain

section Clients

variable {ι : Type} (rc : Rustc) (F : Family ι)

/-- Fields as given have the types of the declaration; of which container type a container is, is checked by `takeFields`. -/
def FieldsOK : List Ty → List (Bytes ⊕ Nat) → Prop
  | [], [] => True
  | t :: ts, .inl x :: fs => (F.sub t = none ∧ (rc.leaf t).Has x) ∧ FieldsOK ts fs
  | t :: ts, .inr _ :: fs => F.sub t ≠ none ∧ FieldsOK ts fs
  | _, _ => False

/-- The operation type-checks. -/
def ROp.OK : ROp ι → Prop
  | .make i v fields => ∃ d ∈ F.decl i, d.name = v ∧ FieldsOK rc F d.fields.types fields
  | _ => True

def RClient.OK (p : RClient ι) : Prop := ∀ os op, p os = some op → op.OK rc F

end Clients

end TB.Macro

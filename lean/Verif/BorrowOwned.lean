import Verif.Borrow

/-!
# Aliasing of payloads that are boxes

A variant `V(Box<U>)` keeps a pointer in the memory of the container. Reading a `Box` out of memory (`ptr.read()`) makes a unique pointer:
the rules of `Borrow.lean` apply to the memory it points to. This file models an enum all of whose variants have the form `V(Box<U>)`
(variant `i` with `U = Us[i]`), the functions `tagged_box!` generates for it, and a client.

Simplified: variants with one field, a `Box`; a `Box` is retagged when it is read from memory and when it is made, not again at every move
(the items pushed by moves lie above the ones considered here and are only used by the owner).
-/

set_option autoImplicit false

namespace TB

/-- The address `a` in `n` bytes. -/
def addrEnc (n a : Nat) : List MByte := (List.range n).map fun i => some (BitVec.ofNat 8 (a / 256 ^ i))

/-- The address in the bytes. -/
def addrDec (bs : List MByte) : Nat := bs.foldr (fun b n => (b.getD 0#8).toNat + 256 * n) 0

/-- The type `Box<U>`: an address that is not null. -/
def ptrLeaf (env : Env) : Leaf where
  id := 0
  size := env.ptrBits / 8
  align := env.ptrBits / 8
  valid := fun bs => bs.all (·.isSome) && !decide (addrDec bs = 0)
  needsDrop := true

variable (env : Env)

/-- `Box::new(v)`; lack of memory aborts. Not code of this repository. -/
def BBox.newB (U : Shape) (v : Val) : MB BBox :=
  if U.size = 0 then pure ⟨⟨U.align, .wild⟩⟩
  else do
    let p ← allocB env U.size U.align
    if p.addr = 0 then MB.lift (M.panic .abort)
    else do
      writeB U p v
      let p ← retagMut U p
      pure ⟨p⟩

/-- `ptr.write(b)` at `*mut Box<U>`: the bytes of the address go to memory, and with them the tag. -/
def writeBoxB (p : BPtr) (b : BBox) : MB Unit := do
  writeB (ptrLeaf env).shape p [addrEnc (env.ptrBits / 8) b.ptr.addr]
  MB.borrows fun β => some { β with ptrs := fun a => if a = p.addr then b.ptr.tag else β.ptrs a }

/-- The tag of the pointer stored at `a`. -/
def storedTag (a : Nat) : MB PTag := fun s β => .ret (β.ptrs a) s β

/-- `ptr.read()` at `*const Box<U>`; the result is a `Box`, made from the pointer in memory. -/
def readBoxB (U : Shape) (p : BPtr) : MB BBox := do
  let v ← readB (ptrLeaf env).shape p
  let t ← storedTag p.addr
  let q ← retagMut U ⟨addrDec (v[0]?.getD []), t⟩
  pure ⟨q⟩

/-- `TaggedBox::new::<Box<U>>`. `src/tagged_box.rs:82-104`. If the `assert!` at `:93` fails, unwinding drops the argument. -/
def TBox.newBoxB (U : Shape) (val : BBox) (d : env.cfg.Discr) : MB TBox := do
  let ptr ← allocB env (ptrLeaf env).size (ptrLeaf env).align
  let a ← exposeB ptr
  if a = 0#64 then do
    val.drop U
    MB.lift (M.panic .nullAlloc)
  else do
    writeBoxB env ptr val
    let a ← exposeB ptr
    let boxed ← MB.lift (M.ofExcept (TPtr.new env.cfg env.debug a d))
    pure ⟨boxed⟩

section Generated

variable (Us : List Shape)

/-- A value of the enum: the number of the variant and the box. -/
abbrev BoxVal := Nat × BBox

/-- `Container::from(e)`: the arm for `V(Box<U>)` of `into_tagged_box` is `Item::V(x) => TaggedBox::new::<Box<U>>(x, Counter::V as u8)`.
`src/tagged_box_macro/mod.rs:40-50`, `:762-771`, `:784-791` -/
def boxesFrom (e : BoxVal) : MB TBox := TBox.newBoxB env (Us[e.1]?.getD ⟨0, 1, []⟩) e.2 (BitVec.ofNat _ e.1)

/-- The value that `ref_from_tagged_box` shows its closure: `ManuallyDrop::new(Item::V(tagged.as_ptr::<Box<U>>().read()))`, for the variant given by the
discriminant. `src/tagged_box_macro/mod.rs:386-402`, `:812-829` -/
def boxesRef (b : TBox) : MB BoxVal :=
  match Us[(b.discriminant env).toNat]? with
  | some U => do
      let x ← readBoxB env U (b.asPtrB env)
      pure ((b.discriminant env).toNat, x)
  | none => MB.lift (M.panic .noVariant)

/-- `into_inner`: the arm for `V(Box<U>)` is `Item::V(TaggedBox::into_inner::<Box<U>>(tagged))`. `src/tagged_box_macro/mod.rs:184-196`, `:748-759`,
`src/tagged_box.rs:297-300` -/
def boxesInner (b : TBox) : MB BoxVal :=
  match Us[(b.discriminant env).toNat]? with
  | some U => do
      let x ← readBoxB env U (b.asMutPtrB env)
      pure ((b.discriminant env).toNat, x)
  | none => MB.lift (M.panic .noVariant)

end Generated

/-! ## Clients -/

/-- Operations. `h` numbers containers, `o` values that are not in a container, `k` calls of `ref_from_tagged_box`. -/
inductive WOp where
  /-- `Item::V(Box::new(v))`, for variant `i` -/
  | make (i : Nat) (v : Val)
  /-- `Container::from(o)` -/
  | put (o : Nat)
  /-- `ref_from_tagged_box` on container `h` calls its closure, which gets `&Item::V(box)` -/
  | enter (h : Nat)
  /-- the closure reads `**box` -/
  | look (k : Nat)
  /-- the closure has ended -/
  | leave (k : Nat)
  /-- `h.into_inner()` -/
  | take (h : Nat)
  /-- the container goes out of scope -/
  | drop (h : Nat)
  /-- `**o`, `**o = v`, `drop(o)` -/
  | get (o : Nat)
  | set (o : Nat) (v : Val)
  | free (o : Nat)

/-- The tables of a client: containers, values, and the references the closures have been given. -/
structure WTables where
  handles : List (Option TBox)
  vals : List (Option BoxVal)
  seen : List BoxVal

/-- Client state. -/
structure WState where
  s : State
  β : Borrows
  t : WTables

/-- As `stepWithB`; `f` gives the answer and the tables, also for panics (a value moved into a call is gone). -/
def stepWithW {α : Type} (c : WState) (m : MB α) (ok : α → Res env × WTables) (bad : WTables) : Option (Obs env × WState) :=
  match m c.s c.β with
  | .ret a s' β' => some (((ok a).1, dropsBetween c.s s'), ⟨s', β', (ok a).2⟩)
  | .panic k s' β' => some ((.panicked k, dropsBetween c.s s'), ⟨s', β', bad⟩)
  | .ub _ => none
  | .aliasing => none

/-- One step; `none` is undefined behaviour. -/
def stepW (Us : List Shape) (c : WState) : WOp → Option (Obs env × WState)
  | .make i v => Us[i]?.bind fun U =>
      stepWithW env c (BBox.newB env U v) (fun b => (.handle c.t.vals.length, { c.t with vals := c.t.vals ++ [some (i, b)] })) c.t
  | .put o => c.t.vals[o]?.join.bind fun e =>
      stepWithW env c (boxesFrom env Us e)
        (fun b => (.handle c.t.handles.length, { c.t with handles := c.t.handles ++ [some b], vals := c.t.vals.set o none }))
        { c.t with vals := c.t.vals.set o none }
  | .enter h => c.t.handles[h]?.join.bind fun b =>
      stepWithW env c (boxesRef env Us b) (fun e => (.handle e.1, { c.t with seen := c.t.seen ++ [e] })) c.t
  | .look k => c.t.seen[k]?.bind fun e => Us[e.1]?.bind fun U =>
      stepWithW env c (readB U e.2.ptr) (fun v => (.val v, c.t)) c.t
  | .leave _ => stepWithW env c (pure ()) (fun _ => (.unit, c.t)) c.t
  | .take h => c.t.handles[h]?.join.bind fun b =>
      stepWithW env c (boxesInner env Us b)
        (fun e => (.handle e.1, { c.t with handles := c.t.handles.set h none, vals := c.t.vals ++ [some e] }))
        { c.t with handles := c.t.handles.set h none }
  | .drop h => c.t.handles[h]?.join.bind fun _ =>
      stepWithW env c (pure ()) (fun _ => (.unit, { c.t with handles := c.t.handles.set h none })) c.t
  | .get o => c.t.vals[o]?.join.bind fun e => Us[e.1]?.bind fun U =>
      stepWithW env c (readB U e.2.ptr) (fun v => (.val v, c.t)) c.t
  | .set o v => c.t.vals[o]?.join.bind fun e => Us[e.1]?.bind fun U =>
      stepWithW env c (assignB U e.2.ptr v) (fun _ => (.unit, c.t)) c.t
  | .free o => c.t.vals[o]?.join.bind fun e => Us[e.1]?.bind fun U =>
      stepWithW env c (e.2.drop U) (fun _ => (.unit, { c.t with vals := c.t.vals.set o none })) { c.t with vals := c.t.vals.set o none }

/-- An adaptive client. -/
abbrev WClient := List (Obs env) → Option WOp

/-- Run a client for at most `n` steps; `none` is undefined behaviour. -/
def runClientW (Us : List Shape) (p : WClient env) (s : State) (β : Borrows) : Nat → Option (List (Obs env) × WState)
  | 0 => some ([], ⟨s, β, ⟨[], [], []⟩⟩)
  | n + 1 => (runClientW Us p s β n).bind fun (os, c) =>
      match p os with
      | none => some (os, c)
      | some op => (stepW env Us c op).map fun (o, c') => (os ++ [o], c')

end TB

import Verif.Spec.Container

/-!
# Reentrant client programs over several enums

The clients of `Spec/Container.lean` hand the crate user code that does not itself use containers. Here user code is anything: a closure
given to `ref_from_tagged_box`, a `clone`, `eq`, `cmp` or `fmt` of the enum may in turn make, look at, compare, clone, format and consume
containers, of the same or of other enums, including the one being looked at, catch panics, and so on to any depth.

`RProg`: such programs. `exec`: what they do on the byte-level heap, calling the generated functions and the trait implementations of
`TaggedBox`. `plain`: what they mean for plain enum values; no heap, no bytes, no boxes.

Simplified: only programs that terminate; what `clone`, `eq`, `cmp`, `fmt` do to the client's containers is local to them (they get shared
references); if a closure panics, the containers it has made are gone.
-/

set_option autoImplicit false

namespace TB.Macro

/-- An enum declared with `tagged_box!`. -/
structure DeclEnum where
  structName : String
  enumName : String
  hasDrop : Bool
  toks : List Tok
  decl : List VariantDef
  prog : Program

/-- The declaration compiles and its variants fit the discriminant bits. -/
structure DeclEnum.OK (env : Env) (rc : Rustc) (D : DeclEnum) : Prop where
  compiled : Compiled rc env.cfg D.structName D.enumName D.hasDrop D.toks D.decl D.prog
  fits : D.decl.length ≤ 2 ^ env.cfg.DISCRIMINANT_BITS

/-! ## Programs -/

/-- Programs with result type `α`. `i` names an enum of the family, `h` a container by its number; `k` is the rest of the program. -/
inductive RProg (env : Env) (ι : Type) : Type → Type 1 where
  | ret {α : Type} (a : α) : RProg env ι α
  | panic {α : Type} (code : Nat) : RProg env ι α
  /-- any other safe code -/
  | user {α γ : Type} (f : UserFn M Unit γ) (ok : f.OK env ()) (k : γ → RProg env ι α) : RProg env ι α
  /-- `Container::from(e)` -/
  | from {α : Type} (i : ι) (e : EVal) (k : Nat → RProg env ι α) : RProg env ι α
  | copy {α : Type} (i : ι) (h : Nat) (k : Nat → RProg env ι α) : RProg env ι α
  | clone {α : Type} (i : ι) (h : Nat) (body : EVal → RProg env ι EVal) (k : Nat → RProg env ι α) : RProg env ι α
  | eq {α : Type} (i : ι) (h h' : Nat) (body : EVal → EVal → RProg env ι Bool) (k : Bool → RProg env ι α) : RProg env ι α
  | partialCmp {α : Type} (i : ι) (h h' : Nat) (body : EVal → EVal → RProg env ι (Option Ordering))
      (k : Option Ordering → RProg env ι α) : RProg env ι α
  | cmp {α : Type} (i : ι) (h h' : Nat) (body : EVal → EVal → RProg env ι Ordering) (k : Ordering → RProg env ι α) : RProg env ι α
  /-- `ref_from_tagged_box`; the rest gets what the closure has stored, if it was called -/
  | observe {α β : Type} (i : ι) (h : Nat) (body : EVal → RProg env ι β) (k : Option β → RProg env ι α) : RProg env ι α
  | debug {α : Type} (i : ι) (h : Nat) (body : EVal → FmtSpec → String → RProg env ι (String × Bool)) (spec : FmtSpec) (out : String)
      (k : String × Bool → RProg env ι α) : RProg env ι α
  | display {α : Type} (i : ι) (h : Nat) (body : EVal → FmtSpec → String → RProg env ι (String × Bool)) (spec : FmtSpec) (out : String)
      (k : String × Bool → RProg env ι α) : RProg env ι α
  | intoInner {α : Type} (i : ι) (h : Nat) (k : EVal → RProg env ι α) : RProg env ι α
  | drop {α : Type} (i : ι) (h : Nat) (k : RProg env ι α) : RProg env ι α
  /-- `catch_unwind` -/
  | catch {α β : Type} (body : RProg env ι β) (k : Except PanicKind β → RProg env ι α) : RProg env ι α

/-! ## The real thing -/

/-- `std::panic::catch_unwind`; an abort is not caught. -/
def M.catchUnwind {α : Type} (m : M α) : M (Except PanicKind α) := fun s =>
  match m s with
  | .ret a s' => .ret (.ok a) s'
  | .panic .abort s' => .panic .abort s'
  | .panic k s' => .ret (.error k) s'
  | .ub k => .ub k

section Real

variable {ι : Type} {env : Env} (rc : Rustc) (E : ι → DeclEnum)

/-- A container by its number. Using one that is not there (any more) is rejected by the compiler; it is made undefined behaviour here. -/
def getBox (t : List (Option TBox)) (h : Nat) : M TBox := fun s =>
  match t[h]?.join with
  | some b => .ret b s
  | none => .ub .badPointer

/-- Run a program on containers. A container has no type at run time: the enum named by the operation decides which functions run. -/
def exec {α : Type} : RProg env ι α → List (Option TBox) → M (α × List (Option TBox))
  | .ret a, t => pure (a, t)
  | .panic code, _ => M.panic (.user code)
  | .user f _ k, t => do
      let r ← f.run ()
      exec (k r) t
  | .from i e k, t => do
      let b ← containerFrom env rc (E i).prog e
      exec (k t.length) (t ++ [some b])
  | .copy _ h k, t => do
      let b ← getBox t h
      exec (k t.length) (t ++ [some b.copy])
  | .clone i h body k, t => do
      let b ← getBox t h
      let b' ← TBox.clone (taggable env rc (E i).prog) (fun e => exec (body e) t >>= fun r => pure r.1) b
      exec (k t.length) (t ++ [some b'])
  | .eq i h h' body k, t => do
      let b ← getBox t h
      let b' ← getBox t h'
      let r ← TBox.eq (taggable env rc (E i).prog) (fun x y => exec (body x y) t >>= fun r => pure r.1) b b'
      exec (k r) t
  | .partialCmp i h h' body k, t => do
      let b ← getBox t h
      let b' ← getBox t h'
      let r ← TBox.partialCmp (taggable env rc (E i).prog) (fun x y => exec (body x y) t >>= fun r => pure r.1) b b'
      exec (k r) t
  | .cmp i h h' body k, t => do
      let b ← getBox t h
      let b' ← getBox t h'
      let r ← TBox.cmp (taggable env rc (E i).prog) (fun x y => exec (body x y) t >>= fun r => pure r.1) b b'
      exec (k r) t
  | .observe i h body k, t => do
      let b ← getBox t h
      let r ← (taggable env rc (E i).prog).refFrom b (fun e => exec (body e) t)
      match r with
      | some (r, t') => exec (k (some r)) t'
      | none => exec (k none) t
  | .debug i h body spec out k, t => do
      let b ← getBox t h
      let r ← TBox.debugFmt (taggable env rc (E i).prog) (fun e sp o => exec (body e sp o) t >>= fun r => pure r.1) b spec out
      exec (k r) t
  | .display i h body spec out k, t => do
      let b ← getBox t h
      let r ← TBox.displayFmt (taggable env rc (E i).prog) (fun e sp o => exec (body e sp o) t >>= fun r => pure r.1) b spec out
      exec (k r) t
  | .intoInner i h k, t => do
      let b ← getBox t h
      let e ← containerIntoInner env rc (E i).prog b
      exec (k e) (t.set h none)
  | .drop _ h k, t => do
      let b ← getBox t h
      b.dropBox
      exec k (t.set h none)
  | .catch body k, t => do
      let r ← M.catchUnwind (exec body t)
      match r with
      | .ok (a, t') => exec (k (.ok a)) t'
      | .error kind => exec (k (.error kind)) t

end Real

/-! ## Plain values -/

/-- How the coming attempts to make a container end: `none`, there is memory; when the list is used up there is memory, too. -/
abbrev Fails := List (Option PanicKind)

/-- How a plain computation ends: with a result or a panic, what is left of the `Fails`, and the destructors that ran. -/
structure POut (α : Type) where
  res : Except PanicKind α
  fails : Fails
  evs : List Event

/-- Plain computations; `none`: the program is not well-typed (it uses a value that has been moved, or one of another type). -/
def PM (α : Type) : Type := Fails → Option (POut α)

namespace PM

def pure {α : Type} (a : α) : PM α := fun fs => some ⟨.ok a, fs, []⟩

def bind {α β : Type} (m : PM α) (f : α → PM β) : PM β := fun fs =>
  match m fs with
  | some ⟨.ok a, fs', es⟩ => (f a fs').map fun o => ⟨o.res, o.fails, es ++ o.evs⟩
  | some ⟨.error k, fs', es⟩ => some ⟨.error k, fs', es⟩
  | none => none

instance : Monad PM where
  pure := PM.pure
  bind := PM.bind

def illTyped {α : Type} : PM α := fun _ => none

def panic {α : Type} (k : PanicKind) : PM α := fun fs => some ⟨.error k, fs, []⟩

/-- Run `m`; whatever way it ends, run the destructors `es` then. -/
def andThen {α : Type} (m : PM α) (es : List Event) : PM α := fun fs =>
  (m fs).map fun o => ⟨o.res, o.fails, o.evs ++ es⟩

def catchUnwind {α : Type} (m : PM α) : PM (Except PanicKind α) := fun fs =>
  (m fs).map fun o => match o.res with
    | .error .abort => ⟨.error .abort, o.fails, o.evs⟩
    | r => ⟨.ok r, o.fails, o.evs⟩

end PM

/-- User code. -/
def UserFn.plain {m : Type → Type} {A α : Type} (f : UserFn m A α) (x : A) : PM α := fun fs =>
  some ⟨match f.out x with | .ok a => .ok a | .error k => .error (.user k), fs, f.evs x⟩

/-! `e` is a value of the enum: decidable. -/

instance HasTypes.dec (rc : Rustc) : (tys : List Ty) → (vs : List Bytes) → Decidable (HasTypes rc tys vs)
  | [], [] => inferInstanceAs (Decidable True)
  | t :: ts, v :: vs =>
    have := HasTypes.dec rc ts vs
    inferInstanceAs (Decidable ((v.length = (rc.leaf t).size ∧ (rc.leaf t).valid v = true) ∧ HasTypes rc ts vs))
  | [], _ :: _ => inferInstanceAs (Decidable False)
  | _ :: _, [] => inferInstanceAs (Decidable False)

instance HasFields.dec (rc : Rustc) : (f : Fields) → (p : Payload) → Decidable (HasFields rc f p)
  | .unit, .unit => inferInstanceAs (Decidable True)
  | .tuple tys, .tuple vs => HasTypes.dec rc tys vs
  | .record ms, .record fs =>
    inferInstanceAs (Decidable (fs.map (·.1) = ms.map (·.1) ∧ HasTypes rc (ms.map (·.2)) (fs.map (·.2))))
  | .unit, .tuple _ => inferInstanceAs (Decidable False)
  | .unit, .record _ => inferInstanceAs (Decidable False)
  | .tuple _, .unit => inferInstanceAs (Decidable False)
  | .tuple _, .record _ => inferInstanceAs (Decidable False)
  | .record _, .unit => inferInstanceAs (Decidable False)
  | .record _, .tuple _ => inferInstanceAs (Decidable False)

instance IsEnumValue.dec (rc : Rustc) (decl : List VariantDef) (e : EVal) : Decidable (IsEnumValue rc decl e) :=
  decidable_of_iff (∃ d ∈ decl, e.variant = d.name ∧ HasFields rc d.fields e.payload)
    ⟨fun ⟨d, hd, h⟩ => (List.mem_iff_getElem?.1 hd).elim fun i hi => ⟨i, d, hi, h⟩,
     fun ⟨_, d, hd, h⟩ => ⟨d, List.mem_of_getElem? hd, h⟩⟩

section Plain

variable {ι : Type} [DecidableEq ι] {env : Env} (rc : Rustc) (E : ι → DeclEnum) (D : ι → Dtors)

/-- The values of a plain client, with the enums they belong to (`none`: moved away). -/
abbrev PTable (ι : Type) := List (Option (ι × EVal))

/-- A value of enum `i` by its number. -/
def plainGet (hs : PTable ι) (i : ι) (h : Nat) : PM EVal :=
  match hs[h]?.join with
  | some (j, e) => if j = i then pure e else PM.illTyped
  | none => PM.illTyped

/-- `Container::from(e)`, with a container of enum `i`. -/
def plainNew (i : ι) (e : EVal) : PM Unit := fun fs =>
  if IsEnumValue rc (E i).decl e then
    match fs.headD none with
    | none => some ⟨.ok (), fs.tail, (D i).made e none⟩
    | some k => some ⟨.error k, fs.tail, (D i).made e (some k)⟩
  else none

/-- Run a program on plain values. Except for the destructors `D`, this is what the operations mean for values of an enum. -/
def plain {α : Type} : RProg env ι α → PTable ι → PM (α × PTable ι)
  | .ret a, hs => pure (a, hs)
  | .panic code, _ => PM.panic (.user code)
  | .user f _ k, hs => do
      let r ← f.plain ()
      plain (k r) hs
  | .from i e k, hs => do
      plainNew rc E D i e
      plain (k hs.length) (hs ++ [some (i, e)])
  | .copy i h k, hs => do
      let e ← plainGet hs i h
      plain (k hs.length) (hs ++ [some (i, e)])
  | .clone i h body k, hs => do
      let e ← plainGet hs i h
      let r ← (plain (body e) hs).andThen ((D i).seen e)
      plainNew rc E D i r.1
      plain (k hs.length) (hs ++ [some (i, r.1)])
  | .eq i h h' body k, hs => do
      let e ← plainGet hs i h
      let e' ← plainGet hs i h'
      let r ← (plain (body e e') hs).andThen ((D i).seen e' ++ (D i).seen e)
      plain (k r.1) hs
  | .partialCmp i h h' body k, hs => do
      let e ← plainGet hs i h
      let e' ← plainGet hs i h'
      let r ← (plain (body e e') hs).andThen ((D i).seen e' ++ (D i).seen e)
      plain (k r.1) hs
  | .cmp i h h' body k, hs => do
      let e ← plainGet hs i h
      let e' ← plainGet hs i h'
      let r ← (plain (body e e') hs).andThen ((D i).seen e' ++ (D i).seen e)
      plain (k r.1) hs
  | .observe i h body k, hs => do
      let e ← plainGet hs i h
      let r ← (plain (body e) hs).andThen ((D i).seen e)
      plain (k (some r.1)) r.2
  | .debug i h body _ out k, hs => do
      let e ← plainGet hs i h
      let r ← (plain (body e {} out) hs).andThen ((D i).seen e)
      plain (k r.1) hs
  | .display i h body _ out k, hs => do
      let e ← plainGet hs i h
      let r ← (plain (body e {} out) hs).andThen ((D i).seen e)
      plain (k r.1) hs
  | .intoInner i h k, hs => do
      let e ← plainGet hs i h
      plain (k e) (hs.set h none)
  | .drop i h k, hs => do
      let e ← plainGet hs i h
      (PM.pure ()).andThen ((D i).dropped e)
      plain k (hs.set h none)
  | .catch body k, hs => do
      let r ← (plain body hs).catchUnwind
      match r with
      | .ok r => plain (k (.ok r.1)) r.2
      | .error kind => plain (k (.error kind)) hs

end Plain

/-- The program is well-typed: on plain values it never gets stuck, whatever attempts to make containers fail. -/
def WellTyped {α : Type} (env : Env) (m : PM α) : Prop := ∀ fs : Fails, (∀ f ∈ fs, FailOK env f) → m fs ≠ none

/-- The containers of the client store the values of the plain client. -/
structure TableSim {ι : Type} (env : Env) (rc : Rustc) (E : ι → DeclEnum) (s : State) (t : List (Option TBox)) (hs : PTable ι) : Prop where
  len : t.length = hs.length
  hsome : ∀ (h : Nat) (i : ι) (e : EVal), hs[h]?.join = some (i, e) → ∃ b n, t[h]?.join = some b ∧ Stores env rc (E i).decl s b n e

end TB.Macro

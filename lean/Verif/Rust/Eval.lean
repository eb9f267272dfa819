import Verif.Rust.Syntax
import Verif.Fmt

/-!
# An interpreter

Runs the syntax trees of `Rust/Syntax.lean`. It knows the part of the language and of the standard library that the crate's own functions use; whatever
else it meets makes it stop (`stuck`). Memory, the allocator, destructors and undefined behaviour are those of `Mem.lean`.

What it does, and what is simplified:

* Integers are `u8`, `u16`, `u64`, `usize`, kept in 64 bits. A literal has no type until it meets something that has one. Shifts by too much and
  arithmetic overflow panic when `debug` is on (`overflow-checks` follows `debug-assertions`) and wrap otherwise.
* Local variables are a stack. Using a variable by value moves it, unless its value is a number, pointer or reference. At the end of a block (or
  function) the variables declared there that have not been moved are dropped, newest first, also when a panic leaves the block.
* A reference to a local variable (`&x`, `&self`, `&mut self`) is represented by the value; no function of the crate writes through one.
  Variables captured by a closure are written directly: closures are only evaluated as arguments of `ref_from_tagged_box`.
* Creating a reference from a raw pointer (`&*p`) is undefined behaviour unless the pointer can be read at its type.
* Values of a generic type `U` are opaque: a shape and its bytes (`Mem.lean`). The type parameter `T` of `TaggedBox<T>` is the user's enum;
  its values are elements of the arbitrary type `E`, and what the user's implementations do is given by `User`.
* Missing generic arguments are found from the types of the arguments and the expected type of the result; this is all the inference there is.
* Names are resolved by their last segment, functions by type and name.
* What is written through a `Formatter` is kept in a hidden variable of the function called `fmt`; writing a number, an address or the pieces of
  a structure never fails, writing a value of the user's enum does what the user's implementation says. The functions of `core::fmt` that are
  called are those of `Fmt.lean`.
* Temporaries are not dropped when a later operand of the same expression panics.
-/

set_option autoImplicit false

namespace TB.Rust

open TB.Mbe TB.Macro

/-- Integer types. -/
inductive ITy where
  | u8 | u16 | u64 | usize
deriving DecidableEq, Repr

/-- Types at run time. -/
inductive RT where
  | int (t : ITy)
  | bool
  | unit
  | ptr (t : RT)
  | ref (t : RT)
  /-- what a generic parameter `U` stands for -/
  | opaque (sh : Shape)
  /-- the user's enum -/
  | user
  | named (n : String) (args : List RT)
  | unknown

/-- Values. -/
inductive V (E : Type) where
  | unit
  | bool (b : Bool)
  /-- a number literal whose type is not known yet -/
  | lit (n : Nat)
  | int (t : ITy) (v : BitVec 64)
  | str (s : String)
  /-- a raw pointer to values of type `t` -/
  | ptr (t : RT) (a : Nat)
  /-- a reference into memory -/
  | ref (t : RT) (a : Nat)
  /-- a reference to a local value -/
  | refv (v : V E)
  | obj (sh : Shape) (v : TB.Val)
  | user (e : E)
  | ordering (o : Ordering)
  | struct (name : String) (fields : List (String × V E))
  /-- `core::alloc::Layout` -/
  | layout (size align : Nat)
  /-- `Box<t>` -/
  | boxed (t : RT) (a : Nat)
  /-- a `&mut Formatter` with its parameters -/
  | fmtr (spec : FmtSpec)
  /-- what has been written (hidden variable of the functions called `fmt`) -/
  | text (t : List Char)
  /-- a `DebugStruct`: name and formatted fields so far -/
  | dbg (spec : FmtSpec) (name : List Char) (fields : List (List Char × List Char))

/-- What a panic says: the literal in the code and the values inserted; or a panic inside of user code. -/
inductive Msg (E : Type) where
  | text (fmt : String) (args : List (V E))
  | kind (k : PanicKind)

/-- Local variables, newest first. `none`: moved. -/
abbrev Locals (E : Type) := List (String × Option (V E))

/-- How an evaluation ends. -/
inductive XOut (E α : Type) where
  | ret (a : α) (l : Locals E) (s : State)
  | panic (m : Msg E) (l : Locals E) (s : State)
  | ub (k : UBKind)
  | stuck

/-- Evaluations. -/
def X (E α : Type) : Type := Locals E → State → XOut E α

namespace X
variable {E α β : Type}

def pure (a : α) : X E α := fun l s => .ret a l s

def bind (m : X E α) (f : α → X E β) : X E β := fun l s =>
  match m l s with
  | .ret a l s => f a l s
  | .panic m l s => .panic m l s
  | .ub k => .ub k
  | .stuck => .stuck

instance : Monad (X E) where
  pure := X.pure
  bind := X.bind

def stuck : X E α := fun _ _ => .stuck

def panic (m : Msg E) : X E α := fun l s => .panic m l s

/-- Something that concerns memory only. -/
def mem (m : M α) : X E α := fun l s =>
  match m s with
  | .ret a s => .ret a l s
  | .panic k s => .panic (.kind k) l s
  | .ub k => .ub k

/-- All or nothing. -/
def some? : Option α → X E α
  | some a => X.pure a
  | none => X.stuck

/-- Declare a variable. -/
def declare (x : String) (v : V E) : X E Unit := fun l s => .ret () ((x, some v) :: l) s

end X

/-- What the user's code for the enum does. -/
structure User (E : Type) where
  taggable : Taggable E
  clone : E → M E
  eq : E → E → M Bool
  partialCmp : E → E → M (Option Ordering)
  cmp : E → E → M Ordering
  /-- the user's `Debug`: what it writes with the given parameters, and whether it succeeds -/
  debug : E → FmtSpec → M (List Char × Bool)
  /-- the user's `Display` -/
  display : E → FmtSpec → M (List Char × Bool)
  /-- dropping a value -/
  drop : E → M Unit := fun _ => pure ()

/-- The crate and everything it is compiled for. -/
structure Crate (E : Type) where
  env : Env
  user : User E
  consts : List (String × RTy × Expr)
  types : List (String × RTy)
  structs : List (String × List (String × RTy))
  /-- inherent functions, with the type they belong to -/
  fns : List (String × Fn)
  /-- functions in trait implementations: trait, type, function -/
  traitFns : List (String × String × Fn)

/-- In which function we are: what the generic parameters and `Self` stand for. -/
structure Frame where
  generics : List (String × RT)
  self : RT

/-! ## Types -/

section
variable {E : Type} (cr : Crate E)

/-- The last segment of a path. -/
def lastName (p : RPath) : String := match p.getLast? with
  | some x => x.1
  | none => ""

/-- The types that are built in. -/
def primTy (x : String) : Option RT :=
  if x = "u8" then some (.int .u8) else if x = "u16" then some (.int .u16) else if x = "u64" then some (.int .u64)
  else if x = "usize" then some (.int .usize) else if x = "bool" then some .bool else none

/-- Look up a name in a list. -/
def lookup {α : Type} (x : String) : List (String × α) → Option α
  | [] => none
  | (y, a) :: r => if x = y then some a else lookup x r

/-- What a type as written stands for. -/
def rty : Nat → Frame → RTy → RT
  | 0, _, _ => .unknown
  | n + 1, fr, t => match t with
    | .ref _ t => .ref (rty n fr t)
    | .ptr _ t => .ptr (rty n fr t)
    | .tuple [] => .unit
    | .tuple _ => .unknown
    | .infer => .unknown
    | .user (.named s) => (primTy s).getD .unknown
    | .user _ => .unknown
    | .path p => match p.getLast? with
      | none => .unknown
      | some (x, as) =>
        if x = "Self" then fr.self
        else match lookup x fr.generics with
          | some t => t
          | none => match primTy x with
            | some t => t
            | none => match lookup x cr.types with
              | some t => rty n fr t
              | none => .named x (as.map (rty n fr))

/-- The name of a type that has functions. -/
def RT.name : RT → String
  | .named n _ => n
  | _ => ""

/-! ## Numbers -/

/-- The number of bits of an integer type. -/
def ITy.bits (ptrBits : Nat) : ITy → Nat
  | .u8 => 8
  | .u16 => 16
  | .u64 => 64
  | .usize => ptrBits

/-- Keep the bits of the type. -/
def wrap (pb : Nat) (t : ITy) (v : BitVec 64) : BitVec 64 := (v.setWidth (t.bits pb)).setWidth 64

/-- Give a literal a type. -/
def coerce (pb : Nat) (t : RT) (v : V E) : V E := match t, v with
  | .int it, .lit n => .int it (wrap pb it (BitVec.ofNat 64 n))
  | .ptr t, .ptr _ a => .ptr t a
  | .named "Box" [t], .boxed _ a => .boxed t a
  | _, v => v

/-- Comparison of numbers. -/
def cmpOp (op : BinOp) (a b : BitVec 64) : Option Bool := match op with
  | .eq => some (decide (a = b))
  | .ne => some (decide (a ≠ b))
  | .lt => some (decide (a < b))
  | .le => some (decide (a ≤ b))
  | .gt => some (decide (b < a))
  | .ge => some (decide (b ≤ a))
  | _ => none

/-- Result of an operation on numbers: `overflow` if the mathematical result does not fit (with the wrapped result). -/
inductive NRes where
  | ok (v : BitVec 64)
  | overflow (wrapped : BitVec 64)
  | none

/-- Operations on numbers of type `t`. -/
def intOp (pb : Nat) (t : ITy) (op : BinOp) (a b : BitVec 64) : NRes := match op with
  | .and => .ok (a &&& b)
  | .or => .ok (a ||| b)
  | .xor => .ok (a ^^^ b)
  | .add => if a.toNat + b.toNat < 2 ^ t.bits pb then .ok (a + b) else .overflow (wrap pb t (a + b))
  | .sub => if b.toNat ≤ a.toNat then .ok (a - b) else .overflow (wrap pb t (a - b))
  | .mul => if a.toNat * b.toNat < 2 ^ t.bits pb then .ok (a * b) else .overflow (wrap pb t (a * b))
  | .shl => if b.toNat < t.bits pb then .ok (wrap pb t (a <<< b.toNat)) else .overflow (wrap pb t (a <<< (b.toNat % t.bits pb)))
  | .shr => if b.toNat < t.bits pb then .ok (a >>> b.toNat) else .overflow (a >>> (b.toNat % t.bits pb))
  | _ => .none

/-- Is it a shift, whose right operand may have another type? -/
def isShift : BinOp → Bool
  | .shl => true
  | .shr => true
  | _ => false

def finishOp (t : ITy) : NRes → X E (V E)
  | .ok v => pure (.int t v)
  | .overflow w => if cr.env.debug then X.panic (.text "attempt to compute with overflow" []) else pure (.int t w)
  | .none => X.stuck

/-- A binary operation on two numbers of one type. -/
def arith (op : BinOp) (t : ITy) (a b : BitVec 64) : X E (V E) := match cmpOp op a b with
  | some r => pure (.bool r)
  | none => finishOp cr t (intOp cr.env.ptrBits t op a b)

/-- A binary operation. -/
def binOpV (op : BinOp) : V E → V E → X E (V E)
  | .int t a, .int t' b =>
    if isShift op then finishOp cr t (intOp cr.env.ptrBits t op a b)
    else if t = t' then arith cr op t a b else X.stuck
  | .int t a, .lit n => arith cr op t a (BitVec.ofNat 64 n)
  | .lit n, .int t b => if isShift op then X.stuck else arith cr op t (BitVec.ofNat 64 n) b
  | .user a, .user b => match op with
    | .eq => do
      let r ← X.mem (cr.user.eq a b)
      pure (.bool r)
    | _ => X.stuck
  | _, _ => X.stuck

/-- `v as t` -/
def castV (t : RT) : V E → X E (V E)
  | .int _ v => match t with
    | .int t => pure (.int t (wrap cr.env.ptrBits t v))
    | .ptr t => pure (.ptr t (v.setWidth cr.env.ptrBits).toNat)
    | _ => X.stuck
  | .lit n => match t with
    | .int t => pure (.int t (wrap cr.env.ptrBits t (BitVec.ofNat 64 n)))
    | _ => X.stuck
  | .ptr _ a => match t with
    | .int t => pure (.int t (wrap cr.env.ptrBits t (BitVec.ofNat 64 a)))
    | .ptr t => pure (.ptr t a)
    | _ => X.stuck
  | _ => X.stuck

/-! ## Values -/

/-- Decimal digits. -/
def decimal : Nat → List Char → Option Nat
  | n, [] => some n
  | n, c :: r => if '0' ≤ c ∧ c ≤ '9' then decimal (10 * n + (c.toNat - 48)) r else none

/-- The value of a literal: a number in decimal without a suffix, or a string (as written). -/
def litVal (s : String) : V E := match decimal 0 s.toList with
  | some n => .lit n
  | none => .str s

/-- Can the value be used by value without being moved? -/
def V.copies : V E → Bool
  | .obj _ _ => false
  | .user _ => false
  | .struct _ _ => false
  | .boxed _ _ => false
  | _ => true

/-- The type of a value, as far as it is needed to find generic arguments. -/
def V.rt : V E → RT
  | .obj sh _ => .opaque sh
  | .ptr t _ => .ptr t
  | .user _ => .user
  | _ => .unknown

/-- A field, through references and `ManuallyDrop`. -/
def V.getField (f : String) : V E → Option (V E)
  | .refv v => v.getField f
  | .struct n fs => if n = "ManuallyDrop" then match fs with
      | (_, v) :: _ => v.getField f
      | [] => none
    else lookup f fs
  | _ => none

/-- What a method is called on, through references and `ManuallyDrop`. -/
def V.peel : V E → V E
  | .refv v => v.peel
  | .struct n fs => if n = "ManuallyDrop" then match fs with
      | (_, v) :: _ => v.peel
      | [] => .struct n fs
    else .struct n fs
  | v => v

/-- The name of the type whose functions are a value's methods. -/
def V.tyName : V E → String
  | .struct n _ => n
  | _ => ""

/-- Does the crate implement `Drop` for the type? -/
def dropImpl (n : String) : Bool := cr.traitFns.any fun x => x.1 == "Drop" && x.2.1 == n

mutual
/-- Drop a value. -/
def dropV : V E → X E Unit
  | .obj sh v => X.mem (TB.dropVal sh v)
  | .user e => X.mem (cr.user.drop e)
  | .boxed _ _ => X.stuck
  | .struct n fs => if n = "ManuallyDrop" then pure () else if dropImpl cr n then X.stuck else dropFields fs
  | _ => pure ()
/-- Fields are dropped in order. -/
def dropFields : List (String × V E) → X E Unit
  | [] => pure ()
  | (_, v) :: r => do
    dropV v
    dropFields r
end

/-- Drop the newest `k` variables. -/
def dropLocals : Nat → X E Unit
  | 0 => pure ()
  | k + 1 => fun l s => match l with
    | [] => .stuck
    | (_, none) :: l => dropLocals k l s
    | (_, some v) :: l => (do
      dropV cr v
      dropLocals k) l s

/-- Run something, then drop the variables it has declared, whether it returns or panics. -/
def scope {α : Type} (m : X E α) : X E α := fun l s => match m l s with
  | .ret a l' s' => (do
    dropLocals cr (l'.length - l.length)
    pure a) l' s'
  | .panic msg l' s' => (do
    dropLocals cr (l'.length - l.length)
    X.panic msg) l' s'
  | .ub k => .ub k
  | .stuck => .stuck

/-- Run a function's body with its own variables. -/
def inFn {α : Type} (m : X E α) : X E α := fun l s => match scope cr m [] s with
  | .ret a _ s' => .ret a l s'
  | .panic msg _ s' => .panic msg l s'
  | .ub k => .ub k
  | .stuck => .stuck

/-- Change a variable. -/
def setLocal (x : String) (v : Option (V E)) : Locals E → Locals E
  | [] => []
  | (y, w) :: l => if x = y then (y, v) :: l else (y, w) :: setLocal x v l

/-- Read a variable without moving it. -/
def readVar (x : String) : X E (V E) := fun l s => match lookup x l with
  | some (some v) => .ret v l s
  | _ => .stuck

/-- Use a variable by value. -/
def useVar (x : String) : X E (V E) := fun l s => match lookup x l with
  | some (some v) => .ret v (if v.copies then l else setLocal x none l) s
  | _ => .stuck

/-- Assign to a variable: the old value is dropped. -/
def assignVar (x : String) (v : V E) : X E Unit := fun l s => match lookup x l with
  | some (some old) => (match dropV cr old l s with
    | .ret _ l s => .ret () (setLocal x (some v) l) s
    | .panic m l s => .panic m l s
    | .ub k => .ub k
    | .stuck => .stuck)
  | some none => .ret () (setLocal x (some v) l) s
  | none => .stuck

/-- Declare parameters. -/
def declareAll : List String → List (V E) → X E Unit
  | [], [] => pure ()
  | x :: xs, v :: vs => do
    X.declare x v
    declareAll xs vs
  | _, _ => X.stuck

/-- The value that represents a `TaggedBox`. -/
def boxV (b : TBox) : V E :=
  .struct "TaggedBox" [("boxed", .struct "TaggedPointer" [("tagged_ptr", .int .u64 b.boxed.raw)]), ("_type", .struct "PhantomData" [])]

/-- The `TaggedBox` a value represents. -/
def toBox (v : V E) : Option TBox := match v.getField "boxed" with
  | some p => match p.getField "tagged_ptr" with
    | some (.int .u64 r) => some ⟨⟨r⟩⟩
    | _ => none
  | none => none

def someV (v : V E) : V E := .struct "Some" [("0", v)]
def noneV : V E := .struct "None" []

/-- `Option<Ordering>` -/
def optOrd : Option Ordering → V E
  | none => noneV
  | some o => someV (.ordering o)

/-- `fmt::Result` -/
def resV : Bool → V E
  | true => .struct "Ok" [("0", .unit)]
  | false => .struct "Err" [("0", .unit)]

/-- The hidden variable that holds what has been written. -/
def outVar : String := "<out>"

/-- Write to the formatter. -/
def fmtWrite (t : List Char) : X E Unit := fun l s => match lookup outVar l with
  | some (some (.text t')) => .ret () (setLocal outVar (some (.text (t' ++ t))) l) s
  | _ => .stuck

/-- A string literal without its quotes. -/
def unquote (s : String) : List Char := (s.toList.drop 1).dropLast

/-- `Debug` of the values the crate formats with it. -/
def fmtDebugV (pb : Nat) (spec : FmtSpec) : V E → Option (List Char)
  | .ptr _ a => some (fmtPtr pb spec a)
  | .int _ v => some (fmtDebugInt spec v.toNat)
  | _ => none

/-! ## Generic arguments -/

/-- Find what the generic parameter `g` stands for by comparing a type as written with a type at run time. -/
def inferFrom (g : String) : RTy → RT → Option RT
  | .path [(x, [])], t => if x = g then (match t with
      | .unknown => none
      | t => some t) else none
  | .ref _ a, .ref t => inferFrom g a t
  | .ptr _ a, .ptr t => inferFrom g a t
  | .path [_, _, (_, [a])], .named _ [t] => inferFrom g a t
  | _, _ => none

/-- First of several possibilities. -/
def firstSome {α : Type} : List (Option α) → Option α
  | [] => none
  | some a :: _ => some a
  | none :: r => firstSome r

/-- What the generic parameters of a function stand for in a call. -/
def bindGenerics (f : Fn) (targs : List RT) (args : List (V E)) (exp : RT) : List (String × RT) :=
  match targs with
  | [] => f.generics.map fun g =>
      (g, (firstSome ((f.params.zip args).map (fun p => inferFrom g p.1.2 p.2.rt) ++
        [f.ret.bind fun t => inferFrom g t exp])).getD .unknown)
  | targs => f.generics.zip targs

/-- The function `name` of a type. -/
def findFn (ty name : String) : List (String × Fn) → Option Fn
  | [] => none
  | (t, f) :: r => if t = ty ∧ f.name = name then some f else findFn ty name r

/-- The function `name` in the implementation of the trait `tr` for a type. -/
def findTrait (tr ty name : String) : List (String × String × Fn) → Option Fn
  | [] => none
  | (r, t, f) :: fs => if r = tr ∧ t = ty ∧ f.name = name then some f else findTrait tr ty name fs

/-! ## Evaluation -/

/-- The functions of the standard library the crate calls by path. `path` are the last two segments, `targs` the generic arguments of the last. -/
def libFn (path : String × String) (targs : List RT) (args : List (V E)) (exp : RT) : Option (X E (V E)) :=
  match path, targs, args with
  | ("u64", "max_value"), [], [] => some (pure (.int .u64 (BitVec.allOnes 64)))
  | ("mem", "size_of"), [.opaque sh], [] => some (pure (.int .usize (BitVec.ofNat 64 sh.size)))
  | ("mem", "align_of"), [.opaque sh], [] => some (pure (.int .usize (BitVec.ofNat 64 sh.align)))
  | ("Layout", "new"), [.opaque sh], [] => some (pure (.layout sh.size sh.align))
  | ("alloc", "alloc"), [], [.layout size align] => some (do
      let a ← X.mem (TB.allocM cr.env size align)
      pure (.ptr (.int .u8) a))
  | ("ManuallyDrop", "new"), [], [v] => some (pure (.struct "ManuallyDrop" [("value", v)]))
  | ("Box", "from_raw"), [], [.ptr t a] => some (pure (coerce cr.env.ptrBits exp (.boxed t a)))
  | ("", "Some"), [], [v] => some (pure (someV v))
  | ("", "Ok"), [], [.unit] => some (pure (resV true))
  | ("LowerHex", "fmt"), [], [.refv (.int _ v), .fmtr spec] => some (do
      fmtWrite (fmtInt .lowerHex spec v.toNat)
      pure (resV true))
  | ("UpperHex", "fmt"), [], [.refv (.int _ v), .fmtr spec] => some (do
      fmtWrite (fmtInt .upperHex spec v.toNat)
      pure (resV true))
  | ("Octal", "fmt"), [], [.refv (.int _ v), .fmtr spec] => some (do
      fmtWrite (fmtInt .octal spec v.toNat)
      pure (resV true))
  | ("Binary", "fmt"), [], [.refv (.int _ v), .fmtr spec] => some (do
      fmtWrite (fmtInt .binary spec v.toNat)
      pure (resV true))
  | ("Pointer", "fmt"), [], [.refv (.ptr _ a), .fmtr spec] => some (do
      fmtWrite (fmtPtr cr.env.ptrBits spec a)
      pure (resV true))
  | _, _, _ => none

/-- Methods that are not the crate's: of raw pointers, options and the user's enum. -/
def libMethod (recv : V E) (name : String) (args : List (V E)) : X E (V E) :=
  match recv, name, args with
  | .ptr (.opaque sh) a, "read", [] => do
    let v ← X.mem (TB.ptrRead sh a)
    pure (.obj sh v)
  | .ptr (.opaque sh) a, "write", [.obj _ v] => do
    X.mem (TB.ptrWrite sh a v)
    pure V.unit
  | .struct "Some" [(_, v)], "expect", [.str _] => pure v
  | .struct "None" [], "expect", [.str m] => X.panic (.text m [])
  | .fmtr spec, "debug_struct", [.str n] => pure (.dbg spec (unquote n) [])
  | .dbg spec n fs, "field", [.str x, .refv v] => match fmtDebugV cr.env.ptrBits spec v with
    | some t => pure (.dbg spec n (fs ++ [(unquote x, t)]))
    | none => X.stuck
  | .dbg spec n fs, "finish", [] => do
    fmtWrite (debugStruct spec n fs)
    pure (resV true)
  | .user e, "clone", [] => do
    let e ← X.mem (cr.user.clone e)
    pure (.user e)
  | .user e, "into_tagged_box", [] => do
    let b ← X.mem (cr.user.taggable.intoTaggedBox e)
    pure (boxV b)
  | .user a, "partial_cmp", [b] => match b.peel with
    | .user b => do
      let o ← X.mem (cr.user.partialCmp a b)
      pure (optOrd o)
    | _ => X.stuck
  | .user a, "cmp", [b] => match b.peel with
    | .user b => do
      let o ← X.mem (cr.user.cmp a b)
      pure (.ordering o)
    | _ => X.stuck
  | _, _, _ => X.stuck

/-- What a panic is called in `PanicKind`, for panics inside of a closure that user code calls. -/
def Msg.toKind : Msg E → PanicKind
  | .kind k => k
  | .text _ _ => .user 0

/-- A closure `|x| body` as what user code calls: the captured variables are what it gives back. -/
def closureM (x : String) (body : X E Unit) (l : Locals E) (e : E) : M (Option (Locals E)) := fun s =>
  match body ((x, some (.refv (.user e))) :: l) s with
  | .ret _ l' s' => .ret (some l'.tail) s'
  | .panic m _ s' => .panic m.toKind s'
  | .ub k => .ub k
  | .stuck => .ret none s

/-- `T::ref_from_tagged_box(b, |x| body)`: user code calls the closure. -/
def callRef (b : TBox) (x : String) (body : X E Unit) : X E (V E) := fun l s =>
  match cr.user.taggable.refFrom b (closureM x body l) s with
  | .ret (some (some l')) s' => .ret .unit l' s'
  | .ret (some none) _ => .stuck
  | .ret none s' => .ret .unit l s'
  | .panic k s' => .panic (.kind k) l s'
  | .ub k => .ub k

mutual
/-- Evaluate an expression by value; `exp` is the type expected, if known. -/
def ev : Nat → Frame → RT → Expr → X E (V E)
  | 0, _, _, _ => X.stuck
  | n + 1, fr, exp, e => match e with
    | .lit s => pure (coerce cr.env.ptrBits exp (litVal s))
    | .path p => fun l s => match p with
      | [(x, [])] => match lookup x l with
        | some _ => useVar x l s
        | none => evConst n x l s
      | p => match lastName p with
        | "Equal" => .ret (.ordering .eq) l s
        | _ => .stuck
    | .un .deref e => do
      let v ← place n fr e
      pure v.peel
    | .un .not e => do
      let v ← ev n fr .bool e
      match v with
      | .bool b => pure (.bool (!b))
      | _ => X.stuck
    | .un .neg _ => X.stuck
    | .ref _ (.un .deref e) => do
      let v ← ev n fr .unknown e
      match v with
      | .ptr (.opaque sh) a => do
        let _ ← X.mem (TB.ptrRead sh a)
        pure (.ref (.opaque sh) a)
      | _ => X.stuck
    | .ref _ e => do
      let v ← place n fr e
      pure (.refv v)
    | .bin .assign (.path [(x, [])]) e => do
      let v ← ev n fr .unknown e
      assignVar cr x v
      pure V.unit
    | .bin .assign _ _ => X.stuck
    | .bin .addAssign _ _ => X.stuck
    | .bin .land _ _ => X.stuck
    | .bin .lor _ _ => X.stuck
    | .bin op a b => do
      let a ← ev n fr .unknown a
      let b ← ev n fr .unknown b
      binOpV cr op a.peel b.peel
    | .cast e t => do
      let v ← ev n fr .unknown e
      castV cr (rty cr n fr t) v
    | .call (.path [(t, []), (f, [])]) [b, .closure [.bind x] body] =>
      match lookup t fr.generics, f with
      | some .user, "ref_from_tagged_box" => do
        let b ← place n fr b
        match toBox b with
        | some b => callRef cr b x (do
            let _ ← scope cr (ev n fr .unit body)
            pure ())
        | none => X.stuck
      | _, _ => X.stuck
    | .call (.path p) args => match p.reverse with
      | [] => X.stuck
      | (f, targs) :: rest =>
        let ty := match rest with
          | (t, _) :: _ => (rty cr n fr (.path [(t, [])])).name
          | [] => ""
        match findFn ty f cr.fns with
        | some fn => do
          let args ← evArgs n fr (fn.params.map fun p => rty cr n fr p.2) args
          callFn n fn ty (targs.map (rty cr n fr)) none args exp
        | none => do
          let args ← evArgs n fr [] args
          match libFn cr (match rest with
            | (t, _) :: _ => t
            | [] => "", f) (targs.map (rty cr n fr)) args exp with
          | some m => m
          | none => X.stuck
    | .call _ _ => X.stuck
    | .method e f targs args => do
      let recv ← place n fr e
      match findFn recv.peel.tyName f cr.fns with
      | some fn => do
        let args ← evArgs n fr (fn.params.map fun p => rty cr n fr p.2) args
        callFn n fn recv.peel.tyName (targs.map (rty cr n fr)) (some recv.peel) args exp
      | none => do
        let args ← evArgs n fr [] args
        match e with
        | .path [(x, [])] => do
          let _ ← useVar x
          libMethod cr recv.peel f args
        | _ => libMethod cr recv.peel f args
    | .field e f => do
      let v ← place n fr e
      X.some? (v.getField f)
    | .struct p fs =>
      let name := (rty cr n fr (.path p)).name
      match lookup name cr.structs with
      | none => X.stuck
      | some ts => do
        let fs ← evFields n fr ts fs
        pure (.struct name fs)
    | .tuple [] => pure V.unit
    | .tuple _ => X.stuck
    | .array _ => X.stuck
    | .mac m args => evMac n fr m args
    | .block ss => scope cr (evStmts n fr exp ss)
    | .ite c t e => do
      let c ← ev n fr .bool c
      match c, e with
      | .bool true, _ => ev n fr exp t
      | .bool false, some e => ev n fr exp e
      | .bool false, none => pure V.unit
      | _, _ => X.stuck
    | .iflet _ _ _ _ => X.stuck
    | .mtch _ _ => X.stuck
    | .closure _ _ => X.stuck

/-- A name that is no variable: a constant of the crate, `None` or `PhantomData`. -/
def evConst : Nat → String → X E (V E)
  | 0, _ => X.stuck
  | n + 1, x => match lookup x cr.consts with
    | some (t, e) => do
      let t := rty cr n ⟨[], .unknown⟩ t
      let v ← inFn cr (ev n ⟨[], .unknown⟩ t e)
      pure (coerce cr.env.ptrBits t v)
    | none => match x with
      | "PhantomData" => pure (.struct "PhantomData" [])
      | "None" => pure noneV
      | "false" => pure (.bool false)
      | "true" => pure (.bool true)
      | _ => X.stuck

/-- Evaluate an expression without moving it (as the operand of `.` or `&`). -/
def place : Nat → Frame → Expr → X E (V E)
  | 0, _, _ => X.stuck
  | n + 1, fr, e => match e with
    | .path [(x, [])] => readVar x
    | .field e f => do
      let v ← place n fr e
      X.some? (v.getField f)
    | e => ev n fr .unknown e

/-- Arguments, from left to right, with the types expected. -/
def evArgs : Nat → Frame → List RT → List Expr → X E (List (V E))
  | 0, _, _, _ => X.stuck
  | _ + 1, _, _, [] => pure []
  | n + 1, fr, ts, e :: es => do
    let v ← ev n fr (ts.head?.getD .unknown) e
    let vs ← evArgs n fr ts.tail es
    pure (coerce cr.env.ptrBits (ts.head?.getD .unknown) v :: vs)

/-- The fields of a struct literal, in the order they are written. -/
def evFields : Nat → Frame → List (String × RTy) → List (String × Expr) → X E (List (String × V E))
  | 0, _, _, _ => X.stuck
  | _ + 1, _, _, [] => pure []
  | n + 1, fr, ts, (x, e) :: es => match lookup x ts with
    | none => X.stuck
    | some t => do
      let v ← ev n fr (rty cr n fr t) e
      let vs ← evFields n fr ts es
      pure ((x, coerce cr.env.ptrBits (rty cr n fr t) v) :: vs)

/-- The macros `debug_assert!`, `assert!` and `write!` (one argument, with `{:?}` or `{}`, which has its own, default parameters). -/
def evMac : Nat → Frame → String → List Expr → X E (V E)
  | 0, _, _, _ => X.stuck
  | n + 1, fr, m, args =>
    if m = "debug_assert" then
      if cr.env.debug then evAssert n fr args else pure V.unit
    else if m = "assert" then evAssert n fr args
    else if m = "write" then match args with
      | [f, .lit p, e] => do
        let f ← ev n fr .unknown f
        let v ← place n fr e
        match f, v.peel with
        | .fmtr _, .user e => do
          let r ← X.mem (if p = "\"{:?}\"" then cr.user.debug e {} else cr.user.display e {})
          fmtWrite r.1
          pure (resV r.2)
        | _, _ => X.stuck
      | _ => X.stuck
    else X.stuck

/-- A condition and what to say if it is false. -/
def evAssert : Nat → Frame → List Expr → X E (V E)
  | 0, _, _ => X.stuck
  | n + 1, fr, args => match args with
    | [] => X.stuck
    | c :: msg => do
      let v ← ev n fr .bool c
      match v with
      | .bool true => pure V.unit
      | .bool false => match msg with
        | [] => X.panic (.text "assertion failed" [])
        | .lit m :: as => do
          let vs ← evArgs n fr [] as
          X.panic (.text m vs)
        | _ => X.stuck
      | _ => X.stuck

/-- Statements; the value is that of the last one if it is an expression. -/
def evStmts : Nat → Frame → RT → List Stmt → X E (V E)
  | 0, _, _, _ => X.stuck
  | _ + 1, _, _, [] => pure V.unit
  | n + 1, fr, exp, s :: ss => match s with
    | .letS (.bind x) t e => do
      let t := match t with
        | some t => rty cr n fr t
        | none => .unknown
      let v ← ev n fr t e
      X.declare x (coerce cr.env.ptrBits t v)
      evStmts n fr exp ss
    | .letS _ _ _ => X.stuck
    | .semi e => do
      let v ← ev n fr .unknown e
      dropV cr v
      evStmts n fr exp ss
    | .tail e => match ss with
      | [] => ev n fr exp e
      | ss => do
        let v ← ev n fr .unit e
        dropV cr v
        evStmts n fr exp ss
    | .useS => evStmts n fr exp ss
    | .constS _ _ _ => X.stuck
    | .enumS _ _ _ => X.stuck
    | .structS _ _ _ _ => X.stuck

/-- Call a function of the crate. `targs` are the generic arguments, `exp` the type expected of the result. -/
def callFn : Nat → Fn → String → List RT → Option (V E) → List (V E) → RT → X E (V E)
  | 0, _, _, _, _, _, _ => X.stuck
  | n + 1, f, ty, targs, self, args, exp =>
    let fr : Frame := ⟨bindGenerics f targs args exp ++ [("T", .user)], .named ty []⟩
    let ret := match f.ret with
      | some t => rty cr n fr t
      | none => .unit
    inFn cr (do
      match f.self, self with
      | some .value, some v => X.declare "self" v
      | some _, some v => X.declare "self" (.refv v)
      | none, none => pure ()
      | _, _ => X.stuck
      declareAll (f.params.map (·.1)) args
      let v ← scope cr (evStmts n fr ret f.body)
      pure (coerce cr.env.ptrBits ret v))
end

/-- How deep the evaluation may go; more than enough for the crate. -/
def evFuel : Nat := 200

/-- Call the function `f` of the type `ty` in the state `s`. -/
def Crate.call (ty f : String) (targs : List RT) (self : Option (V E)) (args : List (V E)) (exp : RT) (s : State) : XOut E (V E) :=
  match findFn ty f cr.fns with
  | some fn => callFn cr evFuel fn ty targs self args exp [] s
  | none => .stuck

/-- Call the function `f` of the implementation of the trait `tr` for the type `ty` in the state `s`. -/
def Crate.callTrait (tr ty f : String) (self : Option (V E)) (args : List (V E)) (exp : RT) (s : State) : XOut E (V E) :=
  match findTrait tr ty f cr.traitFns with
  | some fn => callFn cr evFuel fn ty [] self args exp [] s
  | none => .stuck

/-- Call the function `fmt` of the implementation of the formatting trait `tr` for the type `ty` with a formatter that has the parameters `spec`:
what it returns and what has been written. -/
def Crate.callFmt (tr ty : String) (self : V E) (spec : FmtSpec) (s : State) : XOut E (V E × List Char) :=
  match findTrait tr ty "fmt" cr.traitFns with
  | some ⟨_, _, [], some .ref, [(f, _)], _, body⟩ =>
    match scope cr (evStmts cr evFuel ⟨[("T", .user)], .named ty []⟩ .unknown body)
        [(f, some (.fmtr spec)), ("self", some (.refv self)), (outVar, some (.text []))] s with
    | .ret v l s => (match lookup outVar l with
      | some (some (.text t)) => .ret (v, t) [] s
      | _ => .stuck)
    | .panic m _ s => .panic m [] s
    | .ub k => .ub k
    | .stuck => .stuck
  | _ => .stuck

end

end TB.Rust

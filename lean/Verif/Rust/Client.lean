import Verif.Rust.Eval
import Verif.Rust.Parse
import Verif.Source.BoxText
import Verif.Source.PointerText

/-!
# The examples in the documentation and the tests, as programs

The code blocks in the `///` comments of `src/tagged_box.rs` (rustdoc compiles and runs them as tests) and the functions in `mod tests` of `src/tagged_pointer.rs`, taken out of
the text, parsed by `Rust/Parse.lean`, and run by an interpreter for code of users of the crate. Calls of functions of the crate are left to `Crate.call`, so they run the text
of the crate as well.

What it does, and what is simplified:

* Values of types that are not the crate's (`usize`, `i32`, `[u8; 10]`, `String`, `Vec<usize>`) are opaque: a shape and bytes. `Std` says which shape a type has and how a literal
  is represented at a shape; a `String` or a `Vec` is represented by bytes that depend on its contents only. Equality of such values is equality of their bytes.
* A literal has no type until it meets something that has one. One that is passed to a generic parameter is an `i32`.
* `addr x` is the address of the local variable `x`. The memory there is not written by `let`: the theorems assume that it holds the variable's value.
* Structures that are not the crate's are values of types of other libraries; their members are constants (literals, lists of them, `usize::max_value()`, shifts).
* `[a; n]` is `[a, .., a]`; the type `[T; n]` is a name. Item declarations inside of an example are left out.
* The operands of `assert_eq!` are dropped at the end of it if they are temporaries. What a failed assertion says is left out.
-/

set_option autoImplicit false

namespace TB.Rust

open TB.Mbe TB.Macro TB.Source

/-! ## The text -/

/-- A line of a `///` comment. -/
def outerDoc : List Char → List Char
  | ' ' :: r => outerDoc r
  | '/' :: '/' :: '/' :: ' ' :: r => r
  | '/' :: '/' :: '/' :: r => r
  | _ => []

/-- rustdoc: a line of an example that begins with `# ` is compiled, but not shown. -/
def hiddenLine : List Char → List Char
  | '#' :: ' ' :: r => r
  | ['#'] => []
  | l => l

/-- The examples: what is between "```rust" and "```". -/
def docBlocks : List (List Char) → Option (List (List Char)) → List (List (List Char))
  | [], _ => []
  | l :: ls, none => if outerDoc l = src% "```rust" then docBlocks ls (some []) else docBlocks ls none
  | l :: ls, some cur => if outerDoc l = src% "```" then cur.reverse :: docBlocks ls none else docBlocks ls (some (hiddenLine (outerDoc l) :: cur))

/-- `a, a, .., a` -/
def commaList (a : TT) : Nat → List TT
  | 0 => []
  | n + 1 => a :: .atom (.punct ",") :: commaList a n

mutual
/-- `[a; n]` for a literal `a`, and `[T; n]`. -/
def arrayTT : TT → TT
  | .group d us => match d, us with
    | .bracket, [.atom (.lit a), .atom (.punct ";"), .atom (.lit n)] => .group .bracket (commaList (.atom (.lit a)) ((decimal 0 n.toList).getD 0))
    | .bracket, [.atom (.ident t), .atom (.punct ";"), .atom (.lit n)] => .ty (.named ("[" ++ t ++ "; " ++ n ++ "]"))
    | d, us => .group d (arrayTTs us)
  | t => t
def arrayTTs : List TT → List TT
  | [] => []
  | t :: ts => arrayTT t :: arrayTTs ts
end

/-- Leave out the items at the beginning. -/
def skipDecls : Nat → List TT → List TT
  | 0, ts => ts
  | n + 1, .atom (.ident k) :: r =>
    if k = "extern" ∨ k = "use" ∨ k = "struct" then skipDecls n (skipSemi r)
    else if k = "enum" then match r with
      | .atom (.ident _) :: .group .brace _ :: r => skipDecls n r
      | r => .atom (.ident k) :: r
    else .atom (.ident k) :: r
  | _ + 1, ts => ts

/-- The statements of an example. -/
def exampleCode (ls : List (List Char)) : Option (List Stmt) := match parseText ls with
  | some ts => pBlock 100 (skipDecls 100 (arrayTTs ts))
  | none => none

/-- The body of `mod tests`. -/
def testMod : List TT → Option (List TT)
  | .atom (.ident m) :: .atom (.ident t) :: .group .brace us :: r => if m = "mod" ∧ t = "tests" then some us else testMod (.atom (.ident t) :: .group .brace us :: r)
  | _ :: r => testMod r
  | [] => none

/-- The functions in it. -/
def testFns (ls : List (List Char)) : Option (List Fn) := match parseText ls with
  | some ts => match testMod ts with
    | some us => (pItems 1000 us).map fun is => is.filterMap fun
      | .fn f => some f
      | _ => none
    | none => none
  | none => none

/-- Does it have this attribute? -/
def Fn.hasAttr (f : Fn) (a : String) : Bool := f.attrs.any fun x => match x with
  | [.atom (.ident y)] => y == a
  | _ => false

/-! ## Running it -/

/-- Literals of types that are not the crate's. -/
inductive Lit where
  | num (n : Nat)
  | nums (ns : List Nat)
  | text (s : String)
  | flag (b : Bool)
  | record (fs : List (String × Lit))

/-- What other libraries contribute: the shapes of types, and how literals are represented. -/
structure Std where
  shape : String → Shape
  enc : Shape → Lit → Val

section
variable {E : Type} (cr : Crate E) (std : Std) (addr : String → Nat)

/-- The digits at the beginning of a literal in base 16, and the suffix. -/
def hexDigits : List Char → List Char × List Char
  | [] => ([], [])
  | c :: r => if '0' ≤ c ∧ c ≤ '9' ∨ 'A' ≤ c ∧ c ≤ 'F' ∨ 'a' ≤ c ∧ c ≤ 'f' then (c :: (hexDigits r).1, (hexDigits r).2) else ([], c :: r)

/-- Digits in base 16. -/
def hexadecimal : Nat → List Char → Option Nat
  | n, [] => some n
  | n, c :: r =>
    if '0' ≤ c ∧ c ≤ '9' then hexadecimal (16 * n + (c.toNat - 48)) r
    else if 'A' ≤ c ∧ c ≤ 'F' then hexadecimal (16 * n + (c.toNat - 55)) r
    else if 'a' ≤ c ∧ c ≤ 'f' then hexadecimal (16 * n + (c.toNat - 87)) r
    else none

/-- The digits at the beginning of a decimal literal, and the suffix. -/
def digits : List Char → List Char × List Char
  | [] => ([], [])
  | c :: r => if '0' ≤ c ∧ c ≤ '9' then (c :: (digits r).1, (digits r).2) else ([], c :: r)

/-- A number literal: its value and its type, if there is a suffix. -/
def numLit (s : String) : Option (Nat × Option String) := match s.toList.filter (· ≠ '_') with
  | '0' :: 'x' :: r => (hexadecimal 0 (hexDigits r).1).map fun n => (n, match (hexDigits r).2 with
    | [] => none
    | suf => some (String.ofList suf))
  | cs => match (digits cs).1, (digits cs).2 with
    | [], _ => none
    | ds, [] => (decimal 0 ds).map fun n => (n, none)
    | ds, suf => (decimal 0 ds).map fun n => (n, some (String.ofList suf))

/-- The name of a type that is not the crate's. -/
def tyKey : RTy → String
  | .path [(x, [])] => x
  | .path [(x, [.path [(y, [])]])] => x ++ "<" ++ y ++ ">"
  | .user (.named s) => s
  | _ => ""

/-- Types as written. -/
def tty : RTy → RT
  | .path [("u64", [])] => .int .u64
  | .path [("TaggedBox", _)] => .unknown
  | .path [("Box", [t])] => .named "Box" [tty t]
  | .ptr _ t => .ptr (tty t)
  | .ref _ t => .ref (tty t)
  | t => .opaque (std.shape (tyKey t))

/-- A literal where a value of type `exp` is expected. -/
def litE (exp : RT) (l : Lit) : V E := match exp, l with
  | .opaque sh, l => .obj sh (std.enc sh l)
  | .int t, .num n => .int t (wrap cr.env.ptrBits t (BitVec.ofNat 64 n))
  | _, .num n => .lit n
  | _, .text s => .str s
  | _, _ => .unit

/-- The value of a literal. -/
def litV (exp : RT) (s : String) : V E := match numLit s with
  | some (n, some t) => .obj (std.shape t) (std.enc (std.shape t) (.num n))
  | some (n, none) => litE cr std exp (.num n)
  | none => litE cr std exp (.text s)

/-- An argument for a generic parameter. -/
def defaultTy : V E → V E
  | .lit n => .obj (std.shape "i32") (std.enc (std.shape "i32") (.num n))
  | v => v

/-- Call a function of the crate; its generic arguments are found as the compiler does. -/
def tcall (ty f : String) (targs : List RT) (self : Option (V E)) (args : List (V E)) (exp : RT) : X E (V E) := fun l s =>
  match findFn ty f cr.fns with
  | none => .stuck
  | some fn => match cr.call ty f ((bindGenerics fn targs args exp).map (·.2)) self args exp s with
    | .ret v _ s => .ret v l s
    | .panic m _ s => .panic m l s
    | .ub k => .ub k
    | .stuck => .stuck

/-- The type expected of an argument; `none` for a generic parameter. -/
def paramTy (fn : Fn) (ty : String) (t : RTy) : Option RT := match t with
  | .path [(g, [])] => if g ∈ fn.generics then none else some (rty cr 10 ⟨[], .named ty []⟩ t)
  | t => some (rty cr 10 ⟨[], .named ty []⟩ t)

/-- The numbers in a list of literals, and their type. -/
def numList : List Expr → Option (List Nat × Option String)
  | [] => some ([], none)
  | .lit s :: es => match numLit s, numList es with
    | some (n, t), some (ns, t') => some (n :: ns, match t with
      | some t => some t
      | none => t')
    | _, _ => none
  | _ => none

/-- `vec![..]` and `[..]`; `key` is the name of the type, given that of the elements. -/
def listV (key : String → String) (exp : RT) (es : List Expr) : X E (V E) := match numList es with
  | some (ns, some t) => pure (.obj (std.shape (key t)) (std.enc (std.shape (key t)) (.nums ns)))
  | some (ns, none) => pure (litE cr std exp (.nums ns))
  | none => X.stuck

/-- Constant expressions of type `usize`. -/
def constNum (bits : Nat) : Expr → Option Nat
  | .lit s => (numLit s).map (·.1)
  | .call (.path [("usize", []), ("max_value", [])]) [] => some (2 ^ bits - 1)
  | .bin .shl a b => match constNum bits a, constNum bits b with
    | some x, some k => if k < bits then some (x * 2 ^ k % 2 ^ bits) else none
    | _, _ => none
  | .bin .shr a b => match constNum bits a, constNum bits b with
    | some x, some k => if k < bits then some (x / 2 ^ k) else none
    | _, _ => none
  | _ => none

/-- Lists of them. -/
def constNums (bits : Nat) : List Expr → Option (List Nat)
  | [] => some []
  | e :: es => match constNum bits e, constNums bits es with
    | some x, some xs => some (x :: xs)
    | _, _ => none

/-- The value of a member of a structure. -/
def constLit (bits : Nat) : Expr → Option Lit
  | .path [("true", [])] => some (.flag true)
  | .path [("false", [])] => some (.flag false)
  | .array es => (constNums bits es).map .nums
  | e => (constNum bits e).map .num

/-- The members of a structure. -/
def constFields (bits : Nat) : List (String × Expr) → Option (List (String × Lit))
  | [] => some []
  | (x, e) :: fs => match constLit bits e, constFields bits fs with
    | some v, some vs => some ((x, v) :: vs)
    | _, _ => none

/-- The type expected of the first operand of `assert_eq!`, if the second one is a call with generic arguments. -/
def secondTy : Expr → RT
  | .call (.path p) _ => match p.reverse with
    | (_, [t]) :: _ => tty std t
    | _ => .unknown
  | _ => .unknown

/-- What a reference refers to. -/
def look : V E → X E (V E)
  | .refv v => look v
  | .ref (.opaque sh) a => do
    let v ← X.mem (ptrRead sh a)
    pure (.obj sh v)
  | v => pure v

/-- Equality. -/
def sameV : V E → V E → X E Bool
  | .obj _ v, .obj _ w => pure (v == w)
  | .int t v, .int t' w => if t = t' then pure (v == w) else X.stuck
  | .int _ v, .lit n => pure (v == BitVec.ofNat 64 n)
  | .lit n, .int _ v => pure (BitVec.ofNat 64 n == v)
  | .lit n, .lit k => pure (n == k)
  | _, _ => X.stuck

/-- `a / b` -/
def divV : V E → V E → X E (V E)
  | .int t v, .lit k => pure (.int t (v / BitVec.ofNat 64 k))
  | _, _ => X.stuck

/-- `a.checked_add(b)` -/
def checkedAdd : V E → V E → X E (V E)
  | .int t v, .lit k => if v.toNat + k < 2 ^ t.bits cr.env.ptrBits then pure (someV (.int t (v + BitVec.ofNat 64 k))) else pure noneV
  | _, _ => X.stuck

/-- The type expected of the other operand. -/
def V.other : V E → RT
  | .obj sh _ => .opaque sh
  | _ => .unknown

/-- Drop a value. -/
def tdrop : V E → X E Unit
  | .boxed (.opaque sh) a => X.mem ((⟨a⟩ : RBox).drop sh)
  | v => dropV cr v

/-- Drop the newest `k` variables. -/
def tdropLocals : Nat → X E Unit
  | 0 => pure ()
  | k + 1 => fun l s => match l with
    | [] => .stuck
    | (_, none) :: l => tdropLocals k l s
    | (_, some v) :: l => (do
      tdrop cr v
      tdropLocals k) l s

/-- Run something, then drop the variables it has declared, also after a panic. -/
def tscope {α : Type} (m : X E α) : X E α := fun l s => match m l s with
  | .ret a l' s' => (do
    tdropLocals cr (l'.length - l.length)
    pure a) l' s'
  | .panic msg l' s' => (do
    tdropLocals cr (l'.length - l.length)
    X.panic msg) l' s'
  | .ub k => .ub k
  | .stuck => .stuck

/-- What a failed `assert_eq!` says, without the values. -/
def notEqual : Msg E := .text "assertion failed: `(left == right)`" []

mutual
/-- Evaluate an expression by value. -/
def tev : Nat → RT → Expr → X E (V E)
  | 0, _, _ => X.stuck
  | n + 1, exp, e => match e with
    | .lit s => pure (litV cr std exp s)
    | .path [(x, [])] => useVar x
    | .path p => evConst cr 20 (lastName p)
    | .ref _ e => do
      let v ← operand n (match exp with
        | .ref t => t
        | t => t) e
      pure (.refv v.1)
    | .cast (.ref _ (.path [(x, [])])) (.ptr _ _) => pure (.ptr .unknown (addr x))
    | .cast e t => do
      let v ← tev n .unknown e
      castV cr (tty std t) v
    | .bin .div a b => do
      let a ← tev n .unknown a
      let b ← tev n .unknown b
      divV a b
    | .bin .assign (.un .deref p) e => do
      let w ← tev n .unknown e
      let p ← tev n .unknown p
      match p with
      | .ref (.opaque sh) a | .ptr (.opaque sh) a =>
        match (match w with
          | .lit k => some (std.enc sh (.num k))
          | .obj _ v => some v
          | _ => none) with
        | some v => do
          X.mem (do
            let old ← ptrRead sh a
            dropVal sh old
            ptrWrite sh a v)
          pure V.unit
        | none => X.stuck
      | _ => X.stuck
    | .call (.path p) args => match p.reverse with
      | (f, targs) :: (ty, _) :: _ => match findFn ty f cr.fns with
        | some fn => do
          let args ← tArgs n (fn.params.map fun q => paramTy cr fn ty q.2) args
          tcall cr ty f (targs.map (tty std)) none args exp
        | none => match ty, f, args with
          | "String", "from", [.lit s] => pure (.obj (std.shape "String") (std.enc (std.shape "String") (.text s)))
          | _, _, _ => X.stuck
      | _ => X.stuck
    | .method e f targs args => do
      let recv ← operand n .unknown e
      match findFn recv.1.peel.tyName f cr.fns with
      | some fn => do
        let args ← tArgs n (fn.params.map fun q => paramTy cr fn recv.1.peel.tyName q.2) args
        tcall cr recv.1.peel.tyName f (targs.map (tty std)) (some recv.1.peel) args exp
      | none => match f, args with
        | "checked_add", [e] => do
          let k ← tev n .unknown e
          checkedAdd cr recv.1 k
        | _, _ => X.stuck
    | .mac m args => match m, args with
      | "vec", es => listV cr std (fun t => "Vec<" ++ t ++ ">") exp es
      | "panic", [.lit t] => X.panic (.text t [])
      | "assert_eq", [a, b] => do
        let x ← operand n (secondTy std b) a
        let x' ← look x.1
        let y ← operand n x'.other b
        let y' ← look y.1
        let r ← sameV x' y'
        if y.2 then tdrop cr y.1 else pure ()
        if x.2 then tdrop cr x.1 else pure ()
        if r then pure V.unit else X.panic notEqual
      | _, _ => X.stuck
    | .tuple [] => pure (.obj (std.shape "()") (std.enc (std.shape "()") (.record [])))
    | .struct [(x, [])] fs => match constFields cr.env.ptrBits fs with
      | some vs => pure (.obj (std.shape x) (std.enc (std.shape x) (.record vs)))
      | none => X.stuck
    | .array es => listV cr std (fun t => "[" ++ t ++ "; " ++ toString es.length ++ "]") exp es
    | .block ss => tscope cr (tStmts n exp ss)
    | .iflet (.call [("Some", [])] [.bind x]) c t (some e) => do
      let c ← tev n .unknown c
      match c with
      | .struct "Some" [(_, v)] => tscope cr (do
        X.declare x v
        tev n exp t)
      | .struct "None" [] => tev n exp e
      | _ => X.stuck
    | _ => X.stuck

/-- Evaluate an operand of `&`, `.` or `assert_eq!`, which are not moved; is it a temporary? -/
def operand : Nat → RT → Expr → X E (V E × Bool)
  | 0, _, _ => X.stuck
  | n + 1, exp, e => match e with
    | .path [(x, [])] => do
      let v ← readVar x
      pure (v, false)
    | .un .deref e => do
      let p ← tev n .unknown e
      match p with
      | .ptr (.opaque sh) a => pure (.ref (.opaque sh) a, false)
      | .ref (.opaque sh) a => pure (.ref (.opaque sh) a, false)
      | _ => X.stuck
    | e => do
      let v ← tev n exp e
      pure (v, true)

/-- Arguments of a function of the crate. -/
def tArgs : Nat → List (Option RT) → List Expr → X E (List (V E))
  | 0, _, _ => X.stuck
  | _ + 1, [], [] => pure []
  | n + 1, t :: ts, e :: es => do
    let v ← tev n (t.getD .unknown) e
    let vs ← tArgs n ts es
    pure ((match t with
      | some (.int t) => coerce cr.env.ptrBits (.int t) v
      | some _ => v
      | none => defaultTy std v) :: vs)
  | _ + 1, _, _ => X.stuck

/-- Statements. -/
def tStmts : Nat → RT → List Stmt → X E (V E)
  | 0, _, _ => X.stuck
  | _ + 1, _, [] => pure V.unit
  | n + 1, exp, st :: ss => match st with
    | .letS (.bind x) t e => do
      let t := match t with
        | some t => tty std t
        | none => .unknown
      let v ← tev n t e
      X.declare x v
      tStmts n exp ss
    | .semi e => do
      let v ← tev n .unknown e
      tdrop cr v
      tStmts n exp ss
    | .tail e => match ss with
      | [] => tev n exp e
      | ss => do
        let v ← tev n .unit e
        tdrop cr v
        tStmts n exp ss
    | _ => X.stuck
end

/-- Run the body of a function. -/
def runBody (ss : List Stmt) (s : State) : XOut E (V E) := tscope cr (tStmts cr std addr 100 .unit ss) [] s

end

end TB.Rust

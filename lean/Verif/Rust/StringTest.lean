import Verif.Rust.Client
import Verif.Rust.MoveCode

/-!
# The test `string_pointer` of `src/tagged_pointer.rs:257-272`

It tags the pointer to the contents of a `String`, which the standard library has allocated, and reads the contents through it. An interpreter of its own: here a `String` is an
address and a length, and its contents are bytes in memory, unlike in `Rust/Client.lean`. Functions of the crate run from its text (`tcall`).

* `String::from` asks the allocator for as many bytes as the text has in UTF-8, with alignment 1, and writes them; nothing is allocated for the empty text, which is at the address 1.
  If the allocator has no memory, the process is aborted; here, it is a panic.
* `slice::from_raw_parts(p, n)` needs `n` valid bytes at `p`; what they are is read at once, since the test does not change them.
* `str::from_utf8` succeeds for bytes that are the encoding of some text.
* The buffer of the string is freed at the end, if the test does not panic.
-/

set_option autoImplicit false

namespace TB.Rust

open TB.Mbe TB.Macro TB.Source

/-- A text in UTF-8. -/
def utf8 (cs : List Char) : Bytes := (String.ofList cs).toUTF8.data.toList.map fun b => some b.toBitVec

/-- `[u8; n]` -/
def bytesLeaf (n : Nat) : Leaf := ⟨0, n, 1, fun bs => bs.all (·.isSome), false⟩

/-- Values. -/
inductive StrV (E : Type) where
  | val (v : V E)
  /-- a `String`: where its contents are, and their length -/
  | string (a n : Nat)
  | len (n : Nat)
  /-- a slice or a `str` -/
  | bytes (bs : Bytes)

/-- The buffer of a new string. -/
def newBuffer (env : Env) (bs : Bytes) : M Nat :=
  if bs.length = 0 then pure 1 else do
    let a ← allocM env bs.length 1
    if a = 0 then M.panic .nullAlloc else do
      ptrWrite (bytesLeaf bs.length).shape a [bs]
      pure a

/-- The only field. -/
def fieldBytes : Val → Bytes
  | [bs] => bs
  | _ => []

/-- The bytes at an address. -/
def bytesAt (a n : Nat) : M Bytes := do
  let v ← ptrRead (bytesLeaf n).shape a
  pure (fieldBytes v)

noncomputable section
open Classical

section
variable {E : Type} (cr : Crate E)

/-- A value that is not a string. -/
def asVal : StrV E → X E (V E)
  | .val v => pure v
  | _ => X.stuck

/-- A variable. -/
def strVar (l : List (String × StrV E)) (x : String) : X E (StrV E) := match lookup x l with
  | some v => pure v
  | none => X.stuck

/-- Types. -/
def strTy : RTy → RT
  | .path [("u8", [])] => .opaque (bytesLeaf 1).shape
  | _ => .unknown

/-- Methods without arguments. -/
def strMethod (f : String) (ts : List RTy) : StrV E → X E (StrV E)
  | .string _ n => if f = "len" then pure (.len n) else X.stuck
  | .val p => do
    let v ← tcall cr p.tyName f (ts.map strTy) (some p) [] .unknown
    pure (.val v)
  | _ => X.stuck

/-- `s.as_ptr() as u64` -/
def bufferAddr : StrV E → X E (StrV E)
  | .string a _ => pure (.val (.int .u64 (BitVec.ofNat 64 a)))
  | _ => X.stuck

/-- `&s` -/
def strDeref : StrV E → X E (StrV E)
  | .string a n => do
    let bs ← X.mem (bytesAt a n)
    pure (.bytes bs)
  | _ => X.stuck

/-- `slice::from_raw_parts(p, n)` -/
def rawParts : StrV E → StrV E → X E (StrV E)
  | .val (.ptr _ a), .len n => do
    let bs ← X.mem (bytesAt a n)
    pure (.bytes bs)
  | _, _ => X.stuck

/-- `str::from_utf8(bs).unwrap()` -/
def fromUtf8 : StrV E → X E (StrV E)
  | .bytes bs => if ∃ cs, utf8 cs = bs then pure (.bytes bs) else X.panic (.text "called `Result::unwrap()` on an `Err` value" [])
  | _ => X.stuck

/-- Evaluate an expression. -/
def strEv (l : List (String × StrV E)) : Nat → Expr → X E (StrV E)
  | 0, _ => X.stuck
  | n + 1, e => match e with
    | .path [(x, [])] => strVar l x
    | .lit t => pure (.bytes (utf8 (literalText t)))
    | .path p => do
      let v ← evConst cr 20 (lastName p)
      pure (.val v)
    | .call (.path [("String", []), ("from", [])]) [.lit t] => do
      let a ← X.mem (newBuffer cr.env (utf8 (literalText t)))
      pure (.string a (utf8 (literalText t)).length)
    | .call (.path [("slice", []), ("from_raw_parts", [])]) [p, k] => do
      let p ← strEv l n p
      let k ← strEv l n k
      rawParts p k
    | .method (.call (.path [("core", []), ("str", []), ("from_utf8", [])]) [e]) "unwrap" [] [] => do
      let v ← strEv l n e
      fromUtf8 v
    | .call (.path [(ty, []), (f, [])]) [a, b] => do
      let x ← strEv l n a
      let x ← asVal x
      let y ← strEv l n b
      let y ← asVal y
      let v ← tcall cr ty f [] none [x, y] .unknown
      pure (.val v)
    | .cast (.method (.path [(x, [])]) "as_ptr" [] []) (.path [("u64", [])]) => do
      let v ← strVar l x
      bufferAddr v
    | .method (.path [(x, [])]) f ts [] => do
      let v ← strVar l x
      strMethod cr f ts v
    | .ref _ (.path [(x, [])]) => do
      let v ← strVar l x
      strDeref v
    | _ => X.stuck

/-- Equality. -/
def strSame : StrV E → StrV E → X E Bool
  | .val v, .val w => sameV v w
  | .bytes a, .bytes b => pure (a == b)
  | _, _ => X.stuck

/-- Free the strings. -/
def freeStrings : List (String × StrV E) → M Unit
  | [] => pure ()
  | (_, .string a n) :: l => do
    if n = 0 then pure () else deallocM a n 1
    freeStrings l
  | _ :: l => freeStrings l

/-- Statements; `fuel` bounds the number of nested blocks. -/
def strStmts : Nat → List (String × StrV E) → List Stmt → X E Unit
  | _, l, [] => X.mem (freeStrings l)
  | 0, _, _ => X.stuck
  | n + 1, l, st :: ss => match st with
    | .letS (.bind x) none e => do
      let v ← strEv cr l 20 e
      strStmts n ((x, v) :: l) ss
    | .semi (.mac "assert_eq" [a, b]) => do
      let x ← strEv cr l 20 a
      let y ← strEv cr l 20 b
      let r ← strSame x y
      if r then strStmts n l ss else X.panic notEqual
    | .tail (.block bs) => strStmts n l (bs ++ ss)
    | _ => X.stuck

/-- Run the body of the test. -/
def runString (ss : List Stmt) (s : State) : XOut E Unit := strStmts cr 40 [] ss [] s

end

end

end TB.Rust

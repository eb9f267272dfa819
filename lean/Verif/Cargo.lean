/-!
# How cargo reads the output of a build script

Not code of this repository: `println!` of the standard library, and cargo ("The Cargo Book", *Build Scripts*; `BuildOutput::parse` in `src/cargo/core/compiler/custom_build.rs`).
The output is split at line feeds, whatever printed them. Lines that start with `cargo:` (or `cargo::`) are instructions; others are ignored.
-/

set_option autoImplicit false

namespace TB

/-- What a program writes that gives these texts to `println!`, one after the other. -/
def printlns (ls : List (List Char)) : List Char := ls.flatMap (· ++ ['\n'])

/-- An instruction for cargo. -/
inductive BuildLine where
  | cfg (name : String)       -- `cargo:rustc-cfg=<name>`
  | warning (message : String)  -- `cargo:warning=<message>`
  | rerunIfEnvChanged (name : String)  -- `cargo:rerun-if-env-changed=<name>`
  | other (key value : String)  -- any other `cargo:<key>=<value>`
  | malformed (line : String)  -- no `=`: cargo stops with an error
deriving DecidableEq

/-- Whether cargo does not understand a line. -/
def BuildLine.isMalformed : BuildLine → Bool
  | .malformed _ => true
  | _ => false

/-- `str::split('\n')` -/
def splitLines : List Char → List (List Char)
  | [] => [[]]
  | c :: cs => if c = '\n' then [] :: splitLines cs else match splitLines cs with
    | [] => [[c]]
    | l :: ls => (c :: l) :: ls

/-- `char::is_whitespace` (the Unicode property `White_Space`) -/
def isSpace (c : Char) : Bool :=
  let n := c.toNat
  (9 ≤ n && n ≤ 13) || n == 0x20 || n == 0x85 || n == 0xA0 || n == 0x1680 || (0x2000 ≤ n && n ≤ 0x200A) || n == 0x2028 || n == 0x2029 ||
    n == 0x202F || n == 0x205F || n == 0x3000

/-- `str::trim_end`, `str::trim` -/
def trimEnd (l : List Char) : List Char := (l.reverse.dropWhile isSpace).reverse
def trim (l : List Char) : List Char := trimEnd (l.dropWhile isSpace)

/-- `str::strip_prefix` -/
def stripPrefix : List Char → List Char → Option (List Char)
  | [], l => some l
  | p :: ps, c :: cs => if p = c then stripPrefix ps cs else none
  | _ :: _, [] => none

/-- `str::split_once('=')` -/
def splitEq : List Char → Option (List Char × List Char)
  | [] => none
  | c :: cs => if c = '=' then some ([], cs) else (splitEq cs).map fun x => (c :: x.1, x.2)

/-- The instruction with this key and value. -/
def instruction (key value : String) : BuildLine :=
  if key = "rustc-cfg" then .cfg value
  else if key = "warning" then .warning value
  else if key = "rerun-if-env-changed" then .rerunIfEnvChanged value
  else .other key value

/-- One line of the output. -/
def cargoLine (l : List Char) : Option BuildLine :=
  match stripPrefix "cargo:".toList (trim l) with
  | none => none
  | some d => match splitEq ((stripPrefix ":".toList d).getD d) with
    | none => some (.malformed (String.ofList l))
    | some (key, value) => some (instruction (String.ofList key) (String.ofList (trimEnd value)))

/-- The instructions in the output of a build script. -/
def cargoReads (out : List Char) : List BuildLine := (splitLines out).filterMap cargoLine

end TB

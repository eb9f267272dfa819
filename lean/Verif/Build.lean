import Verif.Config

/-!
# Building again

When cargo runs `build.rs` (not code of this repository; "The Cargo Book", *Change Detection*): if there is no output of an earlier run in
the target directory, or the package's files have changed since; or, if the output contains `cargo:rerun-if-..` lines, if what these lines
name has changed (package files are then not looked at). Otherwise the output of the earlier run is used again. `build.rs` prints no such
line. A script is represented by the instructions cargo reads in its output, for each value of the variable (`rerun-if-changed` is not modelled).
-/

set_option autoImplicit false

namespace TB

/-- The variable that `build.rs` reads. `build.rs:2` -/
def widthVar : String := "TAGGED_BOX_RESERVED_WIDTH"

/-- What is left in the target directory of a run of the build script. -/
structure Cached where
  /-- fingerprint of the package's files at the time -/
  files : Nat
  /-- the variable at the time -/
  env : EnvVar
  lines : List BuildLine

/-- The package, the environment and the target directory. -/
structure Workspace where
  files : Nat
  env : EnvVar
  cache : Option Cached

/-- Does the line name a condition to run the script again? -/
def BuildLine.isRerun : BuildLine → Bool
  | .rerunIfEnvChanged _ => true
  | _ => false

/-- Is the script run? -/
def Workspace.stale (w : Workspace) : Bool :=
  match w.cache with
  | none => true
  | some c =>
    if c.lines.any BuildLine.isRerun then decide (BuildLine.rerunIfEnvChanged widthVar ∈ c.lines) && !decide (c.env = w.env)
    else !decide (c.files = w.files)

/-- `cargo build` of a package with the build script `script`: the workspace afterwards and the rows the crate is compiled with. -/
def Workspace.buildBy (script : EnvVar → List BuildLine) (w : Workspace) : Workspace × List Config :=
  let c : Cached := if w.stale then ⟨w.files, w.env, script w.env⟩ else w.cache.getD ⟨w.files, w.env, []⟩
  ({ w with cache := some c }, activeRows c.lines)

/-- What a user does between builds. -/
inductive BuildOp where
  /-- set or unset `TAGGED_BOX_RESERVED_WIDTH` -/
  | setEnv (e : EnvVar)
  /-- change the files of the package `tagged-box` (a new fingerprint) -/
  | edit
  /-- `cargo clean` -/
  | clean
  | build
deriving DecidableEq

/-- One step; the rows of the most recent build are kept. -/
def buildStepBy (script : EnvVar → List BuildLine) : Workspace × List Config → BuildOp → Workspace × List Config
  | (w, r), .setEnv e => ({ w with env := e }, r)
  | (w, r), .edit => ({ w with files := w.files + 1 }, r)
  | (w, r), .clean => ({ w with cache := none }, r)
  | (w, _), .build => w.buildBy script

/-- A history, from a fresh checkout with the environment `e`. -/
def buildRunBy (script : EnvVar → List BuildLine) (e : EnvVar) (ops : List BuildOp) : Workspace × List Config :=
  ops.foldl (buildStepBy script) (⟨0, e, none⟩, [])

/-! This package. `build.rs` -/

abbrev Workspace.build (w : Workspace) : Workspace × List Config := w.buildBy buildLines
abbrev buildStep : Workspace × List Config → BuildOp → Workspace × List Config := buildStepBy buildLines
abbrev buildRun (e : EnvVar) (ops : List BuildOp) : Workspace × List Config := buildRunBy buildLines e ops

/-! The tasks that test the settings. `Makefile.toml` -/

/-- The settings the tasks go through. `Makefile.toml:11-16`, `:65-70` -/
def makeFeatures : List String :=
  ["48bits", "49bits", "50bits", "51bits", "52bits", "53bits", "54bits", "55bits", "56bits", "57bits"]

/-- The first `k` rounds of the loop of `test-all` (`cargo test` builds the package). `Makefile.toml:20-35` -/
def makeRounds (k : Nat) : List BuildOp := (makeFeatures.take k).flatMap fun f => [.setEnv (.ok f), .build]

/-- The first `k` rounds of `miri-all`, which cleans first. `Makefile.toml:74-99` -/
def miriRounds (k : Nat) : List BuildOp := .clean :: makeRounds k

end TB

import Verif.Rust.Script
import Verif.Source.Build
import Verif.Spec.SourceRun

/-!
# From the environment to the compiled crate

`build.rs` is run from its text, cargo reads what it prints, and the crate is compiled from its text with the settings cargo was told.
-/

set_option autoImplicit false

namespace TB.Spec

open TB TB.Rust

/-- What `build.rs` prints if the environment variables are `vars`. -/
noncomputable def buildPrints (vars : List Char → EnvVar) : Option (List Char) := match buildItems with
  | some is => runMain vars is
  | none => none

/-- What cargo reads of it. -/
noncomputable def buildTells (vars : List Char → EnvVar) : Option (List BuildLine) := (buildPrints vars).map cargoReads

/-- Compile the crate with these instructions of its build script: the modules `variables` whose `cfg` is set are compiled in. With none or several, or with a line cargo does
not understand, it does not compile. -/
def compileWith {E : Type} (p : Parts) (told : List BuildLine) (env : Env) (user : User E) : Option (Crate E) :=
  if told.any BuildLine.isMalformed then none
  else match p.rows.filter (fun r => decide (BuildLine.cfg r.1 ∈ told)) with
    | [r] => some ⟨env, user, r.2.2, r.2.1, p.structs, p.fns, p.traitFns⟩
    | _ => none

/-- The crate, built from the texts of `build.rs` and of the sources with the environment variables `vars`. The field `cfg` of `env` plays no part in it. -/
noncomputable def builtCrate {E : Type} (vars : List Char → EnvVar) (env : Env) (user : User E) : Option (Crate E) :=
  match buildTells vars, sourceParts with
  | some told, some p => compileWith p told env user
  | _, _ => none

/-- The name of the variable. -/
def widthVar : List Char := "TAGGED_BOX_RESERVED_WIDTH".toList

end TB.Spec

import Verif.Build

/-!
# What a task that tests several settings should report
-/

set_option autoImplicit false

namespace TB.Spec

open TB

/-- Set the variable to each of these in turn, and build (and test) each time. -/
def roundsOf (fs : List String) : List BuildOp := fs.flatMap fun f => [.setEnv (.ok f), .build]

/-- The settings whose round failed, where `pass h` is the outcome of a build and test at the end of the history `h`; `ops` came before. -/
def failedIn (pass : List BuildOp → Bool) : List BuildOp → List String → List String
  | _, [] => []
  | ops, f :: fs =>
    let h := ops ++ [.setEnv (.ok f), .build]
    if pass h then failedIn pass h fs else f :: failedIn pass h fs

/-- The summary: `n` were tested, these failed. `ok` is what is said of those that passed, `bad` introduces the list. -/
def summary (ok bad : String) (n : Nat) (failed : List String) : List Char :=
  (toString (n - failed.length)).toList ++ (" features passed ".toList ++ (ok.toList ++ (", ".toList ++ ((toString failed.length).toList ++ " failed\n".toList)))) ++
    if failed = [] then [] else bad.toList ++ (" failed on the following features: ".toList ++ (List.intercalate ", ".toList (failed.map String.toList) ++ "\n".toList))

end TB.Spec

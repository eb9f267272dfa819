import Verif.Spec.UserRun

/-!
# Running a benchmark
-/

set_option autoImplicit false

namespace TB.Spec

open TB

/-- Run the code so many times, one after the other. -/
def iterations (code : M Unit) : Nat → M Unit
  | 0 => pure ()
  | n + 1 => do
    code
    iterations code n

/-- Blocks of these sizes and alignments, and no others, have been allocated between two states and are still allocated; and what was allocated before still is. -/
def Kept (s s' : State) (ls : List (Nat × Nat)) : Prop := ∃ bs, s'.blocks = bs ++ s.blocks ∧ bs.map (fun b => (b.size, b.align)) = ls

end TB.Spec

import Verif.TaggedBox

/-!
# Specification vocabulary for boxes

What it means, in terms of the public observers, that a box holds a value.
-/

set_option autoImplicit false

namespace TB

/-- In state `s`, box `b` holds the value `v` of type `sh` under discriminant `d`:
`discriminant()` answers `d`, `as_ref::<U>` reads `v` (without undefined behaviour or panic), and, unless `U` is
zero-sized, the box's address is the start of a live allocation with exactly `U`'s layout. -/
structure Holds (env : Env) (s : State) (b : TBox) (sh : Shape) (v : Val) (d : env.cfg.Discr) : Prop where
  discr : b.discriminant env = d
  read : b.asRef env sh s = .ret v s
  own : 0 < sh.size → (⟨b.asPtr env, sh.size, sh.align⟩ : Block) ∈ s.blocks

/-- `s'` is a later state in which everything alive in `s` is still alive and has the same bytes. -/
structure Extends (s s' : State) : Prop where
  blocks : ∀ b ∈ s.blocks, b ∈ s'.blocks
  bytes : ∀ b ∈ s.blocks, ∀ i, b.base ≤ i → i < b.base + b.size → s'.mem i = s.mem i
  trace : s.trace <+: s'.trace

/-- The discriminant argument is one the documentation allows. -/
def Env.DiscrOK (env : Env) (d : env.cfg.Discr) : Prop := d ≤ env.cfg.MAX_DISCRIMINANT

end TB

import Verif.Lemmas.Mem
import Verif.Traits

/-!
# Lemmas: `cleanup`, nested observation
-/

set_option autoImplicit false

namespace TB

theorem cleanup_cleanup {α : Type} (es es' : List Event) (m : M α) :
    M.cleanup es (M.cleanup es' m) = M.cleanup (es' ++ es) m := by
  funext s
  unfold M.cleanup
  cases m s <;> simp [State.log]

theorem log_append (s : State) (es es' : List Event) : (s.log es).log es' = s.log (es ++ es') := by
  simp [State.log]

variable {E : Type} {T : Taggable E} {s : State} {a b : TBox} {x y : E} {es es' : List Event}

/-- The common shape of the three comparisons. -/
theorem nested_presents {β : Type} (hx : Presents T s a x es) (hy : Presents T s b y es') (f : E → E → M β) (dflt : β) :
    (do let r ← T.refFrom a (fun this => T.refFrom b (fun other => f this other)); pure (r.join.getD dflt) : M β) s =
      M.cleanup (es' ++ es) (f x y) s := by
  have hb : ∀ β (m : M β) (g : E → M β), g y = m →
      T.refFrom b g s = M.cleanup es' (do let r ← m; pure (some r)) s := by
    intro β m g hg; rw [hy β g, hg]
  simp only [M.bind_def, hx _ _]
  unfold M.cleanup
  simp only [M.bind_def, hy _ _]
  unfold M.cleanup
  simp only [M.bind_def]
  cases f x y s with
  | ret r s1 => show Out.ret r ((s1.log es').log es) = Out.ret r (s1.log (es' ++ es)); rw [log_append]
  | panic k s1 => show Out.panic k ((s1.log es').log es) = Out.panic k (s1.log (es' ++ es)); rw [log_append]
  | ub k => rfl

end TB

import Verif.Spec.Ledger
import Verif.Lemmas.History

/-!
# Lemmas: ownership
-/

set_option autoImplicit false

namespace TB

variable {env : Env}

theorem ledger_snoc (p : Client env) {o : Obs env} {op : Op env} : ∀ (os acc : List (Obs env)), p (acc ++ os) = some op →
    ledger p acc (os ++ [o]) = ledger p acc os ++ [(op, o)]
  | [], acc, h => by
    rw [List.append_nil] at h
    simp [ledger, h]
  | x :: os, acc, h => by
    have ih := ledger_snoc p (o := o) os (acc ++ [x]) (by rw [List.append_assoc]; exact h)
    simp only [List.cons_append, ledger]
    cases p acc with
    | none => exact ih
    | some op' => rw [ih]; rfl

theorem sum_set {α : Type} (f : α → Nat) : ∀ {l : List α} {h : Nat} {x y : α}, l[h]? = some x →
    ((l.set h y).map f).sum + f x = (l.map f).sum + f y
  | z :: zs, 0, x, y, e => by
    cases e
    simp only [List.set_cons_zero, List.map_cons, List.sum_cons]
    omega
  | z :: zs, h + 1, x, y, e => by
    have := sum_set f (l := zs) (h := h) (y := y) e
    simp only [List.set_cons_succ, List.map_cons, List.sum_cons]
    omega

theorem sum_but {α : Type} (f f' : α → Nat) : ∀ {l : List α} {h : Nat} {x : α}, l[h]? = some x →
    (∀ j y, j ≠ h → l[j]? = some y → f' y = f y) → (l.map f').sum + f x = (l.map f).sum + f' x
  | z :: zs, 0, x, e, hh => by
    cases e
    have : zs.map f' = zs.map f := by
      refine List.map_congr_left fun y hy => ?_
      obtain ⟨j, hj⟩ := List.getElem?_of_mem hy
      exact hh (j + 1) y (by omega) hj
    simp only [List.map_cons, List.sum_cons, this]
    omega
  | z :: zs, h + 1, x, e, hh => by
    have := sum_but f f' (l := zs) (h := h) e (fun j y hj hy => hh (j + 1) y (by omega) hy)
    simp only [List.map_cons, List.sum_cons, hh 0 z (by omega) rfl]
    omega

/-- What a handle owns. -/
def owns (cells : List Cell) (e : Event) (h : Option (Nat × env.cfg.Discr)) : Nat :=
  match h with
  | none => 0
  | some (loc, _) => match cells[loc]? with
    | some c => (dropEvents c.sh c.val).count e
    | none => 0

/-- What all handles own. -/
def AState.owned (a : AState env) (e : Event) : Nat := (a.handles.map (owns a.cells e)).sum

/-- No two handles refer to the same location, and the books balance. -/
structure Balanced (p : Client env) (os : List (Obs env)) (a : AState env) : Prop where
  alone : ∀ h h' loc d d', a.At h loc d → a.At h' loc d' → h = h'
  bound : ∀ h loc d, a.At h loc d → loc < a.cells.length
  books : ∀ e, timesDestroyed (ledger p [] os) e + timesOut (ledger p [] os) e + a.owned e ≤ timesIn (ledger p [] os) e
  exact : NoLeak p os → ∀ e, timesDestroyed (ledger p [] os) e + timesOut (ledger p [] os) e + a.owned e = timesIn (ledger p [] os) e

theorem owned_consume {a : AState env} {h loc : Nat} {d : env.cfg.Discr} (hat : a.At h loc d) (e : Event) :
    (⟨a.cells, a.handles.set h none⟩ : AState env).owned e + owns a.cells e (some (loc, d)) = a.owned e := by
  have := sum_set (owns a.cells e) (y := none) hat
  simpa [AState.owned, owns] using this

theorem owned_drop (a : AState env) (h : Nat) (e : Event) :
    (⟨a.cells, a.handles.set h none⟩ : AState env).owned e ≤ a.owned e := by
  cases hh : a.handles[h]? with
  | none =>
    rw [show a.handles.set h none = a.handles from List.set_eq_of_length_le (List.getElem?_eq_none_iff.1 hh)]
    exact Nat.le_refl _
  | some x =>
    have := sum_set (owns a.cells e) (y := none) hh
    simp only [AState.owned, owns] at this ⊢
    omega

theorem at_set {a : AState env} {h h' loc : Nat} {d : env.cfg.Discr} {cells : List Cell}
    (hat : (⟨cells, a.handles.set h none⟩ : AState env).At h' loc d) : a.At h' loc d := by
  simp only [AState.At, List.getElem?_set] at hat ⊢
  split at hat
  · split at hat <;> cases hat
  · exact hat

theorem at_push {a : AState env} {h' loc : Nat} {d : env.cfg.Discr} {cells : List Cell} {x : Option (Nat × env.cfg.Discr)}
    (hat : (⟨cells, a.handles ++ [x]⟩ : AState env).At h' loc d) :
    a.At h' loc d ∨ (h' = a.handles.length ∧ x = some (loc, d)) := by
  simp only [AState.At] at hat ⊢
  rw [List.getElem?_append] at hat
  split at hat
  · exact .inl hat
  · rename_i hlt
    refine .inr ?_
    cases hk : h' - a.handles.length with
    | zero => rw [hk] at hat; cases hat; exact ⟨by omega, rfl⟩
    | succ k => rw [hk] at hat; cases hat

theorem owns_push {a : AState env} {c : Cell} {e : Event} (hb : ∀ h loc d, a.At h loc d → loc < a.cells.length) :
    a.handles.map (owns (a.cells ++ [c]) e) = a.handles.map (owns a.cells e) := by
  refine List.map_congr_left fun y hy => ?_
  obtain ⟨j, hj⟩ := List.getElem?_of_mem hy
  cases y with
  | none => rfl
  | some y =>
    obtain ⟨loc, d⟩ := y
    simp only [owns]
    rw [List.getElem?_append_left (hb j loc d hj)]

/-- Overwriting the location of handle `h`. -/
theorem owned_write {a : AState env} {h loc : Nat} {d : env.cfg.Discr} {sh : Shape} {v v' : Val} {l : Bool}
    (ha : ∀ h h' loc d d', a.At h loc d → a.At h' loc d' → h = h') (ht : a.Typed h loc d sh v) (e : Event) :
    (⟨a.cells.set loc ⟨sh, v', l⟩, a.handles⟩ : AState env).owned e + (dropEvents sh v).count e =
      a.owned e + (dropEvents sh v').count e := by
  have hl : loc < a.cells.length := (List.getElem?_eq_some_iff.1 ht.2).1
  have := sum_but (owns a.cells e) (owns (a.cells.set loc ⟨sh, v', l⟩) e) ht.1 (by
    intro j y hj hy
    cases y with
    | none => rfl
    | some y =>
      obtain ⟨loc', d'⟩ := y
      have : loc ≠ loc' := fun e => hj (ha j h loc d' d (e ▸ hy) ht.1)
      simp only [owns, List.getElem?_set_ne this])
  simp only [owns, ht.2, List.getElem?_set_self hl] at this
  exact this

/-- Freeing does not change the contents. -/
theorem owned_free {a : AState env} {h loc : Nat} {d : env.cfg.Discr} {sh : Shape} {v : Val}
    (ha : ∀ h h' loc d d', a.At h loc d → a.At h' loc d' → h = h') (ht : a.Typed h loc d sh v) (e : Event) :
    (⟨a.cells.set loc ⟨sh, v, false⟩, a.handles.set h none⟩ : AState env).owned e + (dropEvents sh v).count e = a.owned e := by
  have h1 := owned_write (l := false) (v' := v) ha ht e
  have hl : loc < a.cells.length := (List.getElem?_eq_some_iff.1 ht.2).1
  have h2 := owned_consume (a := ⟨a.cells.set loc ⟨sh, v, false⟩, a.handles⟩) (h := h) (loc := loc) (d := d) ht.1 e
  simp only [owns, List.getElem?_set_self hl] at h2
  omega

/-- The books of copy-free clients of types with a size balance. -/
theorem balanced {p : Client env} (hc : ∀ os h, p os ≠ some (.copy h))
    (hz : ∀ os sh v d, p os = some (.new sh v d) → 0 < sh.size) {os : List (Obs env)} {a : AState env} (hr : SpecReach p os a) :
    Balanced p os a := by
  induction hr with
  | start => exact ⟨fun h _ _ _ _ hh => by simp [AState.At] at hh, fun h _ _ hh => by simp [AState.At] at hh, fun e => Nat.le_refl _, fun _ e => rfl⟩
  | @next os a op o a' _ hop hn ih =>
    have key : ∀ e, timesDestroyed (ledger p [] (os ++ [o])) e = timesDestroyed (ledger p [] os) e + o.2.count e ∧
        timesOut (ledger p [] (os ++ [o])) e = timesOut (ledger p [] os) e + (op.handedOut o.1).count e ∧
        timesIn (ledger p [] (os ++ [o])) e = timesIn (ledger p [] os) e + op.movedIn.count e := by
      intro e
      rw [ledger_snoc p os [] (by exact hop)]
      simp [timesDestroyed, timesOut, timesIn]
    have older : NoLeak p (os ++ [o]) → NoLeak p os := fun h => ⟨h.1, h.2.1, fun o ho => h.2.2 o (List.mem_append_left _ ho)⟩
    have same : a' = a → (∀ e, o.2.count e + (op.handedOut o.1).count e = op.movedIn.count e) → Balanced p (os ++ [o]) a' := by
      rintro rfl h1
      refine ⟨ih.alone, ih.bound, fun e => ?_, fun hl e => ?_⟩
      · have := ih.books e; have := h1 e
        rw [(key e).1, (key e).2.1, (key e).2.2]; omega
      · have := ih.exact (older hl) e; have := h1 e
        rw [(key e).1, (key e).2.1, (key e).2.2]; omega
    cases op with
    | new sh v d =>
      rcases hn with ⟨rfl, rfl⟩ | ⟨_, rfl, rfl⟩ | ⟨_, _, rfl, rfl⟩
      · refine ⟨fun h h' loc d d' h1 h2 => ?_, fun h loc d h1 => ?_, fun e => ?_, fun hl e => ?_⟩
        · rcases at_push h1 with k | ⟨k, e⟩ <;> rcases at_push h2 with k' | ⟨k', e'⟩
          · exact ih.alone _ _ _ _ _ k k'
          · cases e'; exact absurd (ih.bound _ _ _ k) (Nat.lt_irrefl _)
          · cases e; exact absurd (ih.bound _ _ _ k') (Nat.lt_irrefl _)
          · omega
        · rw [List.length_append]
          rcases at_push h1 with k | ⟨_, k⟩
          · have := ih.bound _ _ _ k; simp; omega
          · cases k; simp
        · have hb := ih.books e
          rw [(key e).1, (key e).2.1, (key e).2.2, if_neg (by have := hz _ _ _ _ hop; omega)]
          simp only [AState.owned, List.map_append, List.sum_append, owns_push ih.bound] at hb ⊢
          simp only [List.map_cons, List.map_nil, List.sum_cons, List.sum_nil, owns, List.getElem?_concat_length,
            Op.handedOut, Op.movedIn, List.count_nil]
          omega
        · have hb := ih.exact (older hl) e
          rw [(key e).1, (key e).2.1, (key e).2.2, if_neg (by have := hz _ _ _ _ hop; omega)]
          simp only [AState.owned, List.map_append, List.sum_append, owns_push ih.bound] at hb ⊢
          simp only [List.map_cons, List.map_nil, List.sum_cons, List.sum_nil, owns, List.getElem?_concat_length,
            Op.handedOut, Op.movedIn, List.count_nil]
          omega
      · exact same rfl (fun e => by simp [Op.handedOut, Op.movedIn])
      · refine ⟨ih.alone, fun h loc d h1 => ?_, fun e => ?_, fun hl e => absurd rfl (hl.2.2 _ (List.mem_append_right _ (List.mem_singleton.2 rfl)))⟩
        · have := ih.bound h loc d h1
          rw [List.length_append]; omega
        · have hb := ih.books e
          rw [(key e).1, (key e).2.1, (key e).2.2]
          simp only [AState.owned, owns_push ih.bound] at hb ⊢
          simp only [Op.handedOut, List.count_nil]
          omega
    | copy h => exact absurd hop (hc os h)
    | discr h =>
      obtain ⟨loc, d, _, rfl, rfl⟩ := hn
      exact same rfl (fun e => by simp [Op.handedOut, Op.movedIn])
    | ptrEq h h' =>
      obtain ⟨loc, d, loc', d', _, _, rfl, rfl⟩ := hn
      exact same rfl (fun e => by simp [Op.handedOut, Op.movedIn])
    | read h sh =>
      obtain ⟨loc, d, v, _, rfl, rfl⟩ := hn
      exact same rfl (fun e => by simp [Op.handedOut, Op.movedIn])
    | assign h sh v' =>
      obtain ⟨loc, d, v, ht, rfl, rfl⟩ := hn
      refine ⟨ih.alone, fun h loc d h1 => by simpa using ih.bound h loc d h1, fun e => ?_, fun hl e => ?_⟩
      · have hb := ih.books e
        have hw := owned_write (v' := v') (l := true) ih.alone ht e
        rw [(key e).1, (key e).2.1, (key e).2.2]
        simp only [Op.handedOut, Op.movedIn, List.count_nil]
        omega
      · have hb := ih.exact (older hl) e
        have hw := owned_write (v' := v') (l := true) ih.alone ht e
        rw [(key e).1, (key e).2.1, (key e).2.2]
        simp only [Op.handedOut, Op.movedIn, List.count_nil]
        omega
    | write h sh v' =>
      obtain ⟨loc, d, v, ht, rfl, rfl⟩ := hn
      refine ⟨ih.alone, fun h loc d h1 => by simpa using ih.bound h loc d h1, fun e => ?_, fun hl e => absurd hop (hl.1 _ _ _ _)⟩
      have hb := ih.books e
      have hw := owned_write (v' := v') (l := true) ih.alone ht e
      rw [(key e).1, (key e).2.1, (key e).2.2]
      simp only [Op.handedOut, Op.movedIn, List.count_nil]
      omega
    | intoInner h sh =>
      obtain ⟨loc, d, v, ht, rfl, rfl⟩ := hn
      refine ⟨fun h h' loc d d' h1 h2 => ih.alone _ _ _ _ _ (at_set h1) (at_set h2), fun h loc d h1 => ih.bound _ _ _ (at_set h1),
        fun e => ?_, fun hl e => ?_⟩
      · have hb := ih.books e
        have hw := owned_consume ht.1 e
        rw [(key e).1, (key e).2.1, (key e).2.2]
        simp only [owns, ht.2] at hw
        simp only [Op.handedOut, Op.movedIn, List.count_nil]
        omega
      · have hb := ih.exact (older hl) e
        have hw := owned_consume ht.1 e
        rw [(key e).1, (key e).2.1, (key e).2.2]
        simp only [owns, ht.2] at hw
        simp only [Op.handedOut, Op.movedIn, List.count_nil]
        omega
    | drop h =>
      obtain ⟨rfl, rfl⟩ := hn
      refine ⟨fun h h' loc d d' h1 h2 => ih.alone _ _ _ _ _ (at_set h1) (at_set h2), fun h loc d h1 => ih.bound _ _ _ (at_set h1),
        fun e => ?_, fun hl e => absurd hop (hl.2.1 _ _)⟩
      have hb := ih.books e
      have hw := owned_drop a h e
      rw [(key e).1, (key e).2.1, (key e).2.2]
      simp only [Op.handedOut, Op.movedIn, List.count_nil]
      omega
    | rawRoundtrip h =>
      obtain ⟨rfl, rfl⟩ := hn
      exact same rfl (fun e => by simp [Op.handedOut, Op.movedIn])
    | boxDrop h sh =>
      obtain ⟨loc, d, v, ht, rfl, rfl⟩ := hn
      refine ⟨fun h h' loc d d' h1 h2 => ih.alone _ _ _ _ _ (at_set h1) (at_set h2),
        fun h loc d h1 => by simpa using ih.bound _ _ _ (at_set h1), fun e => ?_, fun hl e => ?_⟩
      · have hb := ih.books e
        have hw := owned_free ih.alone ht e
        rw [(key e).1, (key e).2.1, (key e).2.2]
        simp only [Op.handedOut, Op.movedIn, List.count_nil]
        omega
      · have hb := ih.exact (older hl) e
        have hw := owned_free ih.alone ht e
        rw [(key e).1, (key e).2.1, (key e).2.2]
        simp only [Op.handedOut, Op.movedIn, List.count_nil]
        omega
    | boxTake h sh =>
      obtain ⟨loc, d, v, ht, rfl, rfl⟩ := hn
      refine ⟨fun h h' loc d d' h1 h2 => ih.alone _ _ _ _ _ (at_set h1) (at_set h2),
        fun h loc d h1 => by simpa using ih.bound _ _ _ (at_set h1), fun e => ?_, fun hl e => ?_⟩
      · have hb := ih.books e
        have hw := owned_free ih.alone ht e
        rw [(key e).1, (key e).2.1, (key e).2.2]
        simp only [Op.handedOut, Op.movedIn, List.count_nil]
        omega
      · have hb := ih.exact (older hl) e
        have hw := owned_free ih.alone ht e
        rw [(key e).1, (key e).2.1, (key e).2.2]
        simp only [Op.handedOut, Op.movedIn, List.count_nil]
        omega

end TB

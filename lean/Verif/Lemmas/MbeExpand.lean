import Verif.Mbe.Expand

/-! # Expansion of all invocations as a function (no property theorems here) -/

set_option autoImplicit false

namespace TB.Mbe

open TB.Macro

variable {rc : Rustc} {ms : String → Option (List Rule)}

theorem Expands.det {s b : Bool} {ts o o' : List TT} (h : Expands rc ms s b ts o) (h' : Expands rc ms s b ts o') : o = o' := by
  induction h generalizing o' with
  | done h =>
    cases h' with
    | done => rfl
    | plain h2 => rw [h] at h2; cases h2
    | group h2 => rw [h] at h2; cases h2
    | stmts h2 => rw [h] at h2; cases h2
    | expr h2 => rw [h] at h2; cases h2
  | plain h _ ih =>
    cases h' with
    | done h2 => rw [h] at h2; cases h2
    | plain h2 hr => rw [h] at h2; cases h2; rw [ih hr]
    | group h2 => rw [h] at h2; cases h2
    | stmts h2 => rw [h] at h2; cases h2
    | expr h2 => rw [h] at h2; cases h2
  | group h _ _ ih1 ih2 =>
    cases h' with
    | done h2 => rw [h] at h2; cases h2
    | plain h2 hr => rw [h] at h2; cases h2
    | group h2 hg hr => rw [h] at h2; cases h2; rw [ih1 hg, ih2 hr]
    | stmts h2 => rw [h] at h2; cases h2
    | expr h2 => rw [h] at h2; cases h2
  | stmts h hs hm ha _ _ ih1 ih2 =>
    cases h' with
    | done h2 => rw [h] at h2; cases h2
    | plain h2 hr => rw [h] at h2; cases h2
    | group h2 hg hr => rw [h] at h2; cases h2
    | stmts h2 hs2 hm2 ha2 hb2 hr2 =>
      rw [h] at h2; cases h2
      rw [hm] at hm2; cases hm2
      rw [ha] at ha2; cases ha2
      rw [ih1 hb2, ih2 hr2]
    | expr h2 hs2 => rw [h] at h2; cases h2; rw [hs] at hs2; cases hs2
  | expr h hs hm ha _ _ ih1 ih2 =>
    cases h' with
    | done h2 => rw [h] at h2; cases h2
    | plain h2 hr => rw [h] at h2; cases h2
    | group h2 hg hr => rw [h] at h2; cases h2
    | expr h2 hs2 hm2 ha2 hb2 hr2 =>
      rw [h] at h2; cases h2
      rw [hm] at hm2; cases hm2
      rw [ha] at ha2; cases ha2
      rw [ih1 hb2, ih2 hr2]
    | stmts h2 hs2 => rw [h] at h2; cases h2; rw [hs] at hs2; cases hs2

open Classical in
/-- The result of expanding all invocations, if there is one. -/
noncomputable def exp (rc : Rustc) (ms : String → Option (List Rule)) (s b : Bool) (ts : List TT) : Option (List TT) :=
  if h : ∃ o, Expands rc ms s b ts o then some h.choose else none

theorem exp_eq_some {s b : Bool} {ts o : List TT} : exp rc ms s b ts = some o ↔ Expands rc ms s b ts o := by
  unfold exp
  split
  · rename_i h
    constructor
    · intro e; cases e; exact h.choose_spec
    · intro h'; rw [h.choose_spec.det h']
  · rename_i h
    constructor
    · intro e; cases e
    · intro h'; exact absurd ⟨o, h'⟩ h

/-- Run two expansions. -/
def both {α β γ : Type} (f : α → β → γ) (x : Option α) (y : Option β) : Option γ :=
  match x, y with
  | some a, some b => some (f a b)
  | _, _ => none

theorem both_some {α β γ : Type} (f : α → β → γ) (a : α) (b : β) : both f (some a) (some b) = some (f a b) := rfl
theorem both_none_left {α β γ : Type} (f : α → β → γ) (y : Option β) : both f none y = none := rfl
theorem both_none_right {α β γ : Type} (f : α → β → γ) (x : Option α) : both f x none = none := by cases x <;> rfl

theorem opt_ext {α : Type} {x y : Option α} (h : ∀ a, x = some a ↔ y = some a) : x = y := by
  cases x with
  | some a => exact ((h a).1 rfl).symm
  | none =>
    cases y with
    | none => rfl
    | some a => exact (h a).2 rfl

theorem exp_done {s b : Bool} {ts : List TT} (h : headOf ts = .done) : exp rc ms s b ts = some [] := exp_eq_some.2 (.done h)

theorem exp_nil {s b : Bool} : exp rc ms s b [] = some [] := exp_done rfl

theorem exp_plain {s b : Bool} {ts rest : List TT} {t : TT} (h : headOf ts = .plain t rest) :
    exp rc ms s b ts = (exp rc ms s (endsStmt t) rest).map (t :: ·) := by
  apply opt_ext
  intro o
  simp only [exp_eq_some, Option.map_eq_some_iff]
  constructor
  · intro h'
    cases h' with
    | done h2 => rw [h] at h2; cases h2
    | plain h2 hr => rw [h] at h2; cases h2; exact ⟨_, hr, rfl⟩
    | group h2 => rw [h] at h2; cases h2
    | stmts h2 => rw [h] at h2; cases h2
    | expr h2 => rw [h] at h2; cases h2
  · rintro ⟨a, ha, rfl⟩; exact .plain h ha

theorem both_eq_some {α β γ : Type} {f : α → β → γ} {x : Option α} {y : Option β} {c : γ} :
    both f x y = some c ↔ ∃ a b, x = some a ∧ y = some b ∧ f a b = c := by
  cases x <;> cases y <;> simp [both]

theorem exp_group {s b : Bool} {d : Delim} {us rest : List TT} :
    exp rc ms s b (.group d us :: rest) =
      both (fun o r => .group d o :: r) (exp rc ms false true us) (exp rc ms s (decide (d = .brace)) rest) := by
  have h : headOf (.group d us :: rest) = .group d us rest := rfl
  apply opt_ext
  intro o
  simp only [exp_eq_some, both_eq_some]
  constructor
  · intro h'
    cases h' with
    | done h2 => rw [h] at h2; cases h2
    | plain h2 hr => rw [h] at h2; cases h2
    | group h2 hg hr => rw [h] at h2; cases h2; exact ⟨_, _, hg, hr, rfl⟩
    | stmts h2 => rw [h] at h2; cases h2
    | expr h2 => rw [h] at h2; cases h2
  · rintro ⟨a, b, ha, hb, rfl⟩; exact .group h ha hb

theorem exp_error {s b : Bool} {ts : List TT} (h : headOf ts = .error) : exp rc ms s b ts = none := by
  cases he : exp rc ms s b ts with
  | none => rfl
  | some o =>
    have h' := exp_eq_some.1 he
    cases h' with
    | done h2 => rw [h] at h2; cases h2
    | plain h2 hr => rw [h] at h2; cases h2
    | group h2 => rw [h] at h2; cases h2
    | stmts h2 => rw [h] at h2; cases h2
    | expr h2 => rw [h] at h2; cases h2

/-- `$crate::m!(args)` -/
def call (m : String) (d : Delim) (args : List TT) : List TT :=
  [.crate, .atom (.punct "::"), .atom (.ident m), .atom (.punct "!"), .group d args]

/-- What the macro makes of its arguments. -/
def runMac (rc : Rustc) (ms : String → Option (List Rule)) (m : String) (args : List TT) : Option (List TT) :=
  (ms m).bind fun rules => applyRules rc rules args

theorem headOf_call (m : String) (d : Delim) (args rest : List TT) :
    headOf (.crate :: .atom (.punct "::") :: .atom (.ident m) :: .atom (.punct "!") :: .group d args :: rest) = .call m d args rest := by
  simp [headOf, callOf]

theorem exp_stmts {s b : Bool} {m : String} {d : Delim} {args rest : List TT} (hs : isStmt s b d rest = true) :
    exp rc ms s b (.crate :: .atom (.punct "::") :: .atom (.ident m) :: .atom (.punct "!") :: .group d args :: rest) =
      both (· ++ ·) ((runMac rc ms m args).bind (exp rc ms true true)) (exp rc ms s true rest) := by
  have h := headOf_call m d args rest
  apply opt_ext
  intro o
  simp only [exp_eq_some, both_eq_some, runMac, Option.bind_eq_some_iff]
  constructor
  · intro h'
    cases h' with
    | done h2 => rw [h] at h2; cases h2
    | plain h2 hr => rw [h] at h2; cases h2
    | group h2 => rw [h] at h2; cases h2
    | stmts h2 hs hm ha hb hr =>
      rw [h] at h2; cases h2
      exact ⟨_, _, ⟨_, ⟨_, hm, ha⟩, hb⟩, hr, rfl⟩
    | expr h2 hs2 => rw [h] at h2; cases h2; rw [hs] at hs2; cases hs2
  · rintro ⟨a, b, ⟨body, ⟨rules, hm, ha⟩, hb⟩, hr, rfl⟩
    exact .stmts h hs hm ha hb hr

theorem exp_expr {s b : Bool} {m : String} {d : Delim} {args rest : List TT} (hs : isStmt s b d rest = false) :
    exp rc ms s b (.crate :: .atom (.punct "::") :: .atom (.ident m) :: .atom (.punct "!") :: .group d args :: rest) =
      both (fun o r => mkExpr o :: r) ((runMac rc ms m args).bind fun body => exp rc ms false false (dropSemi body))
        (exp rc ms s false rest) := by
  have h := headOf_call m d args rest
  apply opt_ext
  intro o
  simp only [exp_eq_some, both_eq_some, runMac, Option.bind_eq_some_iff]
  constructor
  · intro h'
    cases h' with
    | done h2 => rw [h] at h2; cases h2
    | plain h2 hr => rw [h] at h2; cases h2
    | group h2 => rw [h] at h2; cases h2
    | expr h2 hs hm ha hb hr =>
      rw [h] at h2; cases h2
      exact ⟨_, _, ⟨_, ⟨_, hm, ha⟩, hb⟩, hr, rfl⟩
    | stmts h2 hs2 => rw [h] at h2; cases h2; rw [hs] at hs2; cases hs2
  · rintro ⟨a, b, ⟨body, ⟨rules, hm, ha⟩, hb⟩, hr, rfl⟩
    exact .expr h hs hm ha hb hr

/-! ## Tokens that stay as they are -/

theorem exp_punct {s b : Bool} {p : String} {r : List TT} :
    exp rc ms s b (.atom (.punct p) :: r) = (exp rc ms s (decide (p = ";")) r).map (.atom (.punct p) :: ·) := by
  rw [exp_plain (t := .atom (.punct p)) (rest := r) rfl]
  simp [endsStmt]

theorem exp_lit {s b : Bool} {p : String} {r : List TT} :
    exp rc ms s b (.atom (.lit p) :: r) = (exp rc ms s false r).map (.atom (.lit p) :: ·) := exp_plain rfl

theorem exp_ty {s b : Bool} {p : Ty} {r : List TT} :
    exp rc ms s b (.ty p :: r) = (exp rc ms s false r).map (.ty p :: ·) := exp_plain rfl

theorem exp_frag {s b : Bool} {k : Kind} {p : List TT} {r : List TT} :
    exp rc ms s b (.frag k p :: r) = (exp rc ms s false r).map (.frag k p :: ·) := exp_plain rfl

theorem exp_ident {s b : Bool} {x : String} {r : List TT} (h : headIs (.punct "!") r = false ∨ x ≠ "compile_error") :
    exp rc ms s b (.atom (.ident x) :: r) = (exp rc ms s false r).map (.atom (.ident x) :: ·) := by
  apply exp_plain
  rw [headOf, if_neg]
  rintro ⟨rfl, h2⟩
  rcases h with h | h
  · rw [h] at h2; cases h2
  · exact h rfl

/-- `$crate::Name` followed by something else than `!`. -/
theorem exp_crate {s b : Bool} {x : String} {t : TT} {r : List TT} (h : headIs (.punct "!") (t :: r) = false) :
    exp rc ms s b (.crate :: .atom (.punct "::") :: .atom (.ident x) :: t :: r) =
      (exp rc ms s false (t :: r)).map fun o => .crate :: .atom (.punct "::") :: .atom (.ident x) :: o := by
  have hc : callOf (.atom (.punct "::") :: .atom (.ident x) :: t :: r) = none := by
    unfold callOf
    split
    · rename_i heq
      cases heq
      rw [if_neg]
      rintro ⟨-, rfl⟩
      simp [headIs] at h
    · rfl
  rw [exp_plain (t := .crate) (rest := .atom (.punct "::") :: .atom (.ident x) :: t :: r) (by simp [headOf, hc])]
  rw [exp_punct, exp_ident (.inl h)]
  simp [Function.comp_def]

end TB.Mbe

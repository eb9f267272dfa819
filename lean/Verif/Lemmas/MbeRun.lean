import Verif.Lemmas.MbeAttr
import Verif.Lemmas.MbeTrans
import Verif.Lemmas.MbeExpand
import Verif.Spec.RustCode

/-! # Running the macro engine on a variant (no property theorems here) -/

set_option autoImplicit false

namespace TB.Mbe

open TB.Macro

variable {rc : Rustc}

@[mbe] theorem matchL_nil (fol : List TT → Bool) (ts : List TT) : matchL rc fol [] ts = .yes ([], ts) := by rw [matchL]
@[mbe] theorem matchL_tok (fol : List TT → Bool) (a : Atom) (ps : List MP) (ts : List TT) :
    matchL rc fol (.tok a :: ps) ts = if headIs a ts then matchL rc fol ps ts.tail else .no := by rw [matchL]
@[mbe] theorem matchL_var (fol : List TT → Bool) (x : String) (k : Kind) (ps : List MP) (ts : List TT) :
    matchL rc fol (.var x k :: ps) ts = match parseFrag rc k ts with
      | .no => .no
      | .fatal => .fatal
      | .yes (t, r) => (matchL rc fol ps r).map fun y => ((x, .one t) :: y.1, y.2) := by
  rw [matchL]; cases parseFrag rc k ts <;> rfl

/-- What matching the contents of a group says about the group. -/
def inGroup : MR (Env × List TT) → MR Env
  | .no => .no
  | .fatal => .fatal
  | .yes (e, []) => .yes e
  | .yes (_, _ :: _) => .no

@[mbe] theorem inGroup_no : inGroup .no = .no := rfl
@[mbe] theorem inGroup_fatal : inGroup .fatal = .fatal := rfl
@[mbe] theorem inGroup_yes (e : Env) : inGroup (.yes (e, [])) = .yes e := rfl
@[mbe] theorem inGroup_more (e : Env) (t : TT) (ts : List TT) : inGroup (.yes (e, t :: ts)) = .no := rfl

@[mbe] theorem matchL_group (fol : List TT → Bool) (d : Delim) (qs ps : List MP) (us ts : List TT) :
    matchL rc fol (.group d qs :: ps) (.group d us :: ts) = match inGroup (matchL rc List.isEmpty qs us) with
      | .no => .no
      | .fatal => .fatal
      | .yes e => (matchL rc fol ps ts).map fun x => (e ++ x.1, x.2) := by
  rw [matchL]
  simp only [if_true]
  cases matchL rc List.isEmpty qs us with
  | no => rfl
  | fatal => rfl
  | yes p => obtain ⟨e, _ | ⟨t, ts⟩⟩ := p <;> rfl

@[mbe] theorem matchL_group_nil (fol : List TT → Bool) (d : Delim) (qs ps : List MP)  :
    matchL rc fol (.group d qs :: ps) [] = .no := by simp [matchL]
@[mbe] theorem matchL_group_atom (fol : List TT → Bool) (d : Delim) (qs ps : List MP) (a : Atom) (ts : List TT) :
    matchL rc fol (.group d qs :: ps) (.atom a :: ts) = .no := by simp [matchL]
@[mbe] theorem matchL_group_crate (fol : List TT → Bool) (d : Delim) (qs ps : List MP) (ts : List TT) :
    matchL rc fol (.group d qs :: ps) (.crate :: ts) = .no := by simp [matchL]
@[mbe] theorem matchL_group_other (fol : List TT → Bool) (d : Delim) (qs ps : List MP) (s : String) (ts : List TT) :
    matchL rc fol (.group d qs :: ps) (.other s :: ts) = .no := by simp [matchL]
@[mbe] theorem matchL_group_ty (fol : List TT → Bool) (d : Delim) (qs ps : List MP) (t : Ty) (ts : List TT) :
    matchL rc fol (.group d qs :: ps) (.ty t :: ts) = .no := by simp [matchL]
@[mbe] theorem matchL_group_frag (fol : List TT → Bool) (d : Delim) (qs ps : List MP) (k : Kind) (us ts : List TT) :
    matchL rc fol (.group d qs :: ps) (.frag k us :: ts) = .no := by simp [matchL]
@[mbe] theorem matchL_group_ne (fol : List TT → Bool) (d : Delim) (qs ps : List MP) {d' : Delim} (h : d ≠ d') (us ts : List TT) :
    matchL rc fol (.group d qs :: ps) (.group d' us :: ts) = .no := by simp [matchL, h]

variable {e : Env}

@[mbe] theorem transL_nil : transL e [] = some [] := by rw [transL]
@[mbe] theorem transL_tok (a : Atom) (bs : List MB) : transL e (.tok a :: bs) = (transL e bs).map (.atom a :: ·) := by rw [transL]
@[mbe] theorem transL_crate (bs : List MB) : transL e (.crate :: bs) = (transL e bs).map (.crate :: ·) := by rw [transL]
@[mbe] theorem transL_var (x : String) (bs : List MB) : transL e (.var x :: bs) = match e.find x with
    | some (.one t) => (transL e bs).map (t :: ·)
    | some (.many _) => none
    | none => (transL e bs).map fun r => .atom (.punct "$") :: .atom (.ident x) :: r := by
  rw [transL]; cases e.find x with
  | none => rfl
  | some b => cases b <;> rfl
@[mbe] theorem transL_group (d : Delim) (cs bs : List MB) :
    transL e (.group d cs :: bs) = both (fun a b => .group d a :: b) (transL e cs) (transL e bs) := by
  rw [transL]; cases transL e cs <;> cases transL e bs <;> rfl

attribute [mbe] both_some both_none_left both_none_right List.isEmpty tyFrag_ttsOf Function.comp_def

attribute [mbe] applyRules matchAll parseFrag headIs visFrag visStart MR.map Env.find isList_list listOf_list
  matchL_tts matchL_tys matchL_recSep matchL_recTrail matchL_metas matchL_metasSep
  transL_repVar transL_repComma transL_repTrailing transL_repAttr transL_repStringify transL_repMembers
  exprFrag exprStart exprEnd exprSpan mkExpr pathFrag pathRest
  ttOf ToTT.toTT call

@[mbe] theorem ttsOf_cons (t : Tok) (ts : List Tok) : ttOf.ttsOf (t :: ts) = ttOf t :: ttOf.ttsOf ts := rfl
@[mbe] theorem ttsOf_nil : ttOf.ttsOf [] = [] := rfl
@[mbe] theorem ttsOf_isEmpty' (ts : List Tok) : (ttOf.ttsOf ts).isEmpty = ts.isEmpty := ttsOf_isEmpty ts

theorem joinSep_commas (ls : List (List TT)) : joinSep (some (.punct ",")) ls = commas ls := by
  match ls with
  | [] => rfl
  | [x] => rfl
  | x :: y :: r =>
    have := joinSep_commas (y :: r)
    simp [joinSep, commas, this]

theorem commaTTs_commas (l : List TT) : commaTTs l = commas (l.map fun t => [t]) := by
  rw [← joinSep_comma_singles, joinSep_commas]

attribute [mbe] joinSep_commas

@[mbe] theorem tyList_eq (tys : List Ty) : tyList tys = commaTTs (tys.map .ty) := by
  rw [commaTTs_commas]; simp [tyList, ToTT.toTT, List.map_map, Function.comp_def]

@[mbe] theorem nameList_eq (xs : List String) : nameList xs = commaTTs (xs.map fun x => .atom (.ident x)) := by
  rw [commaTTs_commas]; simp [nameList, ToTT.toTT, List.map_map, Function.comp_def]

@[mbe] theorem fieldList_eq (ms : List (String × Ty)) :
    fieldList ms = commas (ms.map fun m => [.atom (.ident m.1), .atom (.punct ":"), .ty m.2]) := rfl

@[mbe] theorem zip_members {α β γ : Type} (l : List α) (f : α → β) (g : α → γ) : (l.map f).zip (l.map g) = l.map fun a => (f a, g a) := by
  induction l with
  | nil => rfl
  | cons a l ih => simp [ih]

/-! ## The shapes of a variant -/

theorem parseRec_cases {inner : List Tok} {ms : List (String × Ty)} (h : parseRec rc inner = .yes ms) :
    parseRecSep rc inner = .yes ms ∨ (parseRecSep rc inner = .no ∧ recTrail rc inner.length inner = .yes ms) := by
  cases inner with
  | nil => exact .inl h
  | cons t ts =>
    simp only [parseRec] at h
    simp only [parseRecSep]
    cases hs : recSep rc (t :: ts).length (t :: ts) with
    | yes m => rw [hs] at h; exact .inl h
    | fatal => rw [hs] at h; cases h
    | no => rw [hs] at h; exact .inr ⟨rfl, h⟩

/-- The shapes of a variant, as the rules distinguish them. -/
theorem variant_cases {ts : List Tok} {d : VariantDef} {rest : List Tok} (h : VariantSyntax rc ts d rest) :
    (∃ x, ts = .ident x :: .comma :: rest ∧ d = ⟨x, .unit⟩) ∨
    (∃ x inner tys, ts = .ident x :: .group .paren inner :: .comma :: rest ∧ parseTys rc inner = .yes tys ∧ d = ⟨x, .tuple tys⟩) ∨
    (∃ x inner ms, ts = .ident x :: .group .brace inner :: .comma :: rest ∧ parseRecSep rc inner = .yes ms ∧ d = ⟨x, .record ms⟩) ∨
    (∃ x inner ms, ts = .ident x :: .group .brace inner :: .comma :: rest ∧ parseRecSep rc inner = .no ∧
      recTrail rc inner.length inner = .yes ms ∧ d = ⟨x, .record ms⟩) := by
  have h' := parseVariant_yes.2 h
  unfold parseVariant at h'
  split at h'
  · obtain ⟨tys, ht, e⟩ := MR.map_yes.1 h'
    cases e
    exact .inr (.inl ⟨_, _, _, rfl, ht, rfl⟩)
  · obtain ⟨ms, ht, e⟩ := MR.map_yes.1 h'
    cases e
    rcases parseRec_cases ht with h1 | ⟨h1, h2⟩
    · exact .inr (.inr (.inl ⟨_, _, _, rfl, h1, rfl⟩))
    · exact .inr (.inr (.inr ⟨_, _, _, rfl, h1, h2, rfl⟩))
  · cases h'; exact .inl ⟨_, rfl, rfl⟩
  · cases h'

/-- The contents of a tuple variant: one type, or not one. -/
theorem tys_cases {inner : List Tok} {tys : List Ty} (h : parseTys rc inner = .yes tys) :
    (∃ t, tys = [t] ∧ oneTy rc inner = .yes (t, [])) ∨
    (oneTy rc inner = .no ∧ ∀ t, tys ≠ [t]) ∨ (∃ t x xs, oneTy rc inner = .yes (t, x :: xs) ∧ ∀ t, tys ≠ [t]) := by
  rcases parseTys_single (rc := rc) inner with ⟨t, h1, h2⟩ | ⟨h1, h2⟩ | ⟨h1, h2⟩
  · rw [h2] at h; cases h; exact .inl ⟨t, rfl, h1⟩
  · rw [h2] at h; cases h
  · have h3 : ∀ t, tys ≠ [t] := fun t e => h2 t (by rw [h, e])
    rcases h1 with h1 | ⟨t, x, xs, h1⟩
    · exact .inr (.inl ⟨h1, h3⟩)
    · exact .inr (.inr ⟨t, x, xs, h1, h3⟩)

end TB.Mbe

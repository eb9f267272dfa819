import Verif.Lemmas.MbeAttr
import Verif.Source.Decl
import Verif.Lemmas.MacroParse

/-! # Matching of the repetitions in the crate's macros (no property theorems here) -/

set_option autoImplicit false
set_option linter.unusedSimpArgs false

namespace TB.Mbe

open TB.Macro

variable {rc : Rustc}

theorem MR_map_map {α β γ : Type} (f : α → β) (g : β → γ) (m : MR α) : (m.map f).map g = m.map (fun x => g (f x)) := by
  cases m <;> rfl

/-! ## Tokens other than identifiers, commas, colons and groups -/

theorem spell_cases (s : String) : spell s = .other s ∨ spell s = .atom (.lit s) ∨ (spell s = .atom (.punct s) ∧ s ≠ "," ∧ s ≠ ":") := by
  unfold spell
  split
  · exact .inl rfl
  · split
    · exact .inr (.inl rfl)
    · split
      · exact .inl rfl
      · rename_i h
        exact .inr (.inr ⟨rfl, fun e => h (.inl e), fun e => h (.inr (.inl e))⟩)

@[simp] theorem toTok_spell (s : String) : (spell s).toTok = some (.other s) := by
  rcases spell_cases s with h | h | ⟨h, h1, h2⟩ <;> simp [h, TT.toTok, *]

@[simp, mbe high] theorem headIs_comma_spell (s : String) (r : List TT) : headIs (.punct ",") (spell s :: r) = false := by
  rcases spell_cases s with h | h | ⟨h, h1, h2⟩ <;> simp [h, headIs, Ne.symm, *]

@[simp, mbe high] theorem headIs_colon_spell (s : String) (r : List TT) : headIs (.punct ":") (spell s :: r) = false := by
  rcases spell_cases s with h | h | ⟨h, h1, h2⟩ <;> simp [h, headIs, Ne.symm, *]

@[simp, mbe high] theorem ident_spell (s : String) (r : List TT) : parseFrag rc .ident (spell s :: r) = .no := by
  rcases spell_cases s with h | h | ⟨h, h1, h2⟩ <;> simp [h, parseFrag]

@[simp] theorem spell_ne_comma (s : String) : spell s ≠ .atom (.punct ",") := by
  rcases spell_cases s with h | h | ⟨h, h1, h2⟩ <;> simp [h, *]

@[simp] theorem spell_ne_ident (s x : String) : spell s ≠ .atom (.ident x) := by
  rcases spell_cases s with h | h | ⟨h, h1, h2⟩ <;> simp [h]

@[simp] theorem spell_ne_group (s : String) (d : Delim) (us : List TT) : spell s ≠ .group d us := by
  rcases spell_cases s with h | h | ⟨h, h1, h2⟩ <;> simp [h]

@[simp] theorem spell_ne_ty (s : String) (t : Ty) : spell s ≠ .ty t := by
  rcases spell_cases s with h | h | ⟨h, h1, h2⟩ <;> simp [h]

@[simp, mbe high] theorem matchL_group_spell (fol : List TT → Bool) (d : Delim) (qs ps : List MP) (s : String) (ts : List TT) :
    matchL rc fol (.group d qs :: ps) (spell s :: ts) = .no := by
  rcases spell_cases s with h | h | ⟨h, h1, h2⟩ <;> simp [h, matchL]

@[simp, mbe high] theorem headOpen_spell (d : Delim) (s : String) (ts : List TT) : headOpen d (spell s :: ts) = false := by
  rcases spell_cases s with h | h | ⟨h, h1, h2⟩ <;> simp [h, headOpen]

theorem ttsOf_length (ts : List Tok) : (ttsOf ts).length = ts.length := by
  induction ts with
  | nil => rfl
  | cons t ts ih => simp [ttOf.ttsOf, ttsOf] at *; exact ih

theorem ttsOf_drop (n : Nat) (ts : List Tok) : (ttsOf ts).drop n = ttsOf (ts.drop n) := by
  induction ts generalizing n with
  | nil => simp [ttsOf, ttOf.ttsOf]
  | cons t ts ih =>
    cases n with
    | zero => rfl
    | succ n => simpa [ttsOf, ttOf.ttsOf] using ih n

mutual
theorem toTok_ttOf : ∀ t : Tok, (ttOf t).toTok = some t
  | .ident s => rfl
  | .comma => rfl
  | .colon => rfl
  | .other s => toTok_spell s
  | .group d ts => by simp [ttOf, TT.toTok, toToks_ttsOf ts]
theorem toToks_ttsOf : ∀ ts : List Tok, TT.toTok.toToks (ttOf.ttsOf ts) = some ts
  | [] => rfl
  | t :: ts => by simp [ttOf.ttsOf, TT.toTok.toToks, toTok_ttOf t, toToks_ttsOf ts]
end

theorem ttOf_not_ty (t : Tok) (x : Ty) : ttOf t ≠ .ty x := by cases t <;> simp [ttOf]

theorem tyFrag_ttsOf (ts : List Tok) :
    tyFrag rc (ttsOf ts) = (oneTy rc ts).map fun p => (.ty p.1, ttsOf p.2) := by
  cases ts with
  | nil => rfl
  | cons t ts =>
    have h : tyFrag rc (ttsOf (t :: ts)) = match TT.toTok.toToks (ttsOf (t :: ts)) with
      | none => match (ttOf t).toTok.map fun a => rc.parseTy [a] with
        | some .noStart => .no
        | _ => .fatal
      | some toks => match rc.parseTy toks with
        | .noStart => .no
        | .fatal => .fatal
        | .ok ty n => .yes (.ty ty, (ttsOf (t :: ts)).drop (n + 1)) := by
      cases t with
      | other s =>
        simp only [ttsOf, ttOf.ttsOf, ttOf]
        rcases spell_cases s with h | h | ⟨h, h1, h2⟩ <;> rw [h] <;> rfl
      | _ => rfl
    rw [h, show TT.toTok.toToks (ttsOf (t :: ts)) = some (t :: ts) from toToks_ttsOf _]
    simp only [oneTy, ttsOf_drop]
    cases rc.parseTy (t :: ts) <;> rfl

theorem ttsOf_eq_nil {ts : List Tok} : ttsOf ts = [] ↔ ts = [] := by
  cases ts <;> simp [ttsOf, ttOf.ttsOf]

theorem ttsOf_isEmpty (ts : List Tok) : (ttsOf ts).isEmpty = ts.isEmpty := by
  cases ts <;> rfl

/-- The binding of a metavariable that occurs under one repetition. -/
def Bind.list (l : List TT) : Bind := .many (l.map .one)

/-! ## `$( $x:tt )*` -/

theorem repItems_tts (x : String) (n : Nat) (t : TT) (ts : List TT) (hn : ts.length < n) :
    repItems (matchL rc (fun us => MP.startsL rc (fun _ => false) us [.var x .tt] || MP.startsL rc List.isEmpty us []) [.var x .tt])
      (fun us => MP.startsL rc (fun _ => false) us [.var x .tt]) (fun us => MP.startsL rc List.isEmpty us []) none n (t :: ts) =
      .yes ((t :: ts).map fun t => [(x, .one t)], []) := by
  induction n generalizing t ts with
  | zero => omega
  | succ n ih =>
    cases ts with
    | nil => simp [repItems, matchL, parseFrag, MR.map, MP.startsL, MP.starts, MR.isNo]
    | cons u us =>
      have := ih u us (by simp at hn; omega)
      simp [repItems, matchL, parseFrag, MR.map, MP.startsL, MP.starts, MR.isNo] at this ⊢
      rw [this]

theorem matchL_tts (x : String) (ts : List TT) :
    matchL rc List.isEmpty [.rep [.var x .tt] none .star] ts = .yes ([(x, .list ts)], []) := by
  cases ts with
  | nil => simp [Bind.list, matchL, repMatch, MP.startsL, MP.starts, parseFrag, MR.isNo, MR.map, collect, MP.varsL, MP.vars]
  | cons t ts =>
    have := repItems_tts (rc := rc) x ((t :: ts).length + 1) t ts (by simp; omega)
    simp only [matchL, repMatch] at this ⊢
    rw [this]
    simp [Bind.list, MP.startsL, MP.starts, parseFrag, MR.isNo, MR.map, collect, MP.varsL, MP.vars, Env.find, Function.comp_def]

theorem matchL_tts_plus (x : String) (t : TT) (ts : List TT) :
    matchL rc List.isEmpty [.rep [.var x .tt] none .plus] (t :: ts) = .yes ([(x, .list (t :: ts))], []) := by
  have := repItems_tts (rc := rc) x ((t :: ts).length + 1) t ts (by simp; omega)
  simp only [matchL, repMatch] at this ⊢
  rw [this]
  simp [Bind.list, MP.startsL, MP.starts, parseFrag, MR.isNo, MR.map, collect, MP.varsL, MP.vars, Env.find, Function.comp_def]

/-! ## The contents of a tuple variant -/

theorem matchL_ty (ts : List Tok) :
    matchL rc List.isEmpty [.var "ty" .ty] (ttsOf ts) =
      (oneTy rc ts).map fun p => ([("ty", .one (.ty p.1))], ttsOf p.2) := by
  simp only [matchL, parseFrag, tyFrag_ttsOf]
  cases oneTy rc ts <;> rfl

/-- The bindings of one type. -/
def tyEnv (t : Ty) : Env := [("ty", .one (.ty t))]

theorem oneTy_nil : oneTy rc [] = .no := rfl

theorem headIs_comma_ttsOf (t : Tok) (ts : List Tok) : headIs (.punct ",") (ttOf t :: ttsOf ts) = true ↔ t = .comma := by
  cases t with
  | other s => simp [ttOf]
  | _ => simp [headIs, ttOf]

theorem repItems_tys (n m : Nat) (ts : List Tok) (hn : ts.length ≤ n) (hm : ts.length ≤ m) :
    repItems (matchL rc (fun us => headIs (.punct ",") us || MP.startsL rc List.isEmpty us []) [.var "ty" .ty])
      (fun us => MP.startsL rc (fun _ => false) us [.var "ty" .ty]) (fun us => MP.startsL rc List.isEmpty us [])
      (some (.punct ",")) n (ttsOf ts) =
      (tysSep rc m ts).map fun tys => (tys.map tyEnv, []) := by
  induction n generalizing m ts with
  | zero =>
    have : ts = [] := List.length_eq_zero_iff.1 (by omega)
    subst this
    cases m <;> rfl
  | succ n ih =>
    cases m with
    | zero =>
      have : ts = [] := List.length_eq_zero_iff.1 (by omega)
      subst this
      simp [repItems, matchL, parseFrag, tyFrag_ttsOf, oneTy_nil, tysSep, MR.map]
    | succ m =>
      simp only [repItems, matchL, parseFrag, tyFrag_ttsOf, tysSep]
      cases h : oneTy rc ts with
      | no => rfl
      | fatal => rfl
      | yes p =>
        obtain ⟨ty, r⟩ := p
        have hl := (oneTy_yes.1 h).length_lt
        cases r with
        | nil => simp [MR.map, ttsOf, ttOf.ttsOf, headIs, MP.startsL, tyEnv]
        | cons x xs =>
          simp only [List.length_cons] at hl
          by_cases hx : x = .comma
          · subst hx
            have := ih m xs (by omega) (by omega)
            simp [MR.map, ttsOf, ttOf.ttsOf, ttOf, headIs, MP.startsL] at this ⊢
            rw [this]
            cases tysSep rc m xs <;> simp [tyEnv]
          · have h1 : headIs (.punct ",") (ttOf x :: ttOf.ttsOf xs) = false := by
              rw [Bool.eq_false_iff]; intro hh; exact hx ((headIs_comma_ttsOf x xs).1 hh)
            simp only [MR.map, ttsOf, ttOf.ttsOf, h1, MP.startsL, List.isEmpty]
            cases x <;> first | rfl | exact absurd rfl hx

theorem matchL_tys (ts : List Tok) :
    matchL rc List.isEmpty [.rep [.var "ty" .ty] (some (.punct ",")) .star] (ttsOf ts) =
      (parseTys rc ts).map fun tys => ([("ty", .list (tys.map .ty))], []) := by
  cases ts with
  | nil =>
    simp [Bind.list, matchL, repMatch, MP.startsL, MP.starts, parseFrag, tyFrag, ttsOf, ttOf.ttsOf, MR.isNo, MR.map, collect, MP.varsL, MP.vars, parseTys]
  | cons t ts =>
    have h1 := repItems_tys (rc := rc) ((ttsOf (t :: ts)).length + 1) (t :: ts).length (t :: ts)
      (by rw [ttsOf_length]; omega) (Nat.le_refl _)
    simp only [matchL, repMatch] at h1 ⊢
    rw [h1]
    simp only [parseTys]
    simp only [MP.startsL, MP.starts, parseFrag, tyFrag_ttsOf, ttsOf_isEmpty]
    cases h : oneTy rc (t :: ts) with
    | no => simp [MR.map, MR.isNo, tysSep, h]
    | fatal => simp [MR.map, MR.isNo, tysSep, h]
    | yes p =>
      simp only [MR.map, MR.isNo]
      cases tysSep rc (t :: ts).length (t :: ts) <;>
        simp [Bind.list, collect, MP.varsL, MP.vars, tyEnv, Env.find, Function.comp_def]

/-! ## The contents of a struct variant -/

/-- The bindings of one member. -/
def memberEnv (x : String) (m : String × Ty) : Env := [(x, .one (.atom (.ident m.1))), ("ty", .one (.ty m.2))]

/-- `$x:ident: $ty:ty` -/
theorem matchL_field (x : String) (fol : List TT → Bool) (ps : List MP) (ts : List Tok) :
    matchL rc fol (.var x .ident :: .tok (.punct ":") :: .var "ty" .ty :: ps) (ttsOf ts) =
      match oneField rc ts with
      | .no => .no
      | .fatal => .fatal
      | .yes (f, r) => (matchL rc fol ps (ttsOf r)).map fun y => (memberEnv x f ++ y.1, y.2) := by
  match ts with
  | .ident m :: .colon :: ts' =>
    simp only [oneField, ttsOf, ttOf.ttsOf, ttOf, matchL, parseFrag, headIs, decide_true, if_true, List.tail_cons]
    rw [show tyFrag rc (ttOf.ttsOf ts') = _ from tyFrag_ttsOf ts']
    cases oneTy rc ts' with
    | no => rfl
    | fatal => rfl
    | yes p =>
      simp only [MR.map]
      cases matchL rc fol ps (ttsOf p.2) <;> simp [memberEnv]
  | [] => simp [oneField, ttsOf, ttOf.ttsOf, ttOf, matchL, parseFrag, headIs, MR.map]
  | [.ident m] => simp [oneField, ttsOf, ttOf.ttsOf, ttOf, matchL, parseFrag, headIs, MR.map]
  | .ident m :: .ident _ :: _ => simp [oneField, ttsOf, ttOf.ttsOf, ttOf, matchL, parseFrag, headIs, MR.map]
  | .ident m :: .comma :: _ => simp [oneField, ttsOf, ttOf.ttsOf, ttOf, matchL, parseFrag, headIs, MR.map]
  | .ident m :: .group _ _ :: _ => simp [oneField, ttsOf, ttOf.ttsOf, ttOf, matchL, parseFrag, headIs, MR.map]
  | .ident m :: .other _ :: _ => simp only [oneField, ttsOf, ttOf.ttsOf, ttOf, matchL, parseFrag, headIs_colon_spell, MR.map, Bool.false_eq_true, if_false]
  | .comma :: _ => simp [oneField, ttsOf, ttOf.ttsOf, ttOf, matchL, parseFrag, headIs, MR.map]
  | .colon :: _ => simp [oneField, ttsOf, ttOf.ttsOf, ttOf, matchL, parseFrag, headIs, MR.map]
  | .group _ _ :: _ => simp [oneField, ttsOf, ttOf.ttsOf, ttOf, matchL, parseFrag, headIs, MR.map]
  | .other _ :: _ => simp [oneField, ttsOf, ttOf.ttsOf, ttOf, matchL, parseFrag, headIs, MR.map]

theorem startsL_field (x : String) (fol : List TT → Bool) (ps : List MP) (ts : List Tok) (h : oneField rc ts ≠ .no) :
    MP.startsL rc fol (ttsOf ts) (.var x .ident :: .tok (.punct ":") :: .var "ty" .ty :: ps) = true := by
  cases ts with
  | nil => exact absurd rfl h
  | cons t ts =>
    cases t with
    | ident m => rfl
    | _ => exact absurd rfl h

theorem repItems_rec (x : String) (n m : Nat) (ts : List Tok) (hn : ts.length ≤ n) (hm : ts.length ≤ m) (sB : List TT → Bool)
    (fol : List TT → Bool) :
    repItems (matchL rc fol [.var x .ident, .tok (.punct ":"), .var "ty" .ty]) sB (fun us => MP.startsL rc List.isEmpty us [])
      (some (.punct ",")) n (ttsOf ts) =
      (recSep rc m ts).map fun ms => (ms.map (memberEnv x), []) := by
  induction n generalizing m ts with
  | zero =>
    have : ts = [] := List.length_eq_zero_iff.1 (by omega)
    subst this
    cases m <;> rfl
  | succ n ih =>
    cases m with
    | zero =>
      have : ts = [] := List.length_eq_zero_iff.1 (by omega)
      subst this
      simp [repItems, matchL_field, oneField, recSep, MR.map]
    | succ m =>
      simp only [repItems, matchL_field, recSep]
      cases h : oneField rc ts with
      | no => rfl
      | fatal => rfl
      | yes p =>
        obtain ⟨f, r⟩ := p
        have hl := (oneField_yes.1 h).length_lt
        cases r with
        | nil => simp [MR.map, matchL, ttsOf, ttOf.ttsOf, headIs, MP.startsL]
        | cons y ys =>
          simp only [List.length_cons] at hl
          by_cases hy : y = .comma
          · subst hy
            have := ih m ys (by omega) (by omega)
            simp [MR.map, matchL, ttsOf, ttOf.ttsOf, ttOf, headIs, MP.startsL] at this ⊢
            rw [this]
            cases recSep rc m ys <;> simp
          · have h1 : headIs (.punct ",") (ttOf y :: ttOf.ttsOf ys) = false := by
              rw [Bool.eq_false_iff]; intro hh; exact hy ((headIs_comma_ttsOf y ys).1 hh)
            simp only [MR.map, matchL, ttsOf, ttOf.ttsOf, h1, MP.startsL, List.isEmpty]
            cases y <;> first | rfl | exact absurd rfl hy

/-- `$( $x:ident: $ty:ty ),*` up to the end of the group. -/
def parseRecSep (rc : Rustc) (ts : List Tok) : MR (List (String × Ty)) :=
  match ts with
  | [] => .yes []
  | t :: ts => recSep rc (t :: ts).length (t :: ts)

theorem collect_members (x : String) (hx : x ≠ "ty") (ms : List (String × Ty)) :
    collect [x, "ty"] (ms.map (memberEnv x)) =
      [(x, .list (ms.map fun m => .atom (.ident m.1))), ("ty", .list (ms.map fun m => .ty m.2))] := by
  simp [Bind.list, collect, memberEnv, Env.find, Function.comp_def, hx]

theorem matchL_recSep (x : String) (hx : x ≠ "ty") (ts : List Tok) :
    matchL rc List.isEmpty [.rep [.var x .ident, .tok (.punct ":"), .var "ty" .ty] (some (.punct ",")) .star] (ttsOf ts) =
      (parseRecSep rc ts).map fun ms =>
        ([(x, .list (ms.map fun m => .atom (.ident m.1))), ("ty", .list (ms.map fun m => .ty m.2))], []) := by
  cases ts with
  | nil => simp [Bind.list, matchL, repMatch, MP.startsL, MP.starts, parseFrag, ttsOf, ttOf.ttsOf, MR.isNo, MR.map, collect, MP.varsL, MP.vars, parseRecSep]
  | cons t ts =>
    have h1 := fun fol sB => repItems_rec (rc := rc) x ((ttsOf (t :: ts)).length + 1) (t :: ts).length (t :: ts)
      (by rw [ttsOf_length]; omega) (Nat.le_refl _) sB fol
    rw [matchL]
    simp only [repMatch, h1, parseRecSep]
    by_cases h : oneField rc (t :: ts) = .no
    · have h2 : recSep rc (t :: ts).length (t :: ts) = .no := by simp [recSep, h]
      rw [h2]
      cases t <;>
        simp [MP.startsL, MP.starts, parseFrag, ttsOf, ttOf.ttsOf, ttOf, MR.isNo, MR.map]
    · rw [startsL_field _ _ _ _ h]
      simp only [ttsOf, ttOf.ttsOf, MP.startsL, List.isEmpty]
      cases recSep rc (t :: ts).length (t :: ts) <;>
        simp [MR.map, matchL, MP.varsL, MP.vars, collect_members x hx]

theorem repItems_recTrail (x : String) (n m : Nat) (ts : List Tok) (hne : ts ≠ []) (hn : ts.length ≤ n) (hm : ts.length ≤ m)
    (fol : List TT → Bool) :
    repItems (matchL rc fol [.var x .ident, .tok (.punct ":"), .var "ty" .ty, .tok (.punct ",")])
      (fun us => MP.startsL rc (fun _ => false) us [.var x .ident, .tok (.punct ":"), .var "ty" .ty, .tok (.punct ",")])
      (fun us => MP.startsL rc List.isEmpty us []) none n (ttsOf ts) =
      (recTrail rc m ts).map fun ms => (ms.map (memberEnv x), []) := by
  induction n generalizing m ts with
  | zero => exact absurd (List.length_eq_zero_iff.1 (by omega)) hne
  | succ n ih =>
    obtain ⟨t, ts, rfl⟩ := List.exists_cons_of_ne_nil hne
    cases m with
    | zero => simp at hm
    | succ m =>
      simp only [repItems, matchL_field, recTrail]
      cases h : oneField rc (t :: ts) with
      | no => rfl
      | fatal => rfl
      | yes p =>
        obtain ⟨f, r⟩ := p
        have hl := (oneField_yes.1 h).length_lt
        simp only [List.length_cons] at hl hn hm
        cases r with
        | nil => simp [matchL, ttsOf, ttOf.ttsOf, headIs, MR.map]
        | cons y ys =>
          simp only [List.length_cons] at hl
          by_cases hy : y = .comma
          · subst hy
            simp only [ttsOf, ttOf.ttsOf, ttOf, matchL, headIs, decide_true, if_true, List.tail_cons, MR.map]
            cases ys with
            | nil => simp [ttOf.ttsOf, MP.startsL, MP.starts, parseFrag, MR.isNo, recTrail]
            | cons z zs =>
              have := ih m (z :: zs) (by simp) (by simp at hl ⊢; omega) (by simp at hl ⊢; omega)
              cases hz : oneField rc (z :: zs) with
              | no =>
                obtain ⟨k, rfl⟩ : ∃ k, m = k + 1 := ⟨m - 1, by simp at hl; omega⟩
                have h2 : recTrail rc (k + 1) (z :: zs) = .no := by simp [recTrail, hz]
                rw [h2] at this ⊢
                simp only [MR.map] at this
                rw [show ttOf.ttsOf (z :: zs) = ttsOf (z :: zs) from rfl, this]
                simp only [ttsOf, ttOf.ttsOf, MP.startsL, List.isEmpty]
                simp
              | fatal =>
                rw [show MP.startsL rc (fun _ => false) (ttOf.ttsOf (z :: zs)) _ = true from startsL_field x _ _ _ (by rw [hz]; simp)]
                simp only [ttsOf, if_true] at this ⊢
                rw [this]
                simp only [MP.startsL, ttOf.ttsOf, List.isEmpty]
                cases recTrail rc m (z :: zs) <;> simp [MR.map]
              | yes q =>
                rw [show MP.startsL rc (fun _ => false) (ttOf.ttsOf (z :: zs)) _ = true from startsL_field x _ _ _ (by rw [hz]; simp)]
                simp only [ttsOf, if_true] at this ⊢
                rw [this]
                simp only [MP.startsL, ttOf.ttsOf, List.isEmpty]
                cases recTrail rc m (z :: zs) <;> simp [MR.map]
          · have h1 : headIs (.punct ",") (ttOf y :: ttOf.ttsOf ys) = false := by
              rw [Bool.eq_false_iff]; intro hh; exact hy ((headIs_comma_ttsOf y ys).1 hh)
            simp only [matchL, ttsOf, ttOf.ttsOf, h1, MR.map]
            cases y <;> first | rfl | exact absurd rfl hy

theorem matchL_recTrail (x : String) (hx : x ≠ "ty") (ts : List Tok) :
    matchL rc List.isEmpty [.rep [.var x .ident, .tok (.punct ":"), .var "ty" .ty, .tok (.punct ",")] none .star] (ttsOf ts) =
      (recTrail rc ts.length ts).map fun ms =>
        ([(x, .list (ms.map fun m => .atom (.ident m.1))), ("ty", .list (ms.map fun m => .ty m.2))], []) := by
  cases ts with
  | nil => simp [Bind.list, matchL, repMatch, MP.startsL, MP.starts, parseFrag, ttsOf, ttOf.ttsOf, MR.isNo, MR.map, collect, MP.varsL, MP.vars, recTrail]
  | cons t ts =>
    have h1 := fun fol => repItems_recTrail (rc := rc) x ((ttsOf (t :: ts)).length + 1) (t :: ts).length (t :: ts) (by simp)
      (by rw [ttsOf_length]; omega) (Nat.le_refl _) fol
    rw [matchL]
    simp only [repMatch, h1]
    by_cases h : oneField rc (t :: ts) = .no
    · have h2 : recTrail rc (t :: ts).length (t :: ts) = .no := by simp [recTrail, h]
      rw [h2]
      cases t <;>
        simp [MP.startsL, MP.starts, parseFrag, ttsOf, ttOf.ttsOf, ttOf, MR.isNo, MR.map]
    · rw [startsL_field _ _ _ _ h]
      simp only [ttsOf, ttOf.ttsOf, MP.startsL, List.isEmpty]
      cases recTrail rc (t :: ts).length (t :: ts) <;>
        simp [MR.map, matchL, MP.varsL, MP.vars, collect_members x hx]

/-! ## Attributes -/

/-- Attributes that have been parsed. -/
def metaTT (m : List TT) : TT := .frag .metaItem m

theorem metaFrag_metaTT (m r : List TT) : metaFrag (metaTT m :: r) = .yes (metaTT m, r) := rfl

theorem metaFrag_nil : metaFrag [] = .no := rfl

theorem repItems_metas (fol : List TT → Bool) (n : Nat) (m : List TT) (ms : List (List TT)) (hn : ms.length < n) :
    repItems (matchL rc fol [.var "meta" .metaItem])
      (fun us => MP.startsL rc (fun _ => false) us [.var "meta" .metaItem]) (fun us => MP.startsL rc List.isEmpty us []) none n
        ((m :: ms).map metaTT) =
      .yes ((m :: ms).map fun m => [("meta", .one (metaTT m))], []) := by
  induction n generalizing m ms with
  | zero => omega
  | succ n ih =>
    cases ms with
    | nil => simp [repItems, matchL, parseFrag, metaFrag_metaTT, metaFrag_nil, MR.map, MP.startsL, MP.starts, MR.isNo]
    | cons u us =>
      have := ih u us (by simp at hn; omega)
      simp [repItems, matchL, parseFrag, metaFrag_metaTT, metaFrag_nil, MR.map, MP.startsL, MP.starts, MR.isNo] at this ⊢
      rw [this]

/-- `[ $( $meta:meta )* ]` -/
theorem matchL_metas (ms : List (List TT)) :
    matchL rc List.isEmpty [.rep [.var "meta" .metaItem] none .star] (ms.map metaTT) =
      .yes ([("meta", .list (ms.map metaTT))], []) := by
  cases ms with
  | nil => simp [Bind.list, matchL, repMatch, MP.startsL, MP.starts, parseFrag, metaFrag, MR.isNo, MR.map, collect, MP.varsL, MP.vars]
  | cons t ts =>
    have := fun fol => repItems_metas (rc := rc) fol (((t :: ts).map metaTT).length + 1) t ts (by simp; omega)
    rw [matchL]
    simp only [repMatch, this]
    simp [Bind.list, MP.startsL, MP.starts, parseFrag, metaFrag_metaTT, MR.isNo, MR.map, matchL, collect, MP.varsL, MP.vars, Env.find, Function.comp_def]

/-- `x, y, z` -/
def commaTTs : List TT → List TT
  | [] => []
  | [x] => [x]
  | x :: y :: r => x :: .atom (.punct ",") :: commaTTs (y :: r)

theorem repItems_metasSep (fol fol' : List TT → Bool) (sB : List TT → Bool) (qs ps : List MP) (us r : List TT) (n : Nat) (m : List TT)
    (ms : List (List TT)) (hn : ms.length < n) :
    repItems (matchL rc fol [.var "meta" .metaItem]) sB
      (fun us => MP.startsL rc fol' us (.group .bracket qs :: ps)) (some (.punct ",")) n
        (commaTTs ((m :: ms).map metaTT) ++ .group .bracket us :: r) =
      .yes ((m :: ms).map fun m => [("meta", .one (metaTT m))], .group .bracket us :: r) := by
  induction n generalizing m ms with
  | zero => omega
  | succ n ih =>
    cases ms with
    | nil => simp [repItems, matchL, parseFrag, metaFrag_metaTT, commaTTs, headIs, headOpen, MR.map, MP.startsL, MP.starts, MR.isNo]
    | cons u us =>
      have := ih u us (by simp at hn; omega)
      simp [repItems, matchL, parseFrag, metaFrag_metaTT, commaTTs, headIs, headOpen, MR.map, MP.startsL, MP.starts, MR.isNo] at this ⊢
      rw [this]

/-- `$( $meta:meta ),* [ .. ] ..` -/
theorem matchL_metasSep (fol : List TT → Bool) (qs ps : List MP) (ms : List (List TT)) (us r : List TT) :
    matchL rc fol (.rep [.var "meta" .metaItem] (some (.punct ",")) .star :: .group .bracket qs :: ps)
        (commaTTs (ms.map metaTT) ++ .group .bracket us :: r) =
      (matchL rc fol (.group .bracket qs :: ps) (.group .bracket us :: r)).map fun y => (("meta", .list (ms.map metaTT)) :: y.1, y.2) := by
  conv => lhs; rw [matchL]
  cases ms with
  | nil =>
    simp [commaTTs, repMatch, MP.startsL, MP.starts, parseFrag, metaFrag, headOpen, MR.isNo, collect, MP.varsL, MP.vars, Bind.list]
  | cons t ts =>
    have := fun fol fol' sB => repItems_metasSep (rc := rc) fol fol' sB qs ps us r ((commaTTs ((t :: ts).map metaTT) ++ TT.group .bracket us :: r).length + 1) t ts (by
      have : ∀ l : List TT, l.length ≤ (commaTTs l).length := by
        intro l
        induction l with
        | nil => simp
        | cons a l ih => cases l with
          | nil => simp [commaTTs]
          | cons b l => simp [commaTTs] at ih ⊢; omega
      have := this ((t :: ts).map metaTT)
      simp at this ⊢; omega)
    simp only [repMatch, this]
    have h : MP.startsL rc (fun _ => false) (commaTTs ((t :: ts).map metaTT) ++ TT.group .bracket us :: r) [.var "meta" .metaItem] = true := by
      cases ts <;> simp [commaTTs, MP.startsL, MP.starts, parseFrag, metaFrag_metaTT, MR.isNo]
    have h' : MP.startsL rc fol (commaTTs ((t :: ts).map metaTT) ++ TT.group .bracket us :: r) (.group .bracket qs :: ps) = false := by
      cases ts <;> simp [commaTTs, MP.startsL, MP.starts, metaTT, headOpen]
    simp only [h, h', if_true, Bool.and_false, Bool.false_eq_true, if_false]
    simp [collect, MP.varsL, MP.vars, Bind.list, Env.find, Function.comp_def]

end TB.Mbe

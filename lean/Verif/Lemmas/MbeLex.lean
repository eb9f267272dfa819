import Verif.Spec.Input
import Verif.Lemmas.MbeMatch

/-! # What the lexer delivers (no property theorems here) -/

set_option autoImplicit false

namespace TB.Source

open TB.Mbe TB.Macro

/-- What the characters of a token say about its kind. -/
def TokenOk : Token → Prop
  | .atom (.lit s) => ∃ c r, s.toList = c :: r ∧ (isDigit c || c == '"') = true
  | .atom (.punct s) => s = "_" ∨ ∃ c r, s.toList = c :: r ∧ isWord c = false ∧ c ≠ '"'
  | _ => True

def StateOk : LexState → Prop
  | .str r => ∃ r', r.reverse = '"' :: r'
  | .esc r => ∃ r', r.reverse = '"' :: r'
  | .punct c => isWord c = false ∧ c ≠ '"'
  | _ => True

theorem mkWord_ok (r : List Char) : TokenOk (mkWord r) := by
  unfold mkWord
  split
  · exact .inl rfl
  · split
    · rename_i h
      exact ⟨_, _, String.toList_ofList, by simp [h]⟩
    · trivial
  · trivial

theorem all_cons {t : Token} {acc : List Token} (h : TokenOk t) (ha : ∀ t ∈ acc, TokenOk t) : ∀ u ∈ t :: acc, TokenOk u := by
  intro u hu
  rcases List.mem_cons.1 hu with rfl | hu
  · exact h
  · exact ha u hu

theorem dispatch_ok {c : Char} {k : LexState → List Token → Option (List Token)} {acc out : List Token} (ha : ∀ t ∈ acc, TokenOk t)
    (hk : ∀ st acc, k st acc = some out → StateOk st → (∀ t ∈ acc, TokenOk t) → ∀ t ∈ out, TokenOk t) (h : dispatch c k acc = some out) :
    ∀ t ∈ out, TokenOk t := by
  unfold dispatch at h
  split at h
  · exact hk _ _ h trivial ha
  split at h
  · exact hk _ _ h trivial ha
  split at h
  · rename_i hc
    exact hk _ _ h ⟨[], by simpa using hc⟩ ha
  iterate 6
    split at h
    · exact hk _ _ h trivial (all_cons (by trivial) ha)
  rename_i h1 h2 h3 _ _ _ _ _ _
  refine hk _ _ h ⟨?_, ?_⟩ ha
  · simpa using h2
  · simpa using h3

theorem lex_ok (cs : List Char) (st : LexState) (acc out : List Token) (h : lex cs st acc = some out)
    (hs : StateOk st) (ha : ∀ t ∈ acc, TokenOk t) : ∀ t ∈ out, TokenOk t := by
  induction cs generalizing st acc with
  | nil =>
    cases st with
    | none => simp only [lex] at h; cases h; simpa using ha
    | comment => simp only [lex] at h; cases h; simpa using ha
    | word r =>
      simp only [lex] at h; cases h
      intro t ht
      exact all_cons (mkWord_ok r) ha t (List.mem_reverse.1 ht)
    | punct c =>
      simp only [lex] at h; cases h
      intro t ht
      exact all_cons (t := .atom (.punct (String.ofList [c]))) (.inr ⟨c, [], String.toList_ofList, hs⟩) ha t (List.mem_reverse.1 ht)
    | str r => cases h
    | esc r => cases h
  | cons c cs ih =>
    cases st with
    | none => exact dispatch_ok ha ih h
    | comment =>
      simp only [lex] at h
      split at h
      · exact ih _ _ h trivial ha
      · exact ih _ _ h trivial ha
    | word r =>
      simp only [lex] at h
      split at h
      · exact ih _ _ h trivial ha
      · exact dispatch_ok (all_cons (mkWord_ok r) ha) ih h
    | str r =>
      obtain ⟨r', hr⟩ := hs
      simp only [lex] at h
      split at h
      · refine ih _ _ h trivial (all_cons ?_ ha)
        exact ⟨'"', r' ++ [c], by rw [String.toList_ofList, List.reverse_cons, hr]; rfl, by simp⟩
      · split at h
        · exact ih _ _ h ⟨r' ++ [c], by rw [List.reverse_cons, hr]; rfl⟩ ha
        · exact ih _ _ h ⟨r' ++ [c], by rw [List.reverse_cons, hr]; rfl⟩ ha
    | esc r =>
      obtain ⟨r', hr⟩ := hs
      exact ih _ _ h ⟨r' ++ [c], by rw [List.reverse_cons, hr]; rfl⟩ ha
    | punct p =>
      simp only [lex] at h
      split at h
      · exact ih _ _ h trivial ha
      · split at h
        · exact ih _ _ h trivial (all_cons (t := .atom (.punct (String.ofList [p, c]))) (.inr ⟨p, [c], String.toList_ofList, hs⟩) ha)
        · exact dispatch_ok (all_cons (t := .atom (.punct (String.ofList [p]))) (.inr ⟨p, [], String.toList_ofList, hs⟩) ha) ih h

theorem lexLines_ok (ls : List (List Char)) (out : List Token) (h : lexLines ls = some out) : ∀ t ∈ out, TokenOk t := by
  induction ls generalizing out with
  | nil => simp only [lexLines] at h; cases h; simp
  | cons l ls ih =>
    simp only [lexLines] at h
    split at h
    · rename_i a b h1 h2
      cases h
      intro t ht
      rcases List.mem_append.1 ht with ht | ht
      · exact lex_ok l .none [] a h1 trivial (by simp) t ht
      · exact ih b h2 t ht
    · cases h

/-- Punctuation and literals are spelled as the lexer delivers them. -/
theorem atom_ok {a : Atom} (h : TokenOk (.atom a)) : ∃ t, TT.atom a = ttOf t := by
  cases a with
  | ident s => exact ⟨.ident s, rfl⟩
  | lit s =>
    obtain ⟨c, r, h1, h2⟩ := h
    refine ⟨.other s, ?_⟩
    simp only [ttOf, spell, h1, h2, if_true]
  | punct s =>
    by_cases hc : s = ","
    · subst hc; exact ⟨.comma, rfl⟩
    by_cases hd : s = ":"
    · subst hd; exact ⟨.colon, rfl⟩
    refine ⟨.other s, ?_⟩
    rcases h with rfl | ⟨c, r, h1, h2, h3⟩
    · rfl
    · have : isDigit c = false := by
        cases hh : isDigit c with
        | false => rfl
        | true => simp [isWord, hh] at h2
      simp [ttOf, spell, h1, h2, h3, hc, hd, this]

def TTOk (t : TT) : Prop := ∃ u, t = ttOf u

theorem tts_ok {us : List TT} (h : ∀ t ∈ us, TTOk t) : ∃ ts, us = ttsOf ts := by
  induction us with
  | nil => exact ⟨[], rfl⟩
  | cons t us ih =>
    obtain ⟨u, rfl⟩ := h t (by simp)
    obtain ⟨ts, rfl⟩ := ih fun t ht => h t (by simp [ht])
    exact ⟨u :: ts, rfl⟩

theorem group_ok (d : Delim) {us : List TT} (h : ∀ t ∈ us, TTOk t) : TTOk (.group d us) := by
  obtain ⟨ts, rfl⟩ := tts_ok h
  exact ⟨.group d ts, rfl⟩

theorem trees_ok (ts : List Token) (st : List (Delim × List TT)) (cur out : List TT) (ht : ∀ t ∈ ts, TokenOk t)
    (hs : ∀ p ∈ st, ∀ t ∈ p.2, TTOk t) (hc : ∀ t ∈ cur, TTOk t) (h : trees ts st cur = some out) : ∀ t ∈ out, TTOk t := by
  induction ts generalizing st cur with
  | nil =>
    cases st with
    | nil => simp only [trees] at h; cases h; simpa using hc
    | cons p st => simp only [trees] at h; cases h
  | cons t ts ih =>
    have ht' : ∀ t ∈ ts, TokenOk t := fun u hu => ht u (by simp [hu])
    cases t with
    | atom a =>
      simp only [trees] at h
      refine ih st _ ht' hs ?_ h
      intro u hu
      rcases List.mem_cons.1 hu with rfl | hu
      · exact atom_ok (ht _ (by simp))
      · exact hc u hu
    | op d =>
      simp only [trees] at h
      refine ih _ _ ht' ?_ (by simp) h
      intro p hp
      rcases List.mem_cons.1 hp with rfl | hp
      · exact hc
      · exact hs p hp
    | cl d =>
      cases st with
      | nil => simp only [trees] at h; cases h
      | cons p st =>
        obtain ⟨d', prev⟩ := p
        simp only [trees] at h
        split at h
        · refine ih st _ ht' (fun p hp => hs p (by simp [hp])) ?_ h
          intro u hu
          rcases List.mem_cons.1 hu with rfl | hu
          · exact group_ok d fun t ht => hc t (List.mem_reverse.1 ht)
          · exact hs (d', prev) (by simp) u hu
        · cases h

/-- The token trees of a text are tokens, also inside of groups. -/
theorem parseText_ok {ls : List (List Char)} {us : List TT} (h : parseText ls = some us) : ∃ ts, us = ttsOf ts := by
  unfold parseText at h
  cases hl : lexLines ls with
  | none => simp [hl] at h
  | some toks =>
    rw [hl] at h
    exact tts_ok (trees_ok toks [] [] us (lexLines_ok ls toks hl) (by simp) (by simp) h)

theorem mem_ttsOf {ts : List Tok} {t : TT} (h : t ∈ ttsOf ts) : ∃ u ∈ ts, t = ttOf u := by
  induction ts with
  | nil => cases h
  | cons u ts ih =>
    rcases List.mem_cons.1 h with rfl | h
    · exact ⟨u, by simp, rfl⟩
    · obtain ⟨v, hv, e⟩ := ih h
      exact ⟨v, by simp [hv], e⟩

theorem written_ttOf (u : Tok) : TT.written (ttOf u) = true := by
  cases u with
  | other s => rcases spell_cases s with h | h | ⟨h, _⟩ <;> simp only [ttOf, h] <;> rfl
  | _ => rfl

theorem written_ttsOf (ts : List Tok) : Written (ttsOf ts) := by
  intro t ht
  obtain ⟨u, _, rfl⟩ := mem_ttsOf ht
  refine ⟨written_ttOf u, ?_⟩
  intro us h v hv
  cases u with
  | group d xs =>
    simp only [ttOf] at h
    cases h
    obtain ⟨w, _, rfl⟩ := mem_ttsOf hv
    exact written_ttOf w
  | other s => exact absurd h (by simp [ttOf])
  | _ => simp [ttOf] at h

theorem brace_ttsOf {ts : List Tok} {us : List TT} (h : TT.group .brace us ∈ ttsOf ts) : ∃ xs, us = ttsOf xs := by
  obtain ⟨u, _, e⟩ := mem_ttsOf h
  cases u with
  | group d xs => simp only [ttOf] at e; cases e; exact ⟨xs, rfl⟩
  | other s => exact absurd e.symm (by simp [ttOf])
  | _ => simp [ttOf] at e

end TB.Source

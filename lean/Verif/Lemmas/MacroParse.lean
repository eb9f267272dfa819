import Verif.Spec.Decl

/-! # Parsing lemmas for the component macros (no property theorems here) -/

set_option autoImplicit false

namespace TB.Macro

variable {rc : Rustc}

theorem MR.map_yes {α β : Type} {f : α → β} {m : MR α} {b : β} :
    m.map f = .yes b ↔ ∃ a, m = .yes a ∧ f a = b := by
  cases m <;> simp [MR.map]

theorem oneTy_yes {ts : List Tok} {t : Ty} {rest : List Tok} :
    oneTy rc ts = .yes (t, rest) ↔ OneTy rc ts t rest := by
  cases ts with
  | nil => simp [oneTy, OneTy]
  | cons x xs =>
    unfold OneTy
    show (match rc.parseTy (x :: xs) with
      | .noStart => MR.no
      | .fatal => MR.fatal
      | .ok ty n => MR.yes (ty, (x :: xs).drop (n + 1))) = _ ↔ _
    split
    · rename_i h; simp [h]
    · rename_i h; simp [h]
    · rename_i ty n h
      rw [h]
      constructor
      · rintro h; cases h; exact ⟨by simp, n, rfl, rfl⟩
      · rintro ⟨_, m, h, rfl⟩; cases h; rfl

theorem oneField_yes {ts : List Tok} {f : String × Ty} {rest : List Tok} :
    oneField rc ts = .yes (f, rest) ↔ OneField rc ts f rest := by
  unfold oneField OneField
  split
  · rename_i m ts'
    rw [MR.map_yes]
    constructor
    · rintro ⟨⟨ty, r⟩, h, e⟩; cases e; exact ⟨ts', rfl, oneTy_yes.1 h⟩
    · rintro ⟨ts'', e, h⟩; cases e; exact ⟨_, oneTy_yes.2 h, rfl⟩
  · rename_i hne
    constructor
    · intro h; cases h
    · rintro ⟨ts', rfl, _⟩; exact absurd rfl (hne _ _)

theorem OneTy.length_lt {ts : List Tok} {t : Ty} {rest : List Tok} (h : OneTy rc ts t rest) :
    rest.length < ts.length := by
  obtain ⟨hne, n, _, rfl⟩ := h
  have : 0 < ts.length := List.length_pos_iff.2 hne
  rw [List.length_drop]; omega

theorem tysSep_yes {fuel : Nat} {ts : List Tok} {tys : List Ty} (h : tysSep rc fuel ts = .yes tys) :
    TyList rc ts tys := by
  induction fuel generalizing ts tys with
  | zero => simp [tysSep] at h
  | succ n ih =>
    unfold tysSep at h
    split at h
    · cases h
    · cases h
    · rename_i ty he; cases h; exact .one (oneTy_yes.1 he)
    · rename_i ty rest he
      obtain ⟨l, hl, rfl⟩ := MR.map_yes.1 h
      exact .cons (oneTy_yes.1 he) (ih hl)
    · cases h

theorem TyList.tysSep {ts : List Tok} {tys : List Ty} (h : TyList rc ts tys) {fuel : Nat} (hf : ts.length ≤ fuel) :
    tysSep rc fuel ts = .yes tys := by
  induction h generalizing fuel with
  | one h =>
    have := h.length_lt
    obtain ⟨n, rfl⟩ : ∃ n, fuel = n + 1 := ⟨fuel - 1, by omega⟩
    simp [Macro.tysSep, oneTy_yes.2 h]
  | cons h _ ih =>
    have := h.length_lt
    obtain ⟨n, rfl⟩ : ∃ n, fuel = n + 1 := ⟨fuel - 1, by omega⟩
    simp only [List.length_cons] at this
    simp [Macro.tysSep, oneTy_yes.2 h, ih (fuel := n) (by omega), MR.map]

theorem OneField.length_lt {ts : List Tok} {f : String × Ty} {rest : List Tok} (h : OneField rc ts f rest) :
    rest.length < ts.length := by
  obtain ⟨ts', rfl, h⟩ := h
  have := h.length_lt
  simp only [List.length_cons]; omega

theorem recSep_yes {fuel : Nat} {ts : List Tok} {ms : List (String × Ty)} (h : recSep rc fuel ts = .yes ms) :
    RecList rc ts ms := by
  induction fuel generalizing ts ms with
  | zero => simp [recSep] at h
  | succ n ih =>
    unfold recSep at h
    split at h
    · cases h
    · cases h
    · rename_i ty he; cases h; exact .one (oneField_yes.1 he)
    · rename_i ty rest he
      obtain ⟨l, hl, rfl⟩ := MR.map_yes.1 h
      exact .cons (oneField_yes.1 he) (ih hl)
    · cases h

theorem recTrail_yes {fuel : Nat} {ts : List Tok} {ms : List (String × Ty)} (h : recTrail rc fuel ts = .yes ms) :
    (ts = [] ∧ ms = []) ∨ RecList rc ts ms := by
  induction fuel generalizing ts ms with
  | zero =>
    cases ts with
    | nil => simp only [recTrail] at h; cases h; exact .inl ⟨rfl, rfl⟩
    | cons => simp [recTrail] at h
  | succ n ih =>
    unfold recTrail at h
    split at h
    · cases h; exact .inl ⟨rfl, rfl⟩
    · cases h
    · rename_i hn
      cases hn
      right
      split at h
      · cases h
      · cases h
      · rename_i ty rest he
        obtain ⟨l, hl, rfl⟩ := MR.map_yes.1 h
        rcases ih hl with ⟨rfl, rfl⟩ | hr
        · exact .oneTrailing (oneField_yes.1 he)
        · exact .cons (oneField_yes.1 he) hr
      · cases h

/-- A record body is matched by exactly the pattern without or the one with trailing comma. -/
theorem RecList.parse {ts : List Tok} {ms : List (String × Ty)} (h : RecList rc ts ms) {fuel : Nat}
    (hf : ts.length ≤ fuel) :
    recSep rc fuel ts = .yes ms ∨ (recSep rc fuel ts = .no ∧ recTrail rc fuel ts = .yes ms) := by
  induction h generalizing fuel with
  | one h =>
    have := h.length_lt
    obtain ⟨n, rfl⟩ : ∃ n, fuel = n + 1 := ⟨fuel - 1, by omega⟩
    left; simp [recSep, oneField_yes.2 h]
  | @oneTrailing ts f h =>
    have := h.length_lt
    simp only [List.length_cons, List.length_nil] at this
    obtain ⟨n, rfl⟩ : ∃ n, fuel = n + 2 := ⟨fuel - 2, by omega⟩
    right
    have e0 : oneField rc [] = .no := rfl
    refine ⟨by simp [recSep, oneField_yes.2 h, e0, MR.map], ?_⟩
    cases ts with
    | nil => simp at this
    | cons t ts => simp [recTrail, oneField_yes.2 h, MR.map]
  | @cons ts f rest fs h _ ih =>
    have := h.length_lt
    simp only [List.length_cons] at this
    obtain ⟨n, rfl⟩ : ∃ n, fuel = n + 1 := ⟨fuel - 1, by omega⟩
    rcases ih (fuel := n) (by omega) with h1 | ⟨h1, h2⟩
    · left; simp [recSep, oneField_yes.2 h, h1, MR.map]
    · right
      refine ⟨by simp [recSep, oneField_yes.2 h, h1, MR.map], ?_⟩
      cases ts with
      | nil => simp at this
      | cons t ts => simp [recTrail, oneField_yes.2 h, h2, MR.map]

theorem TyList.ne_nil {ts : List Tok} {tys : List Ty} (h : TyList rc ts tys) : ts ≠ [] := by
  cases h with
  | one h => exact h.1
  | cons h => exact h.1

theorem RecList.ne_nil {ts : List Tok} {ms : List (String × Ty)} (h : RecList rc ts ms) : ts ≠ [] := by
  cases h with
  | one h => obtain ⟨_, rfl, _⟩ := h; simp
  | oneTrailing h => obtain ⟨_, rfl, _⟩ := h; simp
  | cons h => obtain ⟨_, rfl, _⟩ := h; simp

/-! ## Reference parser of one variant -/

/-- Contents of a tuple variant's parentheses. -/
def parseTys (rc : Rustc) (inner : List Tok) : MR (List Ty) :=
  match inner with
  | [] => .yes []
  | t :: ts => tysSep rc (t :: ts).length (t :: ts)

/-- Contents of a struct variant's braces: without, else with trailing comma. -/
def parseRec (rc : Rustc) (inner : List Tok) : MR (List (String × Ty)) :=
  match inner with
  | [] => .yes []
  | t :: ts => match recSep rc (t :: ts).length (t :: ts) with
    | .yes ms => .yes ms
    | .fatal => .fatal
    | .no => recTrail rc (t :: ts).length (t :: ts)

def parseVariant (rc : Rustc) : List Tok → MR (VariantDef × List Tok)
  | .ident v :: .group .paren inner :: .comma :: rest => (parseTys rc inner).map fun tys => (⟨v, .tuple tys⟩, rest)
  | .ident v :: .group .brace inner :: .comma :: rest => (parseRec rc inner).map fun ms => (⟨v, .record ms⟩, rest)
  | .ident v :: .comma :: rest => .yes (⟨v, .unit⟩, rest)
  | _ => .no

theorem parseVariant_yes {ts : List Tok} {d : VariantDef} {rest : List Tok} :
    parseVariant rc ts = .yes (d, rest) ↔ VariantSyntax rc ts d rest := by
  constructor
  · intro h
    unfold parseVariant at h
    split at h
    · obtain ⟨tys, ht, e⟩ := MR.map_yes.1 h
      cases e
      unfold parseTys at ht
      split at ht
      · cases ht; exact .tuple0
      · exact .tuple (tysSep_yes ht)
    · obtain ⟨ms, ht, e⟩ := MR.map_yes.1 h
      cases e
      unfold parseRec at ht
      split at ht
      · cases ht; exact .record0
      · split at ht
        · rename_i hm; cases ht; exact .record (recSep_yes hm)
        · cases ht
        · rcases recTrail_yes ht with ⟨h1, _⟩ | h1
          · cases h1
          · exact .record h1
    · cases h; exact .unit
    · cases h
  · intro h
    cases h with
    | unit => rfl
    | tuple0 => rfl
    | @tuple v inner tys rest h =>
      obtain ⟨t, ts, rfl⟩ := List.exists_cons_of_ne_nil h.ne_nil
      simp only [parseVariant, parseTys, h.tysSep (Nat.le_refl _), MR.map]
    | record0 => rfl
    | @record v inner ms rest h =>
      obtain ⟨t, ts, rfl⟩ := List.exists_cons_of_ne_nil h.ne_nil
      rcases h.parse (Nat.le_refl _) with h1 | ⟨h1, h2⟩
      · simp only [parseVariant, parseRec, h1, MR.map]
      · simp only [parseVariant, parseRec, h1, h2, MR.map]

/-! ## The component macros follow the reference parser -/

section Emit

variable {α : Type} {e0 e1 e2 e3 e4 : Cap → Except CErr α}

/-- What a macro with arms for tuple, struct and unit variants emits for a variant. -/
def emit4 (e1 e2 e4 : Cap → Except CErr α) (d : VariantDef) : Except CErr α :=
  match d.fields with
  | .tuple tys => e1 (.tuple d.name tys)
  | .record ms => e2 (.record d.name ms)
  | .unit => e4 (.unit d.name)

/-- The same for a macro with an extra first arm for tuple variants with one field. -/
def emit5 (e0 e1 e2 e4 : Cap → Except CErr α) (d : VariantDef) : Except CErr α :=
  match d.fields with
  | .tuple [t] => e0 (.single d.name t)
  | .tuple tys => e1 (.tuple d.name tys)
  | .record ms => e2 (.record d.name ms)
  | .unit => e4 (.unit d.name)

theorem firstMatch_four (h : ∀ v ms, e3 (.record v ms) = e2 (.record v ms)) (ts : List Tok) :
    firstMatch rc [(.tuple, e1), (.record, e2), (.recordTrailing, e3), (.unit, e4)] ts =
      (parseVariant rc ts).map (fun p => (emit4 e1 e2 e4 p.1, p.2)) := by
  unfold parseVariant
  split
  · rename_i v inner rest
    cases inner with
    | nil => rfl
    | cons t ts =>
      simp only [firstMatch, Pat.tryMatch, parseTys]
      cases tysSep rc (t :: ts).length (t :: ts) <;> rfl
  · rename_i v inner rest
    cases inner with
    | nil => rfl
    | cons t ts =>
      simp only [firstMatch, Pat.tryMatch, parseRec]
      cases recSep rc (t :: ts).length (t :: ts) with
      | yes ms => rfl
      | fatal => rfl
      | no =>
        cases recTrail rc (t :: ts).length (t :: ts) with
        | yes ms => simp only [MR.map, h]; rfl
        | fatal => rfl
        | no => rfl
  · rfl
  · rename_i h1 h2 h3
    simp only [firstMatch]
    have a1 : Pat.tryMatch rc .tuple ts = .no := by
      unfold Pat.tryMatch; split <;> first | rfl | (exact absurd rfl (h1 _ _ _)) | simp_all
    have a2 : Pat.tryMatch rc .record ts = .no := by
      unfold Pat.tryMatch; split <;> first | rfl | (exact absurd rfl (h2 _ _ _)) | simp_all
    have a3 : Pat.tryMatch rc .recordTrailing ts = .no := by
      unfold Pat.tryMatch; split <;> first | rfl | (exact absurd rfl (h2 _ _ _)) | simp_all
    have a4 : Pat.tryMatch rc .unit ts = .no := by
      unfold Pat.tryMatch; split <;> first | rfl | (exact absurd rfl (h3 _ _)) | simp_all
    simp only [a1, a2, a3, a4, MR.map]

theorem parseTys_single (inner : List Tok) :
    (∃ t, oneTy rc inner = .yes (t, []) ∧ parseTys rc inner = .yes [t]) ∨
    (oneTy rc inner = .fatal ∧ parseTys rc inner = .fatal) ∨
    ((oneTy rc inner = .no ∨ ∃ t x xs, oneTy rc inner = .yes (t, x :: xs)) ∧
      ∀ t, parseTys rc inner ≠ .yes [t]) := by
  cases inner with
  | nil => right; right; exact ⟨.inl rfl, fun t h => by cases h⟩
  | cons x xs =>
    simp only [parseTys, List.length_cons, tysSep]
    cases h : oneTy rc (x :: xs) with
    | no => right; right; exact ⟨.inl rfl, fun t h => by cases h⟩
    | fatal => right; left; exact ⟨rfl, rfl⟩
    | yes p =>
      obtain ⟨t, rest⟩ := p
      cases rest with
      | nil => left; exact ⟨t, rfl, rfl⟩
      | cons y ys =>
        right; right
        refine ⟨.inr ⟨t, y, ys, rfl⟩, fun t' h' => ?_⟩
        cases y with
        | comma =>
          simp only at h'
          obtain ⟨l, hl, e⟩ := MR.map_yes.1 h'
          cases e
          exact absurd (tysSep_yes hl) (by intro h; cases h)
        | _ => cases h'

theorem firstMatch_five (h : ∀ v ms, e3 (.record v ms) = e2 (.record v ms)) (ts : List Tok) :
    firstMatch rc [(.single, e0), (.tuple, e1), (.record, e2), (.recordTrailing, e3), (.unit, e4)] ts =
      (parseVariant rc ts).map (fun p => (emit5 e0 e1 e2 e4 p.1, p.2)) := by
  by_cases hs : ∃ v inner rest, ts = .ident v :: .group .paren inner :: .comma :: rest
  · obtain ⟨v, inner, rest, rfl⟩ := hs
    rw [firstMatch]
    rcases parseTys_single (rc := rc) inner with ⟨t, h1, h2⟩ | ⟨h1, h2⟩ | ⟨h1, h2⟩
    · simp only [Pat.tryMatch, h1, parseVariant, h2, MR.map, emit5]
    · simp only [Pat.tryMatch, h1, parseVariant, h2, MR.map]
    · have a1 : Pat.tryMatch rc .single (.ident v :: .group .paren inner :: .comma :: rest) = .no := by
        rcases h1 with h1 | ⟨t, x, xs, h1⟩ <;> simp only [Pat.tryMatch, h1]
      rw [a1]
      simp only
      rw [firstMatch_four h]
      simp only [parseVariant]
      cases h3 : parseTys rc inner with
      | no => rfl
      | fatal => rfl
      | yes tys =>
        simp only [MR.map, emit4, emit5]
        match tys with
        | [] => rfl
        | [t] => exact absurd h3 (h2 t)
        | _ :: _ :: _ => rfl
  · rw [firstMatch]
    have a1 : Pat.tryMatch rc .single ts = .no := by
      unfold Pat.tryMatch; split <;> first | rfl | (exact absurd ⟨_, _, _, rfl⟩ hs) | simp_all
    rw [a1]
    simp only
    rw [firstMatch_four h]
    unfold parseVariant
    split
    · exact absurd ⟨_, _, _, rfl⟩ hs
    · rename_i v inner rest
      cases parseRec rc inner <;> rfl
    · rfl
    · rfl

/-- Element-wise success of the emission. -/
inductive EmitAll (g : VariantDef → Except CErr α) : List VariantDef → List α → Prop where
  | nil : EmitAll g [] []
  | cons {d a ds as} : g d = .ok a → EmitAll g ds as → EmitAll g (d :: ds) (a :: as)

theorem VariantSyntax.length_lt {ts : List Tok} {d : VariantDef} {rest : List Tok} (h : VariantSyntax rc ts d rest) :
    rest.length < ts.length := by
  cases h <;> simp only [List.length_cons] <;> omega

theorem munch_ok {arms : List (Arm α)} {g : VariantDef → Except CErr α}
    (hm : ∀ ts, firstMatch rc arms ts = (parseVariant rc ts).map (fun p => (g p.1, p.2)))
    {fuel : Nat} {ts : List Tok} (hf : ts.length ≤ fuel) {as : List α} :
    munch rc arms fuel ts = .ok as ↔ ∃ decl, DeclSyntax rc ts decl ∧ EmitAll g decl as := by
  induction fuel generalizing ts as with
  | zero =>
    cases ts with
    | nil =>
      simp only [munch, Except.ok.injEq]
      constructor
      · rintro rfl; exact ⟨[], .nil, .nil⟩
      · rintro ⟨decl, hd, he⟩
        cases hd with
        | nil => cases he; rfl
        | cons h _ => cases h
    | cons => simp at hf
  | succ n ih =>
    cases ts with
    | nil =>
      simp only [munch, Except.ok.injEq]
      constructor
      · rintro rfl; exact ⟨[], .nil, .nil⟩
      · rintro ⟨decl, hd, he⟩
        cases hd with
        | nil => cases he; rfl
        | cons h _ => cases h
    | cons t ts =>
      simp only [munch, hm]
      cases hp : parseVariant rc (t :: ts) with
      | no =>
        simp only [MR.map]
        constructor
        · intro h; cases h
        · rintro ⟨decl, hd, _⟩
          cases hd with
          | cons h _ => rw [parseVariant_yes.2 h] at hp; cases hp
      | fatal =>
        simp only [MR.map]
        constructor
        · intro h; cases h
        · rintro ⟨decl, hd, _⟩
          cases hd with
          | cons h _ => rw [parseVariant_yes.2 h] at hp; cases hp
      | yes p =>
        obtain ⟨d, rest⟩ := p
        have hv := parseVariant_yes.1 hp
        have hl := hv.length_lt
        have hrl : rest.length ≤ n := by simp only [List.length_cons] at hl hf; omega
        simp only [MR.map]
        cases hg : g d with
        | error e =>
          simp only
          constructor
          · intro h; cases h
          · rintro ⟨decl, hd, he⟩
            cases hd with
            | cons h _ =>
              rw [parseVariant_yes.2 h] at hp; cases hp
              cases he with
              | cons h1 _ => rw [hg] at h1; cases h1
        | ok a =>
          simp only
          cases hr : munch rc arms n rest with
          | error e =>
            simp only
            constructor
            · intro h; cases h
            · rintro ⟨decl, hd, he⟩
              cases hd with
              | cons h hd' =>
                rw [parseVariant_yes.2 h] at hp; cases hp
                cases he with
                | cons h1 he' => rw [(ih hrl).2 ⟨_, hd', he'⟩] at hr; cases hr
          | ok as' =>
            simp only [Except.ok.injEq]
            constructor
            · rintro rfl
              obtain ⟨ds, hd, he⟩ := (ih hrl).1 hr
              exact ⟨d :: ds, .cons hv hd, .cons hg he⟩
            · rintro ⟨decl, hd, he⟩
              cases hd with
              | cons h hd' =>
                rw [parseVariant_yes.2 h] at hp; cases hp
                cases he with
                | cons h1 he' =>
                  rw [(ih hrl).2 ⟨_, hd', he'⟩] at hr; cases hr
                  rw [hg] at h1; cases h1; rfl

end Emit

theorem DeclSyntax.unique {ts : List Tok} {d d' : List VariantDef} (h : DeclSyntax rc ts d) (h' : DeclSyntax rc ts d') :
    d = d' := by
  induction h generalizing d' with
  | nil => cases h' with
    | nil => rfl
    | cons h _ => cases h
  | cons hv _ ih =>
    cases h' with
    | nil => cases hv
    | cons hv' hd' =>
      have := (parseVariant_yes.2 hv).symm.trans (parseVariant_yes.2 hv')
      cases this
      rw [ih hd']

theorem EmitAll.of_total {α : Type} {g : VariantDef → Except CErr α} {g' : VariantDef → α} {ds : List VariantDef}
    (h : ∀ d ∈ ds, g d = .ok (g' d)) : EmitAll g ds (ds.map g') := by
  induction ds with
  | nil => exact .nil
  | cons d ds ih => exact .cons (h d (by simp)) (ih (fun x hx => h x (by simp [hx])))

theorem EmitAll.mem {α : Type} {g : VariantDef → Except CErr α} {ds : List VariantDef} {as : List α}
    (h : EmitAll g ds as) {d : VariantDef} (hd : d ∈ ds) : ∃ a, g d = .ok a := by
  induction h with
  | nil => cases hd
  | cons h _ ih =>
    rcases List.mem_cons.1 hd with rfl | hd
    · exact ⟨_, h⟩
    · exact ih hd

theorem EmitAll.eq {α : Type} {g : VariantDef → Except CErr α} {g' : VariantDef → α} {ds : List VariantDef} {as : List α}
    (h : EmitAll g ds as) (ht : ∀ d ∈ ds, g d = .ok (g' d)) : as = ds.map g' := by
  induction h with
  | nil => rfl
  | @cons d a ds as h _ ih =>
    have := ht d (by simp)
    rw [h] at this; cases this
    rw [ih (fun x hx => ht x (by simp [hx]))]; rfl

end TB.Macro

import Verif.Spec.Unused
import Verif.Lemmas.MbeSteps
import Verif.Lemmas.MbeTuple

/-! # The helper macros that nothing uses (no property theorems here) -/

set_option autoImplicit false

namespace TB.Source

open TB.Mbe TB.Macro

variable {rc : Rustc}

/-! ## `__verify_variants!` -/

theorem verify_body {args body : List TT} (h : applyRules rc verifyVariantsRules args = some body) :
    ∃ r, body = call "__verify_variants" .paren r := by
  have key : ∀ e : Mbe.Env, transL e [.crate, .tok (.punct "::"), .tok (.ident "__verify_variants"), .tok (.punct "!"), .group .paren [.rep [.var "rest"] none]] =
      some body → ∃ r, body = call "__verify_variants" .paren r := by
    intro e h
    simp only [transL_crate, transL_tok, transL_group, transL_nil] at h
    cases h2 : transL e [.rep [.var "rest"] none] with
    | none => rw [h2] at h; simp [both] at h
    | some r => rw [h2] at h; simp [both] at h; exact ⟨r, h.symm⟩
  simp only [verifyVariantsRules, applyRules] at h
  split at h
  · exact key _ h
  · cases h
  · split at h
    · exact key _ h
    · cases h
    · cases h

theorem verify_no {s b : Bool} {ts out : List TT} (h : Expands rc exportedMacros s b ts out) :
    ∀ d args rest, ts ≠ .crate :: .atom (.punct "::") :: .atom (.ident "__verify_variants") :: .atom (.punct "!") :: .group d args :: rest := by
  induction h with
  | done h => rintro d args rest rfl; rw [headOf_call] at h; cases h
  | plain h => rintro d args rest rfl; rw [headOf_call] at h; cases h
  | group h => rintro d args rest rfl; rw [headOf_call] at h; cases h
  | stmts h _ hm ha _ _ ih _ =>
    rintro d args rest rfl
    rw [headOf_call] at h; cases h
    cases hm
    obtain ⟨r, rfl⟩ := verify_body ha
    exact ih _ _ _ rfl
  | expr h _ hm ha _ _ ih _ =>
    rintro d args rest rfl
    rw [headOf_call] at h; cases h
    cases hm
    obtain ⟨r, rfl⟩ := verify_body ha
    exact ih _ _ _ rfl

/-! ## The error arm of `__counter_enum!` -/

/-- The arguments with which the error arm is meant to be entered. -/
def errorArgs (tts : List TT) : List TT := rust% "@error stringify!(«tts»)"

theorem error_again (tts : List TT) :
    applyRules rc counterEnumRules (errorArgs tts) = some (call "__counter_enum" .paren (rust% "@inner [] «errorArgs tts»")) := by
  simp [counterEnumRules, errorArgs, mbe]

theorem error_more (tts : List TT) :
    applyRules rc counterEnumRules (rust% "@inner [] «errorArgs tts»") = some (call "__counter_enum" .paren (errorArgs (errorArgs tts))) := by
  simp [counterEnumRules, errorArgs, mbe]

theorem error_no {s b : Bool} {ts out : List TT} (h : Expands rc exportedMacros s b ts out) :
    ∀ d tts rest, (ts ≠ .crate :: .atom (.punct "::") :: .atom (.ident "__counter_enum") :: .atom (.punct "!") :: .group d (errorArgs tts) :: rest) ∧
      (ts ≠ .crate :: .atom (.punct "::") :: .atom (.ident "__counter_enum") :: .atom (.punct "!") :: .group d (rust% "@inner [] «errorArgs tts»") :: rest) := by
  induction h with
  | done h => intro d tts rest; constructor <;> (rintro rfl; rw [headOf_call] at h; cases h)
  | plain h => intro d tts rest; constructor <;> (rintro rfl; rw [headOf_call] at h; cases h)
  | group h => intro d tts rest; constructor <;> (rintro rfl; rw [headOf_call] at h; cases h)
  | stmts h _ hm ha _ _ ih _ =>
    intro d tts rest
    constructor
    · rintro rfl
      rw [headOf_call] at h; cases h; cases hm
      have h2 := ha.symm.trans (error_again tts); cases h2
      exact (ih .paren tts []).2 rfl
    · rintro rfl
      rw [headOf_call] at h; cases h; cases hm
      have h2 := ha.symm.trans (error_more tts); cases h2
      exact (ih .paren (errorArgs tts) []).1 rfl
  | expr h _ hm ha _ _ ih _ =>
    intro d tts rest
    constructor
    · rintro rfl
      rw [headOf_call] at h; cases h; cases hm
      have h2 := ha.symm.trans (error_again tts); cases h2
      exact (ih .paren tts []).2 rfl
    · rintro rfl
      rw [headOf_call] at h; cases h; cases hm
      have h2 := ha.symm.trans (error_more tts); cases h2
      exact (ih .paren (errorArgs tts) []).1 rfl

theorem error_enter (acc tts : List TT) (h : NotVariant tts) :
    applyRules rc counterEnumRules (rust% "@inner [«acc»] «tts»") = some (call "__counter_enum" .paren (errorArgs tts)) := by
  cases h with
  | sign p r => simp [counterEnumRules, errorArgs, mbe]
  | lit p r => simp [counterEnumRules, errorArgs, mbe]
  | group d us r => simp [counterEnumRules, errorArgs, mbe]
  | last x => simp [counterEnumRules, errorArgs, mbe]
  | other x p r h => simp [counterEnumRules, errorArgs, mbe, Ne.symm h]

theorem nested_call {args a : List TT} (n : Nat) (h : applyRules rc counterEnumRules args = some (call "__counter_enum" .paren a)) :
    nested rc (n + 1) args = nested rc n a := by
  have h1 : (exportedMacros "__counter_enum") = some counterEnumRules := rfl
  have h2 : headOf (call "__counter_enum" .paren a) = .call "__counter_enum" .paren a [] := headOf_call ..
  rw [nested, h1]
  simp only [Option.bind_some, h, h2]

theorem nested_error (n : Nat) : ∀ tts, (nested rc n (errorArgs tts)).isSome ∧ (nested rc n (rust% "@inner [] «errorArgs tts»")).isSome := by
  induction n with
  | zero => intro tts; exact ⟨rfl, rfl⟩
  | succ n ih =>
    intro tts
    rw [nested_call n (error_again tts), nested_call n (error_more tts)]
    exact ⟨(ih tts).2, (ih _).1⟩

/-! ## `__generate_const_sizes!` -/

/-- `+ { .. }` -/
def summand (t : Ty) : List TT :=
  rust% "+ { const __NUMBER_VAR_BITS: usize = core::mem::size_of::<«t»>() * 8; __NUMBER_VAR_BITS }"

/-- `0 + { .. } + ..` -/
def sizeSum (done : List Ty) : List TT := .atom (.lit "0") :: done.flatMap summand

/-- The types that are left, each with a comma. -/
def trailTys (tys : List Ty) : List TT := tys.flatMap fun t => [.ty t, .atom (.punct ",")]

/-- `@inner [0 + ..] T, U,` -/
def sizesIn (done tys : List Ty) : List TT := rust% "@inner [«sizeSum done»] «trailTys tys»"

theorem sizeSum_snoc (done : List Ty) (t : Ty) : sizeSum (done ++ [t]) = sizeSum done ++ summand t := by
  simp [sizeSum]

theorem typeArgs_eq (tys : List Ty) : typeArgs tys = commaTTs (tys.map .ty) := by
  match tys with
  | [] => rfl
  | [t] => rfl
  | t :: u :: r =>
    have := typeArgs_eq (u :: r)
    simp [typeArgs, commaTTs] at this ⊢
    exact this

theorem exp_summands {ms : String → Option (List Rule)} (b : Bool) (l : List Ty) : exp rc ms false b (l.flatMap summand) = some (l.flatMap summand) := by
  induction l generalizing b with
  | nil => exact exp_nil
  | cons t l ih =>
    simp [summand, ToTT.toTT, exp_punct, exp_group, exp_ident, exp_ty, exp_lit, exp_nil, both_some, headIs, ih]

theorem exp_sizeSum {ms : String → Option (List Rule)} (b : Bool) (l : List Ty) : exp rc ms false b (sizeSum l) = some (sizeSum l) := by
  rw [sizeSum, exp_lit, exp_summands]; rfl

theorem repItems_trailTys (fol : List TT → Bool) (n : Nat) (t : Ty) (tys : List Ty) (hn : tys.length < n) :
    repItems (matchL rc fol [.var "rest" .ty, .tok (.punct ",")])
      (fun us => MP.startsL rc (fun _ => false) us [.var "rest" .ty, .tok (.punct ",")]) (fun us => MP.startsL rc List.isEmpty us []) none n
      (trailTys (t :: tys)) = .yes ((t :: tys).map fun t => [("rest", .one (.ty t))], []) := by
  induction n generalizing t tys with
  | zero => omega
  | succ n ih =>
    cases tys with
    | nil => simp [trailTys, repItems, matchL, parseFrag, tyFrag, headIs, MR.map, MP.startsL, MP.starts, MR.isNo]
    | cons u us =>
      have := ih u us (by simp at hn; omega)
      simp [trailTys, repItems, matchL, parseFrag, tyFrag, headIs, MR.map, MP.startsL, MP.starts, MR.isNo] at this ⊢
      rw [this]

theorem trailTys_length (tys : List Ty) : tys.length ≤ (trailTys tys).length := by
  induction tys with
  | nil => simp
  | cons t l ih => simp [trailTys] at ih ⊢; omega

theorem matchL_trailTys (tys : List Ty) :
    matchL rc List.isEmpty [.rep [.var "rest" .ty, .tok (.punct ",")] none .star] (trailTys tys) =
      .yes ([("rest", .list (tys.map .ty))], []) := by
  rw [matchL]
  cases tys with
  | nil => simp [trailTys, repMatch, MP.startsL, MP.starts, parseFrag, tyFrag, MR.isNo, collect, MP.varsL, MP.vars, Bind.list, matchL, MR.map]
  | cons t ts =>
    have := fun fol => repItems_trailTys (rc := rc) fol ((trailTys (t :: ts)).length + 1) t ts (by
      have := trailTys_length (t :: ts)
      simp at this ⊢; omega)
    simp only [repMatch, this]
    have h : MP.startsL rc (fun _ => false) (trailTys (t :: ts)) [.var "rest" .ty, .tok (.punct ",")] = true := by
      simp [trailTys, MP.startsL, MP.starts, parseFrag, tyFrag, MR.isNo]
    have h2 : (trailTys (t :: ts)).isEmpty = false := by rfl
    rw [h]
    simp only [MP.startsL, h2]
    simp [MR.map, matchL, collect, MP.varsL, MP.vars, Bind.list, Mbe.Env.find, Function.comp_def]

theorem tyFrag_at (h : NoAtType rc) (r : List TT) : tyFrag rc (.atom (.punct "@") :: r) = .no := by
  have h1 : TT.toTok (.atom (.punct "@")) = some (.other "@") := by simp [TT.toTok]
  simp only [tyFrag, TT.toTok.toToks, h1]
  cases TT.toTok.toToks r with
  | none => simp [h []]
  | some l => simp [h l]

theorem matchL_at (h : NoAtType rc) (r : List TT) :
    matchL rc List.isEmpty [.rep [.var "ty" .ty] (some (.punct ",")) .star] (.atom (.punct "@") :: r) = .no := by
  simp [matchL, repMatch, MP.startsL, MP.starts, parseFrag, tyFrag_at h, MR.isNo]

theorem sizes_step (h : NoAtType rc) (done : List Ty) (t : Ty) (tys : List Ty) :
    applyRules rc constSizesRules (sizesIn done (t :: tys)) =
      some (call "__generate_const_sizes" .paren (sizesIn (done ++ [t]) tys)) := by
  have h1 := matchL_at h
  have h2 := matchL_trailTys (rc := rc) tys
  have h3 : trailTys (t :: tys) = .ty t :: .atom (.punct ",") :: trailTys tys := rfl
  have h4 : ∀ r, tyFrag rc (.ty t :: r) = .yes (.ty t, r) := fun r => rfl
  have h5 : trailTys tys = (tys.map TT.ty).flatMap fun t => [t, .atom (.punct ",")] := by simp [trailTys, List.flatMap_map]
  simp only [sizesIn, sizeSum_snoc, h3]
  simp [constSizesRules, mbe, h1, h2, h4, summand]
  exact h5.symm

theorem sizes_end (h : NoAtType rc) (done : List Ty) :
    applyRules rc constSizesRules (sizesIn done []) = some (sizeSum done) := by
  have h1 := matchL_at h
  have h2 : tyFrag rc [] = .no := rfl
  simp [constSizesRules, sizesIn, trailTys, mbe, h1, h2]

theorem sizes_start (tys : List Ty) :
    applyRules rc constSizesRules (typeArgs tys) =
      some [.group .brace (call "__generate_const_sizes" .paren (sizesIn [] tys))] := by
  rw [typeArgs_eq]
  simp [constSizesRules, mbe, matchL_parsedTys, sizesIn, sizeSum, trailTys, List.flatMap_map]

theorem sizes_lookup (args : List TT) : runMac rc exportedMacros "__generate_const_sizes" args = applyRules rc constSizesRules args := rfl

theorem dropSemi_summands (l : List Ty) (t : TT) (h : headIs (.punct ";") [t] = false) :
    dropSemi (t :: l.flatMap summand) = t :: l.flatMap summand := by
  induction l generalizing t with
  | nil => simp [dropSemi, h]
  | cons u l ih =>
    have := ih (.group .brace (rust% "const __NUMBER_VAR_BITS: usize = core::mem::size_of::<«u»>() * 8; __NUMBER_VAR_BITS")) rfl
    simp [summand, ToTT.toTT, dropSemi] at this ⊢
    exact this

theorem exp_sizes (h : NoAtType rc) (b : Bool) (done tys : List Ty) :
    exp rc exportedMacros false b (call "__generate_const_sizes" .paren (sizesIn done tys)) = some [.frag .expr (sizeSum (done ++ tys))] := by
  induction tys generalizing b done with
  | nil =>
    rw [call, exp_expr (by cases b <;> rfl), sizes_lookup, sizes_end h]
    have hd : dropSemi (sizeSum done) = sizeSum done := dropSemi_summands done _ rfl
    have hm : mkExpr (sizeSum done) = .frag .expr (sizeSum done) := by
      cases done <;> rfl
    simp [hd, exp_sizeSum, exp_nil, both_some, hm]
  | cons t l ih =>
    rw [call, exp_expr (by cases b <;> rfl), sizes_lookup, sizes_step h]
    have hd : dropSemi (call "__generate_const_sizes" .paren (sizesIn (done ++ [t]) l)) = call "__generate_const_sizes" .paren (sizesIn (done ++ [t]) l) := rfl
    simp [hd, ih, exp_nil, both_some, mkExpr]

theorem exp_constSizes (h : NoAtType rc) (tys : List Ty) :
    exp rc exportedMacros false false (call "__generate_const_sizes" .paren (typeArgs tys)) =
      some [.frag .expr [.group .brace [.frag .expr (sizeSum tys)]]] := by
  rw [call, exp_expr rfl, sizes_lookup, sizes_start]
  have hd : ∀ l, dropSemi [TT.group .brace l] = [TT.group .brace l] := fun l => rfl
  simp [hd, exp_group, exp_sizes h, exp_nil, both_some, mkExpr]

theorem addBits_summands (size : Ty → Nat) (tys : List Ty) (a : Nat) :
    addBits size a (tys.flatMap summand) = some (a + 8 * (tys.map size).sum) := by
  induction tys generalizing a with
  | nil => rfl
  | cons t l ih =>
    have h8 : TB.Rust.decimal 0 ['8'] = some 8 := by rfl
    have hb : bitsOf size (rust% "const __NUMBER_VAR_BITS: usize = core::mem::size_of::<«t»>() * 8; __NUMBER_VAR_BITS") = some (size t * 8) := by
      simp [bitsOf, ToTT.toTT, h8]
    have hc : (t :: l).flatMap summand = .atom (.punct "+") :: .group .brace (rust% "const __NUMBER_VAR_BITS: usize = core::mem::size_of::<«t»>() * 8; __NUMBER_VAR_BITS") :: l.flatMap summand := rfl
    rw [hc, addBits, hb]
    simp [ih]; omega

theorem sumValue_sizeSum (size : Ty → Nat) (tys : List Ty) :
    sumValue size [.frag .expr [.group .brace [.frag .expr (sizeSum tys)]]] = some (8 * (tys.map size).sum) := by
  have h0 : TB.Rust.decimal 0 ['0'] = some 0 := by rfl
  simp [sumValue, sizeSum, h0, addBits_summands]

end TB.Source

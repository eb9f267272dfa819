import Verif.Lemmas.MbeSteps

/-! # `__expand_tuple!` and `__expand_tuple_arm!` (no property theorems here) -/

set_option autoImplicit false

namespace TB.Source

open TB.Mbe TB.Macro

variable {rc : Rustc}

/-! ## Matching the types -/

/-- `, T, U` -/
def commaTail (tys : List Ty) : List TT := tys.flatMap fun t => [.atom (.punct ","), .ty t]

/-- The bindings of the types. -/
def tyBinds (ps : List String) (tys : List Ty) : Mbe.Env := (ps.zip tys).map fun p => (p.1, .one (.ty p.2))

theorem commaTail_cons (t : Ty) (tys : List Ty) : commaTail (t :: tys) = .atom (.punct ",") :: .ty t :: commaTail tys := rfl

theorem comma_tyList (t : Ty) (tys : List Ty) : .atom (.punct ",") :: tyList (t :: tys) = commaTail (t :: tys) := by
  induction tys generalizing t with
  | nil => simp [tyList, commas, commaTail, ToTT.toTT]
  | cons u us ih =>
    rw [commaTail_cons, ← ih]
    simp [tyList, commas, ToTT.toTT]

theorem matchL_tyParams (fol : List TT → Bool) (ps : List String) (qs : List MP) (tys : List Ty) (r : List TT)
    (h : ps.length ≤ tys.length) :
    matchL rc fol (tyParams ps ++ qs) (commaTail tys ++ r) =
      (matchL rc fol qs (commaTail (tys.drop ps.length) ++ r)).map fun y => (tyBinds ps tys ++ y.1, y.2) := by
  induction ps generalizing tys with
  | nil =>
    simp only [tyParams, List.nil_append, List.length_nil, List.drop_zero, tyBinds, List.zip_nil_left, List.map_nil]
    cases matchL rc fol qs (commaTail tys ++ r) <;> rfl
  | cons p ps ih =>
    cases tys with
    | nil => simp at h
    | cons t tys =>
      have := ih tys (by simp at h; omega)
      simp only [tyParams, List.cons_append, commaTail_cons, matchL_tok, headIs, decide_true, if_true, List.tail_cons, matchL_var, parseFrag,
        tyFrag, this, List.length_cons, List.drop_succ_cons, MR_map_map]
      rfl

theorem matchL_tyParams_no (fol : List TT → Bool) (ps : List String) (qs : List MP) (tys : List Ty) (r : List TT)
    (h : tys.length < ps.length) (hr : headIs (.punct ",") r = false) :
    matchL rc fol (tyParams ps ++ qs) (commaTail tys ++ r) = .no := by
  induction ps generalizing tys with
  | nil => simp at h
  | cons p ps ih =>
    cases tys with
    | nil => simp [tyParams, commaTail, matchL_tok, hr]
    | cons t tys =>
      have := ih tys (by simp at h; omega)
      simp [tyParams, commaTail_cons, matchL_tok, headIs, matchL_var, parseFrag, tyFrag, this, MR.map]

/-! ## A table of rules -/

theorem applyRules_table {α : Type} (f : α → Rule) (p : α → Bool) (env : α → Mbe.Env) (tbl : List α) (rs : List Rule) (ts : List TT)
    (h1 : ∀ a ∈ tbl, p a = true → matchAll rc (f a).1 ts = .yes (env a)) (h2 : ∀ a ∈ tbl, p a = false → matchAll rc (f a).1 ts = .no) :
    applyRules rc (tbl.map f ++ rs) ts = match tbl.find? p with
      | some a => transL (env a) (f a).2
      | none => applyRules rc rs ts := by
  induction tbl with
  | nil => rfl
  | cons a tbl ih =>
    have ih := ih (fun b hb => h1 b (by simp [hb])) (fun b hb => h2 b (by simp [hb]))
    have e : f a = ((f a).1, (f a).2) := rfl
    rw [List.map_cons, List.cons_append, e, applyRules]
    cases hp : p a with
    | true => rw [h1 a (by simp) hp, List.find?_cons_of_pos hp]
    | false => rw [h2 a (by simp) hp, List.find?_cons_of_neg (by simp [hp])]; exact ih

/-! ## Transcription -/

theorem transL_commas {α : Type} (e : Mbe.Env) (f : α → List MB) (g : α → List TT)
    (h : ∀ a bs, transL e (f a ++ bs) = (transL e bs).map (g a ++ ·)) (l : List α) (bs : List MB) :
    transL e (commasMB (l.map f) ++ bs) = (transL e bs).map (commas (l.map g) ++ ·) := by
  match l with
  | [] => simp [commasMB, commas]
  | [a] => simp [commasMB, commas, h]
  | a :: b :: r =>
    have := transL_commas e f g h (b :: r) bs
    simp only [List.map_cons] at this
    simp [commasMB, commas, h, this, transL_tok, Function.comp_def]

/-! ## `__expand_tuple!` -/

/-- The tokens are a path: nothing else is taken as `$variant:path`. -/
def PathToks (path : List TT) : Prop :=
  ∀ r, pathFrag (path ++ .atom (.punct ",") :: r) = .yes (.frag .path path, .atom (.punct ",") :: r)

/-- The tokens are an expression: nothing else is taken as `$expr:expr`. -/
def ExprToks (e : List TT) : Prop :=
  ∀ r, exprFrag (e ++ .atom (.punct ",") :: r) = .yes (.frag .expr e, .atom (.punct ",") :: r)

/-- What `__expand_tuple!` produces. -/
def tupleBody (path e : List TT) : TupleExp → List TT
  | .noEval => rust% "⟨«path»⟩()"
  | .access is => rust% "{ let tuple = ⟦«e»⟧; ⟨«path»⟩(«accessList is») }"

/-- The arguments of `__expand_tuple!`. -/
def tupleArgs (path e : List TT) (tys : List Ty) : List TT := rust% "«path», «e», «tyList tys»"

/-- `compile_error!(..);` -/
def tooManyTT : List TT := rust% "compile_error!(\"Only enum tuple variants of up to 32 elements are supported\");"

theorem transL_tooMany (e : Mbe.Env) : transL e tooMany = some tooManyTT := by simp [tooMany, tooManyTT, mbe]

theorem matchL_expandTupleHead {path e : List TT} (hp : PathToks path) (he : ExprToks e) (fol : List TT → Bool) (ps : List MP) (r : List TT) :
    matchL rc fol (expandTupleHead ++ ps) (path ++ .atom (.punct ",") :: (e ++ .atom (.punct ",") :: r)) =
      (matchL rc fol ps (.atom (.punct ",") :: r)).map fun y =>
        (("variant", .one (.frag .path path)) :: ("expr", .one (.frag .expr e)) :: y.1, y.2) := by
  simp only [expandTupleHead, List.cons_append, List.nil_append, matchL_var, parseFrag, hp _, he _, matchL_tok, headIs, decide_true, if_true,
    List.tail_cons, MR_map_map]

theorem tupleArgs_cons (path e : List TT) (t : Ty) (tys : List Ty) :
    tupleArgs path e (t :: tys) = path ++ .atom (.punct ",") :: (e ++ commaTail (t :: tys)) := by
  rw [← comma_tyList]; simp [tupleArgs, ToTT.toTT]

theorem transL_access (env : Mbe.Env) {path e : List TT} (h1 : env.find "variant" = some (.one (.frag .path path)))
    (h2 : env.find "expr" = some (.one (.frag .expr e))) (a : ExpandTupleArm) :
    transL env (expandTupleRule a).2 = some (tupleBody path e (.access a.access)) := by
  have h3 := fun bs => transL_commas env (fun i : Nat => [.tok (.ident "tuple"), .tok (.punct "."), .tok (.lit i.repr)])
    (fun i => [.atom (.ident "tuple"), .atom (.punct "."), .atom (.lit i.repr)]) (by intro a bs; simp [mbe]) a.access bs
  have h4 := h3 []
  rw [List.append_nil] at h4
  by_cases h : 7 ≤ a.access.length <;>
    simp [expandTupleRule, tupleBody, mbe, h1, h2, h3, h4, accessList, h]

theorem expandTuple_last (path e : List TT) (ts : List TT) :
    applyRules rc [(expandTupleHead ++ [.tok (.punct ","), .rep [.var "others" .ty] (some (.punct ",")) .star], tooMany)] ts = none ∨
    applyRules rc [(expandTupleHead ++ [.tok (.punct ","), .rep [.var "others" .ty] (some (.punct ",")) .star], tooMany)] ts = some tooManyTT := by
  simp only [applyRules]
  cases matchAll rc (expandTupleHead ++ [.tok (.punct ","), .rep [.var "others" .ty] (some (.punct ",")) .star]) ts with
  | no => exact .inl rfl
  | fatal => exact .inl rfl
  | yes e => exact .inr (transL_tooMany e)

theorem expandTuple_run {path e : List TT} (hp : PathToks path) (he : ExprToks e) (t : Ty) (tys : List Ty) :
    applyRules rc expandTupleRules (tupleArgs path e (t :: tys)) =
      match expandTupleTable.find? (fun a => a.params.length == (t :: tys).length) with
      | some a => some (tupleBody path e (.access a.access))
      | none => applyRules rc [(expandTupleHead ++ [.tok (.punct ","), .rep [.var "others" .ty] (some (.punct ",")) .star], tooMany)]
          (tupleArgs path e (t :: tys)) := by
  have hd := fun ps => matchL_expandTupleHead (rc := rc) hp he List.isEmpty ps (.ty t :: commaTail tys)
  have hd0 := hd []
  have hd1 := hd [.tok (.punct ",")]
  rw [List.append_nil] at hd0
  simp only [← commaTail_cons, ← tupleArgs_cons] at hd hd0 hd1
  have m0 : matchAll rc expandTupleHead (tupleArgs path e (t :: tys)) = .no := by
    rw [matchAll, hd0]; simp [matchL_nil, MR.map, commaTail_cons]
  have m1 : matchAll rc (expandTupleHead ++ [.tok (.punct ",")]) (tupleArgs path e (t :: tys)) = .no := by
    rw [matchAll, hd1]; simp [matchL_nil, matchL_tok, headIs, MR.map, commaTail_cons]
  rw [expandTupleRules, applyRules, m0]
  simp only
  rw [applyRules, m1]
  simp only
  rw [applyRules_table expandTupleRule (fun a => a.params.length == (t :: tys).length)
    (fun a => ("variant", .one (.frag .path path)) :: ("expr", .one (.frag .expr e)) :: tyBinds a.params (t :: tys))]
  · cases expandTupleTable.find? (fun a => a.params.length == (t :: tys).length) with
    | none => rfl
    | some a => exact transL_access _ (by simp [Mbe.Env.find]) (by simp [Mbe.Env.find]) a
  · intro a _ h
    have h := beq_iff_eq.1 h
    rw [matchAll, expandTupleRule, hd]
    have := matchL_tyParams (rc := rc) List.isEmpty a.params [] (t :: tys) [] (by omega)
    rw [List.append_nil, List.append_nil] at this
    rw [this, h]
    simp [matchL_nil, MR.map, commaTail]
  · intro a _ h
    have h : a.params.length ≠ (t :: tys).length := by simpa using h
    rw [matchAll, expandTupleRule, hd]
    by_cases hl : a.params.length ≤ (t :: tys).length
    · have := matchL_tyParams (rc := rc) List.isEmpty a.params [] (t :: tys) [] hl
      rw [List.append_nil, List.append_nil] at this
      rw [this]
      obtain ⟨u, us, hu⟩ : ∃ u us, (t :: tys).drop a.params.length = u :: us := by
        cases hh : (t :: tys).drop a.params.length with
        | nil => rw [List.drop_eq_nil_iff] at hh; omega
        | cons u us => exact ⟨u, us, rfl⟩
      rw [hu]
      simp [matchL_nil, MR.map, commaTail_cons]
    · have := matchL_tyParams_no (rc := rc) List.isEmpty a.params [] (t :: tys) [] (by omega) rfl
      rw [List.append_nil, List.append_nil] at this
      rw [this]
      rfl

theorem expandTuple_ok' {path e : List TT} (hp : PathToks path) (he : ExprToks e) {tys : List Ty} (h : tys.length ≤ 32) :
    applyRules rc expandTupleRules (tupleArgs path e tys) = some (tupleBody path e (tupleExpOf tys.length)) := by
  cases tys with
  | nil =>
    have hd := fun ps => matchL_expandTupleHead (rc := rc) hp he List.isEmpty ps []
    have hd0 := hd []
    rw [List.append_nil] at hd0
    have e1 : tupleArgs path e [] = path ++ .atom (.punct ",") :: (e ++ .atom (.punct ",") :: []) := by
      simp [tupleArgs, tyList, commas, ToTT.toTT]
    rw [e1]
    simp [expandTupleRules, applyRules, matchAll, hd0, hd, mbe, tupleExpOf, tupleBody]
  | cons t tys =>
    rw [expandTuple_run hp he, expandTupleTable_find (t :: tys).length (List.mem_range.2 (by omega)) (by simp)]
    simp [tupleExpOf]

theorem expandTuple_err' {path e : List TT} (hp : PathToks path) (he : ExprToks e) {tys : List Ty} (h : ¬ tys.length ≤ 32) :
    applyRules rc expandTupleRules (tupleArgs path e tys) = none ∨ applyRules rc expandTupleRules (tupleArgs path e tys) = some tooManyTT := by
  cases tys with
  | nil => simp at h
  | cons t tys =>
    have : expandTupleTable.find? (fun a => a.params.length == (t :: tys).length) = none := by
      rw [List.find?_eq_none]
      intro a ha e
      have := expandTupleTable_len a ha
      rw [beq_iff_eq] at e
      omega
    rw [expandTuple_run hp he, this]
    exact expandTuple_last path e _

/-! ## `__expand_tuple_arm!` -/

theorem repItems_parsedTys (fol : List TT → Bool) (sB : List TT → Bool) (n : Nat) (t : Ty) (tys : List Ty) (hn : tys.length < n) :
    repItems (matchL rc fol [.var "ty" .ty]) sB (fun us => MP.startsL rc List.isEmpty us []) (some (.punct ",")) n
        (commaTTs ((t :: tys).map .ty)) =
      .yes ((t :: tys).map fun t => [("ty", .one (.ty t))], []) := by
  induction n generalizing t tys with
  | zero => omega
  | succ n ih =>
    cases tys with
    | nil => simp [repItems, matchL, parseFrag, tyFrag, commaTTs, headIs, MR.map, MP.startsL]
    | cons u us =>
      have := ih u us (by simp at hn; omega)
      simp [repItems, matchL, parseFrag, tyFrag, commaTTs, headIs, MR.map, MP.startsL] at this ⊢
      rw [this]

/-- `$( $ty:ty ),*` on types that have been parsed. -/
theorem matchL_parsedTys (tys : List Ty) :
    matchL rc List.isEmpty [.rep [.var "ty" .ty] (some (.punct ",")) .star] (commaTTs (tys.map .ty)) =
      .yes ([("ty", .list (tys.map .ty))], []) := by
  rw [matchL]
  cases tys with
  | nil => simp [commaTTs, repMatch, MP.startsL, MP.starts, parseFrag, tyFrag, MR.isNo, collect, MP.varsL, MP.vars, Bind.list, matchL, MR.map]
  | cons t ts =>
    have := fun fol sB => repItems_parsedTys (rc := rc) fol sB ((commaTTs ((t :: ts).map TT.ty)).length + 1) t ts (by
      have : ∀ l : List TT, l.length ≤ (commaTTs l).length := by
        intro l
        induction l with
        | nil => simp
        | cons a l ih => cases l with
          | nil => simp [commaTTs]
          | cons b l => simp [commaTTs] at ih ⊢; omega
      have := this ((t :: ts).map TT.ty)
      simp at this ⊢; omega)
    simp only [repMatch, this]
    have h : MP.startsL rc (fun _ => false) (commaTTs ((t :: ts).map TT.ty)) [.var "ty" .ty] = true := by
      cases ts <;> simp [commaTTs, MP.startsL, MP.starts, parseFrag, tyFrag, MR.isNo]
    have h2 : (commaTTs ((t :: ts).map TT.ty)).isEmpty = false := by cases ts <;> rfl
    rw [h]
    simp only [MP.startsL, h2]
    simp [MR.map, matchL, collect, MP.varsL, MP.vars, Bind.list, Mbe.Env.find, Function.comp_def]

/-- The tokens after the head of `__expand_tuple_arm!`. -/
def armRest (tys : List Ty) (acc ts : List TT) : List TT := .group .bracket acc :: .group .bracket ts :: commaTTs (tys.map .ty)

/-- The bindings of the head. -/
def armEnv (tg : List TT) (en v : String) : Mbe.Env :=
  [("tagged", .one (.frag .expr tg)), ("enum", .one (.atom (.ident en))), ("counter", .one (.atom (.ident "__tagged_box_enum_counter"))),
    ("variant", .one (.atom (.ident v)))]

theorem matchL_armHead (tg : List TT) (en v : String) (fol : List TT → Bool) (ps : List MP) (r : List TT) :
    matchL rc fol (expandArmHead ++ ps) (rust% "⟦«tg»⟧, «en», __tagged_box_enum_counter, «v», «r»") =
      (matchL rc fol ps (.atom (.punct ",") :: r)).map fun y => (armEnv tg en v ++ y.1, y.2) := by
  simp [expandArmHead, mbe, armEnv]
  cases matchL rc fol ps (.atom (.punct ",") :: r) <;> rfl

theorem matchL_armRest (tys : List Ty) (acc ts : List TT) :
    matchL rc List.isEmpty (expandArmLists ++ expandArmTys) (armRest tys acc ts) =
      .yes ([("finished", .list acc), ("rest", .list ts), ("ty", .list (tys.map .ty))], []) := by
  simp [expandArmLists, expandArmTys, armRest, mbe, matchL_parsedTys]

theorem armCall_eq (tg : List TT) (en v : String) (tys : List Ty) (acc ts : List TT) :
    armCall tg en v tys acc ts =
      rust% "⟦«tg»⟧, «en», __tagged_box_enum_counter, «v», «tyList tys ++ armRest tys acc ts»" := by
  simp [armCall, armRest, ToTT.toTT, tyList_eq]

/-- The names of the parameters are none of the other metavariables. -/
theorem armParams_ok : ∀ a ∈ expandTupleArmTable, ∀ x ∈ ["finished", "rest", "ty"], x ∉ a.params := by decide

theorem find_tyBinds (x : String) (ps : List String) (tys : List Ty) (e : Mbe.Env) (h : x ∉ ps) :
    Mbe.Env.find x (tyBinds ps tys ++ e) = Mbe.Env.find x e := by
  induction ps generalizing tys with
  | nil => simp [tyBinds]
  | cons p ps ih =>
    simp only [List.mem_cons, not_or] at h
    cases tys with
    | nil => simp [tyBinds]
    | cons t tys =>
      have := ih tys h.2
      simp only [tyBinds, List.zip_cons_cons, List.map_cons, List.cons_append, Mbe.Env.find] at this ⊢
      rw [if_neg (fun e => h.1 e.symm), this]

/-- The bindings after a match. -/
def armBinds (tg : List TT) (en v : String) (ps : List String) (tys : List Ty) (acc ts : List TT) : Mbe.Env :=
  armEnv tg en v ++ (tyBinds ps tys ++ [("finished", .list acc), ("rest", .list ts), ("ty", .list (tys.map .ty))])

theorem armBinds_find (tg : List TT) (en v : String) (ps : List String) (tys : List Ty) (acc ts : List TT)
    (h : ∀ x ∈ ["finished", "rest", "ty"], x ∉ ps) :
    let e := armBinds tg en v ps tys acc ts
    e.find "tagged" = some (.one (.frag .expr tg)) ∧ e.find "enum" = some (.one (.atom (.ident en))) ∧
    e.find "counter" = some (.one (.atom (.ident "__tagged_box_enum_counter"))) ∧ e.find "variant" = some (.one (.atom (.ident v))) ∧
    e.find "finished" = some (.list acc) ∧ e.find "rest" = some (.list ts) ∧ e.find "ty" = some (.list (tys.map .ty)) := by
  have h1 := h "finished" (by simp)
  have h2 := h "rest" (by simp)
  have h3 := h "ty" (by simp)
  simp [armBinds, armEnv, Mbe.Env.find, find_tyBinds, h1, h2, h3]

theorem transL_armEmpty {e : Mbe.Env} {tg : List TT} {en v : String} {acc ts : List TT} (h1 : e.find "tagged" = some (.one (.frag .expr tg)))
    (h2 : e.find "enum" = some (.one (.atom (.ident en)))) (h3 : e.find "counter" = some (.one (.atom (.ident "__tagged_box_enum_counter"))))
    (h4 : e.find "variant" = some (.one (.atom (.ident v)))) (h5 : e.find "finished" = some (.list acc))
    (h6 : e.find "rest" = some (.list ts)) :
    transL e (expandArmBody expandArmEmpty) =
      some (call "__taggable_into_box" .paren (intoBoxIn tg en (acc ++ (IntoArm.dangling v true v).rust en) ts)) := by
  simp [expandArmBody, expandArmEmpty, mbe, h1, h2, h3, h4, h5, h6, intoBoxIn, IntoArm.rust]

theorem transL_armFields {e : Mbe.Env} {tg : List TT} {en v : String} {acc ts : List TT} {tys : List Ty} (bs as : List String)
    (h1 : e.find "tagged" = some (.one (.frag .expr tg)))
    (h2 : e.find "enum" = some (.one (.atom (.ident en)))) (h3 : e.find "counter" = some (.one (.atom (.ident "__tagged_box_enum_counter"))))
    (h4 : e.find "variant" = some (.one (.atom (.ident v)))) (h5 : e.find "finished" = some (.list acc))
    (h6 : e.find "rest" = some (.list ts)) (h7 : e.find "ty" = some (.list (tys.map .ty))) :
    transL e (expandArmBody (expandArmFields bs as)) =
      some (call "__taggable_into_box" .paren (intoBoxIn tg en (acc ++ (IntoArm.tuple v bs tys as v).rust en) ts)) := by
  have h8 : ∀ l : List String, transL e (commasMB (l.map fun b => [.tok (.ident b)])) = some (nameList l) := by
    intro l
    have := transL_commas e (fun b : String => [.tok (.ident b)]) (fun b => [.atom (.ident b)]) (by intro a bs; simp [mbe]) l []
    rw [List.append_nil] at this
    rw [this]
    simp [transL_nil, nameList, ToTT.toTT]
  simp only [nameList_eq] at h8
  simp [expandArmBody, expandArmFields, mbe, h1, h2, h3, h4, h5, h6, h7, h8, intoBoxIn, IntoArm.rust]

/-- The last rule of `__expand_tuple_arm!`. -/
def armLast : Rule := (expandArmHead ++ [.tok (.punct ","), .rep [.var "others" .ty] (some (.punct ",")) .star] ++ expandArmLists, tooMany)

theorem expandArm_last (ts : List TT) : applyRules rc [armLast] ts = none ∨ applyRules rc [armLast] ts = some tooManyTT := by
  simp only [applyRules, armLast]
  cases matchAll rc (expandArmHead ++ [.tok (.punct ","), .rep [.var "others" .ty] (some (.punct ",")) .star] ++ expandArmLists) ts with
  | no => exact .inl rfl
  | fatal => exact .inl rfl
  | yes e => exact .inr (transL_tooMany e)

theorem expandArm_run (tg : List TT) (en v : String) (t : Ty) (tys : List Ty) (acc ts : List TT) :
    applyRules rc expandTupleArmRules (armCall tg en v (t :: tys) acc ts) =
      match expandTupleArmTable.find? (fun a => a.params.length == (t :: tys).length) with
      | some a => some (call "__taggable_into_box" .paren
          (intoBoxIn tg en (acc ++ (IntoArm.tuple v a.binders (t :: tys) a.args v).rust en) ts))
      | none => applyRules rc [armLast] (armCall tg en v (t :: tys) acc ts) := by
  have hd := fun ps => matchL_armHead (rc := rc) tg en v List.isEmpty ps (tyList (t :: tys) ++ armRest (t :: tys) acc ts)
  rw [← armCall_eq] at hd
  simp only [show ∀ r, TT.atom (.punct ",") :: (tyList (t :: tys) ++ r) = commaTail (t :: tys) ++ r from
    fun r => by rw [← List.cons_append, comma_tyList]] at hd
  have m0 : matchAll rc (expandArmHead ++ expandArmLists ++ expandArmTys) (armCall tg en v (t :: tys) acc ts) = .no := by
    rw [matchAll, List.append_assoc, hd]
    simp [expandArmLists, commaTail_cons, mbe]
  have m1 : matchAll rc (expandArmHead ++ [.tok (.punct ",")] ++ expandArmLists ++ expandArmTys) (armCall tg en v (t :: tys) acc ts) = .no := by
    rw [matchAll, List.append_assoc, List.append_assoc, hd]
    simp [expandArmLists, commaTail_cons, mbe]
  rw [expandTupleArmRules, applyRules, m0]
  simp only
  rw [applyRules, m1]
  simp only
  rw [applyRules_table expandArmRule (fun a => a.params.length == (t :: tys).length)
    (fun a => armBinds tg en v a.params (t :: tys) acc ts)]
  · cases hf : expandTupleArmTable.find? (fun a => a.params.length == (t :: tys).length) with
    | none => rfl
    | some a =>
      obtain ⟨h1, h2, h3, h4, h5, h6, h7⟩ := armBinds_find tg en v a.params (t :: tys) acc ts (armParams_ok a (List.mem_of_find?_eq_some hf))
      exact transL_armFields _ _ h1 h2 h3 h4 h5 h6 h7
  · intro a _ h
    have h := beq_iff_eq.1 h
    rw [matchAll, expandArmRule, List.append_assoc, List.append_assoc, hd, matchL_tyParams (h := by omega), h]
    simp only [List.drop_length]
    rw [show commaTail [] = [] from rfl, List.nil_append, matchL_armRest]
    simp [MR.map, armBinds]
  · intro a _ h
    have h : a.params.length ≠ (t :: tys).length := by simpa using h
    rw [matchAll, expandArmRule, List.append_assoc, List.append_assoc, hd]
    by_cases hl : a.params.length ≤ (t :: tys).length
    · rw [matchL_tyParams (h := hl)]
      obtain ⟨u, us, hu⟩ : ∃ u us, (t :: tys).drop a.params.length = u :: us := by
        cases hh : (t :: tys).drop a.params.length with
        | nil => rw [List.drop_eq_nil_iff] at hh; omega
        | cons u us => exact ⟨u, us, rfl⟩
      rw [hu]
      simp [expandArmLists, commaTail_cons, mbe]
    · rw [matchL_tyParams_no (h := by omega) (hr := by rfl)]
      rfl

theorem expandArm_ok (tg : List TT) (en v : String) {tys : List Ty} (h : tys.length ≤ 32) (h1 : ∀ t, tys ≠ [t]) (acc ts : List TT) :
    applyRules rc expandTupleArmRules (armCall tg en v tys acc ts) =
      some (call "__taggable_into_box" .paren (intoBoxIn tg en (acc ++ (intoArmOf ⟨v, .tuple tys⟩).rust en) ts)) := by
  match tys, h1 with
  | [], _ =>
    have hd := fun ps => matchL_armHead (rc := rc) tg en v List.isEmpty ps (tyList [] ++ armRest [] acc ts)
    rw [← armCall_eq] at hd
    have hr := matchL_armRest (rc := rc) [] acc ts
    obtain ⟨h1, h2, h3, h4, h5, h6, h7⟩ := armBinds_find tg en v [] [] acc ts (by simp)
    have m0 : matchAll rc (expandArmHead ++ expandArmLists ++ expandArmTys) (armCall tg en v [] acc ts) = .no := by
      rw [matchAll, List.append_assoc, hd]
      simp [expandArmLists, mbe]
    have m1 : matchAll rc (expandArmHead ++ [.tok (.punct ",")] ++ expandArmLists ++ expandArmTys) (armCall tg en v [] acc ts) =
        .yes (armBinds tg en v [] [] acc ts) := by
      rw [matchAll, List.append_assoc, List.append_assoc, hd]
      rw [show tyList [] = [] from rfl, List.nil_append]
      simp only [List.cons_append, List.nil_append, matchL_tok, headIs, decide_true, if_true, List.tail_cons, hr]
      simp [MR.map, armBinds, tyBinds]
    rw [expandTupleArmRules, applyRules, m0]
    simp only
    rw [applyRules, m1]
    exact transL_armEmpty h1 h2 h3 h4 h5 h6
  | [t], h1 => exact absurd rfl (h1 t)
  | t :: u :: tys, _ =>
    rw [expandArm_run, expandTupleArmTable_find (t :: u :: tys).length (List.mem_range.2 (by omega)) (by simp)]
    rfl

theorem expandArm_err (tg : List TT) (en v : String) {tys : List Ty} (h : ¬ tys.length ≤ 32) (acc ts : List TT) :
    applyRules rc expandTupleArmRules (armCall tg en v tys acc ts) = none ∨
    applyRules rc expandTupleArmRules (armCall tg en v tys acc ts) = some tooManyTT := by
  cases tys with
  | nil => simp at h
  | cons t tys =>
    have : expandTupleArmTable.find? (fun a => a.params.length == (t :: tys).length) = none := by
      rw [List.find?_eq_none]
      intro a ha e
      have := expandTupleArmTable_len a ha
      rw [beq_iff_eq] at e
      omega
    rw [expandArm_run, this]
    exact expandArm_last _

end TB.Source

import Verif.Lemmas.MbeTuple

/-! # Expanding the invocations in the code `tagged_box!` generates (no property theorems here) -/

set_option autoImplicit false

namespace TB.Source

open TB.Mbe TB.Macro

variable {rc : Rustc}

/-! ## Simplification -/

theorem both_some_left {α β γ : Type} (f : α → β → γ) (a : α) (y : Option β) : both f (some a) y = y.map (f a) := by cases y <;> rfl

attribute [mbx] both_some_left both_none_left both_none_right exp_nil exp_group exp_punct exp_lit exp_ty exp_frag exp_ident exp_crate
  Function.comp_def ToTT.toTT

@[mbx] theorem headIs_nil (a : Atom) : headIs a [] = false := rfl
@[mbx] theorem headIs_atom (a b : Atom) (r : List TT) : headIs a (.atom b :: r) = decide (a = b) := rfl
@[mbx] theorem headIs_group (a : Atom) (d : Delim) (us r : List TT) : headIs a (.group d us :: r) = false := rfl
@[mbx] theorem headIs_crate (a : Atom) (r : List TT) : headIs a (.crate :: r) = false := rfl
@[mbx] theorem headIs_ty (a : Atom) (t : Ty) (r : List TT) : headIs a (.ty t :: r) = false := rfl
@[mbx] theorem headIs_frag (a : Atom) (k : Kind) (us r : List TT) : headIs a (.frag k us :: r) = false := rfl

/-- Nothing is invoked at the beginning. -/
def NoCall (ts : List TT) : Prop := ∀ m d a r, headOf ts ≠ .call m d a r

theorem exp_noCall {ts : List TT} (h : NoCall ts) {s b b' : Bool} : exp rc crateMacros s b ts = exp rc crateMacros s b' ts := by
  cases hh : headOf ts with
  | done => rw [exp_done hh, exp_done hh]
  | call m d a r => exact absurd hh (h m d a r)
  | error => rw [exp_error hh, exp_error hh]
  | plain t r => rw [exp_plain hh, exp_plain hh]
  | group d us r =>
    have : ts = .group d us :: r := by
      match ts with
      | [] => cases hh
      | .crate :: ts =>
        simp only [headOf] at hh
        split at hh <;> cases hh
      | .atom (.ident s) :: ts =>
        simp only [headOf] at hh
        split at hh <;> cases hh
      | .atom (.punct s) :: ts => cases hh
      | .atom (.lit s) :: ts => cases hh
      | .group d us :: ts => cases hh; rfl
      | .other s :: ts => cases hh
      | .ty t :: ts => cases hh
      | .frag k us :: ts => cases hh
    rw [this, exp_group, exp_group]

theorem NoCall.nil : NoCall [] := fun _ _ _ _ h => by cases h

theorem NoCall.ident (x : String) (r : List TT) : NoCall (.atom (.ident x) :: r) := by
  intro m d a r' h
  simp only [headOf] at h
  split at h <;> cases h

/-! ## Lists without invocations -/

theorem exp_commas {α : Type} {f : α → List TT}
    (hf : ∀ a s b r, headIs (.punct "!") r = false → exp rc crateMacros s b (f a ++ r) = (exp rc crateMacros s false r).map (f a ++ ·))
    (l : List α) (s b : Bool) (r : List TT) (hr : headIs (.punct "!") r = false) (hn : NoCall r) :
    exp rc crateMacros s b (commas (l.map f) ++ r) = (exp rc crateMacros s false r).map (commas (l.map f) ++ ·) := by
  match l with
  | [] => simp [commas]; exact exp_noCall hn
  | [x] => simpa [commas] using hf x s b r hr
  | x :: y :: l =>
    have := exp_commas hf (y :: l) s false r hr hn
    simp only [List.map_cons] at this
    rw [List.map_cons, List.map_cons, commas, List.append_assoc, hf x _ _ _ (by simp [headIs])]
    simp [mbx, this]

theorem exp_commas' {α : Type} {f : α → List TT}
    (hf : ∀ a s b r, headIs (.punct "!") r = false → exp rc crateMacros s b (f a ++ r) = (exp rc crateMacros s false r).map (f a ++ ·))
    (l : List α) (s b : Bool) : exp rc crateMacros s b (commas (l.map f)) = some (commas (l.map f)) := by
  have := exp_commas hf l s b [] rfl .nil
  rw [List.append_nil, exp_nil] at this
  rw [this]; simp

@[mbx] theorem exp_nameList (xs : List String) (s b : Bool) : exp rc crateMacros s b (nameList xs) = some (nameList xs) :=
  exp_commas' (by intro a s b r hr; simp [mbx, hr]) xs s b

@[mbx] theorem exp_tyList (xs : List Ty) (s b : Bool) : exp rc crateMacros s b (tyList xs) = some (tyList xs) :=
  exp_commas' (by intro a s b r hr; simp [mbx]) xs s b

@[mbx] theorem exp_fieldList (xs : List (String × Ty)) (s b : Bool) : exp rc crateMacros s b (fieldList xs) = some (fieldList xs) :=
  exp_commas' (by intro a s b r hr; simp [mbx]) xs s b

@[mbx] theorem exp_stringify (vs : List String) (s b : Bool) :
    exp rc crateMacros s b (commas (vs.map fun v => rust% "stringify!(«v»)")) = some (commas (vs.map fun v => rust% "stringify!(«v»)")) :=
  exp_commas' (by intro a s b r hr; simp [mbx]) vs s b

theorem exp_flat {α : Type} {f : α → List TT}
    (hf : ∀ a s b r, NoCall r → exp rc crateMacros s b (f a ++ r) = (exp rc crateMacros s false r).map (f a ++ ·))
    (hn : ∀ a r, NoCall (f a ++ r))
    (l : List α) (s b : Bool) (r : List TT) (hr : NoCall r) :
    exp rc crateMacros s b (l.flatMap f ++ r) = (exp rc crateMacros s false r).map (l.flatMap f ++ ·) := by
  induction l generalizing b with
  | nil => simp; exact exp_noCall hr
  | cons a l ih =>
    have h : NoCall (l.flatMap f ++ r) := by
      cases l with
      | nil => exact hr
      | cons b l => rw [List.flatMap_cons, List.append_assoc]; exact hn _ _
    rw [List.flatMap_cons, List.append_assoc, hf _ _ _ _ h, ih]
    simp [Function.comp_def]

theorem exp_flat' {α : Type} {f : α → List TT}
    (hf : ∀ a s b r, NoCall r → exp rc crateMacros s b (f a ++ r) = (exp rc crateMacros s false r).map (f a ++ ·))
    (hn : ∀ a r, NoCall (f a ++ r)) (l : List α) (s b : Bool) : exp rc crateMacros s b (l.flatMap f) = some (l.flatMap f) := by
  have := exp_flat hf hn l s b [] .nil
  rw [List.append_nil, exp_nil] at this
  rw [this]; simp

theorem NoCall.ty (x : Ty) (r : List TT) : NoCall (.ty x :: r) := by
  intro m d a r' h
  simp only [headOf] at h
  cases h

theorem NoCall.frag (k : Kind) (us r : List TT) : NoCall (.frag k us :: r) := by
  intro m d a r' h
  simp only [headOf] at h
  cases h

theorem NoCall.punct (x : String) (r : List TT) : NoCall (.atom (.punct x) :: r) := by
  intro m d a r' h
  simp only [headOf] at h
  cases h

@[mbx] theorem exp_tyListTrailing (xs : List Ty) (s b : Bool) : exp rc crateMacros s b (tyListTrailing xs) = some (tyListTrailing xs) :=
  exp_flat' (by intro a s b r hr; simp [mbx]) (by intro a r; exact .ty _ _) xs s b

@[mbx] theorem exp_variantList (vs : List String) (s b : Bool) : exp rc crateMacros s b (variantList vs) = some (variantList vs) :=
  exp_flat' (by intro a s b r hr; simp [mbx]) (by intro a r; exact .ident _ _) vs s b

@[mbx] theorem exp_attrs (ms : List (List TT)) (s b : Bool) (r : List TT) (hr : NoCall r) :
    exp rc crateMacros s b (attrs ms ++ r) = (exp rc crateMacros s false r).map (attrs ms ++ ·) :=
  exp_flat (by intro a s b r hr; simp [mbx]) (by intro a r; exact .punct _ _) ms s b r hr

@[mbx] theorem exp_accessList (is : List Nat) (s b : Bool) : exp rc crateMacros s b (accessList is) = some (accessList is) := by
  have hf : ∀ (i : Nat) (s b : Bool) (r : List TT), headIs (.punct "!") r = false →
      exp rc crateMacros s b ((rust% "tuple.«TT.atom (.lit (toString i))»") ++ r) =
        (exp rc crateMacros s false r).map ((rust% "tuple.«TT.atom (.lit (toString i))»") ++ ·) := by
    intro a s b r hr; simp [mbx]
  unfold accessList
  split
  · rw [exp_commas hf _ _ _ _ (by rfl) (.punct _ _)]
    simp [mbx]
  · rw [List.append_nil]; exact exp_commas' hf _ _ _

/-! ## `__expand_tuple!` -/

theorem runMac_tuple (args : List TT) : runMac rc crateMacros "__expand_tuple" args = applyRules rc expandTupleRules args := rfl
theorem runMac_arm (args : List TT) : runMac rc crateMacros "__expand_tuple_arm" args = applyRules rc expandTupleArmRules args := rfl
theorem runMac_enum (args : List TT) : runMac rc crateMacros "__make_enum" args = applyRules rc makeEnumRules args := rfl
theorem runMac_into (args : List TT) : runMac rc crateMacros "__taggable_into_box" args = applyRules rc intoBoxRules args := rfl
theorem runMac_derive (args : List TT) : runMac rc crateMacros "__derive_from" args = applyRules rc deriveFromRules args := rfl
theorem runMac_inner (args : List TT) : runMac rc crateMacros "__boxed_into_inner" args = applyRules rc boxedIntoInnerRules args := rfl
theorem runMac_from (args : List TT) : runMac rc crateMacros "__from_tagged_box" args = applyRules rc fromTaggedBoxRules args := rfl
theorem runMac_ref (args : List TT) : runMac rc crateMacros "__ref_from_tagged" args = applyRules rc refFromTaggedRules args := rfl
theorem runMac_counter (args : List TT) : runMac rc crateMacros "__counter_enum" args = applyRules rc counterEnumRules args := rfl
theorem runMac_count (args : List TT) : runMac rc crateMacros "__count_variants" args = applyRules rc countVariantsRules args := rfl

theorem exp_tooMany (s b : Bool) : exp rc crateMacros s b tooManyTT = none := exp_error (by simp [tooManyTT, headOf, headIs])
theorem exp_tooMany' (s b : Bool) : exp rc crateMacros s b (dropSemi tooManyTT) = none :=
  exp_error (by simp [tooManyTT, dropSemi, headOf, headIs])

theorem exp_tupleBody (path e : List TT) (x : TupleExp) :
    exp rc crateMacros false false (dropSemi (tupleBody path e x)) = some (tupleBody path e x) := by
  cases x <;> simp [tupleBody, dropSemi, mbx]

theorem mkExpr_tupleBody (path e : List TT) (x : TupleExp) : [mkExpr (tupleBody path e x)] = x.rust path e := by
  cases x <;> simp [tupleBody, mkExpr, TupleExp.rust, ToTT.toTT]

@[mbx] theorem exp_tupleCall {path e : List TT} (hp : PathToks path) (he : ExprToks e) {tys : List Ty} (h : tys.length ≤ 32) {s b : Bool}
    {r : List TT} (hs : isStmt s b .paren r = false) :
    exp rc crateMacros s b (tupleCall path e tys ++ r) = (exp rc crateMacros s false r).map ((tupleExpOf tys.length).rust path e ++ ·) := by
  have : tupleCall path e tys ++ r =
      .crate :: .atom (.punct "::") :: .atom (.ident "__expand_tuple") :: .atom (.punct "!") :: .group .paren (tupleArgs path e tys) :: r := by
    simp [tupleCall, tupleArgs, ToTT.toTT]
  rw [this, exp_expr hs, runMac_tuple, expandTuple_ok' hp he h]
  simp only [Option.bind_some, exp_tupleBody, both_some_left]
  rw [← mkExpr_tupleBody]
  rfl

@[mbx] theorem exp_tupleCall' {path e : List TT} (hp : PathToks path) (he : ExprToks e) {tys : List Ty} (h : tys.length ≤ 32) {b : Bool} :
    exp rc crateMacros false b (tupleCall path e tys) = some ((tupleExpOf tys.length).rust path e) := by
  have := exp_tupleCall (rc := rc) hp he h (s := false) (b := b) (r := []) (by simp [isStmt, headIs])
  rw [List.append_nil] at this
  rw [this, exp_nil]; simp

@[mbx] theorem pathToks_two (en v : String) : PathToks [.atom (.ident en), .atom (.punct "::"), .atom (.ident v)] := by
  intro r
  rcases r with _ | ⟨t, r⟩
  · simp [pathFrag, pathRest]
  · rcases t with a | _ | _ | _ | _ | _
    · cases a <;> simp [pathFrag, pathRest]
    all_goals simp [pathFrag, pathRest]

@[mbx] theorem pathToks_one (v : String) : PathToks [.atom (.ident v)] := by
  intro r
  rcases r with _ | ⟨t, r⟩
  · simp [pathFrag, pathRest]
  · rcases t with a | _ | _ | _ | _ | _
    · cases a <;> simp [pathFrag, pathRest]
    all_goals simp [pathFrag, pathRest]

@[mbx] theorem exprToks_tuple : ExprToks [.atom (.ident "tuple")] := by
  intro r; simp [exprFrag, exprStart, exprSpan, exprEnd, mkExpr]

@[mbx] theorem exprToks_inner (en : String) (us tg : List TT) : ExprToks
    (.crate :: .atom (.punct "::") :: .atom (.ident "TaggedBox") :: .atom (.punct "::") :: .atom (.punct "<") :: .atom (.ident en) ::
      .atom (.punct ">") :: .atom (.punct "::") :: .atom (.ident "into_inner") :: .atom (.punct "::") :: .atom (.punct "<") ::
      .group .paren us :: .atom (.punct ">") :: [.group .paren tg]) := by
  intro r; simp [exprFrag, exprStart, exprSpan, exprEnd, mkExpr]

@[mbx] theorem exprToks_inner' (en v : String) (tg : List TT) : ExprToks
    (.crate :: .atom (.punct "::") :: .atom (.ident "TaggedBox") :: .atom (.punct "::") :: .atom (.punct "<") :: .atom (.ident en) ::
      .atom (.punct ">") :: .atom (.punct "::") :: .atom (.ident "into_inner") :: .atom (.punct "::") :: .atom (.punct "<") ::
      .atom (.ident v) :: .atom (.punct ">") :: [.group .paren tg]) := by
  intro r; simp [exprFrag, exprStart, exprSpan, exprEnd, mkExpr]

@[mbx] theorem exprToks_ptr (v : String) (tg : List TT) : ExprToks
    [.frag .expr tg, .atom (.punct "."), .atom (.ident "as_ptr"), .atom (.punct "::"), .atom (.punct "<"),
      .atom (.ident v), .atom (.punct ">"), .group .paren [], .atom (.punct "."), .atom (.ident "read"), .group .paren []] := by
  intro r; simp [exprFrag, exprStart, exprSpan, exprEnd, mkExpr]

/-! ## Arms -/

theorem exp_innerSrc (en : String) (tg : List TT) {d : VariantDef} (hd : DefOK d) (s b : Bool) (r : List TT) :
    exp rc crateMacros s b (innerSrc en tg d ++ r) = (exp rc crateMacros s false r).map ((readArmOf true d).rust en tg ++ ·) := by
  obtain ⟨v, f⟩ := d
  cases f with
  | unit => simp [innerSrc, readArmOf, ReadArm.rust, guardSrc, mbx]
  | tuple tys =>
    have h := hd tys rfl
    rcases Classical.em (∃ t, tys = [t]) with ⟨t, rfl⟩ | h3
    · simp [innerSrc, readArmOf, ReadArm.rust, guardSrc, mbx]
    · have h3 : ∀ t, tys ≠ [t] := fun t e => h3 ⟨t, e⟩
      simp [innerSrc, readArmOf, ReadArm.rust, guardSrc, mbx, isStmt, h, h3]
  | record ms => simp [innerSrc, readArmOf, ReadArm.rust, guardSrc, mbx]

theorem exp_fromSrc (en : String) (tg : List TT) {d : VariantDef} (hd : DefOK d) (s b : Bool) (r : List TT) :
    exp rc crateMacros s b (fromSrc en tg d ++ r) = (exp rc crateMacros s false r).map ((readArmOf false d).rust en tg ++ ·) := by
  obtain ⟨v, f⟩ := d
  cases f with
  | unit => simp [fromSrc, readArmOf, ReadArm.rust, guardSrc, mbx]
  | tuple tys =>
    have h := hd tys rfl
    rcases Classical.em (∃ t, tys = [t]) with ⟨t, rfl⟩ | h3
    · simp [fromSrc, readArmOf, ReadArm.rust, guardSrc, mbx]
    · have h3 : ∀ t, tys ≠ [t] := fun t e => h3 ⟨t, e⟩
      simp [fromSrc, readArmOf, ReadArm.rust, guardSrc, mbx, isStmt, h, h3]
  | record ms => simp [fromSrc, readArmOf, ReadArm.rust, guardSrc, mbx]

theorem exp_refSrc (en : String) {d : VariantDef} (hd : DefOK d) (s b : Bool) (r : List TT) :
    exp rc crateMacros s b (refSrc en d ++ r) = (exp rc crateMacros s true r).map ((refArmOf d).rust en ++ ·) := by
  obtain ⟨v, f⟩ := d
  cases f with
  | unit => simp [refSrc, refArmOf, RefArm.rust, guardSrc, mbx]
  | tuple tys =>
    have h := hd tys rfl
    rcases Classical.em (∃ t, tys = [t]) with ⟨t, rfl⟩ | h3
    · simp [refSrc, refArmOf, RefArm.rust, guardSrc, mbx]
    · have h3 : ∀ t, tys ≠ [t] := fun t e => h3 ⟨t, e⟩
      simp [refSrc, refArmOf, RefArm.rust, guardSrc, mbx, isStmt, h, h3]
  | record ms => simp [refSrc, refArmOf, RefArm.rust, guardSrc, mbx]

theorem exp_deriveSrc (sn en : String) {d : VariantDef} (hd : DefOK d) (s : Bool) (r : List TT) :
    exp rc crateMacros s true (deriveSrc sn en d ++ r) =
      (exp rc crateMacros s true r).map ((fromImplOf d).toList.flatMap (FromImpl.rust sn en) ++ ·) := by
  obtain ⟨v, f⟩ := d
  cases f with
  | unit => simp [deriveSrc, fromImplOf]
  | tuple tys =>
    have h := hd tys rfl
    rcases Classical.em (∃ t, tys = [t]) with ⟨t, rfl⟩ | h3
    · simp [deriveSrc, fromImplOf, FromImpl.rust, mbx]
    · have h3 : ∀ t, tys ≠ [t] := fun t e => h3 ⟨t, e⟩
      simp [deriveSrc, fromImplOf, FromImpl.rust, mbx, isStmt, h, h3]
  | record ms => simp [deriveSrc, fromImplOf]

theorem exp_intoArm (en : String) (d : VariantDef) (s b : Bool) (r : List TT) (hr : NoCall r) :
    exp rc crateMacros s b ((intoArmOf d).rust en ++ r) = (exp rc crateMacros s false r).map ((intoArmOf d).rust en ++ ·) := by
  have h : exp rc crateMacros s true r = exp rc crateMacros s false r := exp_noCall hr
  cases intoArmOf d with
  | dangling v u c => cases u <;> simp [IntoArm.rust, mbx]
  | single => simp [IntoArm.rust, mbx]
  | tuple => simp [IntoArm.rust, mbx, h]
  | record => simp [IntoArm.rust, mbx, h]

theorem exp_variantDef (d : VariantDef) (s b : Bool) (r : List TT) :
    exp rc crateMacros s b (d.rust ++ r) = (exp rc crateMacros s false r).map (d.rust ++ ·) := by
  obtain ⟨v, f⟩ := d
  cases f <;> simp [VariantDef.rust, mbx]

/-! ## Chains of invocations -/

theorem exp_callStmts (m : String) (d : Delim) (args : List TT) :
    exp rc crateMacros true true (call m d args) = (runMac rc crateMacros m args).bind (exp rc crateMacros true true) := by
  rw [call, exp_stmts (by simp [isStmt]), exp_nil]
  cases (runMac rc crateMacros m args).bind (exp rc crateMacros true true) <;> simp [both]

theorem exp_callExpr (m : String) (args : List TT) (b : Bool) :
    exp rc crateMacros false b (call m .paren args) =
      ((runMac rc crateMacros m args).bind fun body => exp rc crateMacros false false (dropSemi body)).map fun o => [mkExpr o] := by
  rw [call, exp_expr (by simp [isStmt, headIs]), exp_nil]
  cases (runMac rc crateMacros m args).bind fun body => exp rc crateMacros false false (dropSemi body) <;> simp [both]

theorem dropSemi_call (m : String) (d : Delim) (args : List TT) : dropSemi (call m d args) = call m d args := by simp [call, dropSemi, headIs]
theorem dropSemi_call' (m : String) (d : Delim) (args : List TT) : dropSemi (call m d args ++ [.atom (.punct ";")]) = call m d args := by
  simp [call, dropSemi, headIs]

theorem mkExpr_expr (o : List TT) : mkExpr [.frag .expr o] = .frag .expr o := rfl

theorem variantList_append (vs : List String) (v : String) : variantList vs ++ variantList [v] = variantList (vs ++ [v]) := by
  simp [variantList]

theorem exp_counter {ts : List Tok} {decl : List VariantDef} (h : DeclSyntax rc ts decl) (vs : List String) :
    exp rc crateMacros true true (call "__counter_enum" .paren (counterIn (variantList vs) (ttsOf ts))) =
      some (counterRust (vs ++ decl.map (·.name))) := by
  induction h generalizing vs with
  | nil =>
    rw [exp_callStmts, runMac_counter, show ttsOf [] = [] from rfl, counter_end]
    simp [mbx, counterRust]
  | cons hv _ ih =>
    rw [exp_callStmts, runMac_counter, counter_step _ hv, Option.bind_some, variantList_append, ih]
    simp

theorem exp_count {ts : List Tok} {decl : List VariantDef} (h : DeclSyntax rc ts decl) (vs : List String) (b : Bool) :
    exp rc crateMacros false b (call "__count_variants" .paren (counterIn (variantList vs) (ttsOf ts))) =
      some (totalRust (vs ++ decl.map (·.name))) := by
  induction h generalizing vs b with
  | nil =>
    rw [exp_callExpr, runMac_count, show ttsOf [] = [] from rfl, count_end, Option.bind_some]
    simp only [totalRust]
    have hs := exp_stringify (rc := rc) vs false true
    simp [ToTT.toTT] at hs
    simp [dropSemi, mbx, mkExpr, hs]
  | cons hv _ ih =>
    rw [exp_callExpr, runMac_count, count_step _ hv, Option.bind_some, variantList_append, dropSemi_call, ih]
    simp [totalRust, mkExpr_expr]

theorem exp_enum (v : List TT) (en : String) (metas : List (List TT)) {ts : List Tok} {decl : List VariantDef} (h : DeclSyntax rc ts decl)
    (ds : List VariantDef) :
    exp rc crateMacros true true (call "__make_enum" .brace (makeEnumIn v en metas (ds.flatMap VariantDef.rust) (ttsOf ts))) =
      some (rust% "«attrs metas» «TT.frag .vis v» enum «en» { «(ds ++ decl).flatMap VariantDef.rust» }") := by
  induction h generalizing ds with
  | nil =>
    rw [exp_callStmts, runMac_enum, show ttsOf [] = [] from rfl, makeEnum_end]
    have := exp_flat' (rc := rc) (f := VariantDef.rust) (fun d s b r _ => exp_variantDef d s b r)
      (fun d r => by obtain ⟨v, f⟩ := d; cases f <;> exact .ident _ _) ds false true
    simp [mbx, NoCall.frag, this]
  | @cons ts d rest decl hv _ ih =>
    rw [exp_callStmts, runMac_enum, makeEnum_step _ _ _ _ hv, Option.bind_some]
    have := ih (ds ++ [d])
    simp only [List.flatMap_append, List.flatMap_cons, List.flatMap_nil, List.append_nil, List.append_assoc] at this ⊢
    rw [this]

theorem exp_arms {src rust : VariantDef → List TT}
    (h : ∀ d, DefOK d → ∀ b r, ∃ b', exp rc crateMacros false b (src d ++ r) = (exp rc crateMacros false b' r).map (rust d ++ ·))
    (hn : ∀ d r, NoCall (src d ++ r)) {ds : List VariantDef} (hd : ∀ d ∈ ds, DefOK d) (b : Bool) (r : List TT) (hr : NoCall r) :
    exp rc crateMacros false b (ds.flatMap src ++ r) = (exp rc crateMacros false false r).map (ds.flatMap rust ++ ·) := by
  induction ds generalizing b with
  | nil => simp; exact exp_noCall hr
  | cons d ds ih =>
    obtain ⟨b', hb⟩ := h d (hd d (by simp)) b (ds.flatMap src ++ r)
    have h : NoCall (ds.flatMap src ++ r) := by
      cases ds with
      | nil => exact hr
      | cons b l => rw [List.flatMap_cons, List.append_assoc]; exact hn _ _
    rw [List.flatMap_cons, List.append_assoc, hb, ih (fun d hd' => hd d (by simp [hd']))]
    simp [Function.comp_def]

theorem noCall_readArm (en : String) (tg : List TT) (a : ReadArm) (r : List TT) : NoCall (a.rust en tg ++ r) := by
  obtain ⟨v, c, body⟩ := a
  cases body <;> exact .ident _ _

theorem noCall_innerSrc (en : String) (tg : List TT) (d : VariantDef) (r : List TT) : NoCall (innerSrc en tg d ++ r) := by
  unfold innerSrc
  split
  · exact noCall_readArm _ _ _ _
  · exact .ident _ _
  · exact noCall_readArm _ _ _ _

theorem noCall_fromSrc (en : String) (tg : List TT) (d : VariantDef) (r : List TT) : NoCall (fromSrc en tg d ++ r) := by
  unfold fromSrc
  split
  · exact noCall_readArm _ _ _ _
  · exact .ident _ _
  · exact noCall_readArm _ _ _ _

theorem noCall_refArm (en : String) (a : RefArm) (r : List TT) : NoCall (a.rust en ++ r) := by
  obtain ⟨v, c, body⟩ := a
  cases body <;> exact .ident _ _

theorem noCall_refSrc (en : String) (d : VariantDef) (r : List TT) : NoCall (refSrc en d ++ r) := by
  unfold refSrc
  split
  · exact noCall_refArm _ _ _
  · exact .ident _ _
  · exact noCall_refArm _ _ _

theorem noCall_intoArm (en : String) (a : IntoArm) (r : List TT) : NoCall (a.rust en ++ r) := by
  cases a with
  | dangling v u c => cases u <;> exact .ident _ _
  | single => exact .ident _ _
  | tuple => exact .ident _ _
  | record => exact .ident _ _

/-- The body of `into_inner`. -/
def innerEnd (tg : List TT) (arms : List TT) : List TT :=
  rust% "⟦#[allow(unused_parens)]
    match ⟦«tg»⟧.discriminant() {
      «arms»
      _ => panic!(\"Attempted to create an enum variant from a discriminant that doesn't exist!\"),
    }⟧"

theorem exp_inner (tg : List TT) (en : String) {ts : List Tok} {decl : List VariantDef} (h : DeclSyntax rc ts decl)
    (ds : List VariantDef) (hd : ∀ d ∈ ds ++ decl, DefOK d) (b : Bool) :
    exp rc crateMacros false b (call "__boxed_into_inner" .paren (innerIn tg en (ds.flatMap (innerSrc en tg)) (ttsOf ts))) =
      some (innerEnd tg ((ds ++ decl).flatMap fun d => (readArmOf true d).rust en tg)) := by
  induction h generalizing ds b with
  | nil =>
    rw [exp_callExpr, runMac_inner, show ttsOf [] = [] from rfl, inner_end, Option.bind_some]
    have := fun r hr => exp_arms (rc := rc) (src := innerSrc en tg) (rust := fun d => (readArmOf true d).rust en tg)
      (fun d hd b r => ⟨_, exp_innerSrc en tg hd false b r⟩) (noCall_innerSrc en tg) (ds := ds) (by simpa using hd) true r hr
    simp [dropSemi, mbx, mkExpr, innerEnd, this, NoCall.punct]
  | @cons ts d rest decl hv _ ih =>
    rw [exp_callExpr, runMac_inner, inner_step _ _ _ hv, Option.bind_some, dropSemi_call']
    have := ih (ds ++ [d]) (by simpa using hd) false
    simp only [List.flatMap_append, List.flatMap_cons, List.flatMap_nil, List.append_nil, List.append_assoc] at this ⊢
    rw [this]
    simp [innerEnd, mkExpr_expr]

/-- The body of `from_tagged_box`. -/
def fromEnd (tg : List TT) (en : String) (tot arms : List TT) : List TT :=
  rust% "⟦#[allow(unused_parens)] match ⟦«tg»⟧.discriminant() { «arms» «lastArm msgCreated en tot» }⟧"

theorem exp_from (tg : List TT) (en : String) (tot : List TT) {ts : List Tok} {decl : List VariantDef} (h : DeclSyntax rc ts decl)
    (ds : List VariantDef) (hd : ∀ d ∈ ds ++ decl, DefOK d) (b : Bool) :
    exp rc crateMacros false b (call "__from_tagged_box" .paren (fromIn tg en tot (ds.flatMap (fromSrc en tg)) (ttsOf ts))) =
      some (fromEnd tg en tot ((ds ++ decl).flatMap fun d => (readArmOf false d).rust en tg)) := by
  induction h generalizing ds b with
  | nil =>
    rw [exp_callExpr, runMac_from, show ttsOf [] = [] from rfl, from_end, Option.bind_some]
    have := fun r hr => exp_arms (rc := rc) (src := fromSrc en tg) (rust := fun d => (readArmOf false d).rust en tg)
      (fun d hd b r => ⟨_, exp_fromSrc en tg hd false b r⟩) (noCall_fromSrc en tg) (ds := ds) (by simpa using hd) true r hr
    simp [dropSemi, mbx, mkExpr, fromEnd, this, NoCall.ident, lastArm]
  | @cons ts d rest decl hv _ ih =>
    rw [exp_callExpr, runMac_from, from_step _ _ _ _ hv, Option.bind_some, dropSemi_call]
    have := ih (ds ++ [d]) (by simpa using hd) false
    simp only [List.flatMap_append, List.flatMap_cons, List.flatMap_nil, List.append_nil, List.append_assoc] at this ⊢
    rw [this]
    simp [fromEnd, mkExpr_expr]

/-- The body of `ref_from_tagged_box`. -/
def refEnd (en : String) (tot arms : List TT) : List TT :=
  rust% "#[allow(unused_parens)] match ⟦tagged⟧.discriminant() { «arms» «lastArm msgReferenced en tot» }"

theorem exp_ref (en : String) (tot : List TT) {ts : List Tok} {decl : List VariantDef} (h : DeclSyntax rc ts decl)
    (ds : List VariantDef) (hd : ∀ d ∈ ds ++ decl, DefOK d) :
    exp rc crateMacros true true (call "__ref_from_tagged" .paren
        (refIn (rust% "tagged") (rust% "callback") en tot (ds.flatMap (refSrc en)) (ttsOf ts))) =
      some (refEnd en tot ((ds ++ decl).flatMap fun d => (refArmOf d).rust en)) := by
  induction h generalizing ds with
  | nil =>
    rw [exp_callStmts, runMac_ref, show ttsOf [] = [] from rfl, ref_end, Option.bind_some]
    have := fun r hr => exp_arms (rc := rc) (src := refSrc en) (rust := fun d => (refArmOf d).rust en)
      (fun d hd b r => ⟨_, exp_refSrc en hd false b r⟩) (noCall_refSrc en) (ds := ds) (by simpa using hd) true r hr
    simp [mbx, refEnd, this, NoCall.ident, lastArm]
  | @cons ts d rest decl hv _ ih =>
    rw [exp_callStmts, runMac_ref, ref_step _ _ _ hv, Option.bind_some]
    have := ih (ds ++ [d]) (by simpa using hd)
    simp only [List.flatMap_append, List.flatMap_cons, List.flatMap_nil, List.append_nil, List.append_assoc] at this ⊢
    rw [this]

theorem exp_derive (sn en : String) {ts : List Tok} {decl : List VariantDef} (h : DeclSyntax rc ts decl) (hd : ∀ d ∈ decl, DefOK d) :
    exp rc crateMacros true true (call "__derive_from" .brace (deriveIn sn en (ttsOf ts))) =
      some ((decl.filterMap fromImplOf).flatMap (FromImpl.rust sn en)) := by
  induction h with
  | nil =>
    rw [exp_callStmts, runMac_derive, show ttsOf [] = [] from rfl, derive_end, Option.bind_some, exp_nil]
    rfl
  | @cons ts d rest decl hv _ ih =>
    rw [exp_callStmts, runMac_derive, derive_step _ _ hv, Option.bind_some, exp_deriveSrc _ _ (hd d (by simp)),
      ih (fun d hd' => hd d (by simp [hd']))]
    rw [Option.map_some]
    cases hf : fromImplOf d <;> simp [hf, List.filterMap_cons]

/-- The body of `into_tagged_box`. -/
def intoEnd (tg arms : List TT) : List TT := rust% "⟦match ⟦«tg»⟧ { «arms» }⟧"

theorem exp_into_step (tg : List TT) (en : String) {d : VariantDef} (hd : DefOK d) (acc ts : List TT) (o : List TT)
    (h : exp rc crateMacros false false (call "__taggable_into_box" .paren (intoBoxIn tg en (acc ++ (intoArmOf d).rust en) ts)) =
      some [.frag .expr o]) :
    exp rc crateMacros false false (dropSemi (intoNext tg en acc d ts)) = some [.frag .expr o] := by
  obtain ⟨v, f⟩ := d
  cases f with
  | unit => simpa [intoNext, dropSemi_call] using h
  | tuple tys =>
    rcases Classical.em (∃ t, tys = [t]) with ⟨t, rfl⟩ | h3
    · simpa [intoNext, dropSemi_call] using h
    · have h3 : ∀ t, tys ≠ [t] := fun t e => h3 ⟨t, e⟩
      have : intoNext tg en acc ⟨v, .tuple tys⟩ ts = call "__expand_tuple_arm" .paren (armCall tg en v tys acc ts) := by
        simp [intoNext, h3]
      rw [this, dropSemi_call, exp_callExpr, runMac_arm, expandArm_ok tg en v (hd tys rfl) h3, Option.bind_some, dropSemi_call, h]
      rfl
  | record ms => simpa [intoNext, dropSemi_call] using h

theorem exp_into (tg : List TT) (en : String) {ts : List Tok} {decl : List VariantDef} (h : DeclSyntax rc ts decl)
    (ds : List VariantDef) (hd : ∀ d ∈ decl, DefOK d) (b : Bool) :
    exp rc crateMacros false b (call "__taggable_into_box" .paren
        (intoBoxIn tg en (ds.flatMap fun d => (intoArmOf d).rust en) (ttsOf ts))) =
      some (intoEnd tg ((ds ++ decl).flatMap fun d => (intoArmOf d).rust en)) := by
  induction h generalizing ds b with
  | nil =>
    rw [exp_callExpr, runMac_into, show ttsOf [] = [] from rfl, into_end, Option.bind_some]
    have := exp_flat' (rc := rc) (f := fun d => (intoArmOf d).rust en) (fun d s b r hr => exp_intoArm en d s b r hr)
      (fun d r => noCall_intoArm en _ r) ds false true
    simp [dropSemi, mbx, mkExpr, intoEnd, this]
  | @cons ts d rest decl hv _ ih =>
    rw [exp_callExpr, runMac_into, into_step _ _ _ hv, Option.bind_some]
    have := ih (ds ++ [d]) (fun d hd' => hd d (by simp [hd'])) false
    simp only [List.flatMap_append, List.flatMap_cons, List.flatMap_nil, List.append_nil, List.append_assoc] at this
    rw [exp_into_step tg en (hd d (by simp)) _ _ _ (by rw [this]; rfl)]
    simp [intoEnd, mkExpr_expr]

theorem exp_into_err (tg : List TT) (en : String) {ts : List Tok} {decl : List VariantDef} (h : DeclSyntax rc ts decl)
    (acc : List TT) (hd : ¬ ∀ d ∈ decl, DefOK d) (b : Bool) :
    exp rc crateMacros false b (call "__taggable_into_box" .paren (intoBoxIn tg en acc (ttsOf ts))) = none := by
  induction h generalizing acc b with
  | nil => simp at hd
  | @cons ts d rest decl hv _ ih =>
    rw [exp_callExpr, runMac_into, into_step _ _ _ hv, Option.bind_some]
    obtain ⟨v, f⟩ := d
    have hu : DefOK ⟨v, f⟩ → ¬ ∀ d ∈ decl, DefOK d := by
      intro h1 h2
      apply hd
      intro d hd'
      rcases List.mem_cons.1 hd' with rfl | hd'
      · exact h1
      · exact h2 d hd'
    have h0 : (∀ tys, f ≠ .tuple tys) → DefOK ⟨v, f⟩ := fun h tys e => absurd e (h tys)
    cases f with
    | unit =>
      simp only [intoNext, dropSemi_call]
      rw [ih _ (hu (h0 (by simp)))]; rfl
    | record ms =>
      simp only [intoNext, dropSemi_call]
      rw [ih _ (hu (h0 (by simp)))]; rfl
    | tuple tys =>
      rcases Classical.em (∃ t, tys = [t]) with ⟨t, rfl⟩ | h3
      · simp only [intoNext, dropSemi_call]
        rw [ih _ (hu (fun tys e => by cases e; simp))]; rfl
      · have h3 : ∀ t, tys ≠ [t] := fun t e => h3 ⟨t, e⟩
        have : intoNext tg en acc ⟨v, .tuple tys⟩ (ttsOf rest) = call "__expand_tuple_arm" .paren (armCall tg en v tys acc (ttsOf rest)) := by
          simp [intoNext, h3]
        rw [this, dropSemi_call, exp_callExpr, runMac_arm]
        by_cases hl : tys.length ≤ 32
        · rw [expandArm_ok tg en v hl h3, Option.bind_some, dropSemi_call, ih _ (hu (fun tys e => by cases e; exact hl))]; rfl
        · rcases expandArm_err (rc := rc) tg en v hl acc (ttsOf rest) with h | h
          · rw [h]; rfl
          · rw [h, Option.bind_some, exp_tooMany']; rfl

theorem exp_enum_err (v : List TT) (en : String) (metas : List (List TT)) (n : Nat) (ts : List Tok) (hl : ts.length ≤ n)
    (h : ∀ decl, ¬ DeclSyntax rc ts decl) (acc : List TT) :
    exp rc crateMacros true true (call "__make_enum" .brace (makeEnumIn v en metas acc (ttsOf ts))) = none := by
  induction n generalizing ts acc with
  | zero =>
    have : ts = [] := List.length_eq_zero_iff.1 (by omega)
    exact absurd .nil (this ▸ h [])
  | succ n ih =>
    rw [exp_callStmts, runMac_enum]
    rcases Classical.em (∃ d rest, VariantSyntax rc ts d rest) with ⟨d, rest, hv⟩ | hv
    · rw [makeEnum_step _ _ _ _ hv, Option.bind_some]
      exact ih rest (by have := hv.length_lt; omega) (fun decl hd => h _ (.cons hv hd)) _
    · rw [makeEnum_none _ _ _ _ (by rintro rfl; exact h [] .nil) (fun d rest hh => hv ⟨d, rest, hh⟩)]; rfl

end TB.Source

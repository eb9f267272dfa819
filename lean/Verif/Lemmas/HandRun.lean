import Verif.Rust.HandCode
import Verif.Lemmas.GuideRun

/-! # Running the implementation written by hand (helper lemmas; no property theorems here) -/

set_option autoImplicit false
set_option linter.unusedSectionVars false
set_option linter.unusedSimpArgs false

namespace TB.Rust.Hand

open TB TB.Macro TB.Mbe TB.Rust TB.Rust.Gen
open TB.Rust.Guide (boxFn dTy eq_eval cast_0 cast_1)

variable {β : Type}

section
variable (env : Env) [InTable env] (user : User (Host β)) (rc : Rustc) (cb : EVal → M β)

local notation "𝔾" => (GCrate.mk (src env user) rc false "Container" "Value" defs (fns (dTy env)) cb)

/-- No items in any function. -/
def gsc : Sc := ⟨[], []⟩

theorem gty_d : gty 𝔾 gsc (dTy env) = .int (discrTy env.cfg) := by
  simp only [dTy, varT, one, discrTy]
  split <;> simp [gty, gsc, lookup, primTy]

/-- The discriminant of a variant as written, its name, its type and its discriminant. -/
inductive Variant : String → String → String → env.cfg.Discr → Prop
  | int : Variant "0" "I32" "i32" (docInteger env)
  | bool : Variant "1" "Bool" "bool" (docBoolean env)

variable {k v t : String} {d : env.cfg.Discr}

theorem Variant.defs (h : Variant env k v t d) : lookupDef Hand.defs v = some (.tuple [.named t]) := by
  cases h <;> rfl

theorem disc_eval (h : Variant env k v t d) (n : Nat) (l : Locals (Host β)) (s : State) : gev 𝔾 (n + 2) gsc (discE (dTy env) k) l s = .ret (dV d) l s := by
  have ht := gty_d env user rc cb
  have h0 : (litVal "0" : GV β) = .lit 0 := rfl
  have h1 : (litVal "1" : GV β) = .lit 1 := rfl
  cases h with
  | int =>
    simp only [discE, gev_cast, x_bind, gev_lit, h0, x_pure, ht]
    exact cast_0 env user l s
  | bool =>
    simp only [discE, gev_cast, x_bind, gev_lit, h1, x_pure, ht]
    exact cast_1 env user l s

/-- A guarded arm. -/
theorem guarded_step (h : Variant env k v t d) (n : Nat) (b : TBox) (body : Expr) (as : List (TB.Rust.Pat × Option Expr × Expr)) (l : Locals (Host β)) (s : State) :
    runArms 𝔾 (gev 𝔾 (n + 3) gsc) none (dV (b.discriminant env)) (guarded (dTy env) k body :: as) l s =
      if b.discriminant env == d then scope (src env user) (do
          X.declare "<scrutinee>" (dV (b.discriminant env))
          gev 𝔾 (n + 3) gsc body) l s
      else runArms 𝔾 (gev 𝔾 (n + 3) gsc) none (dV (b.discriminant env)) as l s := by
  have hc : (dV (b.discriminant env) : GV β).copies = true := rfl
  have hp : ∀ x : env.cfg.Discr, (dV x : GV β).peel = dV x := fun _ => rfl
  have hb : bindAll 𝔾 none (dV (b.discriminant env)) [("<scrutinee>", dV (b.discriminant env))] =
      (if (dV (b.discriminant env) : GV β).copies then declareList [("<scrutinee>", dV (b.discriminant env))] else X.stuck) := rfl
  have hg : gev 𝔾 (n + 3) gsc (.bin .eq (varE "<scrutinee>") (discE (dTy env) k)) (("<scrutinee>", some (dV (b.discriminant env))) :: l) s =
      .ret (.bool (b.discriminant env == d)) (("<scrutinee>", some (dV (b.discriminant env))) :: l) s := by
    simp only [varE, one, gev_eq, x_bind, gev_var, lookup_head, useVar_apply, hc, if_true, disc_eval env user rc cb h n, hp]
    exact eq_eval env user _ _ _ s
  simp only [guarded, runArms, matchPat, hc, if_true, hb]
  simp only [x_bind, scope_apply, declareList, X.declare, x_pure, x_declare, hg]
  have hdl : (dropLocals (src env user) ((("<scrutinee>", some (dV (b.discriminant env))) :: l : Locals (Host β)).length - l.length)
      (("<scrutinee>", some (dV (b.discriminant env))) :: l) s) = .ret () l s := by
    rw [List.length_cons, show l.length + 1 - l.length = 0 + 1 by omega, dropLocals_some]
    rfl
  simp only [hdl]
  cases b.discriminant env == d
  · simp
  · simp only [if_true, scope_apply, x_bind, x_declare, declareList, x_pure]

/-- What the last arm says. -/
def unreachableMsg : Msg (Host β) := .text "\"internal error: entered unreachable code\"" []

theorem last_eval (n : Nat) (d : env.cfg.Discr) (l : Locals (Host β)) (s : State) :
    runArms 𝔾 (gev 𝔾 (n + 1) gsc) none (dV d) [lastArm] l s = .panic unreachableMsg l s := by
  have hb : bindAll 𝔾 none (dV d) [] = pure () := rfl
  simp only [lastArm, runArms, matchPat, hb, scope_apply, x_bind, x_pure, gev_panic, seqE_nil, x_panic, Nat.sub_self, dropLocals_zero]
  rfl

/-- The two guarded arms and the last one. -/
theorem dispatch (n : Nat) (b : TBox) (body : String → String → Expr) (l : Locals (Host β)) (s : State) :
    runArms 𝔾 (gev 𝔾 (n + 3) gsc) none (dV (b.discriminant env))
      [guarded (dTy env) "0" (body "I32" "i32"), guarded (dTy env) "1" (body "Bool" "bool"), lastArm] l s =
      if b.discriminant env == docInteger env then scope (src env user) (do
          X.declare "<scrutinee>" (dV (b.discriminant env))
          gev 𝔾 (n + 3) gsc (body "I32" "i32")) l s
      else if b.discriminant env == docBoolean env then scope (src env user) (do
          X.declare "<scrutinee>" (dV (b.discriminant env))
          gev 𝔾 (n + 3) gsc (body "Bool" "bool")) l s
      else .panic unreachableMsg l s := by
  rw [guarded_step env user rc cb .int, guarded_step env user rc cb .bool, last_eval env user rc cb (n + 2)]

/-- Reading the value of a variant. -/
def readM (env : Env) (rc : Rustc) (b : TBox) (v t : String) : M EVal := do
  let vs ← b.intoInner env (rc.leaf (.named t)).shape
  pure ⟨v, .tuple [vs[0]?.getD []]⟩

/-- The readers. -/
def handRead (env : Env) (rc : Rustc) (b : TBox) : M EVal :=
  if b.discriminant env == docInteger env then readM env rc b "I32" "i32"
  else if b.discriminant env == docBoolean env then readM env rc b "Bool" "bool"
  else M.panic .noVariant

/-- `Value::V(TaggedBox::into_inner(tg))` -/
def unboxE (tg : Expr) (v t : String) : Expr := .call (.path (two "Value" v)) [.call (boxFn "into_inner" t) [tg]]

theorem unbox_eval (h : Variant env k v t d) (n : Nat) (tg : Expr) (b : TBox) (L L' : Locals (Host β)) (s : State) (msg : PanicKind → Msg (Host β))
    (htg : ∀ k, gev 𝔾 (k + 1) gsc tg L s = .ret (boxV b) L' s) :
    gev 𝔾 (n + 3) gsc (unboxE tg v t) L s = XOut.of (fun e => .user (.inl e)) msg L' (readM env rc b v t s) := by
  have ht : gty 𝔾 gsc (.user (.named t)) = .opaque (rc.leaf (.named t)).shape := rfl
  have hen : lookup "Value" gsc.types = none := by simp [gsc, lookup]
  simp only [unboxE, Guide.boxFn, two, gev_call, x_bind, seqE_cons, seqE_nil, htg, x_pure, callPath, if_true, find_box_into_inner, List.map_cons, List.map_nil, ht, c_intoInner,
    readM, m_bind]
  rcases intoInner_cases env b (rc.leaf (.named t)).shape s with ⟨vs, hr, hl⟩ | ⟨k, hr⟩
  · obtain ⟨x, rfl⟩ : ∃ x, vs = [x] := List.length_eq_one_iff.1 (by simpa [Leaf.shape] using hl)
    simp only [hr, XOut.of, hen, if_true, enumTuple, h.defs, toBytesList, toBytes, List.length_cons, List.length_nil, x_pure, m_pure]
    rfl
  · simp only [hr, XOut.of]

/-- `from_tagged_box` -/
theorem fromBox_run (n : Nat) (b : TBox) (l : Locals (Host β)) (s : State) :
    runFn 𝔾 (gev 𝔾 (n + 6)) (fromBoxFn (dTy env)) none [boxV b] l s = XOut.of (fun e => .user (.inl e)) (fun _ => unreachableMsg) l (handRead env rc b s) := by
  have hdisp := dispatch env user rc cb (n + 1) b (unboxE (varE "tagged")) [("tagged", some (boxV b))] s
  have hscr : gplace (gev 𝔾 (n + 4) gsc) (.method (varE "tagged") "discriminant" [] []) [("tagged", some (boxV b))] s =
      .ret (dV (b.discriminant env)) [("tagged", some (boxV b))] s := by
    simp only [gplace_method, varE, one, gev_method_path, methodCall, x_bind, gplace_var, readVar_apply, lookup_head, seqE_nil, peel_boxV, tyName_boxV,
      find_box_discriminant, List.map_nil, c_discriminant]
  have hbody : gev 𝔾 (n + 6) gsc (.block [.tail (.mtch (.method (varE "tagged") "discriminant" [] [])
      [unboxArm (dTy env) (varE "tagged") "0" "I32" "i32", unboxArm (dTy env) (varE "tagged") "1" "Bool" "bool", lastArm])]) [("tagged", some (boxV b))] s =
      scope (src env user) (runArms 𝔾 (gev 𝔾 (n + 4) gsc) none (dV (b.discriminant env))
        [guarded (dTy env) "0" (unboxE (varE "tagged") "I32" "i32"), guarded (dTy env) "1" (unboxE (varE "tagged") "Bool" "bool"), lastArm])
        [("tagged", some (boxV b))] s := by
    rw [gev_block, show Sc.enter gsc _ = gsc from rfl]
    simp only [scope_apply, runStmts_tail, gev_match, x_bind, hscr, asVar]
    rfl
  have hsc : Sc.enter ⟨[], []⟩ (fromBoxFn (dTy env)).body = gsc := rfl
  have hself : (fromBoxFn (dTy env)).self = none := rfl
  have hpar : (fromBoxFn (dTy env)).params = [("tagged", Guide.boxT (varT "Self"))] := rfl
  simp only [runFn, inFn_apply, hsc, hself, hpar, scope_apply, x_bind, x_pure, List.map_cons, List.map_nil, declareAll_cons, declareAll_nil, x_declare]
  simp only [fromBoxFn, runStmts_tail, hbody, scope_apply, hdisp, handRead]
  have key : ∀ {k v t d}, Variant env k v t d → gev 𝔾 (n + 4) gsc (unboxE (varE "tagged") v t) [("<scrutinee>", some (dV (b.discriminant env))), ("tagged", some (boxV b))] s =
      XOut.of (fun e => .user (.inl e)) (fun _ => unreachableMsg) [("<scrutinee>", some (dV (b.discriminant env))), ("tagged", none)] (readM env rc b v t s) := by
    intro k v t d h
    exact unbox_eval env user rc cb h (n + 1) (varE "tagged") b _ _ s _ (fun k => by
      simp only [varE, one, gev_var, useVar_apply]
      rfl)
  have e0 := key .int
  have e1 := key .bool
  cases b.discriminant env == docInteger env with
  | true =>
    simp only [if_true, scope_apply, x_bind, x_declare, e0]
    cases readM env rc b "I32" "i32" s <;> rfl
  | false => cases b.discriminant env == docBoolean env with
    | true =>
      simp only [Bool.false_eq_true, if_false, if_true, scope_apply, x_bind, x_declare, e1]
      cases readM env rc b "Bool" "bool" s <;> rfl
    | false =>
      simp only [Bool.false_eq_true, if_false, m_panic, XOut.of, Nat.sub_self, x_bind, dropLocals_zero, x_panic, List.length_cons, List.length_nil, Nat.zero_add, Nat.sub_zero]
      rw [show (1 : Nat) = 0 + 1 from rfl, dropLocals_some]
      simp only [x_bind, drop_boxV, dropLocals_zero, x_panic]

/-- `into_inner` -/
theorem intoInner_run (n : Nat) (b : TBox) (l : Locals (Host β)) (s : State) :
    runFn 𝔾 (gev 𝔾 (n + 6)) (intoInnerFn (dTy env)) (some (.struct containerName [("tagged", boxV b)])) [] l s =
      XOut.of (fun e => .user (.inl e)) (fun _ => unreachableMsg) l (handRead env rc b s) := by
  have hdisp := dispatch env user rc cb (n + 1) b (unboxE selfTagged) [("self", some (.struct containerName [("tagged", boxV b)]))] s
  have hscr : gplace (gev 𝔾 (n + 4) gsc) (.method selfTagged "discriminant" [] []) [("self", some (.struct containerName [("tagged", boxV b)]))] s =
      .ret (dV (b.discriminant env)) [("self", some (.struct containerName [("tagged", boxV b)]))] s := by
    simp only [gplace_method, selfTagged, varE, one, gev_method_field, methodCall, x_bind, gplace_field, readVar_apply, lookup_head, fieldOf, x_some, seqE_nil, peel_boxV,
      tyName_boxV, find_box_discriminant, List.map_nil, c_discriminant]
  have hbody : gev 𝔾 (n + 6) gsc (.block [.tail (.mtch (.method selfTagged "discriminant" [] [])
      [unboxArm (dTy env) selfTagged "0" "I32" "i32", unboxArm (dTy env) selfTagged "1" "Bool" "bool", lastArm])])
        [("self", some (.struct containerName [("tagged", boxV b)]))] s =
      scope (src env user) (runArms 𝔾 (gev 𝔾 (n + 4) gsc) none (dV (b.discriminant env))
        [guarded (dTy env) "0" (unboxE selfTagged "I32" "i32"), guarded (dTy env) "1" (unboxE selfTagged "Bool" "bool"), lastArm])
        [("self", some (.struct containerName [("tagged", boxV b)]))] s := by
    rw [gev_block, show Sc.enter gsc _ = gsc from rfl]
    simp only [scope_apply, runStmts_tail, gev_match, x_bind, hscr, asVar]
    rfl
  have hsc : Sc.enter ⟨[], []⟩ (intoInnerFn (dTy env)).body = gsc := rfl
  have hself : (intoInnerFn (dTy env)).self = some .value := rfl
  have hpar : (intoInnerFn (dTy env)).params = [] := rfl
  simp only [runFn, inFn_apply, hsc, hself, hpar, scope_apply, x_bind, x_pure, List.map_cons, List.map_nil, declareAll_cons, declareAll_nil, x_declare]
  simp only [intoInnerFn, runStmts_tail, hbody, scope_apply, hdisp, handRead]
  have key : ∀ {k v t d}, Variant env k v t d → gev 𝔾 (n + 4) gsc (unboxE selfTagged v t)
        [("<scrutinee>", some (dV (b.discriminant env))), ("self", some (.struct containerName [("tagged", boxV b)]))] s =
      XOut.of (fun e => .user (.inl e)) (fun _ => unreachableMsg) [("<scrutinee>", some (dV (b.discriminant env))), ("self", some (.struct containerName [("tagged", .unit)]))]
        (readM env rc b v t s) := by
    intro k v t d h
    exact unbox_eval env user rc cb h (n + 1) selfTagged b _ _ s _ (fun k => by
      simp only [selfTagged, varE, one, gev_field]
      rfl)
  have e0 := key .int
  have e1 := key .bool
  cases b.discriminant env == docInteger env with
  | true =>
    simp only [if_true, scope_apply, x_bind, x_declare, e0]
    cases readM env rc b "I32" "i32" s <;> rfl
  | false => cases b.discriminant env == docBoolean env with
    | true =>
      simp only [Bool.false_eq_true, if_false, if_true, scope_apply, x_bind, x_declare, e1]
      cases readM env rc b "Bool" "bool" s <;> rfl
    | false =>
      rfl

/-- `TaggedBox::new(x, 0)` -/
theorem new_eval (h : Variant env k v t d) (n : Nat) (hs : (rc.leaf (.named t)).shape.size < 2 ^ 64) (y : String) (x : Bytes) (L : Locals (Host β)) (s : State) :
    gev 𝔾 (n + 3) gsc (.call (boxFn "new" t) [varE y, discE (dTy env) k]) ((y, some (.obj (rc.leaf (.named t)).shape [x])) :: L) s =
      XOut.of boxV (panicMsg d) ((y, none) :: L) (TBox.new env (rc.leaf (.named t)).shape [x] d s) := by
  have ht : gty 𝔾 gsc (.user (.named t)) = .opaque (rc.leaf (.named t)).shape := rfl
  have hv : gev 𝔾 (n + 2) gsc (varE y) ((y, some (.obj (rc.leaf (.named t)).shape [x])) :: L) s =
      .ret (.obj (rc.leaf (.named t)).shape [x]) ((y, none) :: L) s := by
    simp only [varE, one, gev_var, lookup_head, useVar_apply]
    simp [copies_obj, setLocal]
  simp only [Guide.boxFn, gev_call, x_bind, seqE_cons, seqE_nil, hv, disc_eval env user rc cb h n, x_pure, callPath, if_true, find_box_new, List.map_cons, List.map_nil, ht]
  exact c_new env user _ hs _ d _ s

/-- The names of the variables. -/
def varOf (v : String) : String := if v = "I32" then "int" else "boolean"

/-- `into_tagged_box` -/
theorem intoBox_run (h : Variant env k v t d) (hs : (rc.leaf (.named t)).shape.size < 2 ^ 64) (n : Nat) (x : Bytes) (l : Locals (Host β)) (s : State) :
    runFn 𝔾 (gev 𝔾 (n + 4)) (intoBoxFn (dTy env)) (some (.user (.inl ⟨v, .tuple [x]⟩))) [] l s =
      XOut.of boxV (panicMsg d) l (TBox.new env (rc.leaf (.named t)).shape [x] d s) := by
  have he := new_eval env user rc cb h n hs (varOf v) x [("self", none)] s
  have hsc : Sc.enter ⟨[], []⟩ (intoBoxFn (dTy env)).body = gsc := rfl
  have hself : (intoBoxFn (dTy env)).self = some .value := rfl
  have hpar : (intoBoxFn (dTy env)).params = [] := rfl
  have hrun : runArms 𝔾 (gev 𝔾 (n + 3) gsc) (some "self") (.user (.inl ⟨v, .tuple [x]⟩)) [boxArm (dTy env) "int" "0" "I32" "i32", boxArm (dTy env) "boolean" "1" "Bool" "bool"]
      [("self", some (.user (.inl ⟨v, .tuple [x]⟩)))] s = scope (src env user) (do
        bindAll 𝔾 (some "self") (.user (.inl ⟨v, .tuple [x]⟩)) [(varOf v, .obj (rc.leaf (.named t)).shape [x])]
        gev 𝔾 (n + 3) gsc (.call (boxFn "new" t) [varE (varOf v), discE (dTy env) k])) [("self", some (.user (.inl ⟨v, .tuple [x]⟩)))] s := by
    cases h <;> rfl
  have hb : bindAll 𝔾 (some "self") (.user (.inl ⟨v, .tuple [x]⟩)) [(varOf v, .obj (rc.leaf (.named t)).shape [x])] [("self", some (.user (.inl ⟨v, .tuple [x]⟩)))] s =
      .ret () [(varOf v, some (.obj (rc.leaf (.named t)).shape [x])), ("self", none)] s := rfl
  simp only [runFn, inFn_apply, hsc, hself, hpar, scope_apply, x_bind, x_pure, List.map_nil, declareAll_nil, x_declare]
  simp only [intoBoxFn, runStmts_tail, gev_match, x_bind, varE, one, gplace_var, readVar_apply, lookup_head, asVar]
  simp only [varE, one] at he hrun
  simp only [hrun, scope_apply, x_bind, hb, he]
  cases TBox.new env (rc.leaf (.named t)).shape [x] d s <;> rfl

/-- `ref_from_tagged_box` -/
def handRef (env : Env) (rc : Rustc) {β : Type} (b : TBox) (callback : EVal → M β) : M (Option β) :=
  if b.discriminant env == docInteger env then do
    let vs ← ptrRead (rc.leaf (.named "i32")).shape (b.asPtr env)
    let r ← callback ⟨"I32", .tuple [vs[0]?.getD []]⟩
    pure (some r)
  else if b.discriminant env == docBoolean env then do
    let vs ← ptrRead (rc.leaf (.named "bool")).shape (b.asPtr env)
    let r ← callback ⟨"Bool", .tuple [vs[0]?.getD []]⟩
    pure (some r)
  else M.panic .noVariant

/-- `Value::V(*tagged.as_ptr::<t>())` -/
def peekE (v t : String) : Expr := .call (.path (two "Value" v)) [readE (.user (.named t))]

/-- The locals of `ref_from_tagged_box`. -/
def refL (b : TBox) (c : GV β) : Locals (Host β) := [("callback", some c), ("tagged", some (.refv (boxV b)))]

theorem peek_eval (h : Variant env k v t d) (n : Nat) (b : TBox) (L : Locals (Host β)) (s : State) (hl : lookup "tagged" L = some (some (.refv (boxV b)))) :
    gev 𝔾 (n + 4) gsc (peekE v t) L s = match ptrRead (rc.leaf (.named t)).shape (b.asPtr env) s with
      | .ret vs s1 => .ret (.user (.inl ⟨v, .tuple [vs[0]?.getD []]⟩)) L s1
      | .panic k s1 => .panic (.kind k) L s1
      | .ub k => .ub k := by
  have hen : lookup "Value" gsc.types = none := by simp [gsc, lookup]
  have hr := read_eval env user rc false "Container" "Value" defs (fns (dTy env)) cb (n + 1) (sc := gsc) (.user (.named t)) (rc.leaf (.named t)).shape rfl b L s hl
  rcases ptrRead_cases (rc.leaf (.named t)).shape (b.asPtr env) s with ⟨vs, hp, hl'⟩ | ⟨k, hp⟩
  · obtain ⟨x, rfl⟩ : ∃ x, vs = [x] := List.length_eq_one_iff.1 (by simpa [Leaf.shape] using hl')
    rw [hp] at hr
    simp only [peekE, gev_call, x_bind, seqE_cons, seqE_nil, hr, XOut.of, x_pure, two, callPath, hen, if_true, enumTuple, h.defs, toBytesList, toBytes, List.length_cons, List.length_nil, hp]
    rfl
  · rw [hp] at hr
    simp only [peekE, gev_call, x_bind, seqE_cons, seqE_nil, hr, XOut.of, hp]

/-- What the `match` in `ref_from_tagged_box` gives. -/
theorem peek_match (n : Nat) (b : TBox) (s : State) :
    gev 𝔾 (n + 6) gsc (.mtch (.method (varE "tagged") "discriminant" [] []) [lendArm (dTy env) "0" "I32" "i32", lendArm (dTy env) "1" "Bool" "bool", lastArm])
      (refL b (.struct "<callback>" [])) s =
      if b.discriminant env == docInteger env then (match ptrRead (rc.leaf (.named "i32")).shape (b.asPtr env) s with
        | .ret vs s1 => .ret (.user (.inl ⟨"I32", .tuple [vs[0]?.getD []]⟩)) (refL b (.struct "<callback>" [])) s1
        | .panic k s1 => .panic (.kind k) (refL b (.struct "<callback>" [])) s1
        | .ub k => .ub k)
      else if b.discriminant env == docBoolean env then (match ptrRead (rc.leaf (.named "bool")).shape (b.asPtr env) s with
        | .ret vs s1 => .ret (.user (.inl ⟨"Bool", .tuple [vs[0]?.getD []]⟩)) (refL b (.struct "<callback>" [])) s1
        | .panic k s1 => .panic (.kind k) (refL b (.struct "<callback>" [])) s1
        | .ub k => .ub k)
      else .panic unreachableMsg (refL b (.struct "<callback>" [])) s := by
  have hdisp := dispatch env user rc cb (n + 2) b peekE (refL b (.struct "<callback>" [])) s
  have hscr : gplace (gev 𝔾 (n + 5) gsc) (.method (varE "tagged") "discriminant" [] []) (refL b (.struct "<callback>" [])) s =
      .ret (dV (b.discriminant env)) (refL b (.struct "<callback>" [])) s := by
    have hp : (V.refv (boxV b) : GV β).peel = boxV b := rfl
    have hl : lookup "tagged" (refL b (.struct "<callback>" []) : Locals (Host β)) = some (some (.refv (boxV b))) := rfl
    simp only [gplace_method, varE, one, gev_method_path, methodCall, x_bind, gplace_var, readVar_apply, hl, seqE_nil, hp, tyName_boxV,
      find_box_discriminant, List.map_nil, c_discriminant]
  rw [gev_match]
  simp only [x_bind, hscr, asVar]
  refine hdisp.trans ?_
  have key : ∀ {k v t d}, Variant env k v t d → gev 𝔾 (n + 2 + 3) gsc (peekE v t) (("<scrutinee>", some (dV (b.discriminant env))) :: refL b (.struct "<callback>" [])) s = _ :=
    fun h => peek_eval env user rc cb h (n + 1) b _ s rfl
  have e0 := key .int
  have e1 := key .bool
  cases b.discriminant env == docInteger env with
  | true =>
    simp only [if_true, scope_apply, x_bind, x_declare, e0]
    cases ptrRead (rc.leaf (.named "i32")).shape (b.asPtr env) s <;> rfl
  | false => cases b.discriminant env == docBoolean env with
    | true =>
      simp only [Bool.false_eq_true, if_false, if_true, scope_apply, x_bind, x_declare, e1]
      cases ptrRead (rc.leaf (.named "bool")).shape (b.asPtr env) s <;> rfl
    | false => rfl

/-- `let value = ManuallyDrop::new(..); callback(&value);` once the value has been read. -/
theorem shown (n : Nat) (b : TBox) (E : Expr) (e : EVal) (s s1 : State)
    (hE : gev 𝔾 (n + 5) gsc E (refL b (.struct "<callback>" [])) s = .ret (.user (.inl e)) (refL b (.struct "<callback>" [])) s1) :
    scope (src env user) (runStmts 𝔾 (gev 𝔾 (n + 6) gsc) gsc [
      .letS (.bind "value") none (.call (.path [("core", []), ("mem", []), ("ManuallyDrop", []), ("new", [])]) [E]),
      .semi (.call (varE "callback") [.ref false (varE "value")])]) (refL b (.struct "<callback>" [])) s =
      match cb e s1 with
        | .ret r s2 => .ret .unit (refL b (.user (.inr r))) s2
        | .panic k s2 => .panic (.kind k) (refL b (.struct "<callback>" [])) s2
        | .ub k => .ub k := by
  have hco : lookup "core" gsc.types = none := by simp [gsc, lookup]
  have hcb : lookup "callback" gsc.types = none := by simp [gsc, lookup]
  have hcall := call_eval env user rc false "Container" "Value" defs (fns (dTy env)) cb (n + 5) (noCall_none hcb) (.ref false (varE "value"))
    (.refv (.struct "ManuallyDrop" [("value", .user (.inl e))])) e rfl
    (("value", some (.struct "ManuallyDrop" [("value", .user (.inl e))])) :: refL b (.struct "<callback>" [])) s1
    (by simp only [gev_ref, varE, one, x_bind, gplace_var, readVar_apply, lookup_head, x_pure]) rfl
  rw [scope_apply]
  simp only [runStmts_let, x_bind, md_eval env user rc false "Container" "Value" defs (fns (dTy env)) cb (n + 5) hco, hE, x_declare, runStmts_semi, hcall]
  cases cb e s1 <;> rfl

/-- `ref_from_tagged_box` -/
theorem lend_run (b : TBox) (s : State) :
    GCrate.lend 𝔾 (boxV b) s = match handRef env rc b cb s with
      | .ret r s => .ret r [] s
      | .panic k s => .panic (if b.discriminant env = docInteger env ∨ b.discriminant env = docBoolean env then .kind k else unreachableMsg) [] s
      | .ub k => .ub k := by
  have hlend : GCrate.lend 𝔾 (boxV b) s =
      match scope (src env user) (runStmts 𝔾 (gev 𝔾 40 gsc) gsc (refFn (dTy env)).body) (refL b (.struct "<callback>" [])) s with
      | .ret _ l s => .ret (match lookup "callback" l with
        | some (some (.user (.inr r))) => some r
        | _ => none) [] s
      | .panic m _ s => .panic m [] s
      | .ub k => .ub k
      | .stuck => .stuck := rfl
  have hco : lookup "core" gsc.types = none := by simp [gsc, lookup]
  have hm := peek_match env user rc cb 33 b s
  have hsh := fun e s1 => shown env user rc cb 34 b (.mtch (.method (varE "tagged") "discriminant" [] []) [lendArm (dTy env) "0" "I32" "i32", lendArm (dTy env) "1" "Bool" "bool", lastArm]) e s s1
  have hfail : ∀ (m : Msg (Host β)) s1, gev 𝔾 39 gsc (.mtch (.method (varE "tagged") "discriminant" [] []) [lendArm (dTy env) "0" "I32" "i32", lendArm (dTy env) "1" "Bool" "bool", lastArm])
      (refL b (.struct "<callback>" [])) s = .panic m (refL b (.struct "<callback>" [])) s1 →
      scope (src env user) (runStmts 𝔾 (gev 𝔾 40 gsc) gsc (refFn (dTy env)).body) (refL b (.struct "<callback>" [])) s = .panic m (refL b (.struct "<callback>" [])) s1 := by
    intro m s1 he
    rw [scope_apply]
    simp only [refFn, runStmts_let, x_bind, md_eval env user rc false "Container" "Value" defs (fns (dTy env)) cb 39 hco, he]
    rfl
  have hub : ∀ k, gev 𝔾 39 gsc (.mtch (.method (varE "tagged") "discriminant" [] []) [lendArm (dTy env) "0" "I32" "i32", lendArm (dTy env) "1" "Bool" "bool", lastArm])
      (refL b (.struct "<callback>" [])) s = .ub k →
      scope (src env user) (runStmts 𝔾 (gev 𝔾 40 gsc) gsc (refFn (dTy env)).body) (refL b (.struct "<callback>" [])) s = .ub k := by
    intro k he
    rw [scope_apply]
    simp only [refFn, runStmts_let, x_bind, md_eval env user rc false "Container" "Value" defs (fns (dTy env)) cb 39 hco, he]
  rw [hlend]
  by_cases h0 : b.discriminant env = docInteger env
  · simp only [h0, BEq.rfl, if_true] at hm
    simp only [handRef, h0, BEq.rfl, if_true, true_or, m_bind]
    cases hp : ptrRead (rc.leaf (.named "i32")).shape (b.asPtr env) s with
    | ret vs s1 =>
      rw [hp] at hm
      have := hsh _ _ hm
      erw [this]
      simp only [m_bind]
      cases cb ⟨"I32", .tuple [vs[0]?.getD []]⟩ s1 <;> rfl
    | panic k s1 =>
      rw [hp] at hm
      rw [hfail _ _ hm]
    | ub k =>
      rw [hp] at hm
      rw [hub _ hm]
  · by_cases h1 : b.discriminant env = docBoolean env
    · have h01 : (docBoolean env == docInteger env) = false := by
        rw [← h1]; exact beq_eq_false_iff_ne.2 h0
      simp only [h1, h01, BEq.rfl, Bool.false_eq_true, if_false, if_true] at hm
      simp only [handRef, h1, h01, BEq.rfl, Bool.false_eq_true, if_false, if_true, or_true, m_bind]
      cases hp : ptrRead (rc.leaf (.named "bool")).shape (b.asPtr env) s with
      | ret vs s1 =>
        rw [hp] at hm
        have := hsh _ _ hm
        erw [this]
        simp only [m_bind]
        cases cb ⟨"Bool", .tuple [vs[0]?.getD []]⟩ s1 <;> rfl
      | panic k s1 =>
        rw [hp] at hm
        rw [hfail _ _ hm]
      | ub k =>
        rw [hp] at hm
        rw [hub _ hm]
    · have g0 : (b.discriminant env == docInteger env) = false := beq_eq_false_iff_ne.2 h0
      have g1 : (b.discriminant env == docBoolean env) = false := beq_eq_false_iff_ne.2 h1
      simp only [g0, g1, Bool.false_eq_true, if_false] at hm
      simp only [handRef, g0, g1, Bool.false_eq_true, if_false, h0, h1, or_self, m_panic]
      rw [hfail _ _ hm]

end

end TB.Rust.Hand

import Verif.Rust.GuideCode
import Verif.Lemmas.GsInto
import Verif.Lemmas.GsLend
import Verif.Macro.Generators

/-! # Running the code in the guide (helper lemmas; no property theorems here) -/

set_option autoImplicit false
set_option linter.unusedSectionVars false
set_option linter.unusedSimpArgs false

namespace TB.Rust.Guide

open TB TB.Macro TB.Mbe TB.Rust TB.Rust.Gen

variable {β : Type}

section
variable (env : Env) [InTable env] (user : User (Host β)) (rc : Rustc) (cb : EVal → M β)

/-- The type `Discriminant`. -/
def dTy (env : Env) : RTy := varT (if env.cfg.discrBits = 8 then "u8" else "u16")

local notation "𝔾" => (GCrate.mk (src env user) rc false "Container" "Item" defs (fns (dTy env)) cb)

theorem discriminantTy_src : discriminantTy (src env user) = dTy env := by
  simp only [discriminantTy, types env user, if_true, dTy, varT, one]

theorem bits : env.cfg.discrBits = 8 ∨ env.cfg.discrBits = 16 := by
  rows <;> first | exact .inl rfl | exact .inr rfl

/-- The items of every function. -/
def gsc : Sc := ⟨[("EnumCounter", .enum ["Integer", "Boolean"])], []⟩

theorem gty_d : gty 𝔾 gsc (dTy env) = .int (discrTy env.cfg) := by
  simp only [dTy, varT, one, discrTy]
  split <;> simp [gty, gsc, lookup, primTy]

theorem cast_0 (l : Locals (Host β)) (s : State) : castV (src env user) (.int (discrTy env.cfg)) (.lit 0) l s = .ret (dV (docInteger env)) l s := by
  rows <;> rfl
theorem cast_1 (l : Locals (Host β)) (s : State) : castV (src env user) (.int (discrTy env.cfg)) (.lit 1) l s = .ret (dV (docBoolean env)) l s := by
  rows <;> rfl

/-- The discriminant of a variant, and its type. -/
inductive Variant : String → String → env.cfg.Discr → Prop
  | integer : Variant "Integer" "i32" (docInteger env)
  | boolean : Variant "Boolean" "bool" (docBoolean env)

variable {v t : String} {d : env.cfg.Discr}

theorem Variant.defs (h : Variant env v t d) : lookupDef Guide.defs v = some (.tuple [.named t]) := by
  cases h <;> rfl

theorem disc_eval (h : Variant env v t d) (n : Nat) (l : Locals (Host β)) (s : State) : gev 𝔾 (n + 2) gsc (discE (dTy env) v) l s = .ret (dV d) l s := by
  have ht := gty_d env user rc cb
  cases h with
  | integer =>
    simp only [discE, two, gev_cast, x_bind, gev_path2, ht]
    exact cast_0 env user l s
  | boolean =>
    simp only [discE, two, gev_cast, x_bind, gev_path2, ht]
    exact cast_1 env user l s

theorem discr_inj (d d' : env.cfg.Discr) : (d.setWidth 64 = d'.setWidth 64) ↔ d = d' := by
  have h1 : d.toNat < 2 ^ env.cfg.discrBits := d.isLt
  have h2 : d'.toNat < 2 ^ env.cfg.discrBits := d'.isLt
  have hp : (2:Nat) ^ env.cfg.discrBits ≤ 65536 := by rcases bits env with h | h <;> rw [h] <;> decide
  rw [← BitVec.toNat_inj, ← BitVec.toNat_inj, BitVec.toNat_setWidth, BitVec.toNat_setWidth, Nat.mod_eq_of_lt (by omega), Nat.mod_eq_of_lt (by omega)]

theorem eq_eval (d d' : env.cfg.Discr) (l : Locals (Host β)) (s : State) : binOpV (src env user) .eq (dV d) (dV d') l s = .ret (.bool (d == d')) l s := by
  simp only [dV, binOpV, isShift, Bool.false_eq_true, if_false, if_true, arith, cmpOp, discr_inj env]
  show XOut.ret _ _ _ = _
  congr 2

/-- A guarded arm. -/
theorem guarded_step (h : Variant env v t d) (n : Nat) (b : TBox) (body : Expr) (as : List (TB.Rust.Pat × Option Expr × Expr)) (l : Locals (Host β)) (s : State) :
    runArms 𝔾 (gev 𝔾 (n + 3) gsc) none (dV (b.discriminant env)) (guarded (dTy env) v body :: as) l s =
      if b.discriminant env == d then scope (src env user) (do
          X.declare "discrim" (dV (b.discriminant env))
          gev 𝔾 (n + 3) gsc body) l s
      else runArms 𝔾 (gev 𝔾 (n + 3) gsc) none (dV (b.discriminant env)) as l s := by
  have hc : (dV (b.discriminant env) : GV β).copies = true := rfl
  have hp : ∀ x : env.cfg.Discr, (dV x : GV β).peel = dV x := fun _ => rfl
  have hb : bindAll 𝔾 none (dV (b.discriminant env)) [("discrim", dV (b.discriminant env))] =
      (if (dV (b.discriminant env) : GV β).copies then declareList [("discrim", dV (b.discriminant env))] else X.stuck) := rfl
  have hg : gev 𝔾 (n + 3) gsc (.bin .eq (varE "discrim") (discE (dTy env) v)) (("discrim", some (dV (b.discriminant env))) :: l) s =
      .ret (.bool (b.discriminant env == d)) (("discrim", some (dV (b.discriminant env))) :: l) s := by
    simp only [varE, one, gev_eq, x_bind, gev_var, lookup_head, useVar_apply, hc, if_true, disc_eval env user rc cb h n, hp]
    exact eq_eval env user _ _ _ s
  simp only [guarded, runArms, matchPat, hc, if_true, hb]
  simp only [x_bind, scope_apply, declareList, X.declare, x_pure, x_declare, hg]
  have hdl : (dropLocals (src env user) ((("discrim", some (dV (b.discriminant env))) :: l : Locals (Host β)).length - l.length)
      (("discrim", some (dV (b.discriminant env))) :: l) s) = .ret () l s := by
    rw [List.length_cons, show l.length + 1 - l.length = 0 + 1 by omega, dropLocals_some]
    rfl
  simp only [hdl]
  cases b.discriminant env == d
  · simp
  · simp only [if_true, scope_apply, x_bind, x_declare, declareList, x_pure]

/-- What the last arm says. -/
def explicitPanic : Msg (Host β) := .text "\"explicit panic\"" []

theorem last_eval (n : Nat) (d : env.cfg.Discr) (l : Locals (Host β)) (s : State) :
    runArms 𝔾 (gev 𝔾 (n + 1) gsc) none (dV d) [lastArm] l s = .panic explicitPanic l s := by
  have hb : bindAll 𝔾 none (dV d) [] = pure () := rfl
  simp only [lastArm, runArms, matchPat, hb, scope_apply, x_bind, x_pure, gev_panic, seqE_nil, x_panic, Nat.sub_self, dropLocals_zero]
  rfl

/-- The two guarded arms and the last one. -/
theorem dispatch (n : Nat) (b : TBox) (body : String → String → Expr) (l : Locals (Host β)) (s : State) :
    runArms 𝔾 (gev 𝔾 (n + 3) gsc) none (dV (b.discriminant env))
      [guarded (dTy env) "Integer" (body "Integer" "i32"), guarded (dTy env) "Boolean" (body "Boolean" "bool"), lastArm] l s =
      if b.discriminant env == docInteger env then scope (src env user) (do
          X.declare "discrim" (dV (b.discriminant env))
          gev 𝔾 (n + 3) gsc (body "Integer" "i32")) l s
      else if b.discriminant env == docBoolean env then scope (src env user) (do
          X.declare "discrim" (dV (b.discriminant env))
          gev 𝔾 (n + 3) gsc (body "Boolean" "bool")) l s
      else .panic explicitPanic l s := by
  rw [guarded_step env user rc cb .integer, guarded_step env user rc cb .boolean, last_eval env user rc cb (n + 2)]

/-- Reading the value of a variant. -/
def readM (env : Env) (rc : Rustc) (b : TBox) (v t : String) : M EVal := do
  let vs ← b.intoInner env (rc.leaf (.named t)).shape
  pure ⟨v, .tuple [vs[0]?.getD []]⟩

/-- `Item::V(TaggedBox::into_inner(tg))` -/
def unboxE (tg : Expr) (v t : String) : Expr := .call (.path (two "Item" v)) [.call (boxFn "into_inner" t) [tg]]

theorem unbox_eval (h : Variant env v t d) (n : Nat) (tg : Expr) (b : TBox) (L L' : Locals (Host β)) (s : State) (msg : PanicKind → Msg (Host β))
    (htg : ∀ k, gev 𝔾 (k + 1) gsc tg L s = .ret (boxV b) L' s) :
    gev 𝔾 (n + 3) gsc (unboxE tg v t) L s = XOut.of (fun e => .user (.inl e)) msg L' (readM env rc b v t s) := by
  have ht : gty 𝔾 gsc (.user (.named t)) = .opaque (rc.leaf (.named t)).shape := rfl
  have hen : lookup "Item" gsc.types = none := by simp [gsc, lookup]
  simp only [unboxE, boxFn, two, gev_call, x_bind, seqE_cons, seqE_nil, htg, x_pure, callPath, if_true, find_box_into_inner, List.map_cons, List.map_nil, ht, c_intoInner,
    readM, m_bind]
  rcases intoInner_cases env b (rc.leaf (.named t)).shape s with ⟨vs, hr, hl⟩ | ⟨k, hr⟩
  · obtain ⟨x, rfl⟩ : ∃ x, vs = [x] := List.length_eq_one_iff.1 (by simpa [Leaf.shape] using hl)
    simp only [hr, XOut.of, hen, if_true, enumTuple, h.defs, toBytesList, toBytes, List.length_cons, List.length_nil, x_pure, m_pure]
    rfl
  · simp only [hr, XOut.of]

theorem docRead_eq (b : TBox) (s : State) : docRead env rc b s =
    if b.discriminant env == docInteger env then readM env rc b "Integer" "i32" s
    else if b.discriminant env == docBoolean env then readM env rc b "Boolean" "bool" s
    else .panic .noVariant s := by
  unfold docRead
  split
  · rfl
  · split <;> rfl

/-- `from_tagged_box` -/
theorem fromBox_run (n : Nat) (b : TBox) (l : Locals (Host β)) (s : State) :
    runFn 𝔾 (gev 𝔾 (n + 6)) (fromBoxFn (dTy env)) none [boxV b] l s = XOut.of (fun e => .user (.inl e)) (fun _ => explicitPanic) l (docRead env rc b s) := by
  have hdisp := dispatch env user rc cb (n + 1) b (unboxE (varE "tagged")) [("tagged", some (boxV b))] s
  have hscr : gplace (gev 𝔾 (n + 4) gsc) (.method (varE "tagged") "discriminant" [] []) [("tagged", some (boxV b))] s =
      .ret (dV (b.discriminant env)) [("tagged", some (boxV b))] s := by
    simp only [gplace_method, varE, one, gev_method_path, methodCall, x_bind, gplace_var, readVar_apply, lookup_head, seqE_nil, peel_boxV, tyName_boxV,
      find_box_discriminant, List.map_nil, c_discriminant]
  have hbody : gev 𝔾 (n + 6) gsc (.block [.tail (.mtch (.method (varE "tagged") "discriminant" [] [])
      [unboxArm (dTy env) (varE "tagged") "Integer" "i32", unboxArm (dTy env) (varE "tagged") "Boolean" "bool", lastArm])]) [("tagged", some (boxV b))] s =
      scope (src env user) (runArms 𝔾 (gev 𝔾 (n + 4) gsc) none (dV (b.discriminant env))
        [guarded (dTy env) "Integer" (unboxE (varE "tagged") "Integer" "i32"), guarded (dTy env) "Boolean" (unboxE (varE "tagged") "Boolean" "bool"), lastArm])
        [("tagged", some (boxV b))] s := by
    rw [gev_block, show Sc.enter gsc _ = gsc from rfl]
    simp only [scope_apply, runStmts_tail, gev_match, x_bind, hscr, asVar]
    rfl
  have hsc : Sc.enter ⟨[], []⟩ (fromBoxFn (dTy env)).body = gsc := rfl
  have hself : (fromBoxFn (dTy env)).self = none := rfl
  have hpar : (fromBoxFn (dTy env)).params = [("tagged", boxT (varT "Self"))] := rfl
  simp only [runFn, inFn_apply, hsc, hself, hpar, scope_apply, x_bind, x_pure, List.map_cons, List.map_nil, declareAll_cons, declareAll_nil, x_declare]
  simp only [fromBoxFn, counter, runStmts_enum, runStmts_tail, hbody, scope_apply, hdisp, docRead_eq]
  have key : ∀ {v t d}, Variant env v t d → gev 𝔾 (n + 4) gsc (unboxE (varE "tagged") v t) [("discrim", some (dV (b.discriminant env))), ("tagged", some (boxV b))] s =
      XOut.of (fun e => .user (.inl e)) (fun _ => explicitPanic) [("discrim", some (dV (b.discriminant env))), ("tagged", none)] (readM env rc b v t s) := by
    intro v t d h
    exact unbox_eval env user rc cb h (n + 1) (varE "tagged") b _ _ s _ (fun k => by
      simp only [varE, one, gev_var, useVar_apply]
      rfl)
  have e0 := key .integer
  have e1 := key .boolean
  cases b.discriminant env == docInteger env with
  | true =>
    simp only [if_true, scope_apply, x_bind, x_declare, e0]
    cases readM env rc b "Integer" "i32" s <;> rfl
  | false => cases b.discriminant env == docBoolean env with
    | true =>
      simp only [Bool.false_eq_true, if_false, if_true, scope_apply, x_bind, x_declare, e1]
      cases readM env rc b "Boolean" "bool" s <;> rfl
    | false =>
      simp only [Bool.false_eq_true, if_false, m_panic, XOut.of, Nat.sub_self, x_bind, dropLocals_zero, x_panic, List.length_cons, List.length_nil, Nat.zero_add, Nat.sub_zero]
      rw [show (1 : Nat) = 0 + 1 from rfl, dropLocals_some]
      simp only [x_bind, drop_boxV, dropLocals_zero, x_panic]

/-- `into_inner` -/
theorem intoInner_run (n : Nat) (b : TBox) (l : Locals (Host β)) (s : State) :
    runFn 𝔾 (gev 𝔾 (n + 6)) (intoInnerFn (dTy env)) (some (.struct containerName [("value", boxV b)])) [] l s =
      XOut.of (fun e => .user (.inl e)) (fun _ => explicitPanic) l (docRead env rc b s) := by
  have hdisp := dispatch env user rc cb (n + 1) b (unboxE selfValue) [("self", some (.struct containerName [("value", boxV b)]))] s
  have hscr : gplace (gev 𝔾 (n + 4) gsc) (.method selfValue "discriminant" [] []) [("self", some (.struct containerName [("value", boxV b)]))] s =
      .ret (dV (b.discriminant env)) [("self", some (.struct containerName [("value", boxV b)]))] s := by
    simp only [gplace_method, selfValue, varE, one, gev_method_field, methodCall, x_bind, gplace_field, readVar_apply, lookup_head, fieldOf, x_some, seqE_nil, peel_boxV,
      tyName_boxV, find_box_discriminant, List.map_nil, c_discriminant]
  have hbody : gev 𝔾 (n + 6) gsc (.block [.tail (.mtch (.method selfValue "discriminant" [] [])
      [unboxArm (dTy env) selfValue "Integer" "i32", unboxArm (dTy env) selfValue "Boolean" "bool", lastArm])])
        [("self", some (.struct containerName [("value", boxV b)]))] s =
      scope (src env user) (runArms 𝔾 (gev 𝔾 (n + 4) gsc) none (dV (b.discriminant env))
        [guarded (dTy env) "Integer" (unboxE selfValue "Integer" "i32"), guarded (dTy env) "Boolean" (unboxE selfValue "Boolean" "bool"), lastArm])
        [("self", some (.struct containerName [("value", boxV b)]))] s := by
    rw [gev_block, show Sc.enter gsc _ = gsc from rfl]
    simp only [scope_apply, runStmts_tail, gev_match, x_bind, hscr, asVar]
    rfl
  have hsc : Sc.enter ⟨[], []⟩ (intoInnerFn (dTy env)).body = gsc := rfl
  have hself : (intoInnerFn (dTy env)).self = some .value := rfl
  have hpar : (intoInnerFn (dTy env)).params = [] := rfl
  simp only [runFn, inFn_apply, hsc, hself, hpar, scope_apply, x_bind, x_pure, List.map_cons, List.map_nil, declareAll_cons, declareAll_nil, x_declare]
  simp only [intoInnerFn, counter, runStmts_enum, runStmts_tail, hbody, scope_apply, hdisp, docRead_eq]
  have key : ∀ {v t d}, Variant env v t d → gev 𝔾 (n + 4) gsc (unboxE selfValue v t)
        [("discrim", some (dV (b.discriminant env))), ("self", some (.struct containerName [("value", boxV b)]))] s =
      XOut.of (fun e => .user (.inl e)) (fun _ => explicitPanic) [("discrim", some (dV (b.discriminant env))), ("self", some (.struct containerName [("value", .unit)]))]
        (readM env rc b v t s) := by
    intro v t d h
    exact unbox_eval env user rc cb h (n + 1) selfValue b _ _ s _ (fun k => by
      simp only [selfValue, varE, one, gev_field]
      rfl)
  have e0 := key .integer
  have e1 := key .boolean
  cases b.discriminant env == docInteger env with
  | true =>
    simp only [if_true, scope_apply, x_bind, x_declare, e0]
    cases readM env rc b "Integer" "i32" s <;> rfl
  | false => cases b.discriminant env == docBoolean env with
    | true =>
      simp only [Bool.false_eq_true, if_false, if_true, scope_apply, x_bind, x_declare, e1]
      cases readM env rc b "Boolean" "bool" s <;> rfl
    | false =>
      rfl

/-- `TaggedBox::new(value, EnumCounter::V as _)` -/
theorem new_eval (h : Variant env v t d) (n : Nat) (hs : (rc.leaf (.named t)).shape.size < 2 ^ 64) (x : Bytes) (L : Locals (Host β)) (s : State) :
    gev 𝔾 (n + 3) gsc (.call (boxFn "new" t) [varE "value", discE (dTy env) v]) (("value", some (.obj (rc.leaf (.named t)).shape [x])) :: L) s =
      XOut.of boxV (panicMsg d) (("value", none) :: L) (TBox.new env (rc.leaf (.named t)).shape [x] d s) := by
  have ht : gty 𝔾 gsc (.user (.named t)) = .opaque (rc.leaf (.named t)).shape := rfl
  have hv : gev 𝔾 (n + 2) gsc (varE "value") (("value", some (.obj (rc.leaf (.named t)).shape [x])) :: L) s =
      .ret (.obj (rc.leaf (.named t)).shape [x]) (("value", none) :: L) s := by
    simp only [varE, one, gev_var, lookup_head, useVar_apply]
    simp [copies_obj, setLocal]
  simp only [boxFn, gev_call, x_bind, seqE_cons, seqE_nil, hv, disc_eval env user rc cb h n, x_pure, callPath, if_true, find_box_new, List.map_cons, List.map_nil, ht]
  exact c_new env user _ hs _ d _ s

/-- `into_tagged_box` -/
theorem intoBox_run (h : Variant env v t d) (hs : (rc.leaf (.named t)).shape.size < 2 ^ 64) (n : Nat) (x : Bytes) (l : Locals (Host β)) (s : State) :
    runFn 𝔾 (gev 𝔾 (n + 4)) (intoBoxFn (dTy env)) (some (.user (.inl ⟨v, .tuple [x]⟩))) [] l s =
      XOut.of boxV (panicMsg d) l (docInto env rc ⟨v, .tuple [x]⟩ s) := by
  have he := new_eval env user rc cb h n hs x [("self", none)] s
  have hsc : Sc.enter ⟨[], []⟩ (intoBoxFn (dTy env)).body = gsc := rfl
  have hself : (intoBoxFn (dTy env)).self = some .value := rfl
  have hpar : (intoBoxFn (dTy env)).params = [] := rfl
  have hdoc : docInto env rc ⟨v, .tuple [x]⟩ s = TBox.new env (rc.leaf (.named t)).shape [x] d s := by cases h <;> rfl
  have hrun : runArms 𝔾 (gev 𝔾 (n + 3) gsc) (some "self") (.user (.inl ⟨v, .tuple [x]⟩)) [boxArm (dTy env) "Integer" "i32", boxArm (dTy env) "Boolean" "bool"]
      [("self", some (.user (.inl ⟨v, .tuple [x]⟩)))] s = scope (src env user) (do
        bindAll 𝔾 (some "self") (.user (.inl ⟨v, .tuple [x]⟩)) [("value", .obj (rc.leaf (.named t)).shape [x])]
        gev 𝔾 (n + 3) gsc (.call (boxFn "new" t) [varE "value", discE (dTy env) v])) [("self", some (.user (.inl ⟨v, .tuple [x]⟩)))] s := by
    cases h <;> rfl
  have hb : bindAll 𝔾 (some "self") (.user (.inl ⟨v, .tuple [x]⟩)) [("value", .obj (rc.leaf (.named t)).shape [x])] [("self", some (.user (.inl ⟨v, .tuple [x]⟩)))] s =
      .ret () [("value", some (.obj (rc.leaf (.named t)).shape [x])), ("self", none)] s := rfl
  simp only [runFn, inFn_apply, hsc, hself, hpar, scope_apply, x_bind, x_pure, List.map_nil, declareAll_nil, x_declare]
  simp only [intoBoxFn, counter, runStmts_enum, runStmts_tail, gev_match, x_bind, varE, one, gplace_var, readVar_apply, lookup_head, asVar]
  simp only [varE, one] at he hrun
  simp only [hrun, scope_apply, x_bind, hb, he, hdoc]
  cases TBox.new env (rc.leaf (.named t)).shape [x] d s <;> rfl

/-- The body of an arm of `ref_from_tagged_box`. -/
def lendE (v t : String) : Expr := .block [
  .letS (.bind "variant") none (.call (.path [("core", []), ("mem", []), ("ManuallyDrop", []), ("new", [])]) [.call (.path (two "Item" v)) [readE (.user (.named t))]]),
  .tail (.call (varE "callback") [.ref false (varE "variant")])]

/-- An arm of `ref_from_tagged_box`. -/
theorem lend_eval (h : Variant env v t d) (n : Nat) (b : TBox) (s : State) :
    gev 𝔾 (n + 6) gsc (lendE v t) (lendL env b (.struct "<callback>" [])) s =
      match ptrRead (rc.leaf (.named t)).shape (b.asPtr env) s with
      | .ret vs s1 => (match cb ⟨v, .tuple [vs[0]?.getD []]⟩ s1 with
        | .ret r s2 => .ret .unit (lendL env b (.user (.inr r))) s2
        | .panic k s2 => .panic (.kind k) (lendL env b (.struct "<callback>" [])) s2
        | .ub k => .ub k)
      | .panic k s1 => .panic (.kind k) (lendL env b (.struct "<callback>" [])) s1
      | .ub k => .ub k := by
  have hen : lookup "Item" gsc.types = none := by simp [gsc, lookup]
  have hco : lookup "core" gsc.types = none := by simp [gsc, lookup]
  have hcb : lookup "callback" gsc.types = none := by simp [gsc, lookup]
  have htg : lookup "tagged" (lendL env b (.struct "<callback>" [] : GV β)) = some (some (.refv (boxV b))) := rfl
  have hr := read_eval env user rc false "Container" "Item" defs (fns (dTy env)) cb (n + 1) (sc := gsc) (.user (.named t)) (rc.leaf (.named t)).shape rfl b
    (lendL env b (.struct "<callback>" [])) s htg
  rw [lendE, gev_block, scope_apply, show Sc.enter gsc _ = gsc from rfl]
  rcases ptrRead_cases (rc.leaf (.named t)).shape (b.asPtr env) s with ⟨vs, hp, hl⟩ | ⟨k, hp⟩
  · obtain ⟨x, rfl⟩ : ∃ x, vs = [x] := List.length_eq_one_iff.1 (by simpa [Leaf.shape] using hl)
    rw [hp] at hr
    have hcall := call_eval env user rc false "Container" "Item" defs (fns (dTy env)) cb (n + 4) (noCall_none hcb) (.ref false (varE "variant"))
      (.refv (.struct "ManuallyDrop" [("value", .user (.inl ⟨v, .tuple [x]⟩))])) ⟨v, .tuple [x]⟩ rfl
      (("variant", some (.struct "ManuallyDrop" [("value", .user (.inl ⟨v, .tuple [x]⟩))])) :: lendL env b (.struct "<callback>" [])) s
      (by simp only [gev_ref, varE, one, x_bind, gplace_var, readVar_apply, lookup_head, x_pure]) rfl
    simp only [runStmts_let, x_bind, md_eval env user rc false "Container" "Item" defs (fns (dTy env)) cb (n + 4) hco, gev_call, seqE_cons, seqE_nil, hr, XOut.of, x_pure, two,
      callPath, hen, if_true, enumTuple, h.defs, toBytesList, toBytes, List.length_cons, List.length_nil, x_declare, runStmts_tail, hcall, hp]
    show _ = match cb ⟨v, .tuple [x]⟩ s with
      | .ret r s2 => _
      | .panic k s2 => _
      | .ub k => _
    cases cb ⟨v, .tuple [x]⟩ s <;> rfl
  · rw [hp] at hr
    simp only [runStmts_let, x_bind, md_eval env user rc false "Container" "Item" defs (fns (dTy env)) cb (n + 4) hco, gev_call, seqE_cons, seqE_nil, hr, XOut.of, hp]

/-- `ref_from_tagged_box` -/
theorem lend_run (b : TBox) (s : State) :
    GCrate.lend 𝔾 (boxV b) s = match docRef env rc b cb s with
      | .ret r s => .ret r [] s
      | .panic k s => .panic (if b.discriminant env = docInteger env ∨ b.discriminant env = docBoolean env then .kind k else explicitPanic) [] s
      | .ub k => .ub k := by
  have hdisp := dispatch env user rc cb 35 b lendE [("callback", some (.struct "<callback>" [])), ("tagged", some (.refv (boxV b)))] s
  have hscr : gplace (gev 𝔾 38 gsc) (.method (varE "tagged") "discriminant" [] [])
      [("callback", some (.struct "<callback>" [])), ("tagged", some (.refv (boxV b)))] s =
      .ret (dV (b.discriminant env)) [("callback", some (.struct "<callback>" [])), ("tagged", some (.refv (boxV b)))] s := by
    have hp : (V.refv (boxV b) : GV β).peel = boxV b := rfl
    have hl : lookup "tagged" ([("callback", some (.struct "<callback>" [])), ("tagged", some (.refv (boxV b)))] : Locals (Host β)) = some (some (.refv (boxV b))) := rfl
    rw [show (38 : Nat) = 37 + 1 from rfl]
    simp only [gplace_method, varE, one, gev_method_path, methodCall, x_bind, gplace_var, readVar_apply, hl, seqE_nil, hp, tyName_boxV,
      find_box_discriminant, List.map_nil, c_discriminant]
  have hbody : runStmts 𝔾 (gev 𝔾 40 gsc) gsc (refFn (dTy env)).body
      [("callback", some (.struct "<callback>" [])), ("tagged", some (.refv (boxV b)))] s =
      scope (src env user) (runArms 𝔾 (gev 𝔾 38 gsc) none (dV (b.discriminant env))
        [guarded (dTy env) "Integer" (lendE "Integer" "i32"), guarded (dTy env) "Boolean" (lendE "Boolean" "bool"), lastArm])
          [("callback", some (.struct "<callback>" [])), ("tagged", some (.refv (boxV b)))] s := by
    simp only [refFn, counter, runStmts_enum, runStmts_tail]
    rw [show (40 : Nat) = 39 + 1 from rfl, gev_block, show Sc.enter gsc _ = gsc from rfl, show (39 : Nat) = 38 + 1 from rfl]
    simp only [scope_apply, runStmts_tail, gev_match, x_bind, hscr, asVar]
    rfl
  have hlend : GCrate.lend 𝔾 (boxV b) s =
      match scope (src env user) (runStmts 𝔾 (gev 𝔾 40 gsc) gsc (refFn (dTy env)).body)
        [("callback", some (.struct "<callback>" [])), ("tagged", some (.refv (boxV b)))] s with
      | .ret _ l s => .ret (match lookup "callback" l with
        | some (some (.user (.inr r))) => some r
        | _ => none) [] s
      | .panic m _ s => .panic m [] s
      | .ub k => .ub k
      | .stuck => .stuck := rfl
  rw [hlend, scope_apply, hbody]
  simp only [scope_apply, hdisp, docRef]
  have key : ∀ {v t d}, Variant env v t d → gev 𝔾 (35 + 3) gsc (lendE v t)
      [("discrim", some (dV (b.discriminant env))), ("callback", some (.struct "<callback>" [])), ("tagged", some (.refv (boxV b)))] s = _ :=
    fun h => lend_eval env user rc cb h 32 b s
  have e0 := key .integer
  have e1 := key .boolean
  by_cases h0 : b.discriminant env = docInteger env
  · simp only [h0, BEq.rfl, if_true, scope_apply, x_bind, x_declare, true_or] at e0 ⊢
    rw [e0]
    simp only [m_bind]
    cases ptrRead (rc.leaf (.named "i32")).shape (b.asPtr env) s with
    | ret vs s1 =>
      simp only [m_bind]
      cases cb ⟨"Integer", .tuple [vs[0]?.getD []]⟩ s1 <;> rfl
    | panic k s1 => rfl
    | ub k => rfl
  · by_cases h1 : b.discriminant env = docBoolean env
    · have h01 : (docBoolean env == docInteger env) = false := by
        rw [← h1]; exact beq_eq_false_iff_ne.2 h0
      simp only [h1, h01, Bool.false_eq_true, BEq.rfl, if_false, if_true, scope_apply, x_bind, x_declare, or_true] at e1 ⊢
      rw [e1]
      simp only [m_bind]
      cases ptrRead (rc.leaf (.named "bool")).shape (b.asPtr env) s with
      | ret vs s1 =>
        simp only [m_bind]
        cases cb ⟨"Boolean", .tuple [vs[0]?.getD []]⟩ s1 <;> rfl
      | panic k s1 => rfl
      | ub k => rfl
    · have g0 : (b.discriminant env == docInteger env) = false := beq_eq_false_iff_ne.2 h0
      have g1 : (b.discriminant env == docBoolean env) = false := beq_eq_false_iff_ne.2 h1
      simp only [g0, g1, Bool.false_eq_true, if_false, h0, h1, or_self]
      rfl

end

end TB.Rust.Guide

import Verif.Lemmas.GsRead

/-! # Running generated code: `from_tagged_box` and `into_inner` (helper lemmas; no property theorems here) -/

set_option autoImplicit false
set_option linter.unusedSectionVars false
set_option linter.unusedSimpArgs false

namespace TB.Rust

open TB TB.Macro TB.Mbe TB.Rust.Gen

variable {β : Type}

/-- What is needed of the declaration and the environment. -/
structure Ready (env : Env) (rc : Rustc) (en : String) (decl : List VariantDef) : Prop where
  u8 : env.cfg.discrBits = 8
  enU8 : en ≠ "u8"
  enCtr : en ≠ "__tagged_box_enum_counter"
  names : (decl.map (·.name)).Nodup
  tuples : env.TupleLegal
  rcOK : rc.OK
  reserved : ∀ d ∈ decl, d.name ∉ d.fields.reserved en
  arity : ∀ d ∈ decl, ∀ tys, d.fields = .tuple tys → tys.length ≤ 32
  members : ∀ d ∈ decl, ∀ ms, d.fields = .record ms → (ms.map (·.1)).Nodup

section
variable (env : Env) [InTable env] (user : User (Host β)) (rc : Rustc) (hd : Bool) (sn en : String) (decl : List VariantDef) (fns : List GFn) (cb : EVal → M β)

local notation "𝔾" => (GCrate.mk (src env user) rc hd sn en decl fns cb)

/-- The items of the function's block. -/
def ctrSc (cs : List (String × Expr)) : Sc := ⟨[("__tagged_box_enum_counter", .enum (decl.map (·.name)))], cs⟩

theorem ctrSc_numbered (h : Ready env rc en decl) (cs : List (String × Expr)) : Numbered en decl (ctrSc decl cs) where
  ctr := by simp [ctrSc, lookup]
  u8 := by simp [ctrSc, lookup]
  core := by simp [ctrSc, lookup]
  en := by simp [ctrSc, lookup, h.enCtr]

theorem stringify_all (n : Nat) (sc : Sc) (l : Locals (Host β)) (s : State) : ∀ ds : List VariantDef,
    seqE (gev 𝔾 (n + 1) sc) (ds.map fun d => .mac "stringify" [varE d.name]) l s = .ret (ds.map fun d => .str d.name) l s
  | [] => rfl
  | d :: ds => by
    simp only [List.map_cons, seqE_cons, x_bind, varE, one, gev_stringify, x_pure]
    have := stringify_all n sc l s ds
    simp only [varE, one] at this
    rw [this]

/-- The expression that counts the variants. -/
def countE : Expr := .method (.array (decl.map fun d => .mac "stringify" [varE d.name])) "len" [] []

theorem count_eval (n : Nat) (sc : Sc) (l : Locals (Host β)) (s : State) :
    inFn (src env user) (gev 𝔾 (n + 2) sc (countE decl)) l s = .ret (.int .usize (BitVec.ofNat 64 decl.length)) l s := by
  simp only [inFn_apply, scope_apply, countE, gev_len, x_bind, stringify_all, x_pure, List.length_map, List.length_nil, Nat.sub_self, dropLocals_zero]

/-- What the last arm says. -/
def noMsg (msg : String) (d : env.cfg.Discr) : Msg (Host β) := .text msg [.str en, .int .usize (BitVec.ofNat 64 decl.length), dV d]

theorem noArm_eval (n : Nat) (msg : String) (d : env.cfg.Discr) (l : Locals (Host β)) (hl : lookup total l = none) (s : State) :
    runArms 𝔾 (gev 𝔾 (n + 5) (ctrSc decl [(total, countE decl)])) none (dV d) [noArm en msg] l s = .panic (noMsg env en decl msg d) l s := by
  have hb : bindAll 𝔾 none (dV d) [("discriminant", dV d)] = (if (dV d : GV β).copies then declareList [("discriminant", dV d)] else X.stuck) := rfl
  have hc : (dV d : GV β).copies = true := rfl
  have hl' : lookup total (("discriminant", some (dV d)) :: l) = none := by
    rw [lookup, if_neg (by decide)]
    exact hl
  have hk : lookup total (ctrSc decl [(total, countE decl)]).consts = some (countE decl) := lookup_head _ _ _
  simp only [noArm, runArms, matchPat, hb, hc, if_true, scope_apply, x_bind, declareList_eq, bound_cons, bound_nil, gev_block]
  have he : (ctrSc decl [(total, countE decl)]).enter [.semi (.mac "panic" [.lit msg, .mac "stringify" [varE en], varE total, varE "discriminant"])] =
    ctrSc decl [(total, countE decl)] := rfl
  rw [he]
  simp only [runStmts_semi, x_bind, gev_panic, seqE_cons, varE, one, gev_stringify, gev_var, hl', hk, count_eval, lookup_head, useVar_apply, hc, if_true, seqE_nil, x_pure,
    x_panic, Nat.sub_self, dropLocals_zero, List.length_cons, Nat.add_sub_cancel_left]
  rw [show (1 : Nat) = 0 + 1 from rfl, dropLocals_some]
  rfl

/-- `from_tagged_box` -/
theorem fromBox_run (h : Ready env rc en decl) (n : Nat) (b : TBox) (l : Locals (Host β)) (s : State) :
    runFn 𝔾 (gev 𝔾 (n + 7)) (fromBoxFn en decl) none [boxV b] l s =
      XOut.of (fun e => .user (.inl e)) (fun _ => noMsg env en decl createMsg (b.discriminant env)) l
        (fromTaggedBox env rc (programOf sn en hd decl) b s) := by
  have hm : fromTaggedBox env rc (programOf sn en hd decl) b s = firstRead env rc (programOf sn en hd decl) b (decl.map (readArmOf false)) s := rfl
  rw [hm, firstRead_eq h.u8 h.names]
  have hdisp := guarded_dispatch env user rc hd sn en decl fns cb h.u8 h.enU8 h.names (n + 2) (ctrSc_numbered env rc en decl h [(total, countE decl)]) b
    (fun d => (unboxArm false en (varE "tagged") d).2.2) (unboxArm false en (varE "tagged")) (fun d => rfl) (noArm en createMsg) [("tagged", some (boxV b))] s
  have hsc : Sc.enter (Sc.enter ⟨[], []⟩ (fromBoxFn en decl).body) [numbering decl, count decl,
      .tail (.mtch (.method (varE "tagged") "discriminant" [] []) (decl.map (unboxArm false en (varE "tagged")) ++ [noArm en createMsg]))] =
      ctrSc decl [(total, countE decl)] := rfl
  have hscr : gplace (gev 𝔾 (n + 5) (ctrSc decl [(total, countE decl)])) (.method (varE "tagged") "discriminant" [] []) [("tagged", some (boxV b))] s =
      .ret (dV (b.discriminant env)) [("tagged", some (boxV b))] s := by
    simp only [gplace_method, varE, one, gev_method_path, methodCall, x_bind, gplace_var, readVar_apply, lookup_head, seqE_nil, peel_boxV, tyName_boxV,
      find_box_discriminant, List.map_nil, c_discriminant]
  have hbody : gev 𝔾 (n + 7) (Sc.enter ⟨[], []⟩ (fromBoxFn en decl).body) (.block [numbering decl, count decl,
      .tail (.mtch (.method (varE "tagged") "discriminant" [] []) (decl.map (unboxArm false en (varE "tagged")) ++ [noArm en createMsg]))])
        [("tagged", some (boxV b))] s =
      scope (src env user) (runArms 𝔾 (gev 𝔾 (n + 5) (ctrSc decl [(total, countE decl)])) none (dV (b.discriminant env))
        (decl.map (unboxArm false en (varE "tagged")) ++ [noArm en createMsg])) [("tagged", some (boxV b))] s := by
    rw [gev_block, hsc]
    simp only [scope_apply, numbering, count, runStmts_enum, runStmts_const, runStmts_tail, gev_match, x_bind, hscr, asVar]
  simp only [runFn, inFn_apply, scope_apply, x_bind, fromBoxFn, x_pure, List.map_cons, List.map_nil, declareAll_cons, declareAll_nil, x_declare, runStmts_tail]
  simp only [fromBoxFn] at hbody
  rw [hbody]
  simp only [scope_apply, hdisp]
  cases hdi : decl[(b.discriminant env).toNat]? with
  | none =>
    simp only [noArm_eval env user rc hd sn en decl fns cb n createMsg (b.discriminant env) [("tagged", some (boxV b))] rfl s, Nat.sub_self, x_bind, dropLocals_zero, x_panic,
      List.length_cons, List.length_nil, Nat.zero_add, Nat.sub_zero]
    rw [show (1 : Nat) = 0 + 1 from rfl, dropLocals_some]
    simp only [x_bind, drop_boxV, dropLocals_zero, m_panic, XOut.of, x_panic]
  | some d =>
    have hmem := List.mem_of_getElem? hdi
    obtain ⟨L'', hL, he⟩ := unbox_eval env user rc hd sn en decl fns cb h.tuples h.rcOK h.names hmem (h.reserved d hmem) (h.arity d hmem) (h.members d hmem) n
      (ctrSc_numbered env rc en decl h [(total, countE decl)]) false (varE "tagged") b
      [("discrim", some (dV (b.discriminant env))), ("tagged", some (boxV b))] [("discrim", some (dV (b.discriminant env))), ("tagged", none)] rfl s
      (fun _ => noMsg env en decl createMsg (b.discriminant env))
      (fun k sc' => by
        simp only [varE, one, gev_var, useVar_apply]
        rfl)
    simp only [scope_apply, x_bind, x_declare, he]
    cases hr : (readArmOf false d).run env rc (programOf sn en hd decl) b s with
    | ret e s' => rcases hL with rfl | rfl <;> rfl
    | panic k s' => rcases hL with rfl | rfl <;> rfl
    | ub k => rfl

/-- `into_inner` -/
theorem intoInner_run (h : Ready env rc en decl) (n : Nat) (b : TBox) (l : Locals (Host β)) (s : State) :
    runFn 𝔾 (gev 𝔾 (n + 7)) (intoInnerFn en decl) (some (.struct containerName [("value", boxV b)])) [] l s =
      XOut.of (fun e => .user (.inl e)) (fun _ => .text innerMsg []) l (containerIntoInner env rc (programOf sn en hd decl) b s) := by
  have hm : containerIntoInner env rc (programOf sn en hd decl) b s = firstRead env rc (programOf sn en hd decl) b (decl.map (readArmOf true)) s := rfl
  rw [hm, firstRead_eq h.u8 h.names]
  have hdisp := guarded_dispatch env user rc hd sn en decl fns cb h.u8 h.enU8 h.names (n + 2) (ctrSc_numbered env rc en decl h []) b
    (fun d => (unboxArm true en selfValue d).2.2) (unboxArm true en selfValue) (fun d => rfl) (.wild, none, .mac "panic" [.lit innerMsg])
    [("self", some (.struct containerName [("value", boxV b)]))] s
  have hscr : gplace (gev 𝔾 (n + 5) (ctrSc decl [])) (.method selfValue "discriminant" [] []) [("self", some (.struct containerName [("value", boxV b)]))] s =
      .ret (dV (b.discriminant env)) [("self", some (.struct containerName [("value", boxV b)]))] s := by
    simp only [gplace_method, selfValue, varE, one, gev_method_field, methodCall, x_bind, gplace_field, readVar_apply, lookup_head, fieldOf, x_some, seqE_nil, peel_boxV,
      tyName_boxV, find_box_discriminant, List.map_nil, c_discriminant]
  have hbody : gev 𝔾 (n + 7) (Sc.enter ⟨[], []⟩ (intoInnerFn en decl).body) (.block [.tail (.mtch (.method selfValue "discriminant" [] [])
      (decl.map (unboxArm true en selfValue) ++ [(.wild, none, .mac "panic" [.lit innerMsg])]))]) [("self", some (.struct containerName [("value", boxV b)]))] s =
      scope (src env user) (runArms 𝔾 (gev 𝔾 (n + 5) (ctrSc decl [])) none (dV (b.discriminant env))
        (decl.map (unboxArm true en selfValue) ++ [(.wild, none, .mac "panic" [.lit innerMsg])])) [("self", some (.struct containerName [("value", boxV b)]))] s := by
    rw [gev_block, show Sc.enter (Sc.enter ⟨[], []⟩ (intoInnerFn en decl).body) _ = ctrSc decl [] from rfl]
    simp only [scope_apply, runStmts_tail, gev_match, x_bind, hscr, asVar]
  simp only [runFn, inFn_apply, scope_apply, x_bind, intoInnerFn, x_pure, List.map_cons, List.map_nil, declareAll_cons, declareAll_nil, x_declare, numbering, runStmts_enum,
    runStmts_tail]
  simp only [intoInnerFn, numbering] at hbody
  rw [hbody]
  simp only [scope_apply, hdisp]
  cases hdi : decl[(b.discriminant env).toNat]? with
  | none => rfl
  | some d =>
    have hmem := List.mem_of_getElem? hdi
    obtain ⟨L'', hL, he⟩ := unbox_eval env user rc hd sn en decl fns cb h.tuples h.rcOK h.names hmem (h.reserved d hmem) (h.arity d hmem) (h.members d hmem) n
      (ctrSc_numbered env rc en decl h []) true selfValue b
      [("discrim", some (dV (b.discriminant env))), ("self", some (.struct containerName [("value", boxV b)]))]
      [("discrim", some (dV (b.discriminant env))), ("self", some (.struct containerName [("value", .unit)]))] rfl s (fun _ => .text innerMsg [])
      (fun k sc' => by
        simp only [selfValue, varE, one, gev_field]
        rfl)
    simp only [scope_apply, x_bind, x_declare, he]
    cases hr : (readArmOf true d).run env rc (programOf sn en hd decl) b s with
    | ret e s' => rcases hL with rfl | rfl <;> rfl
    | panic k s' => rcases hL with rfl | rfl <;> rfl
    | ub k => rfl

end

end TB.Rust

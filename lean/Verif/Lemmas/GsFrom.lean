import Verif.Lemmas.GsInto
import Verif.Spec.GenRun

/-! # Running generated code: the `From` implementations (helper lemmas; no property theorems here) -/

set_option autoImplicit false
set_option linter.unusedSectionVars false
set_option linter.unusedSimpArgs false

namespace TB.Rust

open TB TB.Macro TB.Mbe TB.Rust.Gen TB.Spec

variable {β : Type}

section
variable (env : Env) [InTable env] (user : User (Host β)) (rc : Rustc) (hd : Bool) (sn en : String) (decl : List VariantDef) (fns : List GFn) (cb : EVal → M β)

local notation "𝔾" => (GCrate.mk (src env user) rc hd sn en decl fns cb)

/-- `Self { value: e.into_tagged_box() }`, the enum value in a variable -/
theorem selfE_var (hdrop : user.drop = hostDrop rc hd decl) (h : Ready env rc en decl) (hst : Storable rc hd decl)
    (hfind : findImpl 𝔾 "TaggableInner" en none "into_tagged_box" fns = some (intoBoxFn en decl)) {i : Nat} {e : EVal} (hval : IsValue rc decl i e) (n : Nat) (sc : Sc) (x : String)
    (l : Locals (Host β)) (s : State) :
    gev 𝔾 (n + 8) sc (selfE (.method (varE x) "into_tagged_box" [] [])) ((x, some (.user (.inl e))) :: l) s =
      XOut.of contV (panicMsg (numOf env i)) ((x, none) :: l) (containerFrom env rc (programOf sn en hd decl) e s) := by
  have hrun := intoBox_run env user rc hd sn en decl fns cb hdrop h hst hval n ((x, none) :: l) s
  have hp : (V.user (Sum.inl e) : GV β).peel = .user (.inl e) := rfl
  have ht : (V.user (Sum.inl e) : GV β).tyName = "" := rfl
  have hc : (V.user (Sum.inl e) : GV β).copies = false := rfl
  simp only [selfE, one, gev_struct, if_true, x_bind, seqF_cons, seqF_nil, varE, gev_method_path, methodCall, gplace_var, readVar_apply, lookup_head, seqE_nil, hp, ht,
    find__into_tagged_box, hfind, asVar, useVar_apply, hc, Bool.false_eq_true, if_false, setLocal, hrun, containerFrom]
  cases intoTaggedBox env rc (programOf sn en hd decl) e s <;> simp only [XOut.of, x_pure, contV]

/-- `Self { value: e.into_tagged_box() }`, the enum value just built -/
theorem selfE_call (hdrop : user.drop = hostDrop rc hd decl) (h : Ready env rc en decl) (hst : Storable rc hd decl)
    (hfind : findImpl 𝔾 "TaggableInner" en none "into_tagged_box" fns = some (intoBoxFn en decl)) {i : Nat} {e : EVal} (hval : IsValue rc decl i e) (n : Nat) (sc : Sc) (p : Expr)
    (args : List Expr) (L L' : Locals (Host β)) (s : State) (he : gev 𝔾 (n + 6) sc (.call p args) L s = .ret (.user (.inl e)) L' s) :
    gev 𝔾 (n + 8) sc (selfE (.method (.call p args) "into_tagged_box" [] [])) L s =
      XOut.of contV (panicMsg (numOf env i)) L' (containerFrom env rc (programOf sn en hd decl) e s) := by
  have hrun := intoBox_run env user rc hd sn en decl fns cb hdrop h hst hval n L' s
  have hp : (V.user (Sum.inl e) : GV β).peel = .user (.inl e) := rfl
  have ht : (V.user (Sum.inl e) : GV β).tyName = "" := rfl
  simp only [selfE, one, gev_struct, if_true, x_bind, seqF_cons, seqF_nil, gev_method_call, methodCall, gplace_call, he, seqE_nil, hp, ht,
    find__into_tagged_box, hfind, asVar, x_pure, hrun, containerFrom]
  cases intoTaggedBox env rc (programOf sn en hd decl) e s <;> simp only [XOut.of, x_pure, contV]

/-- `From<En>` -/
theorem fromEnum_run (hdrop : user.drop = hostDrop rc hd decl) (h : Ready env rc en decl) (hst : Storable rc hd decl)
    (hfind : findImpl 𝔾 "TaggableInner" en none "into_tagged_box" fns = some (intoBoxFn en decl)) {i : Nat} {e : EVal} (hval : IsValue rc decl i e) (n : Nat)
    (l : Locals (Host β)) (s : State) :
    runFn 𝔾 (gev 𝔾 (n + 8)) (fromEnumFn en) none [.user (.inl e)] l s =
      XOut.of contV (panicMsg (numOf env i)) l (containerFrom env rc (programOf sn en hd decl) e s) := by
  have hself : (fromEnumFn en).self = none := rfl
  have hpar : (fromEnumFn en).params.map (·.1) = ["variant"] := rfl
  have he := selfE_var env user rc hd sn en decl fns cb hdrop h hst hfind hval n (Sc.enter ⟨[], []⟩ (fromEnumFn en).body) "variant" [] s
  simp only [runFn, hself, hpar, inFn_apply, scope_apply, x_bind, x_pure, declareAll_cons, declareAll_nil, x_declare]
  simp only [fromEnumFn, runStmts_use, runStmts_tail] at he ⊢
  rw [he]
  cases containerFrom env rc (programOf sn en hd decl) e s <;> rfl

/-- `From<payload>` -/
theorem fromPayload_run (hdrop : user.drop = hostDrop rc hd decl) (h : Ready env rc en decl) (hst : Storable rc hd decl)
    (hfind : findImpl 𝔾 "TaggableInner" en none "into_tagged_box" fns = some (intoBoxFn en decl)) {i : Nat} {v : String} {tys : List Ty} {vs : List Bytes}
    (hdi : decl[i]? = some ⟨v, .tuple tys⟩) (hty : HasTypes rc tys vs) {t : RTy} {f : Fn} (hf : fromFn en ⟨v, .tuple tys⟩ = some (t, f)) (n : Nat)
    (l : Locals (Host β)) (s : State) :
    runFn 𝔾 (gev 𝔾 (n + 8)) f none [payloadV env rc tys vs] l s =
      XOut.of contV (panicMsg (numOf env i)) l (containerFrom env rc (programOf sn en hd decl) ⟨v, .tuple vs⟩ s) := by
  have hmem := List.mem_of_getElem? hdi
  have hdef : lookupDef decl v = some (.tuple tys) := lookupDef_of h.names hmem
  have hval : IsValue rc decl i ⟨v, .tuple vs⟩ := ⟨_, hdi, rfl, hty⟩
  have hlen : vs.length = tys.length := hasTypes_length hty
  have har := h.arity _ hmem tys rfl
  match tys, vs with
  | [t1], [x] =>
    simp only [fromFn, Option.some.injEq, Prod.mk.injEq] at hf
    obtain ⟨rfl, rfl⟩ := hf
    have he := selfE_call env user rc hd sn en decl fns cb hdrop h hst hfind hval n ⟨[], []⟩ (.path (two en v)) [varE "val"]
      [("val", some (.obj (rc.leaf t1).shape [x]))] [("val", none)] s (by
        have hc : (V.obj (rc.leaf t1).shape [x] : GV β).copies = false := rfl
        simp only [gev_call, x_bind, seqE_cons, seqE_nil, varE, one, gev_var, lookup_head, useVar_apply, hc, Bool.false_eq_true, if_false, setLocal, x_pure, two, callPath, lookup,
          if_true, enumTuple, hdef, toBytesList, toBytes, List.length_cons, List.length_nil])
    simp only [runFn, List.map_cons, List.map_nil, inFn_apply, scope_apply, x_bind, x_pure, declareAll_cons, declareAll_nil, x_declare, runStmts_use, runStmts_tail, payloadV]
    rw [show Sc.enter ⟨[], []⟩ _ = (⟨[], []⟩ : Sc) from rfl, he]
    cases containerFrom env rc (programOf sn en hd decl) _ s <;> rfl
  | [], [] =>
    simp only [fromFn, Option.some.injEq, Prod.mk.injEq] at hf
    obtain ⟨rfl, rfl⟩ := hf
    have he := selfE_var env user rc hd sn en decl fns cb hdrop h hst hfind hval n ⟨[], []⟩ "variant" [("tuple", some (payloadV env rc [] []))] s
    have hb : ∀ l : Locals (Host β), gev 𝔾 (n + 8) ⟨[], []⟩ (rebuildE (two en v) (varE "tuple") 0) l s = .ret (.user (.inl ⟨v, .tuple []⟩)) l s := by
      intro l
      simp only [rebuildE, if_true, gev_call, x_bind, seqE_nil, two, callPath, lookup, enumTuple, hdef, toBytesList, List.length_nil, x_pure]
    have hd0 : ∀ s : State, dropLocals (src env user) 1 [("tuple", some (payloadV env rc [] [] : GV β))] s = .ret () [] s := by
      intro s
      rw [show (1 : Nat) = 0 + 1 from rfl, dropLocals_some]
      have hs0 : TB.dropVal (env.tuple (([] : List Ty).map rc.leaf)) [] s = .ret () s := by
        unfold TB.dropVal
        simp [M.log, dropEvents, log_nil]
      simp only [x_bind, payloadV, dropV_obj, x_mem, hs0, dropLocals_zero]
    simp only [runFn, List.map_cons, List.map_nil, inFn_apply, scope_apply, x_bind, x_pure, declareAll_cons, declareAll_nil, x_declare, runStmts_use, runStmts_tail, runStmts_let,
      List.length_nil]
    rw [show Sc.enter ⟨[], []⟩ _ = (⟨[], []⟩ : Sc) from rfl]
    simp only [hb, he]
    cases containerFrom env rc (programOf sn en hd decl) _ s <;>
      simp only [XOut.of, List.length_cons, List.length_nil, Nat.zero_add, Nat.add_sub_cancel, Nat.sub_zero, dropLocals_none, dropLocals_zero, hd0, x_bind, x_pure, x_panic, Nat.reduceAdd, Nat.reduceSub]
  | t1 :: t2 :: ts, vs =>
    simp only [fromFn, Option.some.injEq, Prod.mk.injEq] at hf
    obtain ⟨rfl, rfl⟩ := hf
    have hsh := tupleShape_fields h.tuples h.rcOK (t1 :: t2 :: ts)
    have he := selfE_var env user rc hd sn en decl fns cb hdrop h hst hfind hval n ⟨[], []⟩ "variant" [("tuple", none)] s
    have hb := rebuild_eval env user rc hd sn en decl fns cb (n + 5) (sc := ⟨[], []⟩) rfl hdef (by simp) har (varE "tuple") (env.tuple ((t1 :: t2 :: ts).map rc.leaf)) hsh vs hlen
      [("tuple", some (payloadV env rc (t1 :: t2 :: ts) vs))] [("tuple", none)] rfl s s (by
        have hc : (V.obj (env.tuple ((t1 :: t2 :: ts).map rc.leaf)) vs : GV β).copies = false := rfl
        simp only [varE, one, gev_var, lookup_head, useVar_apply, payloadV, hc, Bool.false_eq_true, if_false, setLocal, if_true])
    simp only [runFn, List.map_cons, List.map_nil, inFn_apply, scope_apply, x_bind, x_pure, declareAll_cons, declareAll_nil, x_declare, runStmts_use, runStmts_tail, runStmts_let]
    rw [show Sc.enter ⟨[], []⟩ _ = (⟨[], []⟩ : Sc) from rfl]
    simp only [hb, he]
    cases containerFrom env rc (programOf sn en hd decl) _ s <;> rfl

end

end TB.Rust

import Verif.Lemmas.GsRun

/-! # Running generated code: reading a value out of a box (helper lemmas; no property theorems here) -/

set_option autoImplicit false
set_option linter.unusedSectionVars false
set_option linter.unusedSimpArgs false

namespace TB.Rust

open TB TB.Macro TB.Mbe TB.Rust.Gen

variable {β : Type}

/-! ## What is read -/

theorem ptrRead_cases (sh : Shape) (a : Nat) (s : State) :
    (∃ v, ptrRead sh a s = .ret v s ∧ v.length = sh.fields.length) ∨ ∃ k, ptrRead sh a s = .ub k := by
  unfold ptrRead
  split
  · split
    · exact .inl ⟨_, rfl, by simp [getVal]⟩
    · exact .inr ⟨_, rfl⟩
  · exact .inr ⟨_, rfl⟩

theorem intoInner_cases (env : Env) (b : TBox) (sh : Shape) (s : State) :
    (∃ v, b.intoInner env sh s = .ret v s ∧ v.length = sh.fields.length) ∨ ∃ k, b.intoInner env sh s = .ub k :=
  ptrRead_cases sh _ s

theorem structShape_fields (rc : Rustc) (tys : List Ty) : (structShape rc tys).fields.length = tys.length := by
  have := congrArg List.length (reprC_fields (tys.map rc.leaf))
  simpa [structShape] using this

theorem tupleShape_fields {env : Env} (h : env.TupleLegal) {rc : Rustc} (hrc : rc.OK) (tys : List Ty) :
    (tupleShape env rc tys).fields.length = tys.length := by
  have := congrArg List.length (h (tys.map rc.leaf) (fun l hl => by
    obtain ⟨t, _, rfl⟩ := List.mem_map.1 hl
    exact hrc.leaf_wf t)).2
  simpa [tupleShape] using this

/-! ## Layouts of local structures -/

section
variable (env : Env) [InTable env] (user : User (Host β)) (rc : Rustc) (hd : Bool) (sn en : String) (decl : List VariantDef) (fns : List GFn) (cb : EVal → M β)

local notation "𝔾" => (GCrate.mk (src env user) rc hd sn en decl fns cb)

theorem positional_types (tys : List RTy) : (positional tys).map (·.2) = tys := by
  simp [positional, Function.comp_def]

@[gs] theorem positional_length (tys : List RTy) : (positional tys).length = tys.length := by simp [positional]

theorem fieldLeaf_user (tys : List Ty) : (tys.map RTy.user).map (fieldLeaf 𝔾) = tys.map rc.leaf := by
  simp [fieldLeaf]

theorem layout_tupleC (attrs : List (List TT)) (h : attrs.any isReprC = true) (tys : List Ty) :
    layoutOf 𝔾 attrs (positional (tys.map .user)) = structShape rc tys := by
  have : (positional (tys.map RTy.user)).map (fun f => fieldLeaf 𝔾 f.2) = tys.map rc.leaf := by
    rw [← fieldLeaf_user env user rc hd sn en decl fns cb tys, ← positional_types (tys.map RTy.user), List.map_map]
    simp [positional_types, Function.comp_def]
  rw [layoutOf, if_pos h, this, structShape]

theorem layout_recordC (attrs : List (List TT)) (h : attrs.any isReprC = true) (ms : List (String × Ty)) :
    layoutOf 𝔾 attrs (ms.map fun m => (m.1, RTy.user m.2)) = structShape rc (ms.map (·.2)) := by
  rw [layoutOf, if_pos h, structShape]
  simp [fieldLeaf, Function.comp_def]

theorem isReprC_repr : ([attr1 "repr" "C"] : List (List TT)).any isReprC = true := rfl
theorem isReprC_allow : ([attr1 "allow" "dead_code", attr1 "repr" "C"] : List (List TT)).any isReprC = true := rfl

@[gs] theorem c_intoInner (b : TBox) (sh : Shape) (l : Locals (Host β)) (s : State) :
    callFn (src env user) evFuel Code.box_into_inner "TaggedBox" [.opaque sh] none [boxV b] .unknown l s =
      XOut.of (fun v => .obj sh v) .kind l (b.intoInner env sh s) := b_intoInner env user 120 b sh .unknown l s
@[gs] theorem c_discriminant (b : TBox) (l : Locals (Host β)) (s : State) :
    callFn (src env user) evFuel Code.box_discriminant "TaggedBox" [] (some (boxV b)) [] .unknown l s = .ret (dV (b.discriminant env)) l s :=
  b_discriminant env user 140 b .unknown l s
@[gs] theorem c_asPtr (b : TBox) (sh : Shape) (l : Locals (Host β)) (s : State) :
    callFn (src env user) evFuel Code.box_as_ptr "TaggedBox" [.opaque sh] (some (boxV b)) [] .unknown l s =
      .ret (.ptr (.opaque sh) (b.asPtr env)) l s := b_asPtr env user 140 b sh .unknown l s
@[gs] theorem c_dangling (sh : Shape) (d : env.cfg.Discr) (l : Locals (Host β)) (s : State) :
    callFn (src env user) evFuel Code.box_dangling "TaggedBox" [.opaque sh] none [dV d] .unknown l s =
      .ret (boxV (TBox.dangling env sh.align d)) l s := b_dangling env user 140 sh d .unknown l s
theorem c_new (sh : Shape) (hs : sh.size < 2 ^ 64) (v : TB.Val) (d : env.cfg.Discr) (l : Locals (Host β)) (s : State) :
    callFn (src env user) evFuel Code.box_new "TaggedBox" [.opaque sh] none [.obj sh v, dV d] .unknown l s =
      XOut.of boxV (panicMsg d) l (TBox.new env sh v d s) := b_new env user 120 sh hs v d .unknown l s

/-- `TaggedBox::into_inner::<t>(tg)` -/
theorem into_inner_eval (n : Nat) {sc : Sc} (t : RTy) (sh : Shape) (ht : gty 𝔾 sc t = .opaque sh) (tg : Expr) (b : TBox) (L L' : Locals (Host β)) (s : State)
    (htg : gev 𝔾 (n + 1) sc tg L s = .ret (boxV b) L' s) :
    gev 𝔾 (n + 2) sc (.call (boxFn en "into_inner" t) [tg]) L s = XOut.of (fun v => .obj sh v) .kind L' (b.intoInner env sh s) := by
  rw [boxFn, gev_call]
  simp only [x_bind, seqE_cons, seqE_nil, htg, x_pure, callPath, if_true, find_box_into_inner, List.map_cons, List.map_nil, ht]
  exact c_intoInner env user b sh L' s

/-- Rebuilding a tuple variant from a structure or tuple with at least one field. -/
theorem rebuild_eval (n : Nat) {sc : Sc} (hsc : lookup en sc.types = none) {v : String} {tys : List Ty} (hv : lookupDef decl v = some (.tuple tys)) (h0 : tys.length ≠ 0) (h32 : tys.length ≤ 32)
    (e : Expr) (sh : Shape) (hsh : sh.fields.length = tys.length) (vs : TB.Val) (hvs : vs.length = tys.length) (L L' : Locals (Host β)) (hL : L'.length = L.length) (s s' : State)
    (he : gev 𝔾 (n + 2) sc e L s = .ret (.obj sh vs) L' s') :
    gev 𝔾 (n + 3) sc (rebuildE (two en v) e tys.length) L s = .ret (.user (.inl ⟨v, .tuple vs⟩)) L' s' := by
  have hf := seqE_fields 𝔾 n sc "tuple" s' sh vs L' (by omega) (by omega) (by omega)
  rw [hvs] at hf
  rw [rebuildE, if_neg h0, gev_block]
  have hen : Sc.enter sc [.letS (.bind "tuple") none e, .tail (.call (.path (two en v)) ((List.range tys.length).map fun i => .field (varE "tuple") (toString i)))] = sc := rfl
  rw [hen]
  simp only [scope_apply, runStmts_let, x_bind, he, x_declare, runStmts_tail, gev_call, hf, callPath, two, hsc, if_true, enumTuple, hv,
    toBytesList_fieldVs sh.fields vs (by omega), hvs, x_pure]
  rw [List.length_cons, show L'.length + 1 - L.length = 0 + 1 by omega, dropLocals_some]
  simp only [x_bind, dropV_gone, dropLocals_zero]

/-! ## Records -/

theorem lookup_mid {α : Type} {pre suf : List (String × α)} {x : String} {a : α} (h : x ∉ pre.map (·.1)) : lookup x (pre ++ (x, a) :: suf) = some a := by
  rw [lookup_append_of_not_mem x _ _ h, lookup_head]

theorem bindFields_self : ∀ (suf pre : List (String × GV β)), ((pre ++ suf).map (·.1)).Nodup →
    bindFields (pre ++ suf) (suf.map fun x => (x.1, .bind x.1)) = some suf
  | [], _, _ => rfl
  | (x, v) :: suf, pre, h => by
    have hx : x ∉ pre.map (·.1) := by
      rw [List.map_append, List.nodup_append] at h
      exact fun hp => h.2.2 x hp x (by simp) rfl
    have ih := bindFields_self suf (pre ++ [(x, v)]) (by simpa using h)
    rw [List.append_assoc, List.singleton_append] at ih
    rw [List.map_cons, bindFields, lookup_mid hx]
    simp only [ih]

theorem pickFields_self : ∀ (suf pre : List (String × GV β)) (bs : List Bytes), ((pre ++ suf).map (·.1)).Nodup → toBytesList (suf.map (·.2)) = some bs →
    pickFields (pre ++ suf) (suf.map (·.1)) = some bs
  | [], _, bs, _, hb => by
    simp only [List.map_nil, toBytesList, Option.some.injEq] at hb
    subst hb
    rfl
  | (x, v) :: suf, pre, bs, h, hb => by
    have hx : x ∉ pre.map (·.1) := by
      rw [List.map_append, List.nodup_append] at h
      exact fun hp => h.2.2 x hp x (by simp) rfl
    simp only [List.map_cons, toBytesList] at hb
    split at hb
    · next b bs' h1 h2 =>
      cases hb
      have ih := pickFields_self suf (pre ++ [(x, v)]) bs' (by simpa using h) h2
      rw [List.append_assoc, List.singleton_append] at ih
      rw [List.map_cons, pickFields, lookup_mid hx]
      simp only [h1, ih]
    · cases hb

theorem fieldVs_length (fs : List (Nat × Leaf)) (vs : TB.Val) (h : fs.length = vs.length) : (fieldVs fs vs : List (GV β)).length = vs.length := by
  simp [fieldVs, h]

theorem zip_parts : ∀ (ms : List (String × Ty)) (fs : List (Nat × Leaf)) (vs : TB.Val) (k : Nat), fs.length = vs.length → vs.length = ms.length →
    List.zipWith (fun (t : String × RTy) (p : String × GV β) => (t.1, p.2)) (ms.map fun m => (m.1, RTy.user m.2)) (parts k fs vs) = (ms.map (·.1)).zip (fieldVs fs vs)
  | [], _, _, _, _, _ => rfl
  | m :: ms, [], [], _, _, h => by simp at h
  | m :: ms, [], _ :: _, _, h, _ => by simp at h
  | m :: ms, _ :: _, [], _, h, _ => by simp at h
  | m :: ms, f :: fs, v :: vs, k, h, h' => by
    have ih := zip_parts ms fs vs (k + 1) (by simpa using h) (by simpa using h')
    simp only [List.map_cons, parts, List.zipWith_cons_cons, ih, fieldVs, List.zip_cons_cons]

/-- The variables of a destructured structure. -/
def recVars (ms : List (String × Ty)) (sh : Shape) (vs : TB.Val) : List (String × GV β) := (ms.map (·.1)).zip (fieldVs sh.fields vs)

section
variable {ms : List (String × Ty)} {sh : Shape} {vs : TB.Val} (hf : sh.fields.length = vs.length) (hv : vs.length = ms.length)
include hf hv

theorem recVars_fst : (recVars ms sh vs : List (String × GV β)).map (·.1) = ms.map (·.1) :=
  List.map_fst_zip (by rw [fieldVs_length _ _ hf, hv, List.length_map]; exact Nat.le_refl _)
theorem recVars_snd : (recVars ms sh vs : List (String × GV β)).map (·.2) = fieldVs sh.fields vs :=
  List.map_snd_zip (by rw [fieldVs_length _ _ hf, hv, List.length_map]; exact Nat.le_refl _)
theorem recVars_length : (recVars ms sh vs : List (String × GV β)).length = ms.length := by
  have := congrArg List.length (recVars_fst (β := β) hf hv)
  simpa using this

theorem recVars_copies : ∀ x ∈ (recVars ms sh vs : List (String × GV β)), x.2.copies = false := by
  intro x hx
  have : x.2 ∈ (recVars ms sh vs : List (String × GV β)).map (·.2) := List.mem_map_of_mem hx
  rw [recVars_snd hf hv, fieldVs, List.mem_iff_getElem] at this
  obtain ⟨i, hi, h⟩ := this
  rw [List.getElem_zipWith] at h
  rw [← h]
  rfl

theorem letStruct_eq (hn : (ms.map (·.1)).Nodup) (l : Locals (Host β)) (s : State) :
    letStruct (ms.map fun m => (m.1, RTy.user m.2)) ((ms.map (·.1)).map fun x => (x, Pat.bind x)) (.obj sh vs) l s =
      .ret () (bound (recVars ms sh vs) l) s := by
  have hb := bindFields_self (β := β) (recVars ms sh vs) [] (by rw [List.nil_append, recVars_fst hf hv]; exact hn)
  have hp : (recVars ms sh vs : List (String × GV β)).map (fun x => (x.1, Pat.bind x.1)) = (ms.map (·.1)).map fun x => (x, Pat.bind x) := by
    rw [← recVars_fst (β := β) hf hv, List.map_map]
    rfl
  rw [hp, List.nil_append] at hb
  simp only [letStruct, List.length_map, hv, if_true, zip_parts ms sh.fields vs 0 hf hv]
  rw [← recVars, hb]
  simp only [recVars_length hf hv, if_true, declareList_eq]

/-- `{ a, b, .. }` -/
theorem recordE_eval (g : GCrate β) (n : Nat) (sc : Sc) (hn : (ms.map (·.1)).Nodup) (l : Locals (Host β)) (s : State) :
    seqF (gev g (n + 1) sc) ((ms.map (·.1)).map fun x => (x, varE x)) (bound (recVars ms sh vs) l) s =
      .ret (recVars ms sh vs) (moved (recVars ms sh vs) l) s := by
  have h := seqF_vars g n sc s (recVars ms sh vs) [] l (by rw [recVars_fst hf hv]; exact hn) (recVars_copies hf hv)
  have hp : (recVars ms sh vs : List (String × GV β)).map (fun x => (x.1, varE x.1)) = (ms.map (·.1)).map fun x => (x, varE x) := by
    rw [← recVars_fst (β := β) hf hv, List.map_map]
    rfl
  rw [hp, moved_nil, List.nil_append] at h
  exact h

theorem pick_recVars (hn : (ms.map (·.1)).Nodup) : pickFields (recVars ms sh vs : List (String × GV β)) (ms.map (·.1)) = some vs := by
  have h := pickFields_self (β := β) (recVars ms sh vs) [] vs (by rw [List.nil_append, recVars_fst hf hv]; exact hn)
    (by rw [recVars_snd hf hv]; exact toBytesList_fieldVs _ _ hf)
  rw [recVars_fst hf hv] at h
  exact h

end

/-! ## Arms -/

/-- What `unboxArm` does once its guard has matched. -/
theorem unbox_eval (hT : env.TupleLegal) (hrc : rc.OK) (hn : (decl.map (·.name)).Nodup) {d : VariantDef} (hmem : d ∈ decl) (hres : d.name ∉ d.fields.reserved en)
    (h32 : ∀ tys, d.fields = .tuple tys → tys.length ≤ 32) (hms : ∀ ms, d.fields = .record ms → (ms.map (·.1)).Nodup) (n : Nat) {sc : Sc} (hsc : Numbered en decl sc)
    (c : Bool) (tg : Expr) (b : TBox) (L L' : Locals (Host β)) (hL : L'.length = L.length) (s : State) (msg : PanicKind → Msg (Host β))
    (htg : ∀ k sc', gev 𝔾 (k + 1) sc' tg L s = .ret (boxV b) L' s) :
    ∃ L'', (L'' = L ∨ L'' = L') ∧ gev 𝔾 (n + 5) sc (unboxArm c en tg d).2.2 L s =
      XOut.of (fun e => .user (.inl e)) msg L'' ((readArmOf c d).run env rc (programOf sn en hd decl) b s) := by
  obtain ⟨v, f⟩ := d
  have hdef : lookupDef decl v = some f := lookupDef_of hn hmem
  match f with
  | .unit =>
    refine ⟨L, .inl rfl, ?_⟩
    simp only [unboxArm, guarded, two, gev_path2, hsc.en, if_true, hdef, x_pure, readArmOf, ReadArm.run]
    rfl
  | .tuple [t] =>
    refine ⟨L', .inr rfl, ?_⟩
    simp only [unboxArm, guarded, readArmOf, ReadArm.run]
    rw [gev_block]
    have he := into_inner_eval env user rc hd sn en decl fns cb (n + 1) (sc := sc) (.user t) (rc.leaf t).shape rfl tg b L L' s (htg _ _)
    simp only [Sc.enter, typeItems, constItems, List.nil_append, scope_apply, runStmts_tail, gev_call, x_bind, seqE_cons, seqE_nil] at he ⊢
    rw [he]
    rcases intoInner_cases env b (rc.leaf t).shape s with ⟨vs, h, hl⟩ | ⟨k, h⟩
    · obtain ⟨x, rfl⟩ : ∃ x, vs = [x] := List.length_eq_one_iff.1 (by simpa [Leaf.shape] using hl)
      simp only [h, XOut.of, x_pure, callPath, two, hsc.en, if_true, enumTuple, hdef, toBytesList, toBytes, List.length_cons, List.length_nil,
        hL, Nat.sub_self, dropLocals_zero, m_bind, m_pure]
      rfl
    · simp only [h, XOut.of, m_bind]
  | .tuple [] =>
    refine ⟨L, .inl rfl, ?_⟩
    have hv : en ≠ v := fun h => hres (by simp [Fields.reserved, h])
    cases c <;>
      simp [unboxArm, guarded, rebuildE, tupleS, readArmOf, ReadArm.run, tupleExpOf, gev_block, typeItems, constItems, Sc.enter, scope_apply, runStmts_tail,
        runStmts_struct, gev_call, seqE_nil, x_bind, callPath, two, lookup, hv, hsc.en, enumTuple, hdef, toBytesList, x_pure, dropLocals_zero, XOut.of, m_pure]
  | .tuple (t :: t' :: ts) =>
    refine ⟨L', .inr rfl, ?_⟩
    have hv : en ≠ v := fun h => hres (by simp [Fields.reserved, h])
    have hx : tupleExpOf (t :: t' :: ts).length = .access (List.range (t :: t' :: ts).length) := by rw [tupleExpOf, if_neg (by simp)]
    cases c with
    | true =>
      simp only [unboxArm, guarded, readArmOf, ReadArm.run, if_true, hx]
      rw [gev_block]
      generalize hsc' : sc.enter _ = sc'
      have hty : lookup v sc'.types = some (.struct false [attr1 "allow" "dead_code", attr1 "repr" "C"] (positional ((t :: t' :: ts).map .user))) := by
        rw [← hsc']; simp [tupleS, Sc.enter, typeItems, lookup]
      have hen' : lookup en sc'.types = none := by
        rw [← hsc']; simp [tupleS, Sc.enter, typeItems, lookup, hv, hsc.en]
      have hg : gty 𝔾 sc' (varT v) = .opaque (structShape rc (t :: t' :: ts)) := by
        simp only [varT, one, gty, hty]
        rw [layout_tupleC env user rc hd sn en decl fns cb _ isReprC_allow]
      have he := into_inner_eval env user rc hd sn en decl fns cb (n + 1) (sc := sc') (varT v) _ hg tg b L L' s (htg _ _)
      rcases intoInner_cases env b (structShape rc (t :: t' :: ts)) s with ⟨vs, h, hl⟩ | ⟨k, h⟩
      · rw [structShape_fields] at hl
        rw [h] at he
        have hr := rebuild_eval env user rc hd sn en decl fns cb (n + 1) hen' hdef (by simp) (h32 _ rfl) _ _ (structShape_fields rc _) vs hl L L' hL s s he
        simp only [scope_apply, tupleS, runStmts_struct, runStmts_tail, hr, hL, Nat.sub_self, x_bind, dropLocals_zero, x_pure, m_bind, h, m_pure, XOut.of,
          show accessFields (List.range (t :: t' :: ts).length) vs = vs by rw [← hl, accessFields_range]]
      · rw [h] at he
        have hr : gev 𝔾 (n + 4) sc' (rebuildE (two en v) (.call (boxFn en "into_inner" (varT v)) [tg]) (t :: t' :: ts).length) L s = .ub k := by
          rw [rebuildE, if_neg (by simp), gev_block]
          simp only [Sc.enter, typeItems, constItems, List.nil_append, scope_apply, runStmts_let, x_bind, he, XOut.of]
        simp only [scope_apply, tupleS, runStmts_struct, runStmts_tail, hr, m_bind, h, XOut.of]
    | false =>
      simp only [unboxArm, guarded, readArmOf, ReadArm.run, Bool.false_eq_true, if_false, hx]
      rw [gev_block]
      have hg : gty 𝔾 sc (.tuple ((t :: t' :: ts).map .user)) = .opaque (tupleShape env rc (t :: t' :: ts)) := by
        simp only [gty]
        rw [fieldLeaf_user env user rc hd sn en decl fns cb]
        rfl
      have he := into_inner_eval env user rc hd sn en decl fns cb (n + 1) (sc := sc) _ _ hg tg b L L' s (htg _ _)
      simp only [Sc.enter, typeItems, constItems, List.nil_append]
      rcases intoInner_cases env b (tupleShape env rc (t :: t' :: ts)) s with ⟨vs, h, hl⟩ | ⟨k, h⟩
      · rw [tupleShape_fields hT hrc] at hl
        rw [h] at he
        have hr := rebuild_eval env user rc hd sn en decl fns cb (n + 1) hsc.en hdef (by simp) (h32 _ rfl) _ _ (tupleShape_fields hT hrc _) vs hl L L' hL s s he
        simp only [scope_apply, runStmts_tail, hr, hL, Nat.sub_self, x_bind, dropLocals_zero, x_pure, m_bind, h, m_pure, XOut.of,
          show accessFields (List.range (t :: t' :: ts).length) vs = vs by rw [← hl, accessFields_range]]
      · rw [h] at he
        have hr : gev 𝔾 (n + 4) sc (rebuildE (two en v) (.call (boxFn en "into_inner" (.tuple ((t :: t' :: ts).map .user))) [tg]) (t :: t' :: ts).length) L s = .ub k := by
          rw [rebuildE, if_neg (by simp), gev_block]
          simp only [Sc.enter, typeItems, constItems, List.nil_append, scope_apply, runStmts_let, x_bind, he, XOut.of]
        simp only [scope_apply, runStmts_tail, hr, m_bind, h, XOut.of]
  | .record ms =>
    refine ⟨L', .inr rfl, ?_⟩
    have hv : en ≠ v := fun h => hres (by simp [Fields.reserved, h])
    have hm := hms ms rfl
    simp only [unboxArm, guarded, readArmOf, ReadArm.run]
    rw [gev_block]
    generalize hsc' : sc.enter _ = sc'
    have hty : lookup v sc'.types = some (.struct true [attr1 "repr" "C"] (ms.map fun m => (m.1, .user m.2))) := by
      rw [← hsc']; simp [recordS, Sc.enter, typeItems, lookup]
    have hen' : lookup en sc'.types = none := by
      rw [← hsc']; simp [recordS, Sc.enter, typeItems, lookup, hv, hsc.en]
    have hg : gty 𝔾 sc' (varT v) = .opaque (structShape rc (ms.map (·.2))) := by
      simp only [varT, one, gty, hty]
      rw [layout_recordC env user rc hd sn en decl fns cb _ isReprC_repr]
    have he := into_inner_eval env user rc hd sn en decl fns cb (n + 2) (sc := sc') (varT v) _ hg tg b L L' s (htg _ _)
    rcases intoInner_cases env b (structShape rc (ms.map (·.2))) s with ⟨vs, h, hl⟩ | ⟨k, h⟩
    · have hl' : vs.length = ms.length := by rw [hl, structShape_fields, List.length_map]
      rw [h] at he
      have hr := recordE_eval (β := β) hl.symm hl' 𝔾 (n + 2) sc' hm L' s
      simp only [scope_apply, recordS, runStmts_struct, recordP, one, runStmts_letStruct, x_bind, he, XOut.of, hty, letStruct_eq hl.symm hl' hm, runStmts_tail,
        recordE, two, gev_struct2, hen', if_true, hr, enumRecord, hdef, pick_recVars hl.symm hl' hm, recVars_length hl.symm hl', x_pure, moved_length,
        hL, Nat.add_sub_cancel, m_bind, h, m_pure]
      have hdl := dropLocals_moved (src env user) (recVars ms (structShape rc (ms.map (·.2))) vs) L' s 0
      rw [Nat.add_zero, recVars_length hl.symm hl'] at hdl
      rw [hdl, dropLocals_zero]
      simp only
      have hz : (ms.map (·.1)).zip (byName (ms.map (·.1)) ((ms.map (·.1)).zip (byName (ms.map (·.1)) ((ms.map (·.1)).zip vs)))) = (ms.map (·.1)).zip vs :=
        record_vars hm (by rw [List.length_map, hl'])
      rw [hz, buildRecord_eq hn hmem hm (List.map_fst_zip (by rw [List.length_map, hl']; exact Nat.le_refl _))]
    · rw [h] at he
      simp only [scope_apply, recordS, runStmts_struct, recordP, one, runStmts_letStruct, x_bind, he, XOut.of, m_bind, h]

end

end TB.Rust

import Verif.Lemmas.GsLend

/-! # Running generated code: `into_tagged_box` (helper lemmas; no property theorems here) -/

set_option autoImplicit false
set_option linter.unusedSectionVars false
set_option linter.unusedSimpArgs false

namespace TB.Rust

open TB TB.Macro TB.Mbe TB.Rust.Gen

variable {β : Type}

/-- What is needed besides to store a value. -/
structure Storable (rc : Rustc) (hd : Bool) (decl : List VariantDef) : Prop where
  noSelf : ∀ d ∈ decl, d.name ≠ "Self"
  sizes : ∀ d ∈ decl, ∀ sh, d.fields.shape rc = some sh → sh.size < 2 ^ 64
  copy : hd = true → ∀ d ∈ decl, ∀ t ∈ d.fields.types, rc.isCopy t = true

section
variable (env : Env) [InTable env] (user : User (Host β)) (rc : Rustc) (hd : Bool) (sn en : String) (decl : List VariantDef) (fns : List GFn) (cb : EVal → M β)

local notation "𝔾" => (GCrate.mk (src env user) rc hd sn en decl fns cb)

theorem fieldVs_eq : ∀ (fs : List (Nat × Leaf)) (tys : List Ty) (vs : TB.Val), fs.map (·.2) = tys.map rc.leaf →
    (fieldVs fs vs : List (GV β)) = List.zipWith (fieldV 𝔾) tys vs
  | [], [], _, _ => by simp [fieldVs]
  | [], _ :: _, _, h => by simp at h
  | _ :: _, [], _, h => by simp at h
  | _ :: _, _ :: _, [], _ => by simp [fieldVs]
  | f :: fs, t :: ts, v :: vs, h => by
    simp only [List.map_cons, List.cons.injEq] at h
    have ih := fieldVs_eq fs ts vs h.2
    simp only [fieldVs] at ih
    simp only [fieldVs, List.zipWith_cons_cons, ih, fieldV, h.1]

theorem structVs_eq (tys : List Ty) (vs : TB.Val) : (fieldVs (structShape rc tys).fields vs : List (GV β)) = List.zipWith (fieldV 𝔾) tys vs :=
  fieldVs_eq env user rc hd sn en decl fns cb _ tys vs (reprC_fields _)

theorem patVars_binds : ∀ xs : List String, patVars (xs.map Pat.bind) = some xs
  | [] => rfl
  | x :: xs => by simp [patVars, patVars_binds xs]

/-- Inside of the block with the local structure. -/
theorem numbered_struct {sc : Sc} (h : Numbered en decl sc) {v : String} {t : LType} (h1 : v ≠ "__tagged_box_enum_counter") (h2 : v ≠ "u8") (h3 : v ≠ "core") (h4 : v ≠ en)
    (cs : List (String × Expr)) : Numbered en decl ⟨(v, t) :: sc.types, cs⟩ where
  ctr := by rw [lookup, if_neg (Ne.symm h1), h.ctr]
  u8 := by rw [lookup, if_neg (Ne.symm h2), h.u8]
  core := by rw [lookup, if_neg (Ne.symm h3), h.core]
  en := by rw [lookup, if_neg (Ne.symm h4), h.en]

/-- `TaggedBox::new::<t>(e, V as u8)` -/
theorem new_eval (h : Ready env rc en decl) (n : Nat) {sc : Sc} (hsc : Numbered en decl sc) {i : Nat} {d : VariantDef} (hdi : decl[i]? = some d) (ts : List RTy) (t : RTy) (sh : Shape)
    (hs : sh.size < 2 ^ 64) (ht : gty 𝔾 sc t = .opaque sh) (e : Expr) (v : TB.Val) (L L' : Locals (Host β)) (s : State)
    (he : gev 𝔾 (n + 2) sc e L s = .ret (.obj sh v) L' s) :
    gev 𝔾 (n + 3) sc (.call (.path [("crate", []), ("TaggedBox", ts), ("new", [t])]) [e, discE d.name]) L s =
      XOut.of boxV (panicMsg (numOf env i)) L' (TBox.new env sh v (numOf env i) s) := by
  have hctr : counterU8 (programOf sn en hd decl) d.name = BitVec.ofNat 8 i := counterU8_get h.names hdi
  have hdis := discE_eval env user rc hd sn en decl fns cb h.u8 h.enU8 n hsc (List.mem_of_getElem? hdi) L' s
  rw [hctr] at hdis
  simp only [gev_call, x_bind, seqE_cons, seqE_nil, he, hdis, x_pure, callPath, if_true, find_box_new, List.map_cons, List.map_nil, ht]
  exact c_new env user sh hs v (numOf env i) L' s

theorem recVars_members : ∀ (ms : List (String × Ty)) (fs : List (String × Bytes)),
    List.zipWith (fun (m : String × Ty) (x : String × Bytes) => (m.1, fieldV 𝔾 m.2 x.2)) ms fs = (ms.map (·.1)).zip (List.zipWith (fieldV 𝔾) (ms.map (·.2)) (fs.map (·.2)))
  | [], _ => by simp
  | _ :: _, [] => by simp
  | m :: ms, f :: fs => by
    simp only [List.zipWith_cons_cons, List.map_cons, List.zip_cons_cons, recVars_members ms fs]

theorem letters_take {k : Nat} (h : k ≤ 32) : (Spec.letters.take k).Nodup ∧ (Spec.letters.take k).length = k := armNames_take h

/-- An arm of `into_tagged_box`. -/
theorem box_eval (h : Ready env rc en decl) (hst : Storable rc hd decl) {i : Nat} {d : VariantDef} (hdi : decl[i]? = some d) {e : EVal} (hv : e.variant = d.name)
    (hf : HasFields rc d.fields e.payload) (n : Nat) {sc : Sc} (hsc : Numbered en decl sc) :
    ∃ bs, matchPat 𝔾 (boxArm en d).1 (.user (.inl e)) = some bs ∧ (bs = [] → (fieldsOf decl e).1 = []) ∧
      ∀ (L : Locals (Host β)) (s : State), gev 𝔾 (n + 5) sc (boxArm en d).2.2 (bound bs L) s =
        XOut.of boxV (panicMsg (numOf env i)) (moved bs L) (storeOf env rc d.fields e.payload (numOf env i) s) := by
  have hmem := List.mem_of_getElem? hdi
  have hctr : counterU8 (programOf sn en hd decl) d.name = BitVec.ofNat 8 i := counterU8_get h.names hdi
  have hres := h.reserved _ hmem
  have hsz := hst.sizes _ hmem
  have hdis := fun k (l : Locals (Host β)) (s : State) => discE_eval env user rc hd sn en decl fns cb h.u8 h.enU8 k hsc hmem l s
  rw [hctr] at hdis
  have hgen : gty 𝔾 sc (varT en) = .opaque ⟨0, env.enumAlign, []⟩ := by
    simp only [varT, one, gty, hsc.en, if_true]
    rfl
  obtain ⟨v, f⟩ := d
  obtain ⟨ev, p⟩ := e
  simp only at hv hf
  subst hv
  have hdef : lookupDef decl ev = some f := lookupDef_of h.names hmem
  have hdang : ∀ (L : Locals (Host β)) (s : State), gev 𝔾 (n + 5) sc (.call (boxFn en "dangling" (varT en)) [discE ev]) L s =
      .ret (boxV (TBox.dangling env env.enumAlign (numOf env i))) L s := by
    intro L s
    simp only [boxFn, gev_call, x_bind, seqE_cons, seqE_nil, hdis, x_pure, callPath, if_true, find_box_dangling, List.map_cons, List.map_nil, hgen]
    exact c_dangling env user _ _ L s
  match f, p, hf with
  | .unit, .unit, _ =>
    refine ⟨[], by simp [boxArm, matchPat, two], fun _ => by simp [fieldsOf, hdef], fun L s => ?_⟩
    simp only [boxArm, bound_nil, moved_nil, hdang, storeOf, Fields.shape, m_pure, XOut.of]
  | .tuple [], .tuple [], _ =>
    refine ⟨[], by simp [boxArm, matchPat, two, hdef, patVars], fun _ => by simp [fieldsOf, hdef], fun L s => ?_⟩
    simp only [boxArm, bound_nil, moved_nil, hdang, storeOf, Fields.shape, m_pure, XOut.of]
  | .tuple [t], .tuple [x], _ =>
    refine ⟨[("var", fieldV 𝔾 t x)], by simp [boxArm, matchPat, two, hdef, patVars], by simp, fun L s => ?_⟩
    simp only [boxArm, boxFn]
    rw [gev_block, show sc.enter _ = sc from rfl]
    have he := new_eval env user rc hd sn en decl fns cb h (n + 1) hsc hdi [varT en] (.user t) (rc.leaf t).shape (hsz _ rfl) rfl (varE "var") [x]
      (("var", some (fieldV 𝔾 t x)) :: L) (("var", none) :: L) s (by
        simp only [varE, one, gev_var, lookup_head, useVar_apply]
        simp [fieldV, copies_obj, setLocal])
    simp only [bound_cons, bound_nil, moved_cons, moved_nil, scope_apply, runStmts_tail, he, storeOf, Fields.shape, Payload.vals]
    cases TBox.new env (rc.leaf t).shape [x] (numOf env i) s <;> simp [XOut.of, x_bind, x_pure, x_panic, dropLocals_zero]
  | .tuple [t], .tuple (_ :: _ :: _), hf => cases hf.2
  | .tuple (t :: t' :: ts), .tuple vs, hf =>
    have hl := hasTypes_length hf
    obtain ⟨a1, a2⟩ := letters_take (h.arity _ hmem _ rfl)
    have hfl : (fieldVs (structShape rc (t :: t' :: ts)).fields vs : List (GV β)).length = (t :: t' :: ts).length := by
      rw [fieldVs_length _ _ (by rw [structShape_fields, hl]), hl]
    have hvs := structVs_eq env user rc hd sn en decl fns cb (t :: t' :: ts) vs
    have hn1 : ((Spec.letters.take (t :: t' :: ts).length).zip (fieldVs (structShape rc (t :: t' :: ts)).fields vs : List (GV β))).map (·.1) =
        Spec.letters.take (t :: t' :: ts).length := List.map_fst_zip (by rw [a2, hfl]; exact Nat.le_refl _)
    have hn2 : ((Spec.letters.take (t :: t' :: ts).length).zip (fieldVs (structShape rc (t :: t' :: ts)).fields vs : List (GV β))).map (·.2) =
        fieldVs (structShape rc (t :: t' :: ts)).fields vs := List.map_snd_zip (by rw [a2, hfl]; exact Nat.le_refl _)
    refine ⟨(Spec.letters.take (t :: t' :: ts).length).zip (fieldVs (structShape rc (t :: t' :: ts)).fields vs), ?_, ?_, fun L s => ?_⟩
    · simp only [boxArm, matchPat, two, and_self, if_true, hdef, patVars_binds, a2, hl, hvs]
    · intro h0
      have := congrArg List.length h0
      rw [List.length_zip, a2, hfl] at this
      simp at this
    · have hv : ev ≠ en := fun h => hres (by simp [Fields.reserved, h])
      have hv1 : ev ≠ "core" := fun h => hres (by simp [Fields.reserved, h])
      have hv2 : ev ≠ "__tagged_box_enum_counter" := fun h => hres (by simp [Fields.reserved, h])
      have hv3 : ev ≠ "u8" := fun h => hres (by simp [Fields.reserved, h])
      simp only [boxArm]
      rw [gev_block]
      generalize hsc' : sc.enter _ = sc'
      have hnum : Numbered en decl sc' := by
        rw [← hsc']
        exact numbered_struct en decl hsc hv2 hv3 hv1 hv _
      have hty : lookup ev sc'.types = some (.struct false [attr1 "repr" "C"] (positional ((t :: t' :: ts).map .user))) := by
        rw [← hsc']; simp [tupleS, Sc.enter, typeItems, lookup]
      have hlay := layout_tupleC env user rc hd sn en decl fns cb _ isReprC_repr (t :: t' :: ts)
      have hg : gty 𝔾 sc' (varT ev) = .opaque (structShape rc (t :: t' :: ts)) := by
        simp only [varT, one, gty, hty, hlay]
      have hseq := seqE_vars 𝔾 (n + 1) sc' s ((Spec.letters.take (t :: t' :: ts).length).zip (fieldVs (structShape rc (t :: t' :: ts)).fields vs)) [] L
        (by rw [hn1]; exact a1) (by
          intro x hx
          have hx2 : x.2 ∈ fieldVs (structShape rc (t :: t' :: ts)).fields vs := by
            rw [← hn2]
            exact List.mem_map_of_mem hx
          rw [fieldVs, List.mem_iff_getElem] at hx2
          obtain ⟨j, hj, hx2⟩ := hx2
          rw [List.getElem_zipWith] at hx2
          rw [← hx2]
          rfl)
      have hmap : ((Spec.letters.take (t :: t' :: ts).length).zip (fieldVs (structShape rc (t :: t' :: ts)).fields vs : List (GV β))).map (fun x => varE x.1) =
          (Spec.letters.take (t :: t' :: ts).length).map varE := by
        rw [← hn1, List.map_map, hn1]
        rfl
      rw [hmap, hn2, moved_nil, List.nil_append] at hseq
      have he := new_eval env user rc hd sn en decl fns cb h (n + 1) hnum hdi [] (varT ev) (structShape rc (t :: t' :: ts)) (hsz _ rfl) hg
        (.call (varE ev) ((Spec.letters.take (t :: t' :: ts).length).map varE)) vs
        (bound ((Spec.letters.take (t :: t' :: ts).length).zip (fieldVs (structShape rc (t :: t' :: ts)).fields vs)) L)
        (moved ((Spec.letters.take (t :: t' :: ts).length).zip (fieldVs (structShape rc (t :: t' :: ts)).fields vs)) L) s (by
          rw [show varE ev = .path [(ev, [])] from rfl, gev_call]
          simp only [x_bind, hseq, callPath, hty, structTuple, toBytesList_fieldVs _ _ (show (structShape rc (t :: t' :: ts)).fields.length = vs.length by
            rw [structShape_fields, hl]), positional_length, List.length_map, hl, if_true, hlay, x_pure])
      simp only [tupleS, scope_apply, runStmts_struct, runStmts_tail, he, storeOf, Fields.shape, Payload.vals]
      rw [show reprC ((t :: t' :: ts).map rc.leaf) = structShape rc (t :: t' :: ts) from rfl]
      cases TBox.new env (structShape rc (t :: t' :: ts)) vs (numOf env i) s <;>
        simp only [XOut.of, x_bind, x_pure, x_panic, bound_length, moved_length, Nat.sub_self, dropLocals_zero]
  | .record ms, .record fs, hf =>
    have hm := h.members _ hmem ms rfl
    have hl' : (fs.map (·.2)).length = ms.length := by rw [← hasTypes_length hf.2 |>.symm, List.length_map]
    have hl : (structShape rc (ms.map (·.2))).fields.length = (fs.map (·.2)).length := by rw [structShape_fields, List.length_map, hl']
    have hvs := structVs_eq env user rc hd sn en decl fns cb (ms.map (·.2)) (fs.map (·.2))
    refine ⟨recVars ms (structShape rc (ms.map (·.2))) (fs.map (·.2)), ?_, ?_, fun L s => ?_⟩
    · simp only [boxArm, recordP, matchPat, two, and_self, if_true, hdef, recVars_members]
      have hb := bindFields_self (β := β) (recVars ms (structShape rc (ms.map (·.2))) (fs.map (·.2))) [] (by rw [List.nil_append, recVars_fst hl hl']; exact hm)
      have hp : (recVars ms (structShape rc (ms.map (·.2))) (fs.map (·.2)) : List (String × GV β)).map (fun x => (x.1, Pat.bind x.1)) =
          (ms.map (·.1)).map fun x => (x, Pat.bind x) := by
        rw [← recVars_fst (β := β) hl hl', List.map_map]
        rfl
      rw [hp, List.nil_append] at hb
      rw [← hvs]
      exact hb
    · intro h0
      have := congrArg List.length h0
      rw [recVars_length hl hl', List.length_nil, List.length_eq_zero_iff] at this
      subst this
      simp [fieldsOf, hdef]
    · have hv : ev ≠ en := fun h => hres (by simp [Fields.reserved, h])
      have hv1 : ev ≠ "core" := fun h => hres (by simp [Fields.reserved, h])
      have hv2 : ev ≠ "__tagged_box_enum_counter" := fun h => hres (by simp [Fields.reserved, h])
      have hv3 : ev ≠ "u8" := fun h => hres (by simp [Fields.reserved, h])
      have hv4 : ev ≠ "Self" := hst.noSelf _ hmem
      simp only [boxArm, boxFn]
      rw [gev_block]
      generalize hsc' : sc.enter _ = sc'
      have hnum : Numbered en decl sc' := by
        rw [← hsc']
        exact numbered_struct en decl hsc hv2 hv3 hv1 hv _
      have hty : lookup ev sc'.types = some (.struct true [attr1 "repr" "C"] (ms.map fun m => (m.1, .user m.2))) := by
        rw [← hsc']; simp [recordS, Sc.enter, typeItems, lookup]
      have hlay := layout_recordC env user rc hd sn en decl fns cb _ isReprC_repr ms
      have hg : gty 𝔾 sc' (varT ev) = .opaque (structShape rc (ms.map (·.2))) := by
        simp only [varT, one, gty, hty, hlay]
      have hrec := recordE_eval (β := β) hl hl' 𝔾 (n + 1) sc' hm L s
      have hmm : (ms.map fun m => (m.1, RTy.user m.2)).map (·.1) = ms.map (·.1) := by simp [Function.comp_def]
      have hss : structShape rc (ms.map (·.2)) = reprC (ms.map fun m => rc.leaf m.2) := by
        rw [structShape, List.map_map]
        rfl
      have he := new_eval env user rc hd sn en decl fns cb h (n + 1) hnum hdi [varT en] (varT ev) (structShape rc (ms.map (·.2))) (hsz _ (by rw [hss]; rfl)) hg
        (recordE (one ev) (ms.map (·.1))) (fs.map (·.2))
        (bound (recVars ms (structShape rc (ms.map (·.2))) (fs.map (·.2))) L) (moved (recVars ms (structShape rc (ms.map (·.2))) (fs.map (·.2))) L) s (by
          rw [recordE, one, gev_struct]
          simp only [if_neg hv4, hty, x_bind, hrec, structRecord, hmm, pick_recVars hl hl' hm, recVars_length hl hl', List.length_map, if_true, hlay, x_pure])
      simp only [recordS, scope_apply, runStmts_struct, runStmts_tail, he, storeOf, Fields.shape, Payload.vals]
      rw [← hss]
      cases TBox.new env (structShape rc (ms.map (·.2))) (fs.map (·.2)) (numOf env i) s <;>
        simp only [XOut.of, x_bind, x_pure, x_panic, bound_length, moved_length, Nat.sub_self, dropLocals_zero]

/-- An arm for another variant. -/
theorem box_skip {e : EVal} {d : VariantDef} (h : e.variant ≠ d.name) : matchPat 𝔾 (boxArm en d).1 (.user (.inl e)) = none := by
  obtain ⟨v, f⟩ := d
  obtain ⟨ev, p⟩ := e
  have h' : ¬ v = ev := fun h' => h h'.symm
  match f, p with
  | .unit, _ => simp [boxArm, two, matchPat, h']
  | .tuple [], .tuple _ => simp [boxArm, two, matchPat, h']
  | .tuple [], .unit => simp [boxArm, two, matchPat]
  | .tuple [], .record _ => simp [boxArm, two, matchPat]
  | .tuple [_], .tuple _ => simp [boxArm, two, matchPat, h']
  | .tuple [_], .unit => simp [boxArm, two, matchPat]
  | .tuple [_], .record _ => simp [boxArm, two, matchPat]
  | .tuple (_ :: _ :: _), .tuple _ => simp [boxArm, two, matchPat, h']
  | .tuple (_ :: _ :: _), .unit => simp [boxArm, two, matchPat]
  | .tuple (_ :: _ :: _), .record _ => simp [boxArm, two, matchPat]
  | .record _, .tuple _ => simp [boxArm, two, recordP, matchPat]
  | .record _, .unit => simp [boxArm, two, recordP, matchPat]
  | .record _, .record _ => simp [boxArm, two, recordP, matchPat, h']

theorem boxArm_guard (d : VariantDef) : (boxArm en d).2.1 = none := by
  obtain ⟨v, f⟩ := d
  match f with
  | .unit => rfl
  | .tuple [] => rfl
  | .tuple [_] => rfl
  | .tuple (_ :: _ :: _) => rfl
  | .record _ => rfl

theorem box_dispatch {e : EVal} {d : VariantDef} (hv : e.variant = d.name) {bs : List (String × GV β)} (hm : matchPat 𝔾 (boxArm en d).1 (.user (.inl e)) = some bs)
    (f : Expr → GX β (GV β)) (x : Option String) (L : Locals (Host β)) (s : State) : ∀ ds : List VariantDef, d ∈ ds → (ds.map (·.name)).Nodup →
    runArms 𝔾 f x (.user (.inl e)) (ds.map (boxArm en)) L s = scope (src env user) (do
      bindAll 𝔾 x (.user (.inl e)) bs
      f (boxArm en d).2.2) L s
  | [], h, _ => by cases h
  | d' :: ds, h, hn => by
    rw [List.map_cons, List.nodup_cons] at hn
    have hg := boxArm_guard en d'
    generalize ha : boxArm en d' = a at hg
    obtain ⟨p, c, b⟩ := a
    simp only at hg
    subst hg
    rcases List.mem_cons.1 h with rfl | h
    · rw [List.map_cons, ha, runArms]
      rw [ha] at hm
      simp only at hm
      simp only [hm]
    · have hne : e.variant ≠ d'.name := fun he => hn.1 (List.mem_map.2 ⟨d, h, by rw [← hv, he]⟩)
      have hs := box_skip env user rc hd sn en decl fns cb hne
      rw [ha] at hs
      simp only at hs
      rw [List.map_cons, ha, runArms]
      simp only [hs]
      exact box_dispatch hv hm f x L s ds h hn.2

theorem fieldDrops_copy (hrc : rc.OK) : ∀ (tys : List Ty) (vs : List Bytes), (∀ t ∈ tys, rc.isCopy t = true) → fieldDrops rc tys vs = []
  | [], _, _ => by simp [fieldDrops]
  | _ :: _, [], _ => by simp [fieldDrops]
  | t :: ts, v :: vs, h => by
    rw [fieldDrops, hrc.copy_no_drop t (h t (by simp)), fieldDrops_copy hrc ts vs fun t ht => h t (by simp [ht])]
    rfl

theorem fieldsOf_types {e : EVal} {d : VariantDef} (hn : (decl.map (·.name)).Nodup) (hmem : d ∈ decl) (hv : e.variant = d.name) : ∀ t ∈ (fieldsOf decl e).1, t ∈ d.fields.types := by
  have hdef : lookupDef decl e.variant = some d.fields := by rw [hv]; exact lookupDef_of hn hmem
  unfold fieldsOf
  rw [hdef]
  intro t ht
  cases hf : d.fields <;> cases hp : e.payload <;> simp only [hf, hp, List.not_mem_nil] at ht
  · exact ht
  · exact ht

/-- `into_tagged_box` -/
theorem intoBox_run (hdrop : user.drop = hostDrop rc hd decl) (h : Ready env rc en decl) (hst : Storable rc hd decl) {i : Nat} {e : EVal} (hval : IsValue rc decl i e) (n : Nat)
    (l : Locals (Host β)) (s : State) :
    runFn 𝔾 (gev 𝔾 (n + 6)) (intoBoxFn en decl) (some (.user (.inl e))) [] l s =
      XOut.of boxV (panicMsg (numOf env i)) l (intoTaggedBox env rc (programOf sn en hd decl) e s) := by
  obtain ⟨d, hdi, hv, hf⟩ := hval
  have hmem := List.mem_of_getElem? hdi
  rw [intoTaggedBox_eq h.names h.members h.arity hdi hv hf]
  obtain ⟨bs, hm, h0, he⟩ := box_eval env user rc hd sn en decl fns cb h hst hdi hv hf n (ctrSc_numbered env rc en decl h [])
  have hdr : (hd = true ∨ bs = []) → ∀ (l : Locals (Host β)) (s : State), dropV (src env user) (.user (.inl e)) l s = .ret () l (s.log (convertDrops hd e)) := by
    intro hor l s
    have : dropV (src env user) (.user (.inl e)) l s = X.mem (user.drop (.inl e)) l s := rfl
    rw [this, hdrop]
    have hfd : fieldDrops rc (fieldsOf decl e).1 (fieldsOf decl e).2 = [] := by
      rcases hor with h1 | h1
      · exact fieldDrops_copy rc h.rcOK _ _ fun t ht => hst.copy h1 d hmem t (fieldsOf_types decl h.names hmem hv t ht)
      · rw [h0 h1]
        simp [fieldDrops]
    simp only [hostDrop, hfd, List.append_nil]
    rfl
  have hdisp := box_dispatch env user rc hd sn en decl fns cb hv hm (gev 𝔾 (n + 5) (ctrSc decl [])) (some "self") [("self", some (.user (.inl e)))] s decl hmem h.names
  have hbind : ∃ o, bindAll 𝔾 (some "self") (.user (.inl e)) bs [("self", some (.user (.inl e)))] s = .ret () (bound bs [("self", o)]) s ∧
      ∀ s, dropLocals (src env user) 1 [("self", o)] s = .ret () [] (s.log (convertDrops hd e)) := by
    cases bs with
    | nil =>
      refine ⟨some (.user (.inl e)), rfl, fun s => ?_⟩
      rw [show (1 : Nat) = 0 + 1 from rfl, dropLocals_some]
      simp only [x_bind, hdr (.inr rfl), dropLocals_zero]
    | cons b bs =>
      cases hd with
      | true =>
        have hall : (fieldsOf decl e).1.all rc.isCopy = true := by
          rw [List.all_eq_true]
          exact fun t ht => hst.copy rfl d hmem t (fieldsOf_types decl h.names hmem hv t ht)
        refine ⟨some (.user (.inl e)), ?_, fun s => ?_⟩
        · simp only [bindAll, if_true, hall, declareList_eq]
        · rw [show (1 : Nat) = 0 + 1 from rfl, dropLocals_some]
          simp only [x_bind, hdr (.inl rfl), dropLocals_zero]
      | false =>
        refine ⟨none, ?_, fun s => ?_⟩
        · simp only [bindAll, Bool.false_eq_true, if_false]
          show declareList (b :: bs) (setLocal "self" none [("self", some (.user (.inl e)))]) s = _
          rw [declareList_eq]
          simp only [setLocal, if_true]
        · rw [show (1 : Nat) = 0 + 1 from rfl, dropLocals_none, dropLocals_zero]
          simp [convertDrops, log_nil]
  obtain ⟨o, hb, hend⟩ := hbind
  have hbody : runStmts 𝔾 (gev 𝔾 (n + 6) (ctrSc decl [])) (ctrSc decl []) (intoBoxFn en decl).body [("self", some (.user (.inl e)))] s =
      XOut.of boxV (panicMsg (numOf env i)) [("self", o)] (storeOf env rc d.fields e.payload (numOf env i) s) := by
    simp only [intoBoxFn, numbering, runStmts_enum, runStmts_tail, gev_match, x_bind, varE, one, gplace_var, readVar_apply, lookup_head, asVar, hdisp, scope_apply, hb, he]
    cases storeOf env rc d.fields e.payload (numOf env i) s with
    | ret b s' =>
      simp only [XOut.of, moved_length, List.length_cons, List.length_nil, Nat.add_sub_cancel]
      have hdl := dropLocals_moved (src env user) bs [("self", o)] s' 0
      rw [Nat.add_zero] at hdl
      rw [hdl, dropLocals_zero]
      simp only [x_pure]
    | panic k s' =>
      simp only [XOut.of, moved_length, List.length_cons, List.length_nil, Nat.add_sub_cancel]
      have hdl := dropLocals_moved (src env user) bs [("self", o)] s' 0
      rw [Nat.add_zero] at hdl
      rw [hdl, dropLocals_zero]
      simp only [x_panic]
    | ub k => rfl
  have hsc : Sc.enter ⟨[], []⟩ (intoBoxFn en decl).body = ctrSc decl [] := rfl
  have hself : (intoBoxFn en decl).self = some .value := rfl
  have hpar : (intoBoxFn en decl).params = [] := rfl
  simp only [runFn, hself, hpar, hsc, inFn_apply, scope_apply, x_bind, x_declare, List.map_nil, declareAll_nil, hbody, M.cleanup]
  cases storeOf env rc d.fields e.payload (numOf env i) s with
  | ret b s' => simp only [XOut.of, List.length_cons, List.length_nil, Nat.sub_self, x_bind, dropLocals_zero, x_pure, Nat.zero_add, Nat.sub_zero, hend]
  | panic k s' => simp only [XOut.of, List.length_cons, List.length_nil, Nat.sub_self, x_bind, dropLocals_zero, x_panic, Nat.zero_add, Nat.sub_zero, hend]
  | ub k => rfl

end

end TB.Rust

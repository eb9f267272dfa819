import Verif.Lemmas.GsFns
import Verif.Lemmas.MacroInto

/-! # Running generated code: `ref_from_tagged_box` (helper lemmas; no property theorems here) -/

set_option autoImplicit false
set_option linter.unusedSectionVars false
set_option linter.unusedSimpArgs false

namespace TB.Rust

open TB TB.Macro TB.Mbe TB.Rust.Gen

variable {β : Type}

theorem setLocal_moved_of_not_mem (x : String) (v : Option (GV β)) (xs : List (String × GV β)) (l : Locals (Host β)) (h : x ∉ xs.map (·.1)) :
    setLocal x v (moved xs l) = moved xs (setLocal x v l) := by
  rw [moved, setLocal_append_of_not_mem, moved]
  simpa using h

section
variable (env : Env) [InTable env] (user : User (Host β)) (rc : Rustc) (hd : Bool) (sn en : String) (decl : List VariantDef) (fns : List GFn) (cb : EVal → M β)

local notation "𝔾" => (GCrate.mk (src env user) rc hd sn en decl fns cb)

/-- `tagged.as_ptr::<t>().read()` -/
theorem read_eval (n : Nat) {sc : Sc} (t : RTy) (sh : Shape) (ht : gty 𝔾 sc t = .opaque sh) (b : TBox) (L : Locals (Host β)) (s : State)
    (hL : lookup "tagged" L = some (some (.refv (boxV b)))) :
    gev 𝔾 (n + 2) sc (readE t) L s = XOut.of (fun v => .obj sh v) .kind L (ptrRead sh (b.asPtr env) s) := by
  have hp : (V.refv (boxV b) : GV β).peel = boxV b := rfl
  have hq : ∀ t a, (V.ptr t a : GV β).peel = .ptr t a := fun _ _ => rfl
  simp only [readE, varE, one, gev_method_method, methodCall, gplace_method, x_bind, gev_method_path, gplace_var, readVar_apply, hL, seqE_nil, hp, tyName_boxV,
    find_box_as_ptr, List.map_cons, List.map_nil, ht, c_asPtr, hq, tyName_ptr, find__read, libMethod, x_mem, x_pure]
  cases ptrRead sh (b.asPtr env) s <;> rfl

/-- `core::mem::ManuallyDrop::new(e)` -/
theorem md_eval (n : Nat) {sc : Sc} (hsc : lookup "core" sc.types = none) (targs : List RTy) (e : Expr) (L : Locals (Host β)) (s : State) :
    gev 𝔾 (n + 1) sc (.call (.path [("core", []), ("mem", []), ("ManuallyDrop", targs), ("new", [])]) [e]) L s = match gev 𝔾 n sc e L s with
      | .ret v l s => .ret (.struct "ManuallyDrop" [("value", v)]) l s
      | .panic m l s => .panic m l s
      | .ub k => .ub k
      | .stuck => .stuck := by
  simp only [gev_call, seqE_cons, seqE_nil, x_bind, x_pure, callPath, hsc, if_true, List.map_nil, libFn]
  cases gev 𝔾 n sc e L s <;> rfl

/-- `callback` is not the name of a tuple structure here. -/
def NoCall (sc : Sc) : Prop := ∀ {β : Type} (g : GCrate β) (vs : List (GV β)), callPath g sc [("callback", [])] vs = callVar g "callback" vs

theorem noCall_none {sc : Sc} (h : lookup "callback" sc.types = none) : NoCall sc := fun g vs => by simp only [callPath, h]
theorem noCall_braces {sc : Sc} {as : List (List TT)} {fs : List (String × RTy)} (h : lookup "callback" sc.types = some (.struct true as fs)) : NoCall sc :=
  fun g vs => by simp only [callPath, h]

theorem holdsClosure_skip (x : String) (extra l : Locals (Host β)) (h : ∀ y ∈ extra, isClosure y.2 = false) : holdsClosure x (extra ++ l) = holdsClosure x l := by
  induction extra with
  | nil => rfl
  | cons y extra ih =>
    have := ih (fun y hy => h y (List.mem_cons_of_mem _ hy))
    simp only [holdsClosure, List.cons_append, List.any_cons, h y List.mem_cons_self, Bool.and_false, Bool.false_or] at this ⊢
    exact this

theorem setClosure_skip (x : String) (v : GV β) (extra l : Locals (Host β)) (h : ∀ y ∈ extra, isClosure y.2 = false) :
    setClosure x v (extra ++ l) = extra ++ setClosure x v l := by
  induction extra with
  | nil => rfl
  | cons y extra ih =>
    rw [List.cons_append, setClosure, if_neg (by rw [h y List.mem_cons_self, Bool.and_false]; exact Bool.false_ne_true),
      ih (fun y hy => h y (List.mem_cons_of_mem _ hy)), List.cons_append]

/-- `(callback)(&e)` -/
theorem call_eval (n : Nat) {sc : Sc} (hsc : NoCall sc) (ref : Expr) (w : GV β) (e : EVal) (hw : w.peel = .user (.inl e)) (L : Locals (Host β)) (s : State)
    (hr : gev 𝔾 n sc ref L s = .ret w L s) (hL : holdsClosure "callback" L = true) :
    gev 𝔾 (n + 1) sc (.call (varE "callback") [ref]) L s = match cb e s with
      | .ret r s => .ret .unit (setClosure "callback" (.user (.inr r)) L) s
      | .panic k s => .panic (.kind k) L s
      | .ub k => .ub k := by
  simp only [varE, one, gev_call, seqE_cons, seqE_nil, x_bind, x_pure, hr, hsc 𝔾 _, callVar, hL, hw]
  cases cb e s <;> rfl

/-- Rebuilding something from a structure or tuple with at least one field. -/
theorem rebuild_eval' (n : Nat) {sc : Sc} (p : RPath) (m : Nat) (h0 : m ≠ 0) (h32 : m ≤ 32) (e : Expr) (sh : Shape) (hsh : sh.fields.length = m) (vs : TB.Val)
    (hvs : vs.length = m) (L L' : Locals (Host β)) (hL : L'.length = L.length) (s s' : State) (he : gev 𝔾 (n + 2) sc e L s = .ret (.obj sh vs) L' s') (w : GV β)
    (hp : ∀ l, callPath 𝔾 sc p (fieldVs sh.fields vs) l s' = .ret w l s') :
    gev 𝔾 (n + 3) sc (rebuildE p e m) L s = .ret w L' s' := by
  have hf := seqE_fields 𝔾 n sc "tuple" s' sh vs L' (by omega) (by omega) (by omega)
  rw [hvs] at hf
  rw [rebuildE, if_neg h0, gev_block]
  have hen : Sc.enter sc [.letS (.bind "tuple") none e, .tail (.call (.path p) ((List.range m).map fun i => .field (varE "tuple") (toString i)))] = sc := rfl
  rw [hen]
  simp only [scope_apply, runStmts_let, x_bind, he, x_declare, runStmts_tail, gev_call, hf, hp]
  rw [List.length_cons, show L'.length + 1 - L.length = 0 + 1 by omega, dropLocals_some]
  simp only [x_bind, dropV_gone, dropLocals_zero, x_pure]

/-- The variables in an arm of `ref_from_tagged_box`. -/
def lendL (b : TBox) (c : GV β) : Locals (Host β) := [("discrim", some (dV (b.discriminant env))), ("callback", some c), ("tagged", some (.refv (boxV b)))]

/-- What an arm of `ref_from_tagged_box` does with the value it has built. -/
def lendOut (b : TBox) (m : M β) (s : State) : XOut (Host β) (GV β) := match m s with
  | .ret r s2 => .ret .unit (lendL env b (.user (.inr r))) s2
  | .panic k s2 => .panic (.kind k) (lendL env b (.struct "<callback>" [])) s2
  | .ub k => .ub k

/-- The end of an arm: the call of the callback, and the end of the block. -/
theorem lend_finish (n : Nat) {sc : Sc} (hscb : NoCall sc) (b : TBox) (ref : Expr) (w x : GV β) (e : EVal) (hw : w.peel = .user (.inl e))
    (extra : Locals (Host β)) (hx : ∀ y ∈ extra, isClosure y.2 = false) (es : List Event) (s s0 : State)
    (hr : gev 𝔾 n sc ref (("variant", some x) :: (extra ++ lendL env b (.struct "<callback>" []))) s =
      .ret w (("variant", some x) :: (extra ++ lendL env b (.struct "<callback>" []))) s)
    (hdx : ∀ (l : Locals (Host β)) (s : State), dropV (src env user) x l s = .ret () l (s.log es))
    (hde : ∀ (l : Locals (Host β)) (s : State), dropLocals (src env user) extra.length (extra ++ l) s = .ret () l s) :
    scope (src env user) (fun _ _ => runStmts 𝔾 (gev 𝔾 (n + 1) sc) sc [callS ref] (("variant", some x) :: (extra ++ lendL env b (.struct "<callback>" []))) s)
      (lendL env b (.struct "<callback>" [])) s0 = lendOut env b (M.cleanup es (cb e)) s := by
  have hl : holdsClosure "callback" (("variant", some x) :: (extra ++ lendL env b (.struct "<callback>" []))) = true := by
    have := holdsClosure_skip "callback" extra (lendL env b (.struct "<callback>" [])) hx
    simp only [holdsClosure, List.any_cons] at this ⊢
    rw [this]
    rfl
  have hset : ∀ c : GV β, setClosure "callback" c (("variant", some x) :: (extra ++ lendL env b (.struct "<callback>" []))) =
      ("variant", some x) :: (extra ++ lendL env b c) := by
    intro c
    rw [setClosure, if_neg (by simp), setClosure_skip _ _ _ _ hx]
    rfl
  have hend : ∀ (c c' : GV β) (s : State), dropLocals (src env user) ((("variant", some x) :: (extra ++ lendL env b c)).length - (lendL env b c').length)
      (("variant", some x) :: (extra ++ lendL env b c)) s = .ret () (lendL env b c) (s.log es) := by
    intro c c' s
    rw [show (("variant", some x) :: (extra ++ lendL env b c)).length - (lendL env b c').length = extra.length + 1 by
      simp only [List.length_cons, List.length_append, lendL, List.length_nil]; omega, dropLocals_some]
    simp only [x_bind, hdx, hde]
  have he := call_eval env user rc hd sn en decl fns cb n hscb ref w e hw _ s hr hl
  unfold scope
  simp only [callS, runStmts_semi, x_bind, he]
  cases hc : cb e s with
  | ret r s2 => simp only [dropV_unit, runStmts_nil, hset, hend, lendOut, M.cleanup, hc, x_pure]
  | panic k s2 => simp only [hend, lendOut, M.cleanup, hc, x_panic]
  | ub k => simp only [lendOut, M.cleanup, hc]

/-- An arm of `ref_from_tagged_box`. -/
theorem lend_eval (hdrop : user.drop = hostDrop rc hd decl) (h : Ready env rc en decl) {d : VariantDef} (hmem : d ∈ decl)
    (n : Nat) {sc : Sc} (hsc : Numbered en decl sc)
    (hscb : lookup "callback" sc.types = none) (b : TBox) (s : State) :
    gev 𝔾 (n + 6) sc (lendArm en d).2.2 (lendL env b (.struct "<callback>" [])) s =
      match (refArmOf d).build env rc (programOf sn en hd decl) b s with
      | .ret p s1 => lendOut env b (M.cleanup p.2 (cb p.1)) s1
      | .panic k s1 => .panic (.kind k) (lendL env b (.struct "<callback>" [])) s1
      | .ub k => .ub k := by
  obtain ⟨v, f⟩ := d
  have hdef : lookupDef decl v = some f := lookupDef_of h.names hmem
  have hres := h.reserved _ hmem
  have htg : lookup "tagged" (lendL env b (.struct "<callback>" [] : GV β)) = some (some (.refv (boxV b))) := rfl
  have hdm : ∀ (x : GV β) (l : Locals (Host β)) (s : State), dropV (src env user) (.struct "ManuallyDrop" [("value", x)]) l s = .ret () l (s.log []) := by
    intro x l s
    rw [log_nil]
    rfl
  match f with
  | .unit =>
    simp only [lendArm, guarded, refArmOf, RefArm.build, m_pure]
    rw [gev_block, scope_apply]
    have hrun : runStmts 𝔾 (gev 𝔾 (n + 5) sc) sc [.letS (.bind "variant") (some (varT en)) (.path (two en v)), callS (.ref false (varE "variant"))]
        (lendL env b (.struct "<callback>" [])) s = runStmts 𝔾 (gev 𝔾 (n + 5) sc) sc [callS (.ref false (varE "variant"))]
        (("variant", some (.user (.inl ⟨v, .unit⟩))) :: ([] ++ lendL env b (.struct "<callback>" []))) s := by
      simp only [runStmts_let, x_bind, two, gev_path2, hsc.en, if_true, hdef, x_pure, x_declare, List.nil_append]
    rw [show sc.enter [.letS (.bind "variant") (some (varT en)) (.path (two en v)), callS (.ref false (varE "variant"))] = sc from rfl, hrun]
    refine lend_finish env user rc hd sn en decl fns cb (n + 4) (noCall_none hscb) b (.ref false (varE "variant")) (.refv (.user (.inl ⟨v, .unit⟩))) (.user (.inl ⟨v, .unit⟩))
      ⟨v, .unit⟩ rfl [] (by simp) (scopeDrop (programOf sn en hd decl) v) s s ?_ ?_ (fun _ _ => rfl)
    · simp only [gev_ref, varE, one, x_bind, gplace_var, readVar_apply, lookup_head, x_pure]
    · intro l s
      have : dropV (src env user) (.user (.inl ⟨v, .unit⟩)) l s = X.mem (user.drop (.inl ⟨v, .unit⟩)) l s := rfl
      rw [this, hdrop]
      simp only [hostDrop, fieldsOf, hdef, fieldDrops, List.append_nil]
      rfl
  | .tuple [t] =>
    simp only [lendArm, guarded, refArmOf, RefArm.build]
    rw [gev_block, scope_apply]
    rw [show sc.enter [letMd en [] (.call (.path (two en v)) [readE (.user t)]), callS (.ref false (varE "variant"))] = sc from rfl]
    have hr := read_eval env user rc hd sn en decl fns cb (n + 1) (sc := sc) (.user t) (rc.leaf t).shape rfl b (lendL env b (.struct "<callback>" [])) s htg
    rcases ptrRead_cases (rc.leaf t).shape (b.asPtr env) s with ⟨vs, hp, hl⟩ | ⟨k, hp⟩
    · obtain ⟨x, rfl⟩ : ∃ x, vs = [x] := List.length_eq_one_iff.1 (by simpa [Leaf.shape] using hl)
      rw [hp] at hr
      have hrun : runStmts 𝔾 (gev 𝔾 (n + 5) sc) sc [letMd en [] (.call (.path (two en v)) [readE (.user t)]), callS (.ref false (varE "variant"))]
          (lendL env b (.struct "<callback>" [])) s = runStmts 𝔾 (gev 𝔾 (n + 5) sc) sc [callS (.ref false (varE "variant"))]
          (("variant", some (.struct "ManuallyDrop" [("value", .user (.inl ⟨v, .tuple [x]⟩))])) :: ([] ++ lendL env b (.struct "<callback>" []))) s := by
        simp only [letMd, runStmts_let, x_bind, md_eval env user rc hd sn en decl fns cb (n + 4) hsc.core, gev_call, seqE_cons, seqE_nil, hr, XOut.of, x_pure, two, callPath,
          hsc.en, if_true, enumTuple, hdef, toBytesList, toBytes, List.length_cons, List.length_nil, x_declare, List.nil_append]
      rw [hrun, m_bind, hp]
      refine lend_finish env user rc hd sn en decl fns cb (n + 4) (noCall_none hscb) b (.ref false (varE "variant")) (.refv (.struct "ManuallyDrop" [("value", .user (.inl ⟨v, .tuple [x]⟩))]))
        (.struct "ManuallyDrop" [("value", .user (.inl ⟨v, .tuple [x]⟩))]) ⟨v, .tuple [x]⟩ rfl [] (by simp) [] s s ?_ (hdm _) (fun _ _ => rfl)
      simp only [gev_ref, varE, one, x_bind, gplace_var, readVar_apply, lookup_head, x_pure]
    · rw [hp] at hr
      simp only [letMd, runStmts_let, x_bind, md_eval env user rc hd sn en decl fns cb (n + 4) hsc.core, gev_call, seqE_cons, seqE_nil, hr, XOut.of, m_bind, hp]
  | .tuple [] =>
    have hv : en ≠ v := fun h => hres (by simp [Fields.reserved, h])
    have hv1 : "core" ≠ v := fun h => hres (by simp [Fields.reserved, h])
    have hv2 : "callback" ≠ v := fun h => hres (by simp [Fields.reserved, h])
    simp only [lendArm, guarded, refArmOf, RefArm.build, tupleExpOf, List.length_nil, if_true, m_bind, m_pure]
    rw [gev_block, scope_apply]
    generalize hsc' : sc.enter _ = sc'
    have hty : lookup v sc'.types = some (.struct false [attr1 "repr" "C"] (positional [])) := by
      rw [← hsc']; simp [tupleS, Sc.enter, typeItems, lookup]
    have hen' : lookup en sc'.types = none := by
      rw [← hsc']; simp [tupleS, Sc.enter, typeItems, lookup, hv, hsc.en, letMd, callS]
    have hco' : lookup "core" sc'.types = none := by
      rw [← hsc']; simp [tupleS, Sc.enter, typeItems, lookup, hv1, hsc.core, letMd, callS]
    have hcb' : lookup "callback" sc'.types = none := by
      rw [← hsc']; simp [tupleS, Sc.enter, typeItems, lookup, hv2, hscb, letMd, callS]
    have hlay := layout_tupleC env user rc hd sn en decl fns cb _ isReprC_repr []
    have hrun : runStmts 𝔾 (gev 𝔾 (n + 5) sc') sc' [tupleS [attr1 "repr" "C"] v [],
          .letS (.bind "tuple") (some (varT v)) (rebuildE (one v) (readE (varT v)) 0), letMd en [varT en] (rebuildE (two en v) (varE "tuple") 0),
          callS (.ref false (.un .deref (varE "variant")))] (lendL env b (.struct "<callback>" [])) s =
        runStmts 𝔾 (gev 𝔾 (n + 5) sc') sc' [callS (.ref false (.un .deref (varE "variant")))]
          (("variant", some (.struct "ManuallyDrop" [("value", .user (.inl ⟨v, .tuple []⟩))])) :: ([("tuple", some (.obj (structShape rc []) []))] ++
            lendL env b (.struct "<callback>" []))) s := by
      simp only [List.map_nil] at hlay
      simp only [tupleS, runStmts_struct, rebuildE, if_true, runStmts_let, x_bind, one, gev_call, seqE_nil, callPath, hty, structTuple, toBytesList, List.length_nil,
        positional_length, List.map_nil, hlay, x_pure, x_declare, letMd, md_eval env user rc hd sn en decl fns cb (n + 4) hco', two, hen', enumTuple, hdef, List.singleton_append]
    rw [hrun]
    refine lend_finish env user rc hd sn en decl fns cb (n + 4) (noCall_none hcb') b (.ref false (.un .deref (varE "variant"))) (.refv (.user (.inl ⟨v, .tuple []⟩)))
      (.struct "ManuallyDrop" [("value", .user (.inl ⟨v, .tuple []⟩))]) ⟨v, .tuple []⟩ rfl [("tuple", some (.obj (structShape rc []) []))] (by simp [isClosure]) [] s s ?_ (hdm _) ?_
    · simp only [gev_ref, varE, one, x_bind, gplace_deref, gplace_var, readVar_apply, lookup_head, x_pure]
      rfl
    · intro l s
      show dropLocals (src env user) (0 + 1) (("tuple", some (.obj (structShape rc []) [])) :: l) s = _
      rw [dropLocals_some]
      simp only [x_bind, dropV_obj, x_mem, dropVal, M.log, dropEvents, List.zip_nil_right, List.filterMap_nil, log_nil, dropLocals_zero]
  | .tuple (t :: t' :: ts) =>
    have hv : en ≠ v := fun h => hres (by simp [Fields.reserved, h])
    have hv1 : "core" ≠ v := fun h => hres (by simp [Fields.reserved, h])
    have hv2 : "callback" ≠ v := fun h => hres (by simp [Fields.reserved, h])
    have hx : tupleExpOf (t :: t' :: ts).length = .access (List.range (t :: t' :: ts).length) := by rw [tupleExpOf, if_neg (by simp)]
    simp only [lendArm, guarded, refArmOf, RefArm.build, hx]
    rw [gev_block, scope_apply]
    generalize hsc' : sc.enter _ = sc'
    have hty : lookup v sc'.types = some (.struct false [attr1 "repr" "C"] (positional ((t :: t' :: ts).map .user))) := by
      rw [← hsc']; simp [tupleS, Sc.enter, typeItems, lookup]
    have hen' : lookup en sc'.types = none := by
      rw [← hsc']; simp [tupleS, Sc.enter, typeItems, lookup, hv, hsc.en, letMd, callS]
    have hco' : lookup "core" sc'.types = none := by
      rw [← hsc']; simp [tupleS, Sc.enter, typeItems, lookup, hv1, hsc.core, letMd, callS]
    have hcb' : lookup "callback" sc'.types = none := by
      rw [← hsc']; simp [tupleS, Sc.enter, typeItems, lookup, hv2, hscb, letMd, callS]
    have hlay := layout_tupleC env user rc hd sn en decl fns cb _ isReprC_repr (t :: t' :: ts)
    have hg : gty 𝔾 sc' (varT v) = .opaque (structShape rc (t :: t' :: ts)) := by
      simp only [varT, one, gty, hty, hlay]
    have h32 := h.arity _ hmem _ rfl
    have hr := read_eval env user rc hd sn en decl fns cb (n + 2) (sc := sc') (varT v) _ hg b (lendL env b (.struct "<callback>" [])) s htg
    rcases ptrRead_cases (structShape rc (t :: t' :: ts)) (b.asPtr env) s with ⟨vs, hp, hl⟩ | ⟨k, hp⟩
    · have hl' : vs.length = (t :: t' :: ts).length := by rw [hl, structShape_fields]
      rw [hp] at hr
      have hr1 := rebuild_eval' env user rc hd sn en decl fns cb (n + 2) (one v) (t :: t' :: ts).length (by simp) h32 _ _ (structShape_fields rc _) vs hl' _ _ rfl s s hr
        (.obj (structShape rc (t :: t' :: ts)) vs) (by
          intro l
          simp only [callPath, one, hty, structTuple, toBytesList_fieldVs _ _ hl.symm, positional_length, List.length_map, hl', if_true, hlay, x_pure])
      have hr2 := rebuild_eval' env user rc hd sn en decl fns cb (n + 1) (sc := sc') (two en v) (t :: t' :: ts).length (by simp) h32 (varE "tuple")
        (structShape rc (t :: t' :: ts)) (structShape_fields rc _) vs hl'
        (("tuple", some (.obj (structShape rc (t :: t' :: ts)) vs)) :: lendL env b (.struct "<callback>" [])) (("tuple", none) :: lendL env b (.struct "<callback>" [])) rfl s s (by
          simp only [varE, one, gev_var, lookup_head, useVar_apply]
          rfl) (.user (.inl ⟨v, .tuple vs⟩)) (by
          intro l
          simp only [callPath, two, hen', if_true, enumTuple, hdef, toBytesList_fieldVs _ _ hl.symm, hl', x_pure])
      have hrun : runStmts 𝔾 (gev 𝔾 (n + 5) sc') sc' [tupleS [attr1 "repr" "C"] v (t :: t' :: ts),
            .letS (.bind "tuple") (some (varT v)) (rebuildE (one v) (readE (varT v)) (t :: t' :: ts).length),
            letMd en [varT en] (rebuildE (two en v) (varE "tuple") (t :: t' :: ts).length),
            callS (.ref false (.un .deref (varE "variant")))] (lendL env b (.struct "<callback>" [])) s =
          runStmts 𝔾 (gev 𝔾 (n + 5) sc') sc' [callS (.ref false (.un .deref (varE "variant")))]
            (("variant", some (.struct "ManuallyDrop" [("value", .user (.inl ⟨v, .tuple vs⟩))])) :: ([("tuple", none)] ++ lendL env b (.struct "<callback>" []))) s := by
        simp only [tupleS, runStmts_struct, runStmts_let, x_bind, hr1, x_declare, letMd, md_eval env user rc hd sn en decl fns cb (n + 4) hco', hr2, List.singleton_append]
      rw [hrun]
      simp only [m_bind, hp, m_pure]
      rw [show accessFields (List.range (t :: t' :: ts).length) vs = vs by rw [← hl', accessFields_range],
        show accessFields (List.range (t :: t' :: ts).length) vs = vs by rw [← hl', accessFields_range]]
      refine lend_finish env user rc hd sn en decl fns cb (n + 4) (noCall_none hcb') b (.ref false (.un .deref (varE "variant"))) (.refv (.user (.inl ⟨v, .tuple vs⟩)))
        (.struct "ManuallyDrop" [("value", .user (.inl ⟨v, .tuple vs⟩))]) ⟨v, .tuple vs⟩ rfl [("tuple", none)] (by simp [isClosure]) [] s s ?_ (hdm _) (fun _ _ => rfl)
      simp only [gev_ref, varE, one, x_bind, gplace_deref, gplace_var, readVar_apply, lookup_head, x_pure]
      rfl
    · rw [hp] at hr
      have hr1 : gev 𝔾 (n + 5) sc' (rebuildE (one v) (readE (varT v)) (t :: t' :: ts).length) (lendL env b (.struct "<callback>" [])) s = .ub k := by
        rw [rebuildE, if_neg (by simp), gev_block]
        simp only [Sc.enter, typeItems, constItems, List.nil_append, scope_apply, runStmts_let, x_bind, hr, XOut.of]
      simp only [tupleS, runStmts_struct, runStmts_let, x_bind, hr1, m_bind, hp]
  | .record ms =>
    have hv : en ≠ v := fun h => hres (by simp [Fields.reserved, h])
    have hv1 : "core" ≠ v := fun h => hres (by simp [Fields.reserved, h])
    have hm := h.members _ hmem ms rfl
    simp only [lendArm, guarded, refArmOf, RefArm.build]
    rw [gev_block, scope_apply]
    generalize hsc' : sc.enter _ = sc'
    have hty : lookup v sc'.types = some (.struct true [attr1 "repr" "C"] (ms.map fun m => (m.1, .user m.2))) := by
      rw [← hsc']; simp [recordS, Sc.enter, typeItems, lookup]
    have hen' : lookup en sc'.types = none := by
      rw [← hsc']; simp [recordS, Sc.enter, typeItems, lookup, hv, hsc.en, letMd, callS]
    have hco' : lookup "core" sc'.types = none := by
      rw [← hsc']; simp [recordS, Sc.enter, typeItems, lookup, hv1, hsc.core, letMd, callS]
    have hcb' : NoCall sc' := by
      by_cases hv2 : "callback" = v
      · exact noCall_braces (by rw [hv2]; exact hty)
      · refine noCall_none ?_
        rw [← hsc']; simp [recordS, Sc.enter, typeItems, lookup, hv2, hscb, letMd, callS]
    have hg : gty 𝔾 sc' (varT v) = .opaque (structShape rc (ms.map (·.2))) := by
      simp only [varT, one, gty, hty]
      rw [layout_recordC env user rc hd sn en decl fns cb _ isReprC_repr]
    have hr := read_eval env user rc hd sn en decl fns cb (n + 3) (sc := sc') (varT v) _ hg b (lendL env b (.struct "<callback>" [])) s htg
    rcases ptrRead_cases (structShape rc (ms.map (·.2))) (b.asPtr env) s with ⟨vs, hp, hl⟩ | ⟨k, hp⟩
    · have hl' : vs.length = ms.length := by rw [hl, structShape_fields, List.length_map]
      rw [hp] at hr
      have hrec := recordE_eval (β := β) hl.symm hl' 𝔾 (n + 2) sc' hm (lendL env b (.struct "<callback>" [])) s
      have hrun : runStmts 𝔾 (gev 𝔾 (n + 5) sc') sc' [recordS [attr1 "repr" "C"] v ms, .letS (recordP (one v) (ms.map (·.1))) none (readE (varT v)),
            letMd en [] (recordE (two en v) (ms.map (·.1))), callS (.ref false (.un .deref (varE "variant")))] (lendL env b (.struct "<callback>" [])) s =
          runStmts 𝔾 (gev 𝔾 (n + 5) sc') sc' [callS (.ref false (.un .deref (varE "variant")))]
            (("variant", some (.struct "ManuallyDrop" [("value", .user (.inl ⟨v, .record ((ms.map (·.1)).zip vs)⟩))])) ::
              (((recVars ms (structShape rc (ms.map (·.2))) vs : List (String × GV β)).map fun x => (x.1, none)).reverse ++ lendL env b (.struct "<callback>" []))) s := by
        simp only [recordS, runStmts_struct, recordP, one, runStmts_letStruct, runStmts_let, x_bind, hr, XOut.of, hty, letStruct_eq hl.symm hl' hm, letMd,
          md_eval env user rc hd sn en decl fns cb (n + 4) hco', recordE, two, gev_struct2, hen', if_true, hrec, enumRecord, hdef, pick_recVars hl.symm hl' hm,
          recVars_length hl.symm hl', x_pure, x_declare, moved]
      rw [hrun]
      simp only [m_bind, hp, m_pure]
      have hz : (ms.map (·.1)).zip (byName (ms.map (·.1)) ((ms.map (·.1)).zip (byName (ms.map (·.1)) ((ms.map (·.1)).zip vs)))) = (ms.map (·.1)).zip vs :=
        record_vars hm (by rw [List.length_map, hl'])
      rw [hz, buildRecord_eq h.names hmem hm (List.map_fst_zip (by rw [List.length_map, hl']; exact Nat.le_refl _))]
      refine lend_finish env user rc hd sn en decl fns cb (n + 4) hcb' b (.ref false (.un .deref (varE "variant"))) (.refv (.user (.inl ⟨v, .record ((ms.map (·.1)).zip vs)⟩)))
        (.struct "ManuallyDrop" [("value", .user (.inl ⟨v, .record ((ms.map (·.1)).zip vs)⟩))]) ⟨v, .record ((ms.map (·.1)).zip vs)⟩ rfl _ ?_ [] s s ?_ (hdm _) ?_
      · intro y hy
        rw [List.mem_reverse, List.mem_map] at hy
        obtain ⟨x, _, rfl⟩ := hy
        rfl
      · simp only [gev_ref, varE, one, x_bind, gplace_deref, gplace_var, readVar_apply, lookup_head, x_pure]
        rfl
      · intro l s
        have := dropLocals_moved (src env user) (recVars ms (structShape rc (ms.map (·.2))) vs) l s 0
        rw [Nat.add_zero, moved, dropLocals_zero] at this
        simpa using this
    · rw [hp] at hr
      simp only [recordS, runStmts_struct, recordP, one, runStmts_letStruct, x_bind, hr, XOut.of, m_bind, hp]

/-- `ref_from_tagged_box` -/
theorem lend_run (hdrop : user.drop = hostDrop rc hd decl) (h : Ready env rc en decl)
    (hfind : findImpl 𝔾 "TaggableInner" en none "ref_from_tagged_box" fns = some (refFn en decl)) (b : TBox) (s : State) :
    GCrate.lend 𝔾 (boxV b) s = match firstRef env rc (programOf sn en hd decl) b cb (programOf sn en hd decl).ref s with
      | .ret r s => .ret r [] s
      | .panic k s => .panic (if (b.discriminant env).toNat < decl.length then .kind k else noMsg env en decl referenceMsg (b.discriminant env)) [] s
      | .ub k => .ub k := by
  have hm : firstRef env rc (programOf sn en hd decl) b cb (programOf sn en hd decl).ref s =
    firstRef env rc (programOf sn en hd decl) b cb (decl.map refArmOf) s := rfl
  rw [hm, firstRef_eq h.u8 h.names]
  have hdisp := guarded_dispatch env user rc hd sn en decl fns cb h.u8 h.enU8 h.names 36 (ctrSc_numbered env rc en decl h [(total, countE decl)]) b
    (fun d => (lendArm en d).2.2) (lendArm en) (fun d => rfl) (noArm en referenceMsg)
    [("callback", some (.struct "<callback>" [])), ("tagged", some (.refv (boxV b)))] s
  have hscr : gplace (gev 𝔾 39 (ctrSc decl [(total, countE decl)])) (.method (varE "tagged") "discriminant" [] [])
      [("callback", some (.struct "<callback>" [])), ("tagged", some (.refv (boxV b)))] s =
      .ret (dV (b.discriminant env)) [("callback", some (.struct "<callback>" [])), ("tagged", some (.refv (boxV b)))] s := by
    have hp : (V.refv (boxV b) : GV β).peel = boxV b := rfl
    have hl : lookup "tagged" ([("callback", some (.struct "<callback>" [])), ("tagged", some (.refv (boxV b)))] : Locals (Host β)) = some (some (.refv (boxV b))) := rfl
    rw [show (39 : Nat) = 38 + 1 from rfl]
    simp only [gplace_method, varE, one, gev_method_path, methodCall, x_bind, gplace_var, readVar_apply, hl, seqE_nil, hp, tyName_boxV,
      find_box_discriminant, List.map_nil, c_discriminant]
  have hbody : runStmts 𝔾 (gev 𝔾 40 (ctrSc decl [(total, countE decl)])) (ctrSc decl [(total, countE decl)]) (refFn en decl).body
      [("callback", some (.struct "<callback>" [])), ("tagged", some (.refv (boxV b)))] s =
      (match runArms 𝔾 (gev 𝔾 39 (ctrSc decl [(total, countE decl)])) none (dV (b.discriminant env)) (decl.map (lendArm en) ++ [noArm en referenceMsg])
          [("callback", some (.struct "<callback>" [])), ("tagged", some (.refv (boxV b)))] s with
        | .ret v l s => (do
          dropV (src env user) v
          pure .unit : GX β (GV β)) l s
        | .panic m l s => .panic m l s
        | .ub k => .ub k
        | .stuck => .stuck) := by
    simp only [refFn, numbering, count, runStmts_enum, runStmts_const, runStmts_semi, x_bind]
    rw [show (40 : Nat) = 39 + 1 from rfl, gev_match]
    simp only [x_bind, hscr, asVar, runStmts_nil, x_pure]
    generalize runArms _ _ _ _ _ _ _ = o
    cases o <;> rfl
  have hlend : GCrate.lend 𝔾 (boxV b) s =
      match scope (src env user) (runStmts 𝔾 (gev 𝔾 40 (ctrSc decl [(total, countE decl)])) (ctrSc decl [(total, countE decl)]) (refFn en decl).body)
        [("callback", some (.struct "<callback>" [])), ("tagged", some (.refv (boxV b)))] s with
      | .ret _ l s => .ret (match lookup "callback" l with
        | some (some (.user (.inr r))) => some r
        | _ => none) [] s
      | .panic m _ s => .panic m [] s
      | .ub k => .ub k
      | .stuck => .stuck := by
    unfold GCrate.lend
    simp only [hfind]
    rfl
  rw [hlend, scope_apply, hbody, hdisp]
  cases hdi : decl[(b.discriminant env).toNat]? with
  | none =>
    have hlt : ¬ (b.discriminant env).toNat < decl.length := by
      rw [List.getElem?_eq_none_iff] at hdi
      omega
    simp only [noArm_eval env user rc hd sn en decl fns cb 34 referenceMsg (b.discriminant env)
      [("callback", some (.struct "<callback>" [])), ("tagged", some (.refv (boxV b)))] rfl s, Nat.sub_self, x_bind, dropLocals_zero, x_panic, m_panic, hlt, if_false]
  | some d =>
    have hmem := List.mem_of_getElem? hdi
    have hlt : (b.discriminant env).toNat < decl.length := by
      obtain ⟨h, _⟩ := List.getElem?_eq_some_iff.1 hdi
      exact h
    have he := lend_eval env user rc hd sn en decl fns cb hdrop h hmem 33 (ctrSc_numbered env rc en decl h [(total, countE decl)]) rfl b s
    simp only [scope_apply, x_bind, x_declare]
    rw [show (36 + 3 : Nat) = 33 + 6 from rfl]
    rw [show (("discrim", some (dV (b.discriminant env))) :: [("callback", some (.struct "<callback>" [])), ("tagged", some (.refv (boxV b)))] : Locals (Host β)) =
      lendL env b (.struct "<callback>" []) from rfl, he]
    simp only [m_bind]
    cases hr : (refArmOf d).build env rc (programOf sn en hd decl) b s with
    | ret p s1 =>
      obtain ⟨e, es⟩ := p
      simp only [lendOut, M.cleanup, m_bind, m_pure]
      cases hc : cb e s1 with
      | ret r s2 => rfl
      | panic k s2 =>
        simp only [hlt, if_true]
        rfl
      | ub k => rfl
    | panic k s1 =>
      simp only [hlt, if_true]
      rfl
    | ub k => rfl

end

end TB.Rust

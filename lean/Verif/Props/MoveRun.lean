import Verif.Lemmas.MoveRun
import Verif.Lemmas.MoveTest
import Verif.Props.UserRun
import Verif.Props.HandWritten

/-!
# Code that clones containers and changes boxes, run from its text with the generated code (C93)
-/

set_option autoImplicit false
set_option linter.unusedSimpArgs false

namespace TB.Props

open TB TB.Macro TB.Mbe TB.Rust TB.Rust.User TB.Rust.Move TB.Spec TB.Source

variable {env : Env} {rc : Rustc} {sn en : String} {ts : List Tok} {decl : List VariantDef}

/-- The block of a new box is new. -/
theorem into_fresh {P : Program} (h : env.OK) (hc : Compiled rc env.cfg sn en false ts decl P) (ho : env.debug = true ∨ env.InRange) {i : Nat} {e : EVal}
    (hv : IsValue rc decl i e) (hlt : i < 2 ^ env.cfg.freeBits) {s s' : State} {b : TBox} (hr : intoTaggedBox env rc P e s = .ret b s') :
    ∀ k ∈ boxBlocks env rc decl b i, k ∉ s.blocks := by
  obtain ⟨hw, rfl⟩ := hc.wf
  obtain ⟨d, hdi, hvn, hf⟩ := hv
  have heq : intoTaggedBox env rc (programOf sn en false decl) e = M.cleanup (convertDrops false e) _ :=
    intoTaggedBox_eq (env := env) (sn := sn) (en := en) (hd := false) hw.names hw.members hw.arity hdi hvn hf
  rw [heq] at hr
  obtain ⟨s₁, hr', rfl⟩ := cleanup_ret_inv hr
  intro k hk hks
  cases hsh : d.fields.shape rc with
  | none => simp [boxBlocks, hdi, hsh] at hk
  | some sh =>
    by_cases hz : 0 < sh.size
    · rw [boxBlocks_eq hdi hsh hz] at hk
      cases List.mem_singleton.1 hk
      simp only [storeOf, hsh] at hr'
      obtain ⟨e1, e2⟩ := new_asPtr h (by omega) (numOf_fits hw.u8 hlt) ho hr'
      have hd := (h.lawful s sh.size sh.align hz e2).2.2 _ hks
      simp only [Block.Disjoint, e1] at hd
      omega
    · simp [boxBlocks, hdi, hsh, hz] at hk

theorem cloneFields_has {O : Ops} (hO : OpsOK rc O) : ∀ {tys : List Ty} {xs : List Bytes}, HasTypes rc tys xs → HasTypes rc tys (cloneFields O tys xs)
  | [], [], _ => trivial
  | _ :: _, _ :: _, h => ⟨(hO _ _ h.1).1, cloneFields_has hO h.2⟩

/-- A clone is a value of the same variant. -/
theorem cloneItem_value {O : Ops} (hO : OpsOK rc O) (hn : (decl.map (·.name)).Nodup) {i : Nat} {e : EVal} (h : IsValue rc decl i e) : IsValue rc decl i (cloneItem O decl e) := by
  obtain ⟨d, hd, hv, hf⟩ := h
  have hl := lookupDef_of hn (List.mem_of_getElem? hd)
  obtain ⟨v, p⟩ := e
  cases hv
  refine ⟨d, hd, ?_, ?_⟩
  · simp only [cloneItem]
    split <;> rfl
  · simp only [cloneItem, hl]
    match hfs : d.fields, p, hf with
    | .unit, p, hf => exact hf
    | .tuple tys, .tuple xs, hf => exact cloneFields_has hO hf
    | .record ms, .record xs, hf =>
      have hl : (xs.map (·.1)).length = (cloneFields O (ms.map (·.2)) (xs.map (·.2))).length := by
        have h1 := HasTypes.length hf.2
        have h2 := HasTypes.length (cloneFields_has hO hf.2)
        simp only [List.length_map] at h1 h2 ⊢
        omega
      refine ⟨?_, ?_⟩
      · rw [List.map_fst_zip (by omega)]; exact hf.1
      · rw [List.map_snd_zip (by omega)]; exact cloneFields_has hO hf.2
    | .tuple tys, .unit, hf => exact hf.elim
    | .tuple tys, .record _, hf => exact hf.elim
    | .record tys, .unit, hf => exact hf.elim
    | .record tys, .tuple _, hf => exact hf.elim

section

variable {metas : List (List TT)} {svis evis : List TT}
  {users : ∀ β : Type, User (Host β)} {G : Programs} (h : Declared env rc sn en false ts decl) (hm : ∀ m ∈ metas, IsMeta m) (hs : IsVis svis) (he : IsVis evis)
  (hG : AreProgram env rc metas svis sn evis en false ts users G)
include h hm hs he hG

theorem moves_good {readable storable : EVal → Bool} (hfit : ∀ e, storable e = true → Fits env decl e) (ho : env.InRange)
    (hread : ∀ e, readable e = true → LaidOut env rc decl e) {O : Ops} (hO : OpsOK rc O) (user : User EVal) :
    MGood env rc decl readable storable O (crateMoves env rc G sn en decl O user) := by
  haveI : InTable env := ⟨h.target.cfg_mem⟩
  have hP : IsProgram env rc (users Unit) metas svis sn evis en false ts (fun _ => pure ()) (someProgram G) := hG Unit _
  have hM := C82_model h hm hs he hP
  have hc := h.compiled
  obtain ⟨hw, _⟩ := hc.wf
  have hmake : ∀ i e, IsValue rc decl i e → storable e = true → ∀ s, HeapInv env s → Makes env rc decl (intoTaggedBox env rc (programOf sn en false decl) e) e s := by
    intro i e hv hst s hi
    have hlt : i < 2 ^ env.cfg.freeBits := by
      obtain ⟨d, hd, hn, _⟩ := hv
      exact hfit e hst i d hd hn.symm
    rcases C29_container_roundtrip h.target h.rustc hc hv hlt (.inr ho) hi with ⟨b, s', e1, e2, e3, e4⟩ | ⟨s', e1, e2, e3, _, size, align, _, e4⟩ |
      ⟨s', _, _, _, _, size, align, e5⟩
    · have hst' := (into_stores h.target h.rustc hw.u8 hw.names hw.members hw.arity hv hi e1).2.2 hlt (.inr ho)
      refine .inl ⟨b, s', e1, e2, e3, ⟨i, hst'⟩, ?_⟩
      rw [blocksOf, stores_blocks hst']
      exact into_fresh h.target hc (.inr ho) hv hlt e1
    · exact .inr ⟨_, s', e1, size, align, e4⟩
    · exact absurd (ho s size align) (Nat.not_lt.2 e5)
  have hinto : ∀ e, IsEnumValue rc decl e → (crateMoves env rc G sn en decl O user).into e = intoTaggedBox env rc (programOf sn en false decl) e := by
    intro e hv
    show (linked G en).intoTaggedBox e = _
    rw [linked_into h hm hs he hG hv]
    rfl
  refine ⟨?_, ?_, ?_, ?_, ?_, ?_, ?_, fun _ _ => rfl⟩
  · rintro e ⟨i, hv⟩ hst s hi
    rw [hinto e ⟨i, hv⟩]
    exact hmake i e hv hst s hi
  · rintro e ⟨i, hv⟩ hst s hi
    refine (hmake i e hv hst s hi).congr ?_
    show outcome toCont _ = _
    rw [hM.1 i e s hv]
    exact outcome_of contV toCont (fun _ => rfl) _ _ (fun k _ _ => kindOf_panicMsg _ k) _
  · intro v tys vs hd hty hne hst s hi
    obtain ⟨i, hdi⟩ := List.mem_iff_getElem?.1 hd
    have hv : IsValue rc decl i ⟨v, .tuple vs⟩ := ⟨_, hdi, rfl, hty⟩
    refine (hmake i _ hv hst s hi).congr ?_
    have hf : ∃ ty, (Fields.tuple tys).fromTy = some ty := by
      match tys with
      | [t] => exact ⟨_, rfl⟩
      | t :: t' :: ts => exact ⟨_, rfl⟩
      | [] => exact absurd rfl hne
    obtain ⟨ty, hf⟩ := hf
    show (match (Fields.tuple tys).fromTy with
      | some ty => outcome toCont ((someProgram G).call "From" sn (some ty) "from" none [payloadV env rc tys vs] s)
      | none => .ub .badValue) = _
    rw [hf]
    show outcome toCont _ = _
    rw [(C82_payload h hm hs he hP hdi hty hf s).1, hM.1 i _ s hv]
    exact outcome_of contV toCont (fun _ => rfl) _ _ (fun k _ _ => kindOf_panicMsg _ k) _
  · intro s b i e hst
    show outcome toEnum _ = _
    rw [hM.2.2.1, containerIntoInner_stores hw.u8 hw.names hw.members hst]
    rfl
  · intro s b i e hst hr
    obtain ⟨d, hdi, hn, hf⟩ := id hst.1
    show outcome toEnum _ = _
    rw [hM.2.2.2.1, fromTaggedBox_stores hw.u8 hw.names hw.members hst hdi]
    · rfl
    · intro t t' ts' hd
      exact hread e hr d (List.mem_of_getElem? hdi) hn.symm _ hd (by simp)
  · intro s b i e hi hst hcl
    have hv' := cloneItem_value hO hw.names hst.1
    refine (hmake i _ hv' hcl s hi).congr ?_
    have ht : ∀ w : User EVal, Natural w.taggable → (src env w).callTrait "Clone" "TaggedBox" "clone" (some (boxV b)) [] .unknown s =
        match w.taggable.refFrom b w.clone s with
        | .ret (some e) s' => XOut.of boxV .kind [] (w.taggable.intoTaggedBox e s')
        | .ret none s' => .panic notFetched [] s'
        | .panic k s' => .panic (.kind k) [] s'
        | .ub k => .ub k := by
      intro w hw
      refine (Rust.t_clone env w hw 140 b .unknown [] s).trans ?_
      cases w.taggable.refFrom b w.clone s with
      | ret r s' => cases r <;> rfl
      | panic k s' => rfl
      | ub k => rfl
    have hp := seen_step hc hst EVal (fun e => pure (cloneItem O decl e))
    simp only [crateMoves, hand_inCrate h.target]
    rw [ht _ (linked_natural h hm hs he hG)]
    simp only [linked_ref h hm hs he hG]
    have hev : (crateDtors rc decl false).seen e = [] := by
      simp only [crateDtors]
      split <;> rfl
    have hp' : (taggable env rc (programOf sn en false decl)).refFrom b (fun e => pure (cloneItem O decl e)) s = .ret (some (cloneItem O decl e)) s := by
      rw [hp.trans (cleanup_ret (M.bind_of_ret rfl)), hev]
      simp [State.log]
    rw [hp']
    simp only [linked_into h hm hs he hG ⟨i, hv'⟩]
    exact outcome_of boxV toBox (fun _ => rfl) .kind _ (fun k _ _ => rfl) []
  · intro s b i v t x f p hi hst hd
    obtain ⟨d, hdi, hn, hf⟩ := id hst.1
    have hd' := lookupDef_of hw.names (List.mem_of_getElem? hdi)
    rw [← hn] at hd'
    simp only at hd'
    rw [hd] at hd'
    have hds : d.fields = .tuple [t] := by simpa using hd'.symm
    have hsh : d.fields.shape rc = some (rc.leaf t).shape := by rw [hds]; rfl
    have H := hst.2.2 d hdi _ hsh
    have hwf := shape_wf h.rustc hsh
    have hx : (rc.leaf t).Has x := by rw [hds] at hf; exact hf.1
    have ha : b.asMutPtr env = b.asPtr env := rfl
    have hrd : ptrRead (rc.leaf t).shape (b.asPtr env) s = .ret [x] s := H.read
    have e : (src env user).call "TaggedBox" "as_mut_ref" [.opaque (rc.leaf t).shape] (some (boxV b)) [] .unknown s =
        XOut.of (fun _ => .ref (.opaque (rc.leaf t).shape) (b.asPtr env)) .kind [] (ptrRead (rc.leaf t).shape (b.asPtr env) s) :=
      Rust.b_asMutRef env user 140 b _ .unknown [] s
    rw [hrd] at e
    have e' : inCrate env user toAddress (fun cr => cr.call "TaggedBox" "as_mut_ref" [.opaque (rc.leaf t).shape] (some (boxV b)) [] .unknown) s = .ret (b.asPtr env) s := by
      simp only [hand_inCrate h.target, e]
      rfl
    cases hy : O.update f t x p with
    | none =>
      simp only [crateMoves, m_bind, e', hrd, onlyField, hy, m_panic]
    | some y =>
      have hyv := (hO t x hx).2 f p y hy
      have hv2 : IsValue rc decl i ⟨v, .tuple [y]⟩ := ⟨d, hdi, hn, by rw [hds]; exact ⟨hyv, trivial⟩⟩
      have hhas : (rc.leaf t).shape.Has [y] := shape_has (rc := rc) (f := .tuple [t]) (p := .tuple [y]) ⟨hyv, trivial⟩ rfl
      refine ⟨writtenState s (b.asPtr env) (rc.leaf t).shape [y], ?_, writtenState_inv hi, List.prefix_refl _, ⟨i, hv2, hst.2.1, ?_⟩, ?_⟩
      · simp only [crateMoves, m_bind, e', hrd, onlyField, hy, ptrWrite_ret H.valid, m_pure]
        rfl
      · intro d' hd2 sh' hs'
        rw [hdi] at hd2; cases hd2
        rw [hsh] at hs'; cases hs'
        exact H.written hwf hhas
      · intro K hK k hk
        obtain ⟨k1, k2⟩ := hK k hk
        refine ⟨k1, fun j h1 h2 => putVal_out hwf hhas ?_⟩
        by_cases hz : 0 < (rc.leaf t).shape.size
        · rw [blocksOf, stores_blocks hst, boxBlocks_eq hdi hsh hz] at k2
          rcases hi.eq_or_disjoint k1 (H.own hz) with hq | hq
          · exact absurd (List.mem_singleton.2 hq) k2
          · simp only [Block.Disjoint] at hq
            omega
        · omega

/-- **C93.** Code that clones containers and changes boxes in place does what the same code does with plain values: a clone is a value of its own. The code is any sequence of
statements over the generated functions, `clone` of a container and `as_mut_ref` of a box, both run from the text of the crate, constructors, variables (using a box or a container
moves it), comparisons and assertions; it is run once on a heap, where changing a box changes the bytes in its block, and once with values in place of the boxes, where changing a variable
can change no other. Then both finish, or an assertion (or the change itself) fails in both, or the allocator failed. `readable` and `storable` as in C90. -/
theorem C93 {readable storable : EVal → Bool} (hfit : ∀ e, storable e = true → Fits env decl e) (ho : env.InRange) (hread : ∀ e, readable e = true → LaidOut env rc decl e)
    {L : Lits} (hL : LitsOK rc L) {O : Ops} (hO : OpsOK rc O) (user : User EVal) (code : List Stmt) (s : State) (hi : HeapInv env s) :
    AsPlain s (mstmts L decl (crateMoves env rc G sn en decl O user) sn en [] code s) (mstmts L decl (plainMoves readable storable decl O) sn en [] code) := by
  have g := moves_good h hm hs he hG hfit ho hread hO user
  have h1 := mstmts_agrees (sn := sn) (en := en) h.rustc g hL code s [] [] hi ⟨trivial, List.nodup_nil⟩
  generalize mstmts L decl (plainMoves readable storable decl O) sn en [] code = r at h1
  match r, h1 with
  | .ok _, h1 =>
    rcases h1 with ⟨_, s', e, _⟩ | h1
    · exact .inl ⟨s', e⟩
    · exact .inr h1
  | .error .failed, h1 => exact h1
  | .error .stuck, _ => exact trivial

end

open TB.Rust.Code

/-- Two variants fit the discriminant in every setting. -/
theorem two_fit {env : Env} (h : env.OK) : 2 ≤ 2 ^ env.cfg.DISCRIMINANT_BITS := by
  have hk : ∀ c ∈ table, 2 ≤ 2 ^ c.DISCRIMINANT_BITS := by decide
  exact hk _ h.cfg_mem

theorem clone_metas : ∀ m ∈ cloneMetas, IsMeta m := by
  intro m hm
  cases List.mem_singleton.1 hm
  rfl

/-- No variant of the test has more than one field. -/
theorem clone_laidOut (env : Env) (rc : Rustc) (e : EVal) : LaidOut env rc cloneDecl e := by
  intro d hd hn tys ht hl
  simp only [cloneDecl, List.mem_cons, List.not_mem_nil, or_false] at hd
  rcases hd with rfl | rfl <;> cases ht <;> simp at hl

/-- **C93**, the test `clone` of `src/tagged_box.rs`, from its text: it passes in every state of the heap. -/
theorem C93_clone : ∃ metas toks decl code, moveTestFn "clone" boxText = some (invocation metas [] "Container" [] "Enum" toks, code) ∧
    decl = [⟨"Usize", .tuple [.named "usize"]⟩, ⟨"Str", .tuple [.named "String"]⟩] ∧ code.length = 17 ∧
    ∀ (env : Env) (rc : Rustc) (users : ∀ β : Type, User (Host β)) (G : Programs) (L : Lits) (O : Ops) (S : List Char → Prop) (user : User EVal),
      Declared env rc "Container" "Enum" false toks decl → AreProgram env rc metas [] "Container" [] "Enum" false toks users G → env.InRange → LitsOK rc L → OpsOK rc O →
      Usual L → Multiplies L O → Strings L O S → S "Hello".toList → S "Hello, World!".toList →
      ∀ s, HeapInv env s → Passes s (mstmts L decl (crateMoves env rc G "Container" "Enum" decl O user) "Container" "Enum" [] code s) := by
  refine ⟨cloneMetas, cloneToks, cloneDecl, cloneCode, clone_source, rfl, rfl, ?_⟩
  intro env rc users G L O S user h hG ho hL hO hU hM hS h1 h2 s hi
  have := C93 (readable := fun _ => true) (storable := fun _ => true) h clone_metas (.inl rfl) (.inl rfl) hG (fun e _ => fits_all (decl := cloneDecl) (two_fit h.target) e) ho
    (fun e _ => clone_laidOut env rc e) hL hO user cloneCode s hi
  rw [run_clone hU hM hS h1 h2] at this
  exact this

/-- **C93**, the assertions. The first five statements of the test, with other numbers: the number `n` is stored, the container cloned, and the clone multiplied by `k`. Then
`assert_eq!(Enum::Usize(m), original_usize)` passes if and only if `m` is `n`, and for `cloned_usize` if and only if `m` is the product; `assert_ne!` passes if and only if
`assert_eq!` does not. -/
theorem C93_assert : (∃ inv code, moveTestFn "clone" boxText = some (inv, code) ∧ code.take 5 = changed "100usize" "100") ∧
    ∀ (env : Env) (rc : Rustc) (users : ∀ β : Type, User (Host β)) (G : Programs) (L : Lits) (O : Ops) (user : User EVal),
      Declared env rc "Container" "Enum" false cloneToks cloneDecl → AreProgram env rc cloneMetas [] "Container" [] "Enum" false cloneToks users G → env.InRange → LitsOK rc L →
      OpsOK rc O → Usual L → Multiplies L O → ∀ (a b c : String) (n k m : Nat), numLit a = some (n, some "usize") → numLit b = some (k, none) → numLit c = some (m, none) →
      n ≤ L.max "usize" → n * k ≤ L.max "usize" → m ≤ L.max "usize" → ∀ s, HeapInv env s →
      let run f x := mstmts L cloneDecl (crateMoves env rc G "Container" "Enum" cloneDecl O user) "Container" "Enum" [] (changed a b ++ [checked f c x]) s
      PassesIff (run "assert_eq" "original_usize") s (m = n) ∧ PassesIff (run "assert_eq" "cloned_usize") s (m = n * k) ∧
      PassesIff (run "assert_ne" "original_usize") s (m ≠ n) ∧ PassesIff (run "assert_ne" "cloned_usize") s (m ≠ n * k) := by
  refine ⟨⟨_, _, clone_source, rfl⟩, ?_⟩
  intro env rc users G L O user h hG ho hL hO hU hM a b c n k m ha hb hc hn hk hm s hi
  have key : ∀ (eq orig : Bool) (q : Prop), (q ↔ eq = decide (m = if orig then n else n * k)) →
      PassesIff (mstmts L cloneDecl (crateMoves env rc G "Container" "Enum" cloneDecl O user) "Container" "Enum" [] (changed a b ++ [checked (if eq then "assert_eq" else "assert_ne") c
        (if orig then "original_usize" else "cloned_usize")]) s) s q := by
    intro eq orig q hq
    have := C93 (readable := fun _ => true) (storable := fun _ => true) h clone_metas (.inl rfl) (.inl rfl) hG (fun e _ => fits_all (decl := cloneDecl) (two_fit h.target) e) ho
      (fun e _ => clone_laidOut env rc e) hL hO user (changed a b ++ [checked (if eq then "assert_eq" else "assert_ne") c (if orig then "original_usize" else "cloned_usize")]) s hi
    rw [run_changed hU hM ha hb hc hn hk hm eq orig] at this
    by_cases hp : q
    · rw [if_pos (hq.1 hp)] at this
      rcases this with h | h
      · exact .inl ⟨hp, h⟩
      · exact .inr (.inr h)
    · rw [if_neg fun e => hp (hq.2 e)] at this
      rcases this with h | h
      · exact .inr (.inl ⟨hp, h⟩)
      · exact .inr (.inr h)
  exact ⟨key true true _ (by simp), key true false _ (by simp), key false true _ (by simp), key false false _ (by simp)⟩

/-- **C93**, `clone` of the fields. A clone of the container has what the `clone` of the type of the field gives, whatever that is: `assert_eq!(Enum::Usize(m), cloned_usize)`
passes if and only if `==` of that type says so for `m` and the clone of `n`. -/
theorem C93_derived {users : ∀ β : Type, User (Host β)} {G : Programs} {L : Lits} {O : Ops} (user : User EVal) (h : Declared env rc "Container" "Enum" false cloneToks cloneDecl)
    (hG : AreProgram env rc cloneMetas [] "Container" [] "Enum" false cloneToks users G) (ho : env.InRange) (hL : LitsOK rc L) (hO : OpsOK rc O) {a c : String} {n m : Nat}
    (ha : numLit a = some (n, some "usize")) (hc : numLit c = some (m, none)) {x y : Bytes} (hx : L.enc (.named "usize") (.num (some "usize") n) = some x)
    (hy : L.enc (.named "usize") (.num none m) = some y) {s : State} (hi : HeapInv env s) :
    PassesIff (mstmts L cloneDecl (crateMoves env rc G "Container" "Enum" cloneDecl O user) "Container" "Enum" [] (clonedOnly a ++ [checked "assert_eq" c "cloned_usize"]) s) s
      (L.eq (.named "usize") y (O.clone (.named "usize") x) = true) := by
  have := C93 (readable := fun _ => true) (storable := fun _ => true) h clone_metas (.inl rfl) (.inl rfl) hG (fun e _ => fits_all (decl := cloneDecl) (two_fit h.target) e) ho
    (fun e _ => clone_laidOut env rc e) hL hO user (clonedOnly a ++ [checked "assert_eq" c "cloned_usize"]) s hi
  rw [run_clonedOnly ha hc hx hy] at this
  by_cases hp : L.eq (.named "usize") y (O.clone (.named "usize") x) = true
  · rw [if_pos hp] at this
    rcases this with h | h
    · exact .inl ⟨hp, h⟩
    · exact .inr (.inr h)
  · rw [if_neg hp] at this
    rcases this with h | h
    · exact .inr (.inl ⟨hp, h⟩)
    · exact .inr (.inr h)

/-! ## Non-vacuity -/

/-- A field whose clone is the next number. -/
example : ∃ O : Ops, OpsOK rcUser O ∧ O.clone (.named "usize") (Replay.le 8 4) = Replay.le 8 5 :=
  ⟨⟨fun t x => if x = Replay.le 8 4 then (match t with
      | .named "usize" => Replay.le 8 5
      | _ => x) else x, fun _ _ _ _ => none⟩, fun t x hx => ⟨by
    simp only
    split
    · split
      · exact ⟨le_length _ _, le_some _ _⟩
      · exact hx
    · exact hx, fun _ _ _ h => by cases h⟩, by simp⟩

/-- The two texts of the test. -/
def helloTexts (u : List Char) : Prop := u = "Hello".toList ∨ u = "Hello, World!".toList

/-- Values for `litsUser`, whose strings are represented by the length of their literals. -/
def opsUser : Ops where
  clone _ x := x
  update f t x p := match f, t, p with
    | "mul_assign", .named "usize", .num none k => if unle x * k ≤ 2 ^ 64 - 1 then some (Replay.le 8 (unle x * k)) else none
    | "push_str", .named "String", .text t => some (Replay.le 24 (unle x + (t.length - 2)))
    | _, _, _ => none

theorem opsUser_ok : OpsOK rcUser opsUser := by
  intro t x hx
  refine ⟨hx, fun f p y h => ?_⟩
  simp only [opsUser] at h
  split at h
  · split at h <;> cases h; exact ⟨le_length _ _, le_some _ _⟩
  · cases h; exact ⟨le_length _ _, le_some _ _⟩
  · cases h

theorem opsUser_multiplies : Multiplies litsUser opsUser := by
  intro n x h
  refine ⟨rfl, fun k y hy => ?_⟩
  simp only [litsUser] at h hy
  split at h <;> cases h
  split at hy <;> cases hy
  rename_i h1 h2
  have h1 := h1.2
  have h2 := h2.2
  simp only [opsUser]
  rw [unle_le 8 n (by omega), if_pos h2]

theorem literalText_length (t : String) : (literalText t).length = t.length - 2 := by
  simp only [literalText, List.length_dropLast, List.length_tail, String.length_toList]
  omega

theorem opsUser_strings : Strings litsUser opsUser helloTexts := by
  have hlen : ∀ u, helloTexts u → u.length = 5 ∨ u.length = 13 := by
    rintro u (rfl | rfl)
    · exact .inl rfl
    · exact .inr rfl
  refine ⟨fun x u => helloTexts u ∧ x = Replay.le 24 (u.length + 2), fun t => ⟨rfl, fun ht => ⟨_, rfl, ht, ?_⟩⟩, ?_⟩
  · have := hlen _ ht
    rw [literalText_length] at this ⊢
    rw [show t.length - 2 + 2 = t.length from by omega]
  · rintro x u ⟨hu, rfl⟩
    refine ⟨⟨hu, rfl⟩, fun t ht => ⟨_, rfl, ht, ?_⟩, ?_⟩
    · have h1 := hlen _ hu
      rw [unle_le 24 _ (by omega), List.length_append, literalText_length]
      congr 1
      omega
    · rintro y w ⟨hw, rfl⟩
      have h1 := hlen _ hu
      have h2 := hlen _ hw
      have := (le_integers (k := 24) (m := 20) (n := u.length + 2) (i := w.length + 2) (by omega) (by omega) (by decide)).1
      refine this.trans ?_
      rcases hu with rfl | rfl <;> rcases hw with rfl | rfl <;> decide

/-- The invocation of the test `clone` is accepted. -/
theorem clone_declared (b : Bool) : Declared (env60 b) rcUser "Container" "Enum" false cloneToks cloneDecl where
  target := env60_ok b
  rustc := rcUser_ok
  keywords := fun x hx => List.contains_iff_mem.2 hx
  tokens := .cons (.tuple (.one ⟨by simp, 0, rfl, rfl⟩)) (.cons (.tuple (.one ⟨by simp, 0, rfl, rfl⟩)) .nil)
  accepted := by
    have hx : Compiled rcUser (env60 b).cfg "Container" "Enum" false cloneToks cloneDecl (programOf "Container" "Enum" false cloneDecl) :=
      ⟨.cons (.tuple (.one ⟨by simp, 0, rfl, rfl⟩)) (.cons (.tuple (.one ⟨by simp, 0, rfl, rfl⟩)) .nil), by rfl⟩
    exact hx.wf.1
  sizes := by
    intro d hd sh hs
    simp only [cloneDecl, List.mem_cons, List.not_mem_nil, or_false] at hd
    rcases hd with rfl | rfl <;> cases hs <;> decide

set_option maxRecDepth 8000 in
/-- All hypotheses of `C93_clone` and `C93_assert` can be met. -/
example (b : Bool) : ∃ G, Declared (env60 b) rcUser "Container" "Enum" false cloneToks cloneDecl ∧
    AreProgram (env60 b) rcUser cloneMetas [] "Container" [] "Enum" false cloneToks (usersUser cloneDecl) G ∧ (env60 b).InRange ∧ LitsOK rcUser litsUser ∧ OpsOK rcUser opsUser ∧
    Usual litsUser ∧ Multiplies litsUser opsUser ∧ Strings litsUser opsUser helloTexts ∧ helloTexts "Hello".toList ∧ helloTexts "Hello, World!".toList ∧ HeapInv (env60 b) state0 ∧
    numLit "12usize" = some (12, some "usize") ∧ numLit "3" = some (3, none) ∧ numLit "36" = some (36, none) := by
  have h := clone_declared b
  obtain ⟨G, hG, _⟩ := C85_program h clone_metas (.inl rfl) (.inl rfl) (usersUser cloneDecl) (fun _ => rfl)
  exact ⟨G, h, hG, env60_inRange b, litsUser_ok, opsUser_ok, litsUser_usual, opsUser_multiplies, opsUser_strings, .inl rfl, .inr rfl, state0_inv _, rfl, rfl, rfl⟩

end TB.Props

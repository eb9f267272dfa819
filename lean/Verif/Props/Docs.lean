import Verif.Docs
import Verif.Props.Pointer
import Verif.Props.Box
import Verif.Props.Macro
import Verif.Props.Decl
import Verif.Lemmas.Container

/-!
# C76: the examples of the documentation
-/

set_option autoImplicit false

namespace TB.Props

open TB.Macro

/-- The program finishes, or the allocator failed. In particular, no assertion failed. -/
def Works (x : M Unit) (s : State) : Prop :=
  (∃ s', x s = .ret () s') ∨ ∃ s', x s = .panic .nullAlloc s' ∧ NullBetween s s'

/-- The examples of `TaggedBox`, for any payload of any (not zero-sized) type. -/
def BoxDocs (cfg : Config) : Prop :=
  ∀ (env : Env) (s : State) (sh : Shape) (v v' : Val), env.cfg = cfg → env.OK → env.InRange → HeapInv env s → sh.WF → 0 < sh.size →
    sh.Has v → sh.Has v' → ∀ x ∈ Docs.box env sh v v', Works x s

/-- A declaration that compiles in some setting, compiles, and the code that uses it works. -/
def UsesDecl (cfg : Config) (decl : List VariantDef) (works : Env → Rustc → Program → State → Prop) : Prop :=
  ∀ (rc : Rustc) (ts : List Tok), rc.OK → DeclSyntax rc ts decl →
    (∃ cfg' ∈ table, ∃ P, compile rc cfg' "Container" "Item" false ts = .ok P) →
    ∃ P, compile rc cfg "Container" "Item" false ts = .ok P ∧
      ∀ (env : Env) (s : State), env.cfg = cfg → env.OK → env.InRange → HeapInv env s → works env rc P s

/-- The quickstart. -/
def QuickstartDocs (cfg : Config) : Prop :=
  UsesDecl cfg Docs.quickstartDecl fun env rc P s => ∀ str int flt, (rc.leaf (.named "String")).Has str → (rc.leaf (.named "i32")).Has int →
    (rc.leaf (.named "f32")).Has flt → Works (Docs.quickstart env rc P str int flt) s

/-- The example of `tagged_box!`. -/
def MacroDocs (cfg : Config) : Prop :=
  UsesDecl cfg Docs.macroDecl fun env rc P s => ∀ str, (rc.leaf (.named "String")).Has str → Works (Docs.macroExample env rc P str) s

/-- The full claim: every example works. -/
def C76_Statement (cfg : Config) : Prop := BoxDocs cfg ∧ QuickstartDocs cfg ∧ MacroDocs cfg

theorem assertM_true (s : State) : assertM true s = .ret () s := rfl

theorem Works.of_panic {x : M Unit} {s s' : State} (h : x s = .panic .nullAlloc s') (hn : NullBetween s s') : Works x s := Or.inr ⟨s', h, hn⟩

section Box

variable {env : Env} {s : State} {sh : Shape} {v v' : Val}

/-- An example that makes a box and continues. -/
theorem works_new (ok : env.OK) (hr : env.InRange) (hi : HeapInv env s) (hw : sh.WF) (hv : sh.Has v)
    {d : env.cfg.Discr} (hd : d ≤ env.cfg.MAX_DISCRIMINANT) {k : TBox → M Unit}
    (hk : ∀ b s', HeapInv env s' → Holds env s' b sh v d → ∃ s'', k b s' = .ret () s'') :
    Works (TBox.new env sh v d >>= k) s := by
  rcases new_spec ok hi hw hv d with ⟨b', s1, e, i1, _, hh, _⟩ | ⟨hp, ha, e⟩ | ⟨hp, hdbg, ha, kk, e, hkk⟩
  · left
    obtain ⟨s'', h⟩ := hk b' s1 i1 (hh (Env.DiscrOK.fits ok hd) (Or.inr hr))
    refine ⟨s'', ?_⟩
    simp only [M.bind_def, e]
    exact h
  · exact .of_panic (by simp only [M.bind_def, e]; rfl) ⟨sh.size, sh.align, by simp [State.log]⟩
  · rcases hkk with ⟨_, h⟩ | ⟨_, _, h⟩
    · exact absurd hd h
    · exact absurd (hr _ _ _) h

theorem fromRaw_again (ok : env.OK) {b : TBox} {d : env.cfg.Discr} (hd : d ≤ env.cfg.MAX_DISCRIMINANT) (H : Holds env s b sh v d) :
    ∃ b', TBox.fromRaw env (b.intoRaw env) (b.discriminant env) s = .ret b' s ∧ b'.intoInner env sh s = .ret v s := by
  have h1 : b.intoRaw env < 2 ^ env.ptrBits := BitVec.isLt _
  have h2 : b.intoRaw env < 2 ^ env.cfg.POINTER_WIDTH := by
    have := ok.sane.strip_toNat b.boxed.raw
    have h3 : b.intoRaw env ≤ (TPtr.stripDiscriminant env.cfg b.boxed.raw).toNat := by
      simp only [TBox.intoRaw, TPtr.asMutPtr, BitVec.toNat_setWidth]
      exact Nat.mod_le _ _
    rw [this] at h3
    exact Nat.lt_of_le_of_lt h3 (Nat.mod_lt _ (Nat.two_pow_pos _))
  obtain ⟨b', e, e1, _⟩ := (C18_raw_roundtrip ok).2 (b.intoRaw env) (b.discriminant env) s h1 h2 (H.discr ▸ hd)
  refine ⟨b', e, ?_⟩
  show ptrRead sh (b'.intoRaw env) s = _
  rw [e1]
  exact H.read

/-- The box examples work wherever 11 is a discriminant. -/
theorem boxDocs_of {cfg : Config} (hc : ∀ n ≤ 11, BitVec.ofNat cfg.discrBits n ≤ cfg.MAX_DISCRIMINANT) : BoxDocs cfg := by
  rintro env s sh v v' rfl ok hr hi hw hz hv hv' x hx
  simp only [Docs.box, List.mem_cons, List.not_mem_nil, or_false] at hx
  rcases hx with rfl | rfl | rfl | rfl | rfl | rfl | rfl | rfl | rfl
  · refine works_new ok hr hi hw hv (hc 0 (by omega)) fun b s' i' H => ?_
    simp only [M.bind_def, show b.intoInner env sh s' = .ret v s' from H.read, beq_self_eq_true, assertM_true]
    exact ⟨_, rfl⟩
  · refine works_new ok hr hi hw hv (hc 0 (by omega)) fun b s' i' H => ?_
    simp only [M.bind_def, H.read, beq_self_eq_true, assertM_true]
    exact ⟨_, rfl⟩
  · refine works_new ok hr hi hw hv (hc 0 (by omega)) fun b s' i' H => ?_
    obtain ⟨b', s'', e1, _, _, e2, _⟩ := (C16_mutation i' hw H hv').1
    simp only [M.bind_def, H.read, beq_self_eq_true, assertM_true, e1, e2]
    exact ⟨_, rfl⟩
  · refine works_new ok hr hi hw hv (hc 8 (by omega)) fun b s' i' H => ?_
    simp only [M.bind_def, show ptrRead sh (b.intoRaw env) s' = .ret v s' from H.read, beq_self_eq_true, assertM_true]
    exact ⟨_, rfl⟩
  · exact works_new ok hr hi hw hv (hc 8 (by omega)) fun b s' i' H => ⟨_, boxDrop_ret H⟩
  · refine works_new ok hr hi hw hv (hc 10 (by omega)) fun b s' i' H => ?_
    obtain ⟨b', e1, e2⟩ := fromRaw_again ok (hc 10 (by omega)) H
    simp only [M.bind_def, show ptrRead sh (b.intoRaw env) s' = .ret v s' from H.read, beq_self_eq_true, assertM_true, e1, e2]
    exact ⟨_, rfl⟩
  · refine works_new ok hr hi hw hv (hc 11 (by omega)) fun b s' i' H => ?_
    rw [H.discr, beq_self_eq_true]
    exact ⟨_, rfl⟩
  · refine works_new ok hr hi hw hv (hc 0 (by omega)) fun b s' i' H => ?_
    simp only [M.bind_def, show ptrRead sh (b.asPtr env) s' = .ret v s' from H.read, beq_self_eq_true, assertM_true]
    exact ⟨_, rfl⟩
  · refine works_new ok hr hi hw hv (hc 0 (by omega)) fun b s' i' H => ?_
    obtain ⟨b', s'', e1, _, _, _, e2, _⟩ := (C16_mutation i' hw H hv').2
    simp only [M.bind_def, beq_self_eq_true, assertM_true, e1, e2]
    exact ⟨_, rfl⟩

/-- The documentation of `discriminant` is wrong wherever there are fewer than 12 discriminants: debug builds panic in `new`, in release builds the assertion
fails. -/
theorem C76_discriminant (ok : env.OK) (hp : 61 ≤ env.cfg.ptrWidth) (hz : 0 < sh.size) (ha : env.alloc s sh.size sh.align ≠ 0) :
    ∃ s', Docs.discriminant env sh v s = .panic (if env.debug then .discriminant else .user 0) s' := by
  have key : ∀ c ∈ table, 61 ≤ c.ptrWidth → ¬ BitVec.ofNat c.discrBits 11 ≤ c.MAX_DISCRIMINANT ∧ c.freeBits ≤ 3 ∧ c.discrBits = 8 := by decide
  obtain ⟨k1, k2, k3⟩ := key _ ok.cfg_mem hp
  have hn := new_alloc ok (v := v) (d := BitVec.ofNat _ 11) (s := s) (sh := sh) (by omega) ha
  simp only [Docs.discriminant, M.bind_def, hn]
  cases hdbg : env.debug with
  | true =>
    have e : TPtr.new env.cfg true (BitVec.ofNat 64 (env.alloc s sh.size sh.align)) (BitVec.ofNat _ 11) = .error .discriminant := by
      simp [TPtr.new, k1]
    rw [e]
    exact ⟨_, rfl⟩
  | false =>
    obtain ⟨t, e, _⟩ := C03_release_new env.cfg ok.cfg_mem (BitVec.ofNat 64 (env.alloc s sh.size sh.align)) (BitVec.ofNat _ 11)
    rw [e]
    have hne : (TBox.discriminant env ⟨t⟩ == BitVec.ofNat env.cfg.discrBits 11) = false := by
      rw [beq_eq_false_iff_ne]
      intro h
      have h1 := congrArg BitVec.toNat h
      have h2 : (TBox.discriminant env ⟨t⟩).toNat < 2 ^ env.cfg.freeBits := ok.sane.fetch_lt _
      have h3 : 2 ^ env.cfg.freeBits ≤ 2 ^ 3 := Nat.pow_le_pow_right (by decide) k2
      rw [h1, BitVec.toNat_ofNat, k3] at h2
      omega
    simp only [hne]
    exact ⟨_, rfl⟩

end Box

theorem demo_ok {cfg : Config} (hm : cfg ∈ table) (debug : Bool) : (demoEnv cfg debug reprC).OK :=
  demoEnv_ok hm debug (fun _ h => ⟨reprC_wf h, reprC_fields _⟩)

/-- The box examples work exactly where 11 is a discriminant. -/
theorem C76_box {cfg : Config} (hm : cfg ∈ table) : BoxDocs cfg ↔ cfg.ptrWidth ≤ 60 := by
  constructor
  · intro h
    by_cases hw : 61 ≤ cfg.ptrWidth
    · exfalso
      have := h (demoEnv cfg true reprC) state0 u8L.shape [[some 0#8]] [[some 0#8]] rfl (demo_ok hm _) (demoEnv_inRange hm _ _) (state0_inv _)
        u8L_wf.shape (by decide) ⟨⟨rfl, rfl⟩, trivial⟩ ⟨⟨rfl, rfl⟩, trivial⟩
        (Docs.discriminant (demoEnv cfg true reprC) u8L.shape [[some 0#8]]) (by simp [Docs.box])
      obtain ⟨s', e⟩ := C76_discriminant (env := demoEnv cfg true reprC) (s := state0) (sh := u8L.shape) (v := [[some 0#8]])
        (demo_ok hm true) hw (by decide) (show bumpAlloc 4096 (2 ^ 47) state0 1 1 ≠ 0 by decide)
      rcases this with ⟨_, e'⟩ | ⟨_, e', _⟩ <;> rw [e] at e' <;> cases e'
    · omega
  · intro hw
    have : ∀ c ∈ table, c.ptrWidth ≤ 60 → ∀ n ≤ 11, BitVec.ofNat c.discrBits n ≤ c.MAX_DISCRIMINANT := by decide
    exact boxDocs_of (this cfg hm hw)

/-! ### Containers -/

section Container

variable {env : Env} {rc : Rustc} {sn en : String} {hd : Bool} {ts : List Tok} {decl : List VariantDef} {P : Program}

/-- `assert_eq!(Container::from(x).into_inner(), Item::V(x))` for the `i`-th variant. -/
theorem roundTrip_works (h : env.OK) (hrc : rc.OK) (hc : Compiled rc env.cfg sn en hd ts decl P) (hr : env.InRange)
    {i : Nat} {d : VariantDef} (hdi : decl[i]? = some d) (hlt : i < 2 ^ env.cfg.freeBits) {ty : Ty} (hty : d.fields.fromTy = some ty)
    {vs : List Bytes} (hvs : HasTypes rc d.fields.types vs) {s : State} (hi : HeapInv env s) :
    (∃ s', Docs.roundTrip env rc P ty vs ⟨d.name, .tuple vs⟩ s = .ret () s' ∧ HeapInv env s' ∧ Extends s s') ∨
    ∃ s', Docs.roundTrip env rc P ty vs ⟨d.name, .tuple vs⟩ s = .panic .nullAlloc s' ∧ NullBetween s s' ∧ s.trace <+: s'.trace := by
  obtain ⟨f, hf, hsrc, hu, hrun⟩ := (C41_from_payload (env := env) hc).1 d (List.mem_of_getElem? hdi) ty hty
  have hfind : P.froms.find? (fun g => rc.typeId g.srcTy == rc.typeId ty) = some f := by
    cases hff : P.froms.find? (fun g => rc.typeId g.srcTy == rc.typeId ty) with
    | none =>
      have := List.find?_eq_none.1 hff f hf
      rw [hsrc] at this
      simp at this
    | some g =>
      have h1 := List.find?_some hff
      rw [hu g (List.mem_of_find?_eq_some hff) (by simpa using h1)]
  have hfrom : Docs.containerFromTy env rc P ty vs = containerFrom env rc P ⟨d.name, .tuple vs⟩ := by
    unfold Docs.containerFromTy
    rw [hfind]
    exact hrun vs hvs
  have hv : IsValue rc decl i ⟨d.name, .tuple vs⟩ := by
    refine ⟨d, hdi, rfl, ?_⟩
    match hfl : d.fields, hty with
    | .tuple tys, _ => rw [hfl] at hvs; exact hvs
  have hnull : ∀ s', containerFrom env rc P ⟨d.name, .tuple vs⟩ s = .panic .nullAlloc s' →
      NullBetween s s' ∧ s.trace <+: s'.trace := by
    intro s' e
    obtain ⟨hw, rfl⟩ := hc.wf
    obtain ⟨d', hdi', hvn, hf⟩ := id hv
    have heq := intoTaggedBox_eq (env := env) (sn := sn) (en := en) (hd := hd) hw.names hw.members hw.arity hdi' hvn hf
    rw [show containerFrom env rc (programOf sn en hd decl) ⟨d.name, .tuple vs⟩ s = _ from congrFun heq s] at e
    rcases storeOf_spec h hrc hi hf (numOf env i) with ⟨b, s1, e1, _⟩ | ⟨sh, h1, h2, h3, e1⟩ | ⟨sh, h1, h2, h3, h4, k, e1, h5⟩
    · rw [cleanup_ret e1] at e; cases e
    · rw [cleanup_panic e1] at e
      cases e
      exact ⟨⟨sh.size, sh.align, by simp [State.log]⟩, by simp [State.log]⟩
    · rw [cleanup_panic e1] at e
      cases e
      rcases h5 with ⟨h5, _⟩ | ⟨h5, _⟩ <;> cases h5
  simp only [Docs.roundTrip, M.bind_def, hfrom]
  rcases C29_container_roundtrip h hrc hc hv hlt (Or.inr hr) hi with ⟨b, s1, e1, i1, x1, e2⟩ | ⟨s1, e1, _⟩ | ⟨s1, e1, _, _, _, size, align, hbad⟩
  · left
    rw [e1]
    simp only [e2 s1 (Extends.refl _), beq_self_eq_true, assertM_true]
    exact ⟨_, rfl, i1, x1⟩
  · right
    rw [e1]
    exact ⟨_, rfl, hnull _ e1⟩
  · have := hr s size align
    omega

end Container

/-- A string: three words, all initialised; it has a destructor. -/
def stringL : Leaf := ⟨7, 24, 8, fun bs => bs.all (·.isSome), true⟩

/-- A compiler that also knows `String`. -/
def rcDoc : Rustc := { rcDemo with
  leaf := fun t => match t with
    | .named "String" => stringL
    | .named "f32" => u32L
    | t => rcDemo.leaf t
  isCopy := fun t => match t with
    | .named "String" => false
    | t => rcDemo.isCopy t }

theorem rcDoc_ok : rcDoc.OK where
  leaf_wf t := by
    simp only [rcDoc]
    split
    · exact ⟨⟨3, by omega, rfl⟩, ⟨3, rfl⟩⟩
    · exact u32L_wf
    · exact rcDemo_ok.leaf_wf _
  copy_no_drop t h := by
    simp only [rcDoc] at h ⊢
    split
    · cases h
    · rfl
    · rename_i h1 h2
      refine rcDemo_ok.copy_no_drop t ?_
      split at h
      · cases h
      · exact h

def quickstartToks : List Tok :=
  [.ident "String", .group .paren [.ident "String"], .comma,
   .ident "Numbers", .group .paren [.ident "i32", .comma, .ident "f32"], .comma,
   .ident "Nothing", .comma,
   .ident "Struct", .group .brace [.ident "float", .colon, .ident "f32", .comma, .ident "boolean", .colon, .ident "bool", .comma], .comma]

theorem quickstart_syntax : DeclSyntax rcDoc quickstartToks Docs.quickstartDecl :=
  .cons (.tuple (.one ⟨by simp, 0, rfl, rfl⟩)) (.cons (.tuple (.cons ⟨by simp, 0, rfl, rfl⟩ (.one ⟨by simp, 0, rfl, rfl⟩)))
    (.cons .unit (.cons (.record (.cons ⟨_, rfl, by simp, 0, rfl, rfl⟩ (.oneTrailing ⟨_, rfl, by simp, 0, rfl, rfl⟩))) .nil)))

def macroToks : List Tok :=
  [.ident "Integer", .group .paren [.ident "i32"], .comma, .ident "Boolean", .group .paren [.ident "bool"], .comma,
   .ident "String", .group .paren [.ident "String"], .comma]

theorem macro_syntax : DeclSyntax rcDoc macroToks Docs.macroDecl :=
  .cons (.tuple (.one ⟨by simp, 0, rfl, rfl⟩)) (.cons (.tuple (.one ⟨by simp, 0, rfl, rfl⟩)) (.cons (.tuple (.one ⟨by simp, 0, rfl, rfl⟩)) .nil))

/-- The quickstart works wherever declarations compile. -/
theorem C76_quickstart {cfg : Config} (hm : cfg ∈ table) : QuickstartDocs cfg ↔ 56 ≤ cfg.ptrWidth := by
  constructor
  · intro h
    by_cases hw : cfg.ptrWidth ≤ 55
    · obtain ⟨P, hP, _⟩ := h rcDoc quickstartToks rcDoc_ok quickstart_syntax ⟨cfg60, cfg60_mem, _, rfl⟩
      obtain ⟨e, he⟩ := C44_refuted (rc := rcDoc) (sn := "Container") (en := "Item") (hd := false) (ts := quickstartToks) hm hw
      rw [he] at hP
      cases hP
    · omega
  · intro hw rc ts hrc hD ⟨cfg', _, P', hP'⟩
    obtain ⟨decl', hD', hwf, _⟩ := compile_ok.1 hP'
    cases DeclSyntax.unique hD hD'
    obtain ⟨P, hP⟩ := C44_partial hm hw hD hwf
    refine ⟨P, hP, ?_⟩
    rintro env s rfl ok hr hi str int flt h1 h2 h3
    have hc : Compiled rc env.cfg "Container" "Item" false ts Docs.quickstartDecl P := ⟨hD, hP⟩
    have hf : 2 ^ 1 ≤ 2 ^ env.cfg.freeBits := Nat.pow_le_pow_right (by decide) ok.sane.free_pos
    have r1 := roundTrip_works ok hrc hc hr (i := 0) (d := ⟨"String", .tuple [.named "String"]⟩) rfl (by omega) rfl (vs := [str]) ⟨h1, trivial⟩ hi
    rcases r1 with ⟨s1, e1, i1, x1⟩ | ⟨s1, e1, n1, _⟩
    · have r2 := roundTrip_works ok hrc hc hr (i := 1) (d := ⟨"Numbers", .tuple [.named "i32", .named "f32"]⟩) rfl (by omega) rfl
        (vs := [int, flt]) ⟨h2, h3, trivial⟩ i1
      rcases r2 with ⟨s2, e2, i2, x2⟩ | ⟨s2, e2, n2, p2⟩
      · left
        simp only [Docs.quickstart, M.bind_def, e1]
        exact ⟨s2, e2⟩
      · refine .of_panic (s' := s2) ?_ ?_
        · simp only [Docs.quickstart, M.bind_def, e1]
          exact e2
        · exact NullBetween.trans x1.trace p2 (Or.inr n2)
    · refine .of_panic (s' := s1) ?_ n1
      simp only [Docs.quickstart, M.bind_def, e1]

/-- With 63 bits, `Container::from(String)` panics in a debug build; in a release build the string comes back as an integer. -/
theorem C76_macro_63 (debug : Bool) {cfg : Config} (hm : cfg ∈ table) (hw : cfg.ptrWidth = 63) : ∃ P s',
    compile rcDoc cfg "Container" "Item" false macroToks = .ok P ∧
    Docs.macroExample (demoEnv cfg debug reprC) rcDoc P (List.replicate 24 (some 1#8)) state0 =
      .panic (if debug then .discriminant else .user 0) s' := by
  have : ∀ c ∈ table, c.ptrWidth = 63 → c = ⟨"tagged_box_reserve_63bits", 8, 1, 63, 1⟩ := by decide
  cases this cfg hm hw
  refine ⟨programOf "Container" "Item" false Docs.macroDecl, ?_⟩
  cases debug <;> exact ⟨_, rfl, rfl⟩

/-- The example of `tagged_box!` works where declarations compile and 2 is a discriminant. -/
theorem C76_macro {cfg : Config} (hm : cfg ∈ table) : MacroDocs cfg ↔ 56 ≤ cfg.ptrWidth ∧ cfg.ptrWidth ≤ 62 := by
  constructor
  · intro h
    obtain ⟨P, hP, hrun⟩ := h rcDoc macroToks rcDoc_ok macro_syntax ⟨cfg60, cfg60_mem, _, rfl⟩
    refine ⟨Nat.not_lt.1 fun hw => ?_, Nat.not_lt.1 fun hw => ?_⟩
    · obtain ⟨e, he⟩ := C44_refuted (rc := rcDoc) (sn := "Container") (en := "Item") (hd := false) (ts := macroToks) hm (by omega)
      rw [he] at hP
      cases hP
    · have h63 : cfg.ptrWidth = 63 := by
        have : ∀ c ∈ table, c.ptrWidth ≤ 63 := by decide
        have := this cfg hm
        omega
      obtain ⟨P', s', hP', e⟩ := C76_macro_63 true hm h63
      rw [hP] at hP'
      cases hP'
      rcases hrun (demoEnv cfg true reprC) state0 rfl (demo_ok hm true) (demoEnv_inRange hm _ _) (state0_inv _)
        (List.replicate 24 (some 1#8)) ⟨rfl, rfl⟩ with ⟨_, e'⟩ | ⟨_, e', _⟩ <;> rw [e] at e' <;> cases e'
  · rintro ⟨hw, hw'⟩ rc ts hrc hD ⟨cfg', _, P', hP'⟩
    obtain ⟨decl', hD', hwf, _⟩ := compile_ok.1 hP'
    cases DeclSyntax.unique hD hD'
    obtain ⟨P, hP⟩ := C44_partial hm hw hD hwf
    refine ⟨P, hP, ?_⟩
    rintro env s rfl ok hr hi str h1
    have hc : Compiled rc env.cfg "Container" "Item" false ts Docs.macroDecl P := ⟨hD, hP⟩
    have hf : 2 ^ 2 ≤ 2 ^ env.cfg.freeBits := Nat.pow_le_pow_right (by decide) (by have := ok.sane.sum; omega)
    rcases roundTrip_works ok hrc hc hr (i := 2) (d := ⟨"String", .tuple [.named "String"]⟩) rfl (by omega) rfl (vs := [str]) ⟨h1, trivial⟩ hi
      with ⟨s1, e1, _⟩ | ⟨s1, e1, n1, _⟩
    · exact Or.inl ⟨s1, e1⟩
    · exact .of_panic e1 n1

/-- **C76**, the part that holds: the settings 56..60, among them the default. -/
theorem C76_partial {cfg : Config} (hm : cfg ∈ table) (h1 : 56 ≤ cfg.ptrWidth) (h2 : cfg.ptrWidth ≤ 60) : C76_Statement cfg :=
  ⟨(C76_box hm).2 h2, (C76_quickstart hm).2 h1, (C76_macro hm).2 ⟨h1, by omega⟩⟩

/-- **C76 does not hold** in any other setting. -/
theorem C76_refuted {cfg : Config} (hm : cfg ∈ table) (hw : cfg.ptrWidth < 56 ∨ 60 < cfg.ptrWidth) : ¬ C76_Statement cfg := by
  rintro ⟨h1, h2, _⟩
  have := (C76_box hm).1 h1
  have := (C76_quickstart hm).1 h2
  omega

/-- Non-vacuity: at the default width the examples run to their end. -/
example (debug : Bool) : (∀ x ∈ Docs.box (env60 debug) u32L.shape [[some 1#8, some 2#8, some 3#8, some 4#8]] [[some 0#8, some 0#8, some 0#8, some 9#8]],
      ∃ s', x state0 = .ret () s') ∧
    (∃ P s', compile rcDoc cfg60 "Container" "Item" false macroToks = .ok P ∧
      Docs.macroExample (env60 debug) rcDoc P (List.replicate 24 (some 1#8)) state0 = .ret () s') ∧
    ∃ P s', compile rcDoc cfg60 "Container" "Item" false quickstartToks = .ok P ∧
      Docs.quickstart (env60 debug) rcDoc P (List.replicate 24 (some 1#8)) (List.replicate 4 (some 2#8)) (List.replicate 4 (some 3#8)) state0 =
        .ret () s' := by
  refine ⟨fun x hx => ?_, ⟨programOf "Container" "Item" false Docs.macroDecl, ?_⟩, ⟨programOf "Container" "Item" false Docs.quickstartDecl, ?_⟩⟩
  · simp only [Docs.box, List.mem_cons, List.not_mem_nil, or_false] at hx
    rcases hx with rfl | rfl | rfl | rfl | rfl | rfl | rfl | rfl | rfl <;> cases debug <;> exact ⟨_, rfl⟩
  all_goals cases debug <;> exact ⟨_, rfl, rfl⟩

end TB.Props

import Verif.Spec.ContainerRun
import Verif.Props.GenRun
import Verif.Props.SourceHistory
import Verif.Props.Container

/-!
# Client histories of containers, run from the text (C85)
-/

set_option autoImplicit false

namespace TB.Props

open TB TB.Macro TB.Mbe TB.Rust TB.Rust.Gen TB.Spec TB.Source

variable {env : Env} {rc : Rustc} {sn en : String} {hd : Bool} {ts : List Tok} {decl : List VariantDef}
  {metas : List (List TT)} {svis evis : List TT}

/-- `G` is the program of the invocation, for every closure. -/
def AreProgram (env : Env) (rc : Rustc) (metas : List (List TT)) (svis : List TT) (sn : String) (evis : List TT) (en : String) (hd : Bool) (ts : List Tok)
    (users : ∀ β : Type, User (Host β)) (G : Programs) : Prop :=
  ∀ (β : Type) (cb : EVal → M β), IsProgram env rc (users β) metas svis sn evis en hd ts cb (G β cb)

/-- What the model says, seen by a caller. -/
theorem outcome_of {E α : Type} (enc : α → V E) (dec : V E → Option α) (hdec : ∀ a, dec (enc a) = some a) (msg : PanicKind → Msg E) (o : Out α)
    (hmsg : ∀ k s, o = .panic k s → kindOf (msg k) = some k) (l : Locals E) : outcome dec (XOut.of enc msg l o) = o := by
  cases o with
  | ret a s => simp only [XOut.of, outcome, hdec]
  | panic k s => simp only [XOut.of, outcome, hmsg k s rfl]
  | ub k => rfl

set_option maxRecDepth 8000 in
theorem kindOf_noVariantToLend {β : Type} (c : Config) (en : String) (n d : Nat) : kindOf (noVariantToLend (β := β) c en n d) = some .noVariant := by
  simp only [noVariantToLend, kindOf]
  iterate 5 rw [if_neg (by decide)]
  rfl

section

variable {users : ∀ β : Type, User (Host β)} {G : Programs} (h : Declared env rc sn en hd ts decl) (hm : ∀ m ∈ metas, IsMeta m) (hs : IsVis svis) (he : IsVis evis)
  (hG : AreProgram env rc metas svis sn evis en hd ts users G)
include h hm hs he hG

/-- `ref_from_tagged_box` of the text is that of the model. -/
theorem linked_ref {β : Type} (b : TBox) (f : EVal → M β) : (linked G en).refFrom b f = (taggable env rc (programOf sn en hd decl)).refFrom b f := by
  funext s
  show outcome some ((G _ f).lend (boxV b) s) = _
  rw [(C82_model h hm hs he (hG β f)).2.2.2.2 b s]
  cases ho : (taggable env rc (programOf sn en hd decl)).refFrom b f s with
  | ret r s' => rfl
  | ub k => rfl
  | panic k s' =>
    simp only
    split
    · rfl
    · rename_i hn
      have := (C35_unknown_discriminant h.compiled b (Nat.le_of_not_lt hn) s).2.2 β f
      rw [ho] at this
      cases this
      simp only [outcome, kindOf_noVariantToLend]

/-- `into_tagged_box` of the text is that of the model. -/
theorem linked_into {e : EVal} (hv : IsEnumValue rc decl e) : (linked G en).intoTaggedBox e = (taggable env rc (programOf sn en hd decl)).intoTaggedBox e := by
  obtain ⟨i, hv⟩ := hv
  funext s
  show outcome toBox ((someProgram G).call "TaggableInner" en none "into_tagged_box" (some (enumV e)) [] s) = _
  rw [(C82_model h hm hs he (show IsProgram _ _ _ _ _ _ _ _ _ _ _ (someProgram G) from hG Unit _)).2.1 i e s hv]
  exact outcome_of boxV toBox (fun _ => rfl) _ _ (fun k _ _ => kindOf_panicMsg _ k) _

theorem linked_natural : Natural (linked G en) := by
  intro β γ g b f s
  have h1 := C81_natural env rc (programOf sn en hd decl) β γ g b f s
  rw [linked_ref h hm hs he hG, linked_ref h hm hs he hG]
  exact h1

end

/-- Decoding what the formatting traits return. -/
theorem outcome_text (out : String) (o : Out (List Char × Bool)) :
    outcome (toText out) (match o with
      | .ret r s' => (.ret (resV r.2, r.1) [] s' : XOut EVal (V EVal × List Char))
      | .panic k s' => .panic (.kind k) [] s'
      | .ub k => .ub k) = match o with
      | .ret r s' => .ret (out ++ String.ofList r.1, r.2) s'
      | .panic k s' => .panic k s'
      | .ub k => .ub k := by
  cases o with
  | ret r s => rcases r with ⟨t, _ | _⟩ <;> rfl
  | panic k s => rfl
  | ub k => rfl

theorem fmt_text {f : UserFn M (EVal × FmtSpec × String) (String × Bool)} (hf : Appends f) (T : Taggable EVal) (hN : Natural T) (b : TBox) (out : String) (s : State) :
    (match TBox.debugFmt T (appendFmt (writes f)) b {} [] s with
      | .ret r s' => .ret (out ++ String.ofList r.1, r.2) s'
      | .panic k s' => .panic k s'
      | .ub k => .ub k) = TBox.debugFmt T (fun e spec o => f.run (e, spec, o)) b {} out s := by
  have h1 : (fun e => f.run (e, ({} : FmtSpec), out)) = fun e => (do
      let r ← f.run (e, {}, "")
      pure (out ++ r.1, r.2)) := funext fun e => hf e {} out
  have h2 : (fun e => appendFmt (writes f) e {} []) = fun e => (do
      let r ← f.run (e, {}, "")
      pure (r.1.toList, r.2)) := by
    funext e s
    simp only [appendFmt, writes, m_bind]
    cases f.run (e, {}, "") s <;> rfl
  have n1 := hN _ _ (fun r : String × Bool => (out ++ r.1, r.2)) b (fun e => f.run (e, {}, "")) s
  have n2 := hN _ _ (fun r : String × Bool => (r.1.toList, r.2)) b (fun e => f.run (e, {}, "")) s
  simp only [TBox.debugFmt, m_bind]
  rw [h2, n2, h1, n1]
  simp only [m_bind]
  cases T.refFrom b (fun e => f.run (e, {}, "")) s with
  | ret r s' => cases r <;> simp [m_pure]
  | panic k s' => rfl
  | ub k => rfl

section

variable {users : ∀ β : Type, User (Host β)} {G : Programs} (h : Declared env rc sn en hd ts decl) (hm : ∀ m ∈ metas, IsMeta m) (hs : IsVis svis) (he : IsVis evis)
  (hG : AreProgram env rc metas svis sn evis en hd ts users G)
include h hm hs he hG

/-- The step of the text is the step of the model, as long as the containers store values. -/
theorem genStep_eq {β : Type} (user : User EVal) {c : CState} {vs : List (Option EVal)} (S : CSim env rc decl c vs) {op : COp M β} (hop : op.OK env rc decl)
    (ha : ∀ k f out, (op = .debug k f out → Appends f) ∧ (op = .display k f out → Appends f)) :
    genStep env G sn en user c op = cstep env rc (programOf sn en hd decl) c op := by
  haveI : InTable env := ⟨h.target.cfg_mem⟩
  have hP : IsProgram env rc (users Unit) metas svis sn evis en hd ts (fun _ => pure ()) (someProgram G) := hG Unit _
  have hM := C82_model h hm hs he hP
  have hN := linked_natural h hm hs he hG
  have hR : ∀ {γ : Type} (b : TBox) (f : EVal → M γ), (linked G en).refFrom b f = (taggable env rc (programOf sn en hd decl)).refFrom b f :=
    fun b f => linked_ref h hm hs he hG b f
  have with1 : ∀ {α : Type} (m m' : M α) (f : α → CRes β × List (Option TBox)), m c.s = m' c.s → cstepWith c m f = cstepWith c m' f := by
    intro α m m' f hx
    unfold cstepWith
    rw [hx]
  have get1 : ∀ k b, c.get k = some b → ∃ i e, Stores env rc decl c.s b i e := by
    intro k b hk
    cases hv : vs[k]?.join with
    | none => rw [S.hnone k hv] at hk; cases hk
    | some e =>
      obtain ⟨b', i, h1, h2⟩ := S.hsome k e hv
      rw [h1] at hk
      cases hk
      exact ⟨i, e, h2⟩
  have crate : ∀ {α γ : Type} (user : User EVal) (dec : α → Option γ) (run : Crate EVal → State → XOut EVal α), inCrate env user dec run = fun s => outcome dec (run (src env user) s) := by
    intro α γ user dec run
    funext s
    unfold inCrate
    rw [sourceCrate_eq]
  have bind1 : ∀ (k : Nat) (F F' : TBox → Option (CObs β × CState)), (∀ b, c.get k = some b → F b = F' b) → (c.get k).bind F = (c.get k).bind F' := by
    intro k F F' hF
    cases hk : c.get k with
    | none => rfl
    | some b => exact hF b hk
  cases op with
  | «from» e =>
    obtain ⟨i, hv⟩ := hop
    simp only [genStep, cstep]
    refine with1 _ _ _ ?_
    rw [hM.1 i e c.s hv]
    exact outcome_of contV toCont (fun _ => rfl) _ _ (fun k _ _ => kindOf_panicMsg _ k) _
  | clone k f =>
    simp only [genStep, cstep]
    refine bind1 _ _ _ fun b hb => with1 _ _ _ ?_
    obtain ⟨i, e, hst⟩ := get1 k b hb
    rw [crate]
    have ht : ∀ u : User EVal, Natural u.taggable → (src env u).callTrait "Clone" "TaggedBox" "clone" (some (boxV b)) [] .unknown c.s =
        match u.taggable.refFrom b u.clone c.s with
        | .ret (some e) s' => XOut.of boxV .kind [] (u.taggable.intoTaggedBox e s')
        | .ret none s' => .panic notFetched [] s'
        | .panic k s' => .panic (.kind k) [] s'
        | .ub k => .ub k := by
      intro u hu
      refine (Rust.t_clone env u hu 140 b .unknown [] c.s).trans ?_
      cases u.taggable.refFrom b u.clone c.s with
      | ret r s' => cases r <;> rfl
      | panic k s' => rfl
      | ub k => rfl
    simp only
    rw [ht _ hN]
    simp only [hR, TBox.clone, m_bind]
    obtain ⟨hf, hy⟩ := hop e ⟨i, hst.1⟩
    obtain ⟨s', _, _, _, hr⟩ := hf c.s S.inv
    have hp := seen_step h.compiled hst EVal f.run
    cases hout : f.out e with
    | ok y =>
      rw [hout] at hr
      rw [hp.trans (cleanup_ret (M.bind_of_ret hr))]
      simp only
      rw [linked_into h hm hs he hG (hy y hout)]
      exact outcome_of boxV toBox (fun _ => rfl) _ _ (fun _ _ _ => rfl) _
    | error k =>
      rw [hout] at hr
      rw [hp.trans (cleanup_panic (M.bind_of_panic hr))]
      rfl
  | copy k => rfl
  | eq k k' f =>
    simp only [genStep, cstep]
    refine bind1 _ _ _ fun b hb => bind1 _ _ _ fun b' hb' => with1 _ _ _ ?_
    rw [crate]
    have ht : ∀ u : User EVal, Natural u.taggable → (src env u).callTrait "PartialEq" "TaggedBox" "eq" (some (boxV b)) [.refv (boxV b')] .unknown c.s =
        XOut.of .bool .kind [] (TBox.eq u.taggable u.eq b b' c.s) := fun u hu => Rust.t_eq env u hu 140 b b' .unknown [] c.s
    simp only
    rw [ht _ hN, outcome_of V.bool toBool (fun x => by first | rfl | (cases x <;> rfl)) _ _ (fun _ _ _ => rfl)]
    simp only [TBox.eq, hR]
  | partialCmp k k' f =>
    simp only [genStep, cstep]
    refine bind1 _ _ _ fun b hb => bind1 _ _ _ fun b' hb' => with1 _ _ _ ?_
    rw [crate]
    have ht : ∀ u : User EVal, Natural u.taggable → (src env u).callTrait "PartialOrd" "TaggedBox" "partial_cmp" (some (boxV b)) [.refv (boxV b')] .unknown c.s =
        XOut.of optOrd .kind [] (TBox.partialCmp u.taggable u.partialCmp b b' c.s) := fun u hu => Rust.t_partialCmp env u hu 140 b b' .unknown [] c.s
    simp only
    rw [ht _ hN, outcome_of optOrd toOptOrd (fun x => by first | rfl | (cases x <;> rfl)) _ _ (fun _ _ _ => rfl)]
    simp only [TBox.partialCmp, hR]
  | cmp k k' f =>
    simp only [genStep, cstep]
    refine bind1 _ _ _ fun b hb => bind1 _ _ _ fun b' hb' => with1 _ _ _ ?_
    rw [crate]
    have ht : ∀ u : User EVal, Natural u.taggable → (src env u).callTrait "Ord" "TaggedBox" "cmp" (some (boxV b)) [.refv (boxV b')] .unknown c.s =
        XOut.of .ordering .kind [] (TBox.cmp u.taggable u.cmp b b' c.s) := fun u hu => Rust.t_cmp env u hu 140 b b' .unknown [] c.s
    simp only
    rw [ht _ hN, outcome_of V.ordering toOrd (fun x => by first | rfl | (cases x <;> rfl)) _ _ (fun _ _ _ => rfl)]
    simp only [TBox.cmp, hR]
  | observe k f =>
    simp only [genStep, cstep]
    refine bind1 _ _ _ fun b hb => with1 _ _ _ ?_
    exact congrFun (hR b f.run) c.s
  | debug k f out =>
    simp only [genStep, cstep]
    refine bind1 _ _ _ fun b hb => with1 _ _ _ ?_
    rw [crate]
    refine (congrArg (outcome (toText out)) (Rust.f_box_Debug env { user with taggable := linked G en, debug := writes f } hN b {} c.s)).trans ?_
    refine (outcome_text out _).trans ?_
    refine (fmt_text ((ha k f out).1 rfl) (linked G en) hN b out c.s).trans ?_
    simp only [TBox.debugFmt, TBox.displayFmt, hR]
  | display k f out =>
    simp only [genStep, cstep]
    refine bind1 _ _ _ fun b hb => with1 _ _ _ ?_
    rw [crate]
    refine (congrArg (outcome (toText out)) (Rust.f_box_Display env { user with taggable := linked G en, display := writes f } hN b {} c.s)).trans ?_
    refine (outcome_text out _).trans ?_
    refine (fmt_text ((ha k f out).2 rfl) (linked G en) hN b out c.s).trans ?_
    simp only [TBox.debugFmt, TBox.displayFmt, hR]
  | intoInner k =>
    simp only [genStep, cstep]
    refine bind1 _ _ _ fun b hb => with1 _ _ _ ?_
    obtain ⟨i, e, hst⟩ := get1 k b hb
    rw [hM.2.2.1 b c.s]
    have hw := h.accepted
    rw [containerIntoInner_stores (sn := sn) (en := en) (hd := hd) hw.u8 hw.names hw.members hst]
    rfl
  | drop k =>
    simp only [genStep, cstep]
    refine bind1 _ _ _ fun b hb => with1 _ _ _ ?_
    have hD : findImpl (someProgram G) "Drop" sn none "drop" (someProgram G).fns = none := by
      rw [(h.eq hm hs he hP).2]
      simp only
      rw [genFns, findImpl, if_neg (by simp), findImpl, if_neg (by simp), findImpl_payloads _ sn en _ _ _ _ _ (by decide)]
      simp [findImpl]
    simp only [endOf, hD]
    rw [crate]
    rfl

/-- The run of the text is the run of the model. -/
theorem runGen_eq {β : Type} (hlen : decl.length ≤ 2 ^ env.cfg.DISCRIMINANT_BITS) (ho : env.debug = true ∨ env.InRange) (user : User EVal) {p : CClient M β}
    (hp : p.OK env rc decl) (ha : AppendsAll p) {s : State} (hi : HeapInv env s) (n : Nat) :
    runGen env G sn en user p ⟨s, []⟩ n = runContainers env rc (programOf sn en hd decl) p ⟨s, []⟩ n := by
  induction n with
  | zero => rfl
  | succ n ih =>
    rw [runGen, runContainers, ih]
    obtain ⟨fails, _, _, h3⟩ := run_plain h.target h.rustc h.compiled hlen ho hp (CSim.nil hi) n
    rcases h3 with ⟨e1, _⟩ | ⟨os, c, vs, e1, _, S, _⟩
    · rw [e1]; rfl
    · rw [e1]
      simp only [Option.bind_some]
      cases hop : p os with
      | none => rfl
      | some op =>
        simp only
        rw [genStep_eq h hm hs he hG user S (hp os op hop)
          (fun k f out => ⟨fun e => (ha os k f out).1 (by rw [hop, e]), fun e => (ha os k f out).2 (by rw [hop, e])⟩)]

/-- **C85.** Whatever enum is declared (with no more variants than the discriminant has bits for), a client of its containers (adaptive, of any length, with arbitrary safe
user code in `clone`, `eq`, `partial_cmp`, `cmp`, closures and formatting, which may panic), all of whose operations run the text of the macros and of the crate, gets the
results and panics it would get from plain values, as long as it does not watch destructors; except that making a container may panic for lack of memory, which it does
only if the allocator returned null or, in a debug build, an address outside of the reserved width. It reaches neither undefined behaviour nor code that cannot be run. -/
theorem C85 {β : Type} (hlen : decl.length ≤ 2 ^ env.cfg.DISCRIMINANT_BITS) (ho : env.debug = true ∨ env.InRange) (user : User EVal) (p : CClient M β)
    (hp : p.OK env rc decl) (ha : AppendsAll p) (hb : ∀ os os', os.map (·.1) = os'.map (·.1) → p os = p os') (s : State) (hi : HeapInv env s) (n : Nat) :
    ∃ fails : List (Option PanicKind), fails.length = n ∧ (∀ f ∈ fails, FailOK env f) ∧
      (runGen env G sn en user p ⟨s, []⟩ n).map (fun r => r.1.map (·.1)) = (runPlain (rustDtors rc decl hd) p [] fails).map (fun r => r.1.map (·.1)) ∧
      (∀ os c, runGen env G sn en user p ⟨s, []⟩ n = some (os, c) → env.InRange → ¬ NullBetween s c.s → fails = List.replicate n none) := by
  rw [runGen_eq h hm hs he hG hlen ho user hp ha hi]
  exact C46_results_partial h.target h.rustc h.compiled hlen ho β p hp hb s hi n

/-- **C85**, destructors. A client that watches destructors sees those described by `crateDtors`: see C46. -/
theorem C85_dtors {β : Type} (hlen : decl.length ≤ 2 ^ env.cfg.DISCRIMINANT_BITS) (ho : env.debug = true ∨ env.InRange) (user : User EVal) (p : CClient M β)
    (hp : p.OK env rc decl) (ha : AppendsAll p) (s : State) (hi : HeapInv env s) (n : Nat) :
    ∃ fails : List (Option PanicKind), fails.length = n ∧ (∀ f ∈ fails, FailOK env f) ∧
      (runGen env G sn en user p ⟨s, []⟩ n).map (·.1) = (runPlain (crateDtors rc decl hd) p [] fails).map (·.1) ∧
      (∀ os c, runGen env G sn en user p ⟨s, []⟩ n = some (os, c) → env.InRange → ¬ NullBetween s c.s → fails = List.replicate n none) := by
  rw [runGen_eq h hm hs he hG hlen ho user hp ha hi]
  exact C46_partial h.target h.rustc h.compiled hlen ho β p hp s hi n

/-- **C85**, the model. The run from the text is the run of the model of the generated code. -/
theorem C85_model {β : Type} (hlen : decl.length ≤ 2 ^ env.cfg.DISCRIMINANT_BITS) (ho : env.debug = true ∨ env.InRange) (user : User EVal) (p : CClient M β)
    (hp : p.OK env rc decl) (ha : AppendsAll p) (s : State) (hi : HeapInv env s) (n : Nat) :
    runGen env G sn en user p ⟨s, []⟩ n = runContainers env rc (programOf sn en hd decl) p ⟨s, []⟩ n :=
  runGen_eq h hm hs he hG hlen ho user hp ha hi n

end

/-- **C85**, existence: every invocation the compiler accepts is a program, with the same expansion whatever closures it is used with. -/
theorem C85_program (h : Declared env rc sn en hd ts decl) (hm : ∀ m ∈ metas, IsMeta m) (hs : IsVis svis) (he : IsVis evis) (users : ∀ β : Type, User (Host β))
    (hu : ∀ β, (users β).drop = hostDrop rc hd decl) :
    ∃ G, AreProgram env rc metas svis sn evis en hd ts users G ∧ ∀ G', AreProgram env rc metas svis sn evis en hd ts users G' → G' = G := by
  have hx : ∀ (β : Type) (cb : EVal → M β), ∃ g, IsProgram env rc (users β) metas svis sn evis en hd ts cb g ∧
      ∀ g', IsProgram env rc (users β) metas svis sn evis en hd ts cb g' → g' = g := by
    intro β cb
    obtain ⟨g, h1, _, h2⟩ := C82_program h hm hs he cb (users β) (hu β)
    exact ⟨g, h1, h2⟩
  refine ⟨fun β cb => (hx β cb).choose, fun β cb => (hx β cb).choose_spec.1, fun G' hG' => ?_⟩
  funext β cb
  exact (hx β cb).choose_spec.2 _ (hG' β cb)

/-! ## Non-vacuity -/

/-- The rest of the user's code, for every closure. -/
def usersMix (β : Type) : User (Host β) where
  taggable := ⟨fun _ => M.panic .nullAlloc, fun _ => M.panic .noVariant, fun _ _ => pure none⟩
  clone e := pure e
  eq _ _ := pure true
  partialCmp _ _ := pure none
  cmp _ _ := pure .eq
  debug _ _ := pure ([], true)
  display _ _ := pure ([], true)
  drop := hostDrop rcWords false declMix

/-- A `Debug` that writes the name of the variant. -/
def nameFn : UserFn M (EVal × FmtSpec × String) (String × Bool) :=
  ⟨fun x => pure (x.2.2 ++ x.1.variant, true), fun x => .ok (x.2.2 ++ x.1.variant, true), fun _ => []⟩

/-- Make, clone, compare, print, panic in a closure, drop the original, take the clone's value out. -/
def demoText : CClient M Unit := fun os =>
  match os with
  | [] => some (.from ⟨"Heap", .tuple [List.replicate 8 (some 1#8)]⟩)
  | [_] => some (.clone 0 cloneFn)
  | [_, _] => some (.eq 0 1 eqFn)
  | [_, _, _] => some (.debug 1 nameFn "It is ")
  | [_, _, _, _] => some (.observe 1 panicFn)
  | [_, _, _, _, _] => some (.drop 0)
  | [_, _, _, _, _, _] => some (.intoInner 1)
  | _ => none

theorem demoText_ok : demoText.OK (env60 true) rcWords declMix := by
  have ret : ∀ {A α : Type} (f : UserFn M A α) (x : A) (a : α), f.run x = pure a → f.out x = .ok a → f.evs x = [] →
      f.OK (env60 true) x := by
    intro A α f x a h1 h2 h3 s hi
    exact ⟨s, hi, Extends.refl _, by rw [dtors_refl, h3], by rw [h1, h2]; rfl⟩
  intro os op h
  match os with
  | [] => cases h; exact ⟨2, _, rfl, rfl, ⟨rfl, by decide⟩, trivial⟩
  | [_] => cases h; exact fun x hx => ⟨ret _ _ _ rfl rfl rfl, fun y hy => by cases hy; exact hx⟩
  | [_, _] => cases h; exact fun x y _ _ => ret _ _ _ rfl rfl rfl
  | [_, _, _] => cases h; exact fun x _ => ret _ _ _ rfl rfl rfl
  | [_, _, _, _] => cases h; exact fun x _ s hi => ⟨s, hi, Extends.refl _, dtors_refl s, rfl⟩
  | [_, _, _, _, _] => cases h; trivial
  | [_, _, _, _, _, _] => cases h; trivial
  | _ :: _ :: _ :: _ :: _ :: _ :: _ :: _ => cases h

theorem demoText_appends : AppendsAll demoText := by
  intro os k f out
  constructor
  · intro h
    unfold demoText at h
    split at h <;> cases h
    intro e spec out
    show (pure (out ++ e.variant, true) : M (String × Bool)) = pure (out ++ ("" ++ e.variant), true)
    rw [String.empty_append]
  · intro h
    unfold demoText at h
    split at h <;> cases h

/-- A client that meets the hypotheses of the theorems above, and what it observes. -/
example (user : User EVal) : ∃ G, AreProgram (env60 true) rcWords [] [] "Container" [] "Item" false toksMix usersMix G ∧
    demoText.OK (env60 true) rcWords declMix ∧ AppendsAll demoText ∧ (∀ os os', os.map (·.1) = os'.map (·.1) → demoText os = demoText os') ∧
    declMix.length ≤ 2 ^ (env60 true).cfg.DISCRIMINANT_BITS ∧
    (runGen (env60 true) G "Container" "Item" user demoText ⟨state0, []⟩ 7).map (·.1) =
      some [(.handle 0, []), (.handle 1, []), (.bool true, []), (.text ("It is Heap", true), []), (.panicked (.user 7), []), (.unit, []),
        (.val ⟨"Heap", .tuple [List.replicate 8 (some 1#8)]⟩, [])] := by
  obtain ⟨G, hG, _⟩ := C85_program (metas := []) (mix_declared true) (by simp) (.inl rfl) (.inl rfl) usersMix (fun _ => rfl)
  have hok := demoText_ok
  have hap := demoText_appends
  refine ⟨G, hG, hok, hap, ?_, by decide, ?_⟩
  · intro os os' h
    have hl : os.length = os'.length := by simpa using congrArg List.length h
    have : ∀ os os' : List (CObs Unit), os.length = os'.length → demoText os = demoText os' := by
      intro os os' hl
      match os, os', hl with
      | [], [], _ => rfl
      | [_], [_], _ => rfl
      | [_, _], [_, _], _ => rfl
      | [_, _, _], [_, _, _], _ => rfl
      | [_, _, _, _], [_, _, _, _], _ => rfl
      | [_, _, _, _, _], [_, _, _, _, _], _ => rfl
      | [_, _, _, _, _, _], [_, _, _, _, _, _], _ => rfl
      | _ :: _ :: _ :: _ :: _ :: _ :: _ :: _, _ :: _ :: _ :: _ :: _ :: _ :: _ :: _, _ => rfl
    exact this os os' hl
  · rw [C85_model (mix_declared true) (by simp) (.inl rfl) (.inl rfl) hG (by decide) (.inl rfl) user demoText hok hap state0 (state0_inv _) 7]
    rfl

end TB.Props

import Verif.Lemmas.GsTop
import Verif.Props.Macro
import Verif.Props.Decl

/-!
# The generated code, run from the text of the macros (C82)

`IsProgram env rc user metas svis sn evis en hd ts cb g`: `g` is the program an invocation of `tagged_box!` stands for, from the text of the macros and of the crate
(`Spec/GenRun.lean`). `g.call trait type arg f self args s` runs the function `f` of the implementation of the trait (`From<arg>`) for the type.
-/

set_option autoImplicit false

namespace TB.Props

open TB TB.Macro TB.Mbe TB.Rust TB.Rust.Gen TB.Spec TB.Source

variable {β : Type} {env : Env} {rc : Rustc} {sn en : String} {hd : Bool} {ts : List Tok} {decl : List VariantDef}
  {metas : List (List TT)} {svis evis : List TT} {user : User (Host β)} {cb : EVal → M β} {g : GCrate β}

/-! ## C82 -/

/-- **C82**, existence: every invocation the compiler accepts expands and parses, and so is a program. -/
theorem C82_program (h : Declared env rc sn en hd ts decl) (hm : ∀ m ∈ metas, IsMeta m) (hs : IsVis svis) (he : IsVis evis) (cb : EVal → M β)
    (user : User (Host β)) (hu : user.drop = hostDrop rc hd decl) :
    ∃ g, IsProgram env rc user metas svis sn evis en hd ts cb g ∧ g.defs = decl ∧
      ∀ g', IsProgram env rc user metas svis sn evis en hd ts cb g' → g' = g := by
  refine ⟨_, ⟨?_, _, _, h.expands hm hs he, sourceCrate_eq env user, h.crate _ metas svis evis cb⟩, rfl, fun g' hg => (h.eq hm hs he hg).2⟩
  exact hu

/-! ## A program -/

/-- The compiler of `DemoMacro.lean`, with the words of the language. -/
def rcWords : Rustc := { rcDemo with isKeyword := fun x => words.contains x }

/-- `Tag, Pair(u8, u32), Heap(Owned), Rec { x: u64, y: bool },` is a declaration in the sense of `Declared`. -/
theorem mix_declared (b : Bool) : Declared (env60 b) rcWords "Container" "Item" false toksMix declMix where
  target := env60_ok b
  rustc := ⟨rcDemo_ok.leaf_wf, rcDemo_ok.copy_no_drop⟩
  keywords := fun x hx => List.contains_iff_mem.2 hx
  tokens := by
    refine .cons .unit (.cons (.tuple ?_) (.cons (.tuple ?_) (.cons (.record ?_) .nil)))
    · exact .cons ⟨by simp, 0, rfl, rfl⟩ (.one ⟨by simp, 0, rfl, rfl⟩)
    · exact .one ⟨by simp, 0, rfl, rfl⟩
    · exact .cons ⟨_, rfl, by simp, 0, rfl, rfl⟩ (.one ⟨_, rfl, by simp, 0, rfl, rfl⟩)
  accepted := by
    have hc : Compiled rcWords (env60 b).cfg "Container" "Item" false toksMix declMix (programOf "Container" "Item" false declMix) := by
      refine ⟨?_, by rfl⟩
      refine .cons .unit (.cons (.tuple ?_) (.cons (.tuple ?_) (.cons (.record ?_) .nil)))
      · exact .cons ⟨by simp, 0, rfl, rfl⟩ (.one ⟨by simp, 0, rfl, rfl⟩)
      · exact .one ⟨by simp, 0, rfl, rfl⟩
      · exact .cons ⟨_, rfl, by simp, 0, rfl, rfl⟩ (.one ⟨_, rfl, by simp, 0, rfl, rfl⟩)
    exact hc.wf.1
  sizes := by
    intro d hd sh hs
    simp only [declMix, List.mem_cons, List.not_mem_nil, or_false] at hd
    rcases hd with rfl | rfl | rfl | rfl <;> cases hs <;> decide

/-- `Pair(7, 0x04030201)` -/
def pairMix : EVal := ⟨"Pair", .tuple [[some 7#8], [some 1#8, some 2#8, some 3#8, some 4#8]]⟩

theorem pairMix_value : IsValue rcWords declMix 1 pairMix := ⟨_, rfl, rfl, ⟨rfl, by decide⟩, ⟨rfl, by decide⟩, trivial⟩

/-- The rest of the user's code: as little as possible. -/
def userMix : User (Host EVal) where
  taggable := ⟨fun _ => M.panic .nullAlloc, fun _ => M.panic .noVariant, fun _ _ => pure none⟩
  clone e := pure e
  eq _ _ := pure true
  partialCmp _ _ := pure none
  cmp _ _ := pure .eq
  debug _ _ := pure ([], true)
  display _ _ := pure ([], true)
  drop := hostDrop rcWords false declMix

/-- The program: no attributes, private, and a closure that returns a copy of what it is given. -/
theorem mix_program (b : Bool) : ∃ g, IsProgram (env60 b) rcWords userMix [] [] "Container" [] "Item" false toksMix (fun e => pure e) g := by
  obtain ⟨g, hg, _⟩ := C82_program (metas := []) (mix_declared b) (by simp) (.inl rfl) (.inl rfl) (fun e => pure e) userMix rfl
  exact ⟨g, hg⟩

section
variable (h : Declared env rc sn en hd ts decl) (hm : ∀ m ∈ metas, IsMeta m) (hs : IsVis svis) (he : IsVis evis)
  (hg : IsProgram env rc user metas svis sn evis en hd ts cb g)
include h hm hs he hg

/-- **C82**, the model. On all inputs and in all states, the code of the generated functions does exactly what the model of the generated code (`Macro/Run.lean`) used by
the other properties does. -/
theorem C82_model :
    (∀ i e s, IsValue rc decl i e → g.call "From" sn (some (.named en)) "from" none [enumV e] s =
      XOut.of contV (panicMsg (asDiscr env (BitVec.ofNat 8 i))) [] (containerFrom env rc (programOf sn en hd decl) e s)) ∧
    (∀ i e s, IsValue rc decl i e → g.call "TaggableInner" en none "into_tagged_box" (some (enumV e)) [] s =
      XOut.of boxV (panicMsg (asDiscr env (BitVec.ofNat 8 i))) [] (intoTaggedBox env rc (programOf sn en hd decl) e s)) ∧
    (∀ b s, g.call "TaggableContainer" sn none "into_inner" (some (contV b)) [] s =
      XOut.of enumV (fun _ => noVariantInside) [] (containerIntoInner env rc (programOf sn en hd decl) b s)) ∧
    (∀ b s, g.call "TaggableInner" en none "from_tagged_box" none [boxV b] s =
      XOut.of enumV (fun _ => noVariantToCreate env.cfg en decl.length (b.discriminant env).toNat) [] (fromTaggedBox env rc (programOf sn en hd decl) b s)) ∧
    (∀ b s, g.lend (boxV b) s = match (taggable env rc (programOf sn en hd decl)).refFrom b cb s with
      | .ret r s => .ret r [] s
      | .panic k s => .panic (if (b.discriminant env).toNat < decl.length then .kind k
          else noVariantToLend env.cfg en decl.length (b.discriminant env).toNat) [] s
      | .ub k => .ub k) := by
  haveI : InTable env := ⟨h.target.cfg_mem⟩
  obtain ⟨hdrop, rfl⟩ := h.eq hm hs he hg
  have hD : ∀ (b : TBox), (dV (b.discriminant env) : GV β) = discr env.cfg (b.discriminant env).toNat := fun b => (discr_toNat' env _).symm
  refine ⟨fun i e s hv => ?_, fun i e s hv => ?_, fun b s => ?_, fun b s => ?_, fun b s => ?_⟩
  · rw [GCrate.call]
    simp only [findImpl_enum]
    exact fromEnum_run env user rc hd sn en decl _ cb hdrop h.ready h.storable (findImpl_into _ sn en decl) hv 32 [] s
  · rw [GCrate.call]
    simp only [findImpl_into]
    exact intoBox_run env user rc hd sn en decl _ cb hdrop h.ready h.storable hv 34 [] s
  · rw [GCrate.call]
    simp only [findImpl_inner]
    exact intoInner_run env user rc hd sn en decl _ cb h.ready 33 b [] s
  · rw [GCrate.call]
    simp only [findImpl_fromBox]
    refine (fromBox_run env user rc hd sn en decl _ cb h.ready 33 b [] s).trans ?_
    rw [noVariantToCreate, ← hD]
    rfl
  · refine (lend_run env user rc hd sn en decl _ cb hdrop h.ready (findImpl_ref _ sn en decl) b s).trans ?_
    rw [noVariantToLend, ← hD]
    rfl

/-- **C82.** Whatever enum is declared, whatever value it has, whatever the state of the heap: the generated code, run from the text, either converts the value into a
container from which `into_inner` gets exactly this value back, in the state after the conversion and in every later one in which what was on the heap is unchanged;
or panics, because the allocator had no memory (the assertion of `TaggedBox::new`), or (debug builds) because the address does not fit (with the message in the text). -/
theorem C82 {i : Nat} {e : EVal} (hv : IsValue rc decl i e) (hlt : i < 2 ^ env.cfg.freeBits) (ho : env.debug = true ∨ env.InRange) {s : State} (hi : HeapInv env s) :
    (∃ c s', g.call "From" sn (some (.named en)) "from" none [enumV e] s = .ret c [] s' ∧ HeapInv env s' ∧ Extends s s' ∧
      ∀ s'', Extends s' s'' → g.call "TaggableContainer" sn none "into_inner" (some c) [] s'' = .ret (enumV e) [] s'') ∨
    (∃ s', g.call "From" sn (some (.named en)) "from" none [enumV e] s = .panic assertFailed [] s' ∧ HeapInv env s' ∧ s'.blocks = s.blocks ∧
      ∃ size align, env.alloc s size align = 0) ∨
    (∃ s', g.call "From" sn (some (.named en)) "from" none [enumV e] s = .panic (tooWide env.cfg) [] s' ∧ HeapInv env s' ∧ Extends s s' ∧ env.debug = true ∧
      ∃ size align, 2 ^ env.cfg.ptrWidth ≤ env.alloc s size align) := by
  obtain ⟨h1, _, h3, _, _⟩ := C82_model h hm hs he hg
  rw [h1 i e s hv]
  rcases C29_container_roundtrip h.target h.rustc h.compiled hv hlt ho hi with ⟨b, s', e1, e2, e3, e4⟩ | ⟨s', e1, e2, _, e3, size, align, e4, _⟩ |
    ⟨s', e1, e2, e3, e4, e5⟩
  · exact .inl ⟨contV b, s', by rw [e1]; rfl, e2, e3, fun s'' hx => by rw [h3, e4 s'' hx]; rfl⟩
  · exact .inr (.inl ⟨s', by rw [e1]; rfl, e2, e3, size, align, e4⟩)
  · exact .inr (.inr ⟨s', by rw [e1]; rfl, e2, e3, e4, e5⟩)

/-- **C82**, `From` for payloads. `Container::from(x)`, for `x` of the type of the only field of a variant, or the tuple of its fields, does exactly what `Container::from` does
on the value of that variant. -/
theorem C82_payload {i : Nat} {v : String} {tys : List Ty} {vs : List Bytes} (hdi : decl[i]? = some ⟨v, .tuple tys⟩) (hty : HasTypes rc tys vs) {ty : Ty}
    (hf : (Fields.tuple tys).fromTy = some ty) (s : State) :
    g.call "From" sn (some ty) "from" none [payloadV env rc tys vs] s = g.call "From" sn (some (.named en)) "from" none [enumV ⟨v, .tuple vs⟩] s ∧
    g.call "From" sn (some ty) "from" none [payloadV env rc tys vs] s ≠ .stuck := by
  haveI : InTable env := ⟨h.target.cfg_mem⟩
  have hval : IsValue rc decl i ⟨v, .tuple vs⟩ := ⟨_, hdi, rfl, hty⟩
  have h1 := (C82_model h hm hs he hg).1 i _ s hval
  obtain ⟨hdrop, rfl⟩ := h.eq hm hs he hg
  rw [h1]
  have hsome : ∃ p, fromFn en ⟨v, .tuple tys⟩ = some p := by
    cases hc : fromFn en ⟨v, .tuple tys⟩ with
    | none => rw [show (Fields.tuple tys).fromTy = none from fromFn_none hc] at hf; cases hf
    | some p => exact ⟨p, rfl⟩
  obtain ⟨⟨t, f⟩, hp⟩ := hsome
  have hfr := h.accepted.froms
  rw [List.nodup_cons] at hfr
  have hcall : ∀ G : GCrate β, G = ⟨src env user, rc, hd, sn, en, decl, genFns sn en decl, cb⟩ → findImpl G "From" sn (some ty) "from" G.fns = some f := by
    intro G hG
    subst hG
    exact findImpl_payload _ sn en decl (d := ⟨v, .tuple tys⟩) hf hp hfr.2 (List.mem_of_getElem? hdi)
  have hrun := fromPayload_run env user rc hd sn en decl _ cb hdrop h.ready h.storable (findImpl_into _ sn en decl) hdi hty hp 32 [] s
  have he' : GCrate.call ⟨src env user, rc, hd, sn, en, decl, genFns sn en decl, cb⟩ "From" sn (some ty) "from" none [payloadV env rc tys vs] s =
      XOut.of contV (panicMsg (asDiscr env (BitVec.ofNat 8 i))) [] (containerFrom env rc (programOf sn en hd decl) ⟨v, .tuple vs⟩ s) := by
    rw [GCrate.call, hcall _ rfl]
    exact hrun
  rw [he']
  refine ⟨rfl, ?_⟩
  cases containerFrom env rc (programOf sn en hd decl) ⟨v, .tuple vs⟩ s <;> simp [XOut.of]

/-- **C82**, `ref_from_tagged_box`. On a box made by the code of `into_tagged_box`, then and in every later state in which what was on the heap is unchanged, the code of
`ref_from_tagged_box` calls the closure once, with the value that was converted, and ends as the closure does. It adds at most the enum's own destructor, and nothing if
the enum has none. -/
theorem C82_lend {i : Nat} {e : EVal} (hv : IsValue rc decl i e) (hlt : i < 2 ^ env.cfg.freeBits) (ho : env.debug = true ∨ env.InRange) {s s' : State} (hi : HeapInv env s)
    {b : GV β} (hr : g.call "TaggableInner" en none "into_tagged_box" (some (enumV e)) [] s = .ret b [] s') :
    ∀ s'', Extends s' s'' → ∃ es, g.lend b s'' = lent es (cb e s'') ∧ (hd = false → es = []) ∧ (es = [] ∨ es = [.dropEnum e.variant]) := by
  obtain ⟨_, h2, _, _, h5⟩ := C82_model h hm hs he hg
  rw [h2 i e s hv] at hr
  have hb : ∃ w, intoTaggedBox env rc (programOf sn en hd decl) e s = .ret w s' ∧ b = boxV w := by
    cases ho : intoTaggedBox env rc (programOf sn en hd decl) e s with
    | ret w t =>
      rw [ho] at hr
      cases hr
      exact ⟨w, rfl, rfl⟩
    | panic k t => rw [ho] at hr; cases hr
    | ub k => rw [ho] at hr; cases hr
  obtain ⟨w, hw, rfl⟩ := hb
  intro s'' hx
  obtain ⟨es, hp, h3, h4⟩ := C31_ref_presents h.target h.rustc h.compiled hv hlt ho hi hw s'' hx
  refine ⟨es, ?_, h3, h4⟩
  have hn : (w.discriminant env).toNat < decl.length := by
    have := (C28_numbering h.target h.rustc h.compiled).1 i e s w s' hv hlt ho hi hw
    rw [this]
    obtain ⟨d, hdi, _⟩ := hv
    exact (List.getElem?_eq_some_iff.1 hdi).1
  rw [h5, hp β cb]
  simp only [M.cleanup, M.bind_def]
  cases cb e s'' with
  | ret r t => rfl
  | panic k t => simp only [hn, if_true]; rfl
  | ub k => rfl

/-- **C82**, `from_tagged_box`. On a box made by the code of `into_tagged_box`, then and in every later state in which what was on the heap is unchanged, the code of
`from_tagged_box` returns the value that was converted; for variants with at least two unnamed fields, provided the compiler lays out the tuple of the fields as C does. -/
theorem C82_read {i : Nat} {e : EVal} {d : VariantDef} (hdi : decl[i]? = some d) (hv : IsValue rc decl i e) (hlt : i < 2 ^ env.cfg.freeBits)
    (ho : env.debug = true ∨ env.InRange) {s s' : State} (hi : HeapInv env s)
    (ha : ∀ tys, d.fields = .tuple tys → 2 ≤ tys.length → env.tuple (tys.map rc.leaf) = reprC (tys.map rc.leaf))
    {b : GV β} (hr : g.call "TaggableInner" en none "into_tagged_box" (some (enumV e)) [] s = .ret b [] s') :
    ∀ s'', Extends s' s'' → g.call "TaggableInner" en none "from_tagged_box" none [b] s'' = .ret (enumV e) [] s'' := by
  obtain ⟨_, h2, _, h4, _⟩ := C82_model h hm hs he hg
  rw [h2 i e s hv] at hr
  cases hw : intoTaggedBox env rc (programOf sn en hd decl) e s with
  | ret w t =>
    rw [hw] at hr
    cases hr
    intro s'' hx
    rw [h4, C30_partial h.target h.rustc h.compiled hdi hv hlt ho ha hi hw s'' hx]
    rfl
  | panic k t => rw [hw] at hr; cases hr
  | ub k => rw [hw] at hr; cases hr

/-- **C82**, other discriminants. Given a box whose discriminant no variant has, the code of all three readers panics in the state it was called in, without calling the
closure; `from_tagged_box` and `ref_from_tagged_box` say the name of the enum, how many variants it has, and the discriminant. -/
theorem C82_unknown (b : TBox) (hb : decl.length ≤ (b.discriminant env).toNat) (s : State) :
    g.call "TaggableContainer" sn none "into_inner" (some (contV b)) [] s = .panic noVariantInside [] s ∧
    g.call "TaggableInner" en none "from_tagged_box" none [boxV b] s = .panic (noVariantToCreate env.cfg en decl.length (b.discriminant env).toNat) [] s ∧
    g.lend (boxV b) s = .panic (noVariantToLend env.cfg en decl.length (b.discriminant env).toNat) [] s := by
  obtain ⟨_, _, h3, h4, h5⟩ := C82_model h hm hs he hg
  obtain ⟨e1, e2, e3⟩ := C35_unknown_discriminant h.compiled b hb s
  refine ⟨?_, ?_, ?_⟩
  · rw [h3, e1]; rfl
  · rw [h4, e2]; rfl
  · rw [h5, e3 β cb]
    simp only [Nat.not_lt.2 hb, if_false]

end

/-! ## Non-vacuity -/

/-- The hypotheses of the theorems above hold for the program `mix_program`, and there is something to say: the conversions do return. -/
example (b : Bool) : ∃ g c s', IsProgram (env60 b) rcWords userMix [] [] "Container" [] "Item" false toksMix (fun e => pure e) g ∧
    IsValue rcWords declMix 1 pairMix ∧ 1 < 2 ^ (env60 b).cfg.freeBits ∧ (env60 b).InRange ∧ HeapInv (env60 b) state0 ∧
    g.call "From" "Container" (some (.named "Item")) "from" none [enumV pairMix] state0 = .ret c [] s' ∧
    g.call "From" "Container" (some (.tuple [.named "u8", .named "u32"])) "from" none [payloadV (env60 b) rcWords [.named "u8", .named "u32"]
      [[some 7#8], [some 1#8, some 2#8, some 3#8, some 4#8]]] state0 = .ret c [] s' ∧
    g.call "TaggableContainer" "Container" none "into_inner" (some c) [] s' = .ret (enumV pairMix) [] s' := by
  obtain ⟨g, hg⟩ := mix_program b
  have h := C82_model (mix_declared b) (by simp) (.inl rfl) (.inl rfl) hg
  have hp := C82_payload (mix_declared b) (by simp) (.inl rfl) (.inl rfl) hg (i := 1) rfl (vs := [[some 7#8], [some 1#8, some 2#8, some 3#8, some 4#8]])
    ⟨⟨rfl, by decide⟩, ⟨rfl, by decide⟩, trivial⟩ rfl state0
  obtain ⟨w, t, e1, e2⟩ : ∃ w t, containerFrom (env60 b) rcWords (programOf "Container" "Item" false declMix) pairMix state0 = .ret w t ∧
      containerIntoInner (env60 b) rcWords (programOf "Container" "Item" false declMix) w t = .ret pairMix t := by
    cases b <;> exact ⟨_, _, rfl, rfl⟩
  have hr := h.1 1 pairMix state0 pairMix_value
  rw [e1] at hr
  exact ⟨g, contV w, t, hg, pairMix_value, by cases b <;> decide, env60_inRange b, state0_inv _, hr, hp.1.trans hr, by rw [h.2.2.1, e2]; rfl⟩

/-- The closure sees the value: it returns what it was given. -/
example (b : Bool) : ∃ g w s', IsProgram (env60 b) rcWords userMix [] [] "Container" [] "Item" false toksMix (fun e => pure e) g ∧
    g.call "TaggableInner" "Item" none "into_tagged_box" (some (enumV pairMix)) [] state0 = .ret w [] s' ∧
    g.lend w s' = .ret (some pairMix) [] s' := by
  obtain ⟨g, hg⟩ := mix_program b
  have h := C82_model (mix_declared b) (by simp) (.inl rfl) (.inl rfl) hg
  obtain ⟨w, t, e1⟩ : ∃ w t, intoTaggedBox (env60 b) rcWords (programOf "Container" "Item" false declMix) pairMix state0 = .ret w t := by
    cases b <;> exact ⟨_, _, rfl⟩
  have hr := h.2.1 1 pairMix state0 pairMix_value
  rw [e1] at hr
  obtain ⟨es, h1, h2, _⟩ := C82_lend (mix_declared b) (by simp) (.inl rfl) (.inl rfl) hg pairMix_value (by cases b <;> decide) (.inr (env60_inRange b))
    (state0_inv _) hr t (Extends.refl _)
  refine ⟨g, _, _, hg, hr, ?_⟩
  rw [h1, h2 rfl]
  simp only [lent, log_nil]
  rfl

/-- A word with a discriminant no variant has. -/
example (b : Bool) : ∃ g, IsProgram (env60 b) rcWords userMix [] [] "Container" [] "Item" false toksMix (fun e => pure e) g ∧
    g.lend (boxV (TBox.dangling (env60 b) 8 (9#8 : BitVec 8))) state0 = .panic (noVariantToLend (env60 b).cfg "Item" 4 9) [] state0 := by
  obtain ⟨g, hg⟩ := mix_program b
  refine ⟨g, hg, ?_⟩
  have := (C82_unknown (mix_declared b) (by simp) (.inl rfl) (.inl rfl) hg (TBox.dangling (env60 b) 8 (9#8 : BitVec 8)) (by cases b <;> decide) state0).2.2
  cases b <;> exact this

end TB.Props

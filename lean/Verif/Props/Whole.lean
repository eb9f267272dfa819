import Verif.Spec.Whole
import Verif.Props.BuildRun
import Verif.Props.Input
import Verif.Props.ContainerRun

/-!
# From the environment variable and the characters of the invocation to the running program (C88)

`AreBuilt vars text env rc users hd G` (`Spec/Whole.lean`): `G` is the program built with the environment variables `vars` from an invocation of `tagged_box!` whose characters
are `text`.
-/

set_option autoImplicit false

namespace TB.Props

open TB TB.Macro TB.Mbe TB.Rust TB.Source TB.Spec

variable {vars : List Char → EnvVar} {text : List (List Char)} {env : Env} {rc : Rustc} {hd : Bool} {users : ∀ β : Type, User (Host β)} {G : Programs}

theorem flat_vis {ms ms' : List (List TT)} {v v' r r' : List TT} (hv : IsVis v) (hv' : IsVis v')
    (h : (ms.flatMap fun m => [TT.atom (.punct "#"), .group .bracket m]) ++ v ++ .atom (.ident "struct") :: r =
      (ms'.flatMap fun m => [TT.atom (.punct "#"), .group .bracket m]) ++ v' ++ .atom (.ident "struct") :: r') : ms = ms' ∧ v = v' ∧ r = r' := by
  induction ms generalizing ms' with
  | nil =>
    cases ms' with
    | nil =>
      rcases hv with rfl | rfl | ⟨g, hg, rfl⟩ <;> rcases hv' with rfl | rfl | ⟨g', hg', rfl⟩ <;>
        first
          | (simp_all [visArg]; done)
          | (simp at h; obtain ⟨rfl, _⟩ := h; simp [visArg] at hg')
    | cons m' ms' => rcases hv with rfl | rfl | ⟨g, hg, rfl⟩ <;> simp at h
  | cons m ms ih =>
    cases ms' with
    | nil => rcases hv' with rfl | rfl | ⟨g, hg, rfl⟩ <;> simp at h
    | cons m' ms' =>
      simp only [List.flatMap_cons, List.cons_append, List.nil_append, List.cons.injEq, TT.group.injEq, true_and] at h
      obtain ⟨rfl, h⟩ := h
      obtain ⟨rfl, h1, h2⟩ := ih h
      exact ⟨rfl, h1, h2⟩

theorem vis_end {v v' r r' : List TT} (hv : IsVis v) (hv' : IsVis v') (h : v ++ .atom (.ident "enum") :: r = v' ++ .atom (.ident "enum") :: r') : v = v' ∧ r = r' := by
  rcases hv with rfl | rfl | ⟨g, hg, rfl⟩ <;> rcases hv' with rfl | rfl | ⟨g', hg', rfl⟩ <;>
    first
      | (simp_all [visArg]; done)
      | (simp at h; obtain ⟨rfl, _⟩ := h; simp [visArg] at hg')

/-- **C86**, uniqueness: there is only one way to read an input: its attributes, its visibilities, its names and what is between its braces. -/
theorem C86_unique {metas metas' : List (List TT)} {svis svis' evis evis' : List TT} {sn sn' en en' : String} {ts ts' : List Tok}
    (hs : IsVis svis) (hs' : IsVis svis') (he : IsVis evis) (he' : IsVis evis')
    (h : invocation metas svis sn evis en ts = invocation metas' svis' sn' evis' en' ts') :
    metas = metas' ∧ svis = svis' ∧ sn = sn' ∧ evis = evis' ∧ en = en' ∧ ttsOf ts = ttsOf ts' := by
  obtain ⟨h1, h2, h3⟩ := flat_vis hs hs' h
  simp only [List.cons.injEq, TT.atom.injEq, Atom.ident.injEq, true_and] at h3
  obtain ⟨h4, h5⟩ := h3
  obtain ⟨h6, h7⟩ := vis_end he he' h5
  simp only [List.cons.injEq, TT.atom.injEq, Atom.ident.injEq, TT.group.injEq, true_and, and_true] at h7
  exact ⟨h1, h2, h4, h6, h7.1, h7.2⟩

/-- With the documented width, what is built is the program of the invocation in the sense of `IsProgram` (C82, C85). -/
theorem built_program (hc : env.cfg ∈ table) (hw : env.cfg.POINTER_WIDTH = expectedWidth (vars widthVar)) {metas : List (List TT)} {svis evis : List TT} {sn en : String}
    {ts : List Tok} (ht : parseText text = some (invocation metas svis sn evis en ts)) (hG : AreBuilt vars text env rc users hd G) :
    AreProgram env rc metas svis sn evis en hd ts users G := by
  intro β cb
  obtain ⟨h1, input, out, cr, h2, h3, h4, h5⟩ := hG β cb
  rw [ht] at h2
  cases h2
  exact ⟨h1, out, cr, h3, C83_any vars env hc hw _ cr h4, h5⟩

/-- **C88.** Whatever the environment holds and whatever the user writes between the delimiters of `tagged_box!`: if it builds, then the text is a declaration, the crate that
the user's code is compiled with is that of the documented width, and a client of the declared containers (adaptive, of any length, with arbitrary safe user code in `clone`,
`eq`, `partial_cmp`, `cmp`, closures and formatting, which may panic), all of whose operations run what was built, gets the results and panics it would get from plain values,
as long as it does not watch destructors, and the declaration is one the compiler accepts; except that making a container may panic for lack of memory, which it does only if
the allocator returned null or, in a debug build, an address outside of the reserved width. -/
theorem C88 (hc : env.cfg ∈ table) (hw : env.cfg.POINTER_WIDTH = expectedWidth (vars widthVar)) (hG : AreBuilt vars text env rc users hd G) :
    (∀ (E : Type) (user : User E), builtCrate vars env user = sourceCrate env user) ∧
    ∃ metas svis sn evis en ts decl, (∀ m ∈ metas, IsMeta m) ∧ IsVis svis ∧ IsVis evis ∧ parseText text = some (invocation metas svis sn evis en ts) ∧
      decl ≠ [] ∧ DeclSyntax rc ts decl ∧
      (Declared env rc sn en hd ts decl → decl.length ≤ 2 ^ env.cfg.DISCRIMINANT_BITS → env.debug = true ∨ env.InRange →
        ∀ (β : Type) (user : User EVal) (p : CClient M β), p.OK env rc decl → AppendsAll p → (∀ os os', os.map (·.1) = os'.map (·.1) → p os = p os') →
        ∀ (s : State), HeapInv env s → ∀ n,
          ∃ fails : List (Option PanicKind), fails.length = n ∧ (∀ f ∈ fails, FailOK env f) ∧
            (runGen env G sn en user p ⟨s, []⟩ n).map (fun r => r.1.map (·.1)) = (runPlain (rustDtors rc decl hd) p [] fails).map (fun r => r.1.map (·.1)) ∧
            (∀ os c, runGen env G sn en user p ⟨s, []⟩ n = some (os, c) → env.InRange → ¬ NullBetween s c.s → fails = List.replicate n none)) := by
  obtain ⟨_, input, out, cr, h2, h3, h4, _⟩ := hG Unit fun _ => pure ()
  refine ⟨?_, ?_⟩
  · intro E user
    rw [built_eq] at h4 ⊢
    obtain ⟨c, h5, _⟩ := compile_some h4
    have e : c = env.cfg := width_inj (mem_of_active h5) hc (((C08_any _).2.1 c h5).trans hw.symm)
    subst e
    have h6 : (buildLines (vars widthVar)).any BuildLine.isMalformed = false := by
      cases hx : (buildLines (vars widthVar)).any BuildLine.isMalformed with
      | false => rfl
      | true => rw [compileWith, if_pos hx] at h4; cases h4
    rw [compile_one env user h6 h5, sourceCrate_eq]
  · obtain ⟨metas, svis, sn, evis, en, ts, decl, hm, hs, he, rfl, h5, h6, _, _⟩ := (C86_text rc text input out h2).1 h3
    refine ⟨metas, svis, sn, evis, en, ts, decl, hm, hs, he, h2, h5, h6, ?_⟩
    intro hD hlen ho β user p hp ha hb s hi n
    exact C85 hD hm hs he (built_program hc hw h2 hG) hlen ho user p hp ha hb s hi n

/-- **C88**, existence. With any one-line value of the variable, every text that declares variants the compiler accepts builds, to one program. -/
theorem C88_builds (hv : (vars widthVar).OneLine) (hw : env.cfg.POINTER_WIDTH = expectedWidth (vars widthVar)) {metas : List (List TT)} {svis evis : List TT} {sn en : String}
    {ts : List Tok} {decl : List VariantDef} (ht : parseText text = some (invocation metas svis sn evis en ts)) (h : Declared env rc sn en hd ts decl)
    (hm : ∀ m ∈ metas, IsMeta m) (hs : IsVis svis) (he : IsVis evis) (hu : ∀ β, (users β).drop = hostDrop rc hd decl) :
    ∃ G, AreBuilt vars text env rc users hd G ∧ ∀ G', AreBuilt vars text env rc users hd G' → G' = G := by
  obtain ⟨G, h1, h2⟩ := C85_program h hm hs he users hu
  refine ⟨G, ?_, fun G' hG' => h2 G' (built_program h.target.cfg_mem hw ht hG')⟩
  intro β cb
  obtain ⟨h3, out, cr, h4, h5, h6⟩ := h1 β cb
  obtain ⟨cr', h7, h8, _⟩ := C83 vars hv env h.target.cfg_mem hw (users β)
  rw [h5] at h8
  cases h8
  exact ⟨h3, _, out, cr, ht, h4, h7, h6⟩

set_option maxRecDepth 8000 in
/-- A text and an environment that meet the hypotheses, and what the client of C85 observes when it runs what is built from them. -/
example (user : User EVal) : ∃ G, AreBuilt (fun _ => .ok "60bits") [src% "#[derive(Debug)]", src% "pub struct Container, pub(crate) enum Item {",
      src% "Tag, Pair(u8, u32), // two fields", src% "Heap(Owned), Rec { x: u64, y: bool }, }"] (env60 true) rcWords usersMix false G ∧
    (runGen (env60 true) G "Container" "Item" user demoText ⟨state0, []⟩ 7).map (·.1) =
      some [(.handle 0, []), (.handle 1, []), (.bool true, []), (.text ("It is Heap", true), []), (.panicked (.user 7), []), (.unit, []),
        (.val ⟨"Heap", .tuple [List.replicate 8 (some 1#8)]⟩, [])] := by
  have hm : ∀ m ∈ [rust% "derive(Debug)"], IsMeta m := by
    intro m hm
    cases List.mem_singleton.1 hm
    rfl
  obtain ⟨G, hG, _⟩ := C88_builds (vars := fun _ => .ok "60bits") (env := env60 true) (rc := rcWords) (hd := false) (users := usersMix)
    (text := [src% "#[derive(Debug)]", src% "pub struct Container, pub(crate) enum Item {", src% "Tag, Pair(u8, u32), // two fields",
      src% "Heap(Owned), Rec { x: u64, y: bool }, }"])
    (metas := [rust% "derive(Debug)"]) (svis := rust% "pub") (evis := rust% "pub(crate)") (sn := "Container") (en := "Item") (ts := toksMix) (decl := declMix)
    (show '\n' ∉ "60bits".toList by decide) (by decide) rfl (mix_declared true) hm (.inr (.inl rfl)) (.inr (.inr ⟨_, rfl, rfl⟩)) (fun _ => rfl)
  refine ⟨G, hG, ?_⟩
  have hP := built_program (env60_ok true).cfg_mem (by decide) (metas := [rust% "derive(Debug)"]) (svis := rust% "pub") (evis := rust% "pub(crate)") (sn := "Container")
    (en := "Item") (ts := toksMix) rfl hG
  rw [C85_model (mix_declared true) hm (.inr (.inl rfl)) (.inr (.inr ⟨_, rfl, rfl⟩)) hP (by decide) (.inl rfl) user demoText demoText_ok demoText_appends state0
    (state0_inv _) 7]
  rfl

end TB.Props

import Verif.Lemmas.BuildRun
import Verif.Props.SourceRun

/-!
# The build, run from the texts (C83)

`builtCrate vars env user`: `build.rs` is run from its text with the environment variables `vars`, cargo reads what it prints, and the crate is compiled from the texts of its
sources with the settings cargo was told (`Spec/BuildRun.lean`). `none`: it does not compile.
-/

set_option autoImplicit false

namespace TB.Props

open TB TB.Rust TB.Spec

variable {E : Type}

/-- **C83.** Whatever the environment holds (the variable's value having no line feed): the build succeeds, and gives the crate with the documented width `w` (`env.cfg` names the row
of the table with that width; the build does not look at it): the code of `TaggedPointer::new`, so compiled, stores any address below `2 ^ w` and any allowed discriminant in one
word, the discriminant from bit `w` on, and the accessors give both back. -/
theorem C83 (vars : List Char → EnvVar) (hv : (vars widthVar).OneLine) (env : Env) (hc : env.cfg ∈ table) (hw : env.cfg.POINTER_WIDTH = expectedWidth (vars widthVar))
    (user : User E) :
    ∃ cr, builtCrate vars env user = some cr ∧ sourceCrate env user = some cr ∧
      ∀ (s : State) (a d : Nat) (exp : RT), a < 2 ^ expectedWidth (vars widthVar) → d ≤ env.cfg.MAX_DISCRIMINANT.toNat →
        ∃ t, cr.call "TaggedPointer" "new" [] none [u64 a, discr env.cfg d] exp s = .ret t [] s ∧
          cr.call "TaggedPointer" "as_raw_u64" [] (some t) [] exp s = .ret (u64 (a + d * 2 ^ expectedWidth (vars widthVar))) [] s ∧
          cr.call "TaggedPointer" "discriminant" [] (some t) [] exp s = .ret (discr env.cfg d) [] s ∧
          cr.call "TaggedPointer" "as_u64" [] (some t) [] exp s = .ret (u64 a) [] s := by
  obtain ⟨⟨⟨c, h1, h2⟩, _⟩, _⟩ := C08_partial _ hv
  have e : c = env.cfg := width_inj (mem_of_active h1) hc (h2.trans hw.symm)
  subst e
  refine ⟨_, (built_eq vars env user).trans (compile_one env user (not_malformed hv) h1), sourceCrate_eq env user, fun s a d exp ha hd => ?_⟩
  rw [← hw] at ha ⊢
  obtain ⟨cr, t, h3, h4, h5, h6, h7, _⟩ := C79 env hc user s a d ha hd exp
  rw [sourceCrate_eq] at h3
  cases h3
  exact ⟨t, h4, h7, h5, h6⟩

/-- **C83**, every value, also with line feeds: if the crate compiles at all, then with the documented width. -/
theorem C83_any (vars : List Char → EnvVar) (env : Env) (hc : env.cfg ∈ table) (hw : env.cfg.POINTER_WIDTH = expectedWidth (vars widthVar)) (user : User E) (cr : Crate E)
    (h : builtCrate vars env user = some cr) : sourceCrate env user = some cr := by
  rw [built_eq] at h
  obtain ⟨c, h1, h2⟩ := compile_some h
  rw [h2 (width_inj hc (mem_of_active h1) (hw.trans ((C08_any _).2.1 c h1).symm))]
  exact sourceCrate_eq env user

/-- **C83**, the model: what `build.rs`, run from its text, prints and cargo reads is what the model (C08, C59, C69) says. No other variable matters. -/
theorem C83_model (vars : List Char → EnvVar) :
    buildPrints vars = some (printlns (buildMain (vars widthVar))) ∧ buildTells vars = some (buildLines (vars widthVar)) :=
  ⟨build_prints vars, build_tells vars⟩

/-- C83 is not vacuous: with `57bits` the crate has 57-bit pointers, without the variable 60-bit pointers. With a value that enables a second setting it does not compile. -/
example (user : User Unit) :
    (EnvVar.ok "57bits").OneLine ∧ expectedWidth (.ok "57bits") = 57 ∧ (⟨"tagged_box_reserve_57bits", 8, 127, 57, 7⟩ : Config) ∈ table ∧
    (∃ cr, builtCrate (fun _ => .notPresent) (env60 true) user = some cr ∧ ∃ t, cr.call "TaggedPointer" "new" [] none [u64 4096, discr cfg60 7] .unknown state0 = .ret t [] state0 ∧
      cr.call "TaggedPointer" "as_raw_u64" [] (some t) [] .unknown state0 = .ret (u64 0x7000000000001000) [] state0) ∧
    builtCrate (fun _ => .ok "x\ncargo:rustc-cfg=tagged_box_reserve_48bits\ny") (env60 true) user = none := by
  refine ⟨show '\n' ∉ "57bits".toList by decide, by decide, by decide, ?_, by rw [built_eq]; rfl⟩
  obtain ⟨cr, h1, _, h2⟩ := C83 (fun _ => .notPresent) trivial (env60 true) cfg60_mem rfl user
  obtain ⟨t, h3, h4, _⟩ := h2 state0 4096 7 .unknown (by decide) (by decide)
  exact ⟨cr, h1, t, h3, h4⟩

end TB.Props

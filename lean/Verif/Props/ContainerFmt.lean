import Verif.Fmt
import Verif.Props.Traits

/-!
# What `#[derive(Debug)]` on the container prints
-/

set_option autoImplicit false

namespace TB.Props

open TB.Macro

variable {env : Env} {rc : Rustc} {sn en : String} {hd : Bool} {ts : List Tok} {decl : List VariantDef} {P : Program}

/-! ## C68 -/

/-- The claim: a container prints as would a structure that has the enum value itself as its field `value`. -/
def C68_Statement (env : Env) (rc : Rustc) (decl : List VariantDef) (P : Program) : Prop :=
  ∀ (name : List Char) (fmtE : EVal → FmtSpec → M (List Char × Bool)) (s : State) (b : TBox) (i : Nat) (x : EVal), Stores env rc decl s b i x →
    ∀ spec, containerDebug (taggable env rc P) name fmtE b spec s = derivedDebug name "value".toList (fmtE x) spec s

/-- What is written for a container whose enum writes `text`, with or without `#`. -/
def containerText (name text : String) (alternate : Bool) : String :=
  if alternate then name ++ " {\n" ++ String.ofList (indent true ("value: " ++ text ++ ",\n").toList) ++ "}"
  else name ++ " { value: " ++ text ++ " }"

/-- **C68**, the part that holds: whatever the parameters, the enum is formatted once, with default parameters (`{:?}`); if it writes `text`,
the container prints `Name { value: text }`, or with `#` the same over three lines with the text indented but otherwise
unchanged. If the enum's `fmt` fails or panics, so does the container's. With default parameters the claim holds (for an enum without
`Drop`). Missing: other parameters do not reach the enum (`C68_refuted`). -/
theorem C68_partial (hc : Compiled rc env.cfg sn en hd ts decl P) {s : State} {b : TBox} {i : Nat} {x : EVal}
    (hst : Stores env rc decl s b i x) (name : String) (fmtE : EVal → FmtSpec → M (List Char × Bool)) :
    (∃ es, (hd = false ∨ x.payload ≠ .unit → es = []) ∧ ∀ spec : FmtSpec,
      (∀ (text : String) (s' : State), fmtE x {} s = .ret (text.toList, true) s' →
        containerDebug (taggable env rc P) name.toList fmtE b spec s =
          .ret ((containerText name text spec.alternate).toList, true) (s'.log es)) ∧
      (∀ (text : List Char) (s' : State), fmtE x {} s = .ret (text, false) s' →
        ∃ out, containerDebug (taggable env rc P) name.toList fmtE b spec s = .ret (out, false) (s'.log es)) ∧
      (∀ (k : PanicKind) (s' : State), fmtE x {} s = .panic k s' →
        containerDebug (taggable env rc P) name.toList fmtE b spec s = .panic k (s'.log es))) ∧
    (hd = false ∨ x.payload ≠ .unit →
      containerDebug (taggable env rc P) name.toList fmtE b {} s = derivedDebug name.toList "value".toList (fmtE x) {} s) := by
  obtain ⟨es, hp, _, h2⟩ := stores_presents hc hst
  have run : ∀ spec, TBox.debugFmt (taggable env rc P) (fun e sp' out => do let r ← fmtE e sp'; pure (out ++ r.1, r.2)) b spec [] s =
      M.cleanup es (fmtE x {}) s := by
    intro spec
    simp only [TBox.debugFmt, M.bind_def, hp _ _]
    unfold M.cleanup
    simp only [M.bind_def]
    cases fmtE x {} s <;> rfl
  have fin : ∀ spec, containerDebug (taggable env rc P) name.toList fmtE b spec s =
      derivedDebug name.toList "value".toList (fun _ => M.cleanup es (fmtE x {})) spec s := by
    intro spec
    simp only [containerDebug, derivedDebug, M.bind_def, run]
  refine ⟨⟨es, h2, fun spec => ⟨fun text s' h => ?_, fun text s' h => ?_, fun k s' h => ?_⟩⟩, fun h => ?_⟩
  · rw [fin]
    simp only [derivedDebug, M.bind_def, M.cleanup, h, containerText]
    cases spec.alternate <;> simp [String.toList_append] <;> rfl
  · rw [fin]
    simp only [derivedDebug, M.bind_def, M.cleanup, h]
    cases spec.alternate <;> exact ⟨_, rfl⟩
  · rw [fin]
    simp only [derivedDebug, M.bind_def, M.cleanup, h]
  · rw [fin, h2 h]
    simp only [derivedDebug, M.bind_def, M.cleanup]
    cases fmtE x {} s <;> simp only [log_nil]

/-- An enum that prints itself over two lines with `#` and in one without. -/
def prettyDemo : EVal → FmtSpec → M (List Char × Bool) := fun _ spec =>
  pure (if spec.alternate then "Tag(\n)".toList else "Tag".toList, true)

/-- The texts: `Container { value: Tag }`, and with `#` the enum in its short form. -/
example : containerText "Container" "Tag" false = "Container { value: Tag }" ∧
    containerText "Container" "Tag" true = "Container {\n    value: Tag,\n}" := by decide +kernel

/-- **C68 does not hold**: with `{:#?}` the enum is not asked for its `#` form. -/
theorem C68_refuted (debug : Bool) : ¬ C68_Statement (env60 debug) rcDemo declMix progMix := by
  intro h
  obtain ⟨b, s, _, hs⟩ := demo_stores debug
  have h1 := h "C".toList prettyDemo s b 0 _ hs { alternate := true }
  obtain ⟨⟨es, h0, h2⟩, _⟩ := C68_partial (mix_compiled debug) hs "C" prettyDemo
  rw [((h2 { alternate := true }).1 "Tag" s rfl), h0 (.inl rfl)] at h1
  have h3 : (containerText "C" "Tag" true).toList = "C {\n    value: Tag(\n    ),\n}".toList := by
    injection h1 with h4
    exact congrArg Prod.fst h4
  revert h3
  decide +kernel

end TB.Props

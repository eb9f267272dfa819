import Verif.Lemmas.Tasks
import Verif.Props.Build

/-!
# The tasks that test the settings, run from the text of `Makefile.toml` (C98)
-/

set_option autoImplicit false

namespace TB.Props

open TB TB.Rust TB.Spec
open TB.Rust.Tasks (Task makeTask runTask)

/-! ## C98 -/

/-- **C98.** The scripts of `cargo make test-all` and `cargo make miri-all`, run from their text. Whatever was done before (`ops`), and whatever the outcome of each run of the tests (`pass`, of everything done until then): they
set the variable to each of the ten settings `48bits` to `57bits` and run the tests once each (`miri-all` runs `cargo clean` first), and exit with 0 if all ten runs passed, otherwise with 101; the last they print is how many passed,
how many failed, and which. (`showStatus`: how a status is printed.) -/
theorem C98 (showStatus : Bool → List Char) (pass : List BuildOp → Bool) (ops : List BuildOp) : ∃ test miri, makeTask "test-all" = some test ∧ makeTask "miri-all" = some miri ∧
    (∃ out, runTask showStatus pass test ops = some (if failedIn pass ops makeFeatures = [] then 0 else 101,
      ⟨ops ++ roundsOf makeFeatures, out ++ summary "all tests" "Testing" 10 (failedIn pass ops makeFeatures)⟩)) ∧
    (∃ out, runTask showStatus pass miri ops = some (if failedIn pass (ops ++ [.clean]) makeFeatures = [] then 0 else 101,
      ⟨ops ++ [.clean] ++ roundsOf makeFeatures, out ++ summary "miri" "Miri" 10 (failedIn pass (ops ++ [.clean]) makeFeatures)⟩)) :=
  ⟨_, _, Tasks.test_source, Tasks.miri_source,
    Tasks.task_run showStatus pass ops rfl rfl (Tasks.test_start showStatus pass _) (Tasks.test_round showStatus pass) (Tasks.test_report_none showStatus pass) (Tasks.test_report_some showStatus pass),
    Tasks.task_run showStatus pass ops rfl rfl (Tasks.miri_start showStatus pass _) (Tasks.miri_round showStatus pass) (Tasks.miri_report_none showStatus pass) (Tasks.miri_report_some showStatus pass)⟩

/-- If all rounds have the same outcome. -/
theorem failed_same {pass : List BuildOp → Bool} {p : Bool} : ∀ (fs : List String) (ops : List BuildOp), (∀ k, 0 < k → k ≤ fs.length → pass (ops ++ roundsOf (fs.take k)) = p) →
    failedIn pass ops fs = if p then [] else fs := by
  intro fs
  induction fs with
  | nil => intro ops _; cases p <;> rfl
  | cons f fs ih =>
    intro ops h
    have h0 : pass (ops ++ [.setEnv (.ok f), .build]) = p := by simpa [roundsOf] using h 1 (by omega) (by simp)
    have h1 := ih (ops ++ [.setEnv (.ok f), .build]) (fun k hk hl => by simpa [roundsOf] using h (k + 1) (by omega) (by simpa using hl))
    rw [failedIn]
    simp only [h0, h1]
    cases p <;> rfl

section
variable (showStatus : Bool → List Char) (ok : List Config → Bool) (e : EnvVar) (ops : List BuildOp) (ho : OneLiners e ops) {test miri : Task}

include ho in
/-- **C98**, all or nothing. Let the tests be deterministic: the outcome depends on the setting the crate was built with (`ok`). As a build does not notice that the variable has changed (C69), `test-all` reports either that all ten settings passed
or that all ten failed, according to the outcome in one setting: that of its first build; `miri-all` according to the outcome for `48bits`. -/
theorem C98_same (ht : makeTask "test-all" = some test) (hm : makeTask "miri-all" = some miri) :
    (∃ out, runTask showStatus (fun h => ok (buildRun e h).2) test ops =
      if ok (buildRun e (ops ++ [.setEnv (.ok "48bits"), .build])).2 then some (0, ⟨ops ++ roundsOf makeFeatures, out ++ summary "all tests" "Testing" 10 []⟩)
      else some (101, ⟨ops ++ roundsOf makeFeatures, out ++ summary "all tests" "Testing" 10 makeFeatures⟩)) ∧
    (∃ out rows, BuiltFor (.ok "48bits") rows ∧ runTask showStatus (fun h => ok (buildRun e h).2) miri ops =
      if ok rows then some (0, ⟨ops ++ [.clean] ++ roundsOf makeFeatures, out ++ summary "miri" "Miri" 10 []⟩)
      else some (101, ⟨ops ++ [.clean] ++ roundsOf makeFeatures, out ++ summary "miri" "Miri" 10 makeFeatures⟩)) := by
  obtain ⟨t, m, ht', hm', ⟨o1, h1⟩, ⟨o2, h2⟩⟩ := C98 showStatus (fun h => ok (buildRun e h).2) ops
  rw [ht] at ht'; cases ht'
  rw [hm] at hm'; cases hm'
  obtain ⟨k1, _, k3⟩ := C69_make_tasks e ops ho
  have f1 := failed_same (pass := fun h => ok (buildRun e h).2) (p := ok (buildRun e (ops ++ [.setEnv (.ok "48bits"), .build])).2) makeFeatures ops
    (fun k hk _ => by
      show ok (buildRun e (ops ++ makeRounds k)).2 = ok (buildRun e (ops ++ makeRounds 1)).2
      rw [k1 k hk])
  have hc : OneLiners e (ops ++ [.clean]) := ⟨ho.1, fun e' he => ho.2 e' (by simpa using he)⟩
  have f2 := failed_same (pass := fun h => ok (buildRun e h).2) (p := ok (buildRun e (ops ++ miriRounds 1)).2) makeFeatures (ops ++ [.clean])
    (fun k hk _ => by
      have := (C69_make_tasks e (ops ++ [.clean]) hc).1 k hk
      have h' : ops ++ [.clean] ++ makeRounds 1 = ops ++ miriRounds 1 := by simp [miriRounds]
      rw [h'] at this
      exact congrArg ok this)
  refine ⟨⟨o1, ?_⟩, o2, _, k3 1 (by omega), ?_⟩
  · rw [h1, f1]
    split <;> simp [makeFeatures]
  · rw [h2, f2]
    split <;> simp [makeFeatures]

include ho in
/-- **C98**, after a build. If the package has been built and no file has changed since, `test-all` tests the setting of that build only. -/
theorem C98_built (ht : makeTask "test-all" = some test) (later : List BuildOp) (hl : Untouched later) :
    ∃ out, runTask showStatus (fun h => ok (buildRun e h).2) test (ops ++ [.build] ++ later) =
      if ok (buildRun e (ops ++ [.build])).2 then some (0, ⟨ops ++ [.build] ++ later ++ roundsOf makeFeatures, out ++ summary "all tests" "Testing" 10 []⟩)
      else some (101, ⟨ops ++ [.build] ++ later ++ roundsOf makeFeatures, out ++ summary "all tests" "Testing" 10 makeFeatures⟩) := by
  obtain ⟨t, m, ht', _, ⟨o1, h1⟩, _⟩ := C98 showStatus (fun h => ok (buildRun e h).2) (ops ++ [.build] ++ later)
  rw [ht] at ht'; cases ht'
  have f1 := failed_same (pass := fun h => ok (buildRun e h).2) (p := ok (buildRun e (ops ++ [.build])).2) makeFeatures (ops ++ [.build] ++ later)
    (fun k _ _ => congrArg ok ((C69_make_tasks e ops ho).2.1 later k hl))
  refine ⟨o1, ?_⟩
  rw [h1, f1]
  split <;> simp [makeFeatures]

/-- **C98**, what the tasks are for. They do not tell whether the tests pass in the settings they list: there are outcomes for which `test-all`, in a fresh checkout, exits with 0 although the tests fail in nine of the ten; and some
for which, after a build in another setting, it exits with 101 although the tests pass in all ten. -/
theorem C98_misses (ht : makeTask "test-all" = some test) :
    (∃ ok : List Config → Bool, (∃ w, runTask showStatus (fun h => ok (buildRun .notPresent h).2) test [] = some (0, w)) ∧
      ∀ f ∈ makeFeatures, f ≠ "48bits" → ∀ rows, BuiltFor (.ok f) rows → ok rows = false) ∧
    (∃ ok : List Config → Bool, (∃ w, runTask showStatus (fun h => ok (buildRun .notPresent h).2) test [.setEnv (.ok "63bits"), .build] = some (101, w)) ∧
      ∀ f ∈ makeFeatures, ∀ rows, BuiltFor (.ok f) rows → ok rows = true) := by
  have hone : OneLiners .notPresent [] := ⟨trivial, fun _ h => by cases h⟩
  have hone' : OneLiners .notPresent [.setEnv (.ok "63bits")] := ⟨trivial, fun e' h => by
    cases List.mem_singleton.1 h
    show '\n' ∉ "63bits".toList
    decide⟩
  refine ⟨⟨fun rows => rows.all fun c => c.POINTER_WIDTH == 48, ?_, ?_⟩, ⟨fun rows => rows.all fun c => c.POINTER_WIDTH != 63, ?_, ?_⟩⟩
  · obtain ⟨out, h⟩ := (C98_same showStatus (fun rows => rows.all fun c => c.POINTER_WIDTH == 48) .notPresent [] hone ht Tasks.miri_source).1
    rw [if_pos (by decide)] at h
    exact ⟨_, h⟩
  · rintro f hf hne rows ⟨c, rfl, hw⟩
    have : ∀ f ∈ makeFeatures, f ≠ "48bits" → expectedWidth (.ok f) ≠ 48 := by decide
    have := this f hf hne
    rw [← hw] at this
    simp [this]
  · obtain ⟨out, h⟩ := C98_built showStatus (fun rows => rows.all fun c => c.POINTER_WIDTH != 63) .notPresent [.setEnv (.ok "63bits")] hone' ht [] (fun _ h => by cases h)
    rw [if_neg (by decide)] at h
    exact ⟨_, h⟩
  · rintro f hf rows ⟨c, rfl, hw⟩
    have : ∀ f ∈ makeFeatures, expectedWidth (.ok f) ≠ 63 := by decide
    have := this f hf
    rw [← hw] at this
    simp [this]

end

/-- A run in which the tests fail for `50bits` and `51bits` only, if the outcomes were those of the settings: the report would name these. -/
example : failedIn (fun h => !(h.contains (.setEnv (.ok "50bits")) && !h.contains (.setEnv (.ok "52bits")))) [] makeFeatures = ["50bits", "51bits"] ∧
    (summary "all tests" "Testing" 10 ["50bits", "51bits"] = "8 features passed all tests, 2 failed\nTesting failed on the following features: 50bits, 51bits\n".toList) := by
  refine ⟨by decide, by decide⟩

end TB.Props

import Verif.Source.Tasks
import Verif.Spec.Tasks

/-! # Running the tasks of `Makefile.toml` (helper lemmas; no property theorems here) -/

set_option autoImplicit false

namespace TB.Rust.Tasks

open TB.Rust TB.Spec

variable (show' : Bool → List Char) (pass : List BuildOp → Bool)

/-- The variables. -/
def env3 (ss fs : List (List Char)) (l : List (List Char)) : List (String × TV) := [("failures", .strs fs), ("successes", .strs ss), ("features", .strs l)]

/-- What a round does to the world. -/
def afterRound (line : List Char → List Char → List Char) (f : List Char) (w : TWorld) : TWorld :=
  ⟨w.ops ++ [.setEnv (.ok (String.ofList f))] ++ [.build], w.out ++ (line f (show' (pass (w.ops ++ [.setEnv (.ok (String.ofList f))] ++ [.build]))) ++ ['\n'])⟩

/-- How a round ends. -/
theorem last_run (b : Bool) (f : List Char) (ss fs l : List (List Char)) (w : TWorld) :
    tstmts show' pass 57 [.tail (.ite (.method (.field (v "output") "status") "success" [] []) (pushE "successes" "feature") (some (pushE "failures" "feature")))]
      (("output", .output b) :: ("feature", .str f) :: env3 ss fs l) w =
      .ret () (("output", .output b) :: ("feature", .str f) :: env3 (if b then ss ++ [f] else ss) (if b then fs else fs ++ [f]) l) w := by
  cases b <;> rfl

def testLine (f t : List Char) : List Char := "Finished testing with feature `".toList ++ (f ++ ("`, status: ".toList ++ (t ++ [])))
def miriLine (f t : List Char) : List Char := "Finished miri with feature `".toList ++ (f ++ ("`, status: ".toList ++ (t ++ [])))

theorem test_round (f : List Char) (ss fs l : List (List Char)) (w : TWorld) :
    tstmts show' pass 60 testAll.body (("feature", .str f) :: env3 ss fs l) w =
      let b := pass (w.ops ++ [.setEnv (.ok (String.ofList f))] ++ [.build])
      .ret () (("output", .output b) :: ("feature", .str f) :: env3 (if b then ss ++ [f] else ss) (if b then fs else fs ++ [f]) l) (afterRound show' pass testLine f w) := by
  refine Eq.trans ?_ (last_run show' pass (pass (w.ops ++ [.setEnv (.ok (String.ofList f))] ++ [.build])) f ss fs l (afterRound show' pass testLine f w))
  rfl

theorem miri_round (f : List Char) (ss fs l : List (List Char)) (w : TWorld) :
    tstmts show' pass 60 miriAll.body (("feature", .str f) :: env3 ss fs l) w =
      let b := pass (w.ops ++ [.setEnv (.ok (String.ofList f))] ++ [.build])
      .ret () (("output", .output b) :: ("feature", .str f) :: env3 (if b then ss ++ [f] else ss) (if b then fs else fs ++ [f]) l) (afterRound show' pass miriLine f w) := by
  refine Eq.trans ?_ (last_run show' pass (pass (w.ops ++ [.setEnv (.ok (String.ofList f))] ++ [.build])) f ss fs l (afterRound show' pass miriLine f w))
  rfl

/-- The settings whose round passed. -/
def passedIn (pass : List BuildOp → Bool) : List BuildOp → List String → List String
  | _, [] => []
  | ops, f :: fs =>
    let h := ops ++ [.setEnv (.ok f), .build]
    if pass h then f :: passedIn pass h fs else passedIn pass h fs

theorem passed_length (ops : List BuildOp) (fs : List String) : (passedIn pass ops fs).length = fs.length - (failedIn pass ops fs).length := by
  have h : ∀ (fs : List String) ops, (passedIn pass ops fs).length + (failedIn pass ops fs).length = fs.length := by
    intro fs
    induction fs with
    | nil => intro ops; rfl
    | cons f fs ih =>
      intro ops
      have := ih (ops ++ [.setEnv (.ok f), .build])
      simp only [passedIn, failedIn]
      split <;> simp only [List.length_cons] <;> omega
  have := h fs ops
  omega

/-- The loop. -/
theorem loop_run {x : String} {body : List Stmt} {line : List Char → List Char → List Char} {l : List (List Char)}
    (hb : ∀ (f : List Char) (ss fs : List (List Char)) (w : TWorld), tstmts show' pass 60 body ((x, .str f) :: env3 ss fs l) w =
      let b := pass (w.ops ++ [.setEnv (.ok (String.ofList f))] ++ [.build])
      .ret () (("output", .output b) :: ("feature", .str f) :: env3 (if b then ss ++ [f] else ss) (if b then fs else fs ++ [f]) l) (afterRound show' pass line f w)) :
    ∀ (feats : List String) (ss ff : List (List Char)) (w : TWorld), ∃ out, trounds show' pass x body (feats.map String.toList) (env3 ss ff l) w =
      .ret () (env3 (ss ++ (passedIn pass w.ops feats).map String.toList) (ff ++ (failedIn pass w.ops feats).map String.toList) l) ⟨w.ops ++ roundsOf feats, out⟩ := by
  intro feats
  induction feats with
  | nil => exact fun ss ff w => ⟨w.out, by simp [trounds, passedIn, failedIn, roundsOf]⟩
  | cons f fs ih =>
    intro ss ff w
    simp only [List.map_cons, trounds, hb, TOut.bind]
    have hops : w.ops ++ [.setEnv (.ok (String.ofList f.toList))] ++ [.build] = w.ops ++ [.setEnv (.ok f), .build] := by simp
    have hw : (afterRound show' pass line f.toList w).ops = w.ops ++ [.setEnv (.ok f), .build] := hops
    obtain ⟨out, ho⟩ := ih (if pass (w.ops ++ [.setEnv (.ok f), .build]) then ss ++ [f.toList] else ss) (if pass (w.ops ++ [.setEnv (.ok f), .build]) then ff else ff ++ [f.toList])
      (afterRound show' pass line f.toList w)
    refine ⟨out, ?_⟩
    rw [hops]
    refine Eq.trans (b := trounds show' pass x body (fs.map String.toList) (env3 _ _ l) (afterRound show' pass line f.toList w)) rfl (ho.trans ?_)
    rw [hw]
    simp only [passedIn, failedIn, roundsOf, List.flatMap_cons, List.append_assoc]
    split <;> simp

/-! The reports. -/

theorem test_report_none (ss l : List (List Char)) (w : TWorld) : tstmts show' pass 60 testAll.post (env3 ss [] l) w =
    .ret () (env3 ss [] l) ⟨w.ops, w.out ++ (((toString ss.length).toList ++ (" features passed all tests, ".toList ++ ((toString 0).toList ++ " failed".toList))) ++ ['\n'])⟩ := rfl

theorem test_report_some (ss l : List (List Char)) (f : List Char) (fs : List (List Char)) (w : TWorld) : tstmts show' pass 60 testAll.post (env3 ss (f :: fs) l) w =
    .exit 101 ⟨w.ops, w.out ++ (((toString ss.length).toList ++ (" features passed all tests, ".toList ++ ((toString (f :: fs).length).toList ++ " failed".toList))) ++ ['\n']) ++
      (("Testing failed on the following features: ".toList ++ (List.intercalate ", ".toList (f :: fs) ++ [])) ++ ['\n'])⟩ := rfl

theorem miri_report_none (ss l : List (List Char)) (w : TWorld) : tstmts show' pass 60 miriAll.post (env3 ss [] l) w =
    .ret () (env3 ss [] l) ⟨w.ops, w.out ++ (((toString ss.length).toList ++ (" features passed miri, ".toList ++ ((toString 0).toList ++ " failed".toList))) ++ ['\n'])⟩ := rfl

theorem miri_report_some (ss l : List (List Char)) (f : List Char) (fs : List (List Char)) (w : TWorld) : tstmts show' pass 60 miriAll.post (env3 ss (f :: fs) l) w =
    .exit 101 ⟨w.ops, w.out ++ (((toString ss.length).toList ++ (" features passed miri, ".toList ++ ((toString (f :: fs).length).toList ++ " failed".toList))) ++ ['\n']) ++
      (("Miri failed on the following features: ".toList ++ (List.intercalate ", ".toList (f :: fs) ++ [])) ++ ['\n'])⟩ := rfl

/-- The beginnings. -/
theorem test_start (w : TWorld) : tstmts show' pass 60 testAll.pre [] w = .ret () (env3 [] [] (makeFeatures.map String.toList)) w := rfl

theorem miri_start (w : TWorld) : tstmts show' pass 60 miriAll.pre [] w = .ret () (env3 [] [] (makeFeatures.map String.toList)) { w with ops := w.ops ++ [.clean] } := rfl

/-- The whole task. -/
theorem task_run {t : Task} {ok bad : String} {line : List Char → List Char → List Char} {ops' : List BuildOp} (ops : List BuildOp)
    (hx : t.x = "feature") (hxs : t.xs = "features")
    (hpre : tstmts show' pass 60 t.pre [] ⟨ops, []⟩ = .ret () (env3 [] [] (makeFeatures.map String.toList)) ⟨ops', []⟩)
    (hb : ∀ (f : List Char) (ss fs l : List (List Char)) (w : TWorld), tstmts show' pass 60 t.body (("feature", .str f) :: env3 ss fs l) w =
      let b := pass (w.ops ++ [.setEnv (.ok (String.ofList f))] ++ [.build])
      .ret () (("output", .output b) :: ("feature", .str f) :: env3 (if b then ss ++ [f] else ss) (if b then fs else fs ++ [f]) l) (afterRound show' pass line f w))
    (h0 : ∀ (ss l : List (List Char)) (w : TWorld), tstmts show' pass 60 t.post (env3 ss [] l) w =
      .ret () (env3 ss [] l) ⟨w.ops, w.out ++ (((toString ss.length).toList ++ (" features passed ".toList ++ (ok.toList ++ (", ".toList ++ ((toString 0).toList ++ " failed".toList))))) ++ ['\n'])⟩)
    (h1 : ∀ (ss l : List (List Char)) (f : List Char) (fs : List (List Char)) (w : TWorld), tstmts show' pass 60 t.post (env3 ss (f :: fs) l) w =
      .exit 101 ⟨w.ops, w.out ++ (((toString ss.length).toList ++ (" features passed ".toList ++ (ok.toList ++ (", ".toList ++ ((toString (f :: fs).length).toList ++ " failed".toList))))) ++ ['\n']) ++
        ((bad.toList ++ (" failed on the following features: ".toList ++ (List.intercalate ", ".toList (f :: fs) ++ []))) ++ ['\n'])⟩) :
    ∃ out, runTask show' pass t ops = some (if failedIn pass ops' makeFeatures = [] then 0 else 101,
      ⟨ops' ++ roundsOf makeFeatures, out ++ summary ok bad 10 (failedIn pass ops' makeFeatures)⟩) := by
  obtain ⟨out, ho⟩ := loop_run show' pass (fun f ss fs w => hb f ss fs (makeFeatures.map String.toList) w) makeFeatures [] [] ⟨ops', []⟩
  refine ⟨out, ?_⟩
  have hl := passed_length pass ops' makeFeatures
  have hlook : (env3 [] [] (makeFeatures.map String.toList)).lookup "features" = some (.strs (makeFeatures.map String.toList)) := rfl
  rw [runTask, hpre, hx, hxs]
  simp only [TOut.bind, hlook, ho, List.nil_append]
  cases hf : failedIn pass ops' makeFeatures with
  | nil =>
    rw [hf] at hl
    rw [List.map_nil, h0]
    simp only [List.length_map, hl, if_true, summary, List.append_nil, List.length_nil]
    simp [makeFeatures]
  | cons f fs =>
    rw [hf] at hl
    rw [List.map_cons, h1]
    simp only [List.length_map, hl, summary, List.length_cons, reduceCtorEq, if_false]
    simp [makeFeatures]

end TB.Rust.Tasks

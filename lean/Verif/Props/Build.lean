import Verif.Build
import Verif.Props.Pointer

/-!
# Properties of repeated builds
-/

set_option autoImplicit false

namespace TB.Props

/-! ## C69 -/

/-- The variable after the operations. -/
def envAfter (e : EnvVar) : List BuildOp → EnvVar
  | [] => e
  | .setEnv e' :: ops => envAfter e' ops
  | _ :: ops => envAfter e ops

/-- The rows for a value of the variable. -/
def rowsFor (e : EnvVar) : List Config := activeRows (buildLines e)

/-- The crate was compiled, with the width documented for this value of the variable. -/
def BuiltFor (e : EnvVar) (rows : List Config) : Prop := ∃ c, rows = [c] ∧ c.POINTER_WIDTH = expectedWidth e

/-- The claim ("this can be changed by setting `TAGGED_BOX_RESERVED_WIDTH`", `README.md`): whatever was done before, a build uses the
setting of the variable at the time of the build. -/
def C69_Statement : Prop := ∀ (e : EnvVar) (ops : List BuildOp), BuiltFor (envAfter e ops) (buildRun e (ops ++ [.build])).2

/-- The variable never holds a line feed. -/
def OneLiners (e : EnvVar) (ops : List BuildOp) : Prop := e.OneLine ∧ ∀ e', .setEnv e' ∈ ops → e'.OneLine

/-- No build, edit or clean. -/
def OnlySets (ops : List BuildOp) : Prop := ∀ op ∈ ops, ∃ e, op = .setEnv e

/-- No edit or clean. -/
def Untouched (ops : List BuildOp) : Prop := ∀ op ∈ ops, op = .build ∨ ∃ e, op = .setEnv e

theorem envAfter_append (e : EnvVar) (xs ys : List BuildOp) : envAfter e (xs ++ ys) = envAfter (envAfter e xs) ys := by
  induction xs generalizing e with
  | nil => rfl
  | cons x xs ih => cases x <;> simp only [List.cons_append, envAfter, ih]

theorem envAfter_oneLine {ops : List BuildOp} : ∀ {e : EnvVar}, OneLiners e ops → (envAfter e ops).OneLine := by
  induction ops with
  | nil => exact fun h => h.1
  | cons op ops ih =>
    intro e h
    have h2 : ∀ e', BuildOp.setEnv e' ∈ ops → e'.OneLine := fun e' he => h.2 e' (List.mem_cons_of_mem _ he)
    cases op with
    | setEnv e' => exact ih ⟨h.2 e' List.mem_cons_self, h2⟩
    | edit => exact ih ⟨h.1, h2⟩
    | clean => exact ih ⟨h.1, h2⟩
    | build => exact ih ⟨h.1, h2⟩

theorem OneLiners.left {e : EnvVar} {xs ys : List BuildOp} (h : OneLiners e (xs ++ ys)) : OneLiners e xs :=
  ⟨h.1, fun e' he => h.2 e' (List.mem_append_left _ he)⟩

theorem buildLines_noRerun {e : EnvVar} (h : e.OneLine) : (buildLines e).any BuildLine.isRerun = false := by
  by_cases hd : ∃ s, e = .ok s ∧ documentedWidths.lookup s = none
  · obtain ⟨s, rfl, hs⟩ := hd
    rw [(C08_partial _ h).2 s rfl hs]
    rfl
  · cases e with
    | notPresent => rfl
    | notUnicode => rfl
    | ok s =>
      have hs : ¬ documentedWidths.lookup s = none := fun hs => hd ⟨s, rfl, hs⟩
      rw [List.lookup_eq_none_iff] at hs
      simp only [documentedWidths, List.forall_mem_cons, bne_iff_ne, ne_eq, List.not_mem_nil, false_implies, implies_true, and_true, Classical.not_and_iff_not_or_not,
        Classical.not_not] at hs
      rcases hs with rfl | rfl | rfl | rfl | rfl | rfl | rfl | rfl | rfl | rfl | rfl | rfl | rfl | rfl | rfl | rfl <;> rfl

theorem buildRun_snoc (e : EnvVar) (ops : List BuildOp) (op : BuildOp) : buildRun e (ops ++ [op]) = buildStep (buildRun e ops) op := by
  simp only [buildRun, buildRunBy, List.foldl_append, List.foldl_cons, List.foldl_nil]

/-- What is cached is what the script printed. -/
def CacheOK (st : Workspace × List Config) : Prop := ∀ c, st.1.cache = some c → c.lines = buildLines c.env ∧ c.env.OneLine ∧ c.files ≤ st.1.files

theorem buildStep_cache {st : Workspace × List Config} (h : CacheOK st) (he : st.1.env.OneLine) (op : BuildOp) : CacheOK (buildStep st op) := by
  obtain ⟨w, r⟩ := st
  cases op with
  | setEnv e' => exact h
  | edit => exact fun c hc => ⟨(h c hc).1, (h c hc).2.1, Nat.le_succ_of_le (h c hc).2.2⟩
  | clean => intro c hc; cases hc
  | build =>
    intro c hc
    simp only [buildStepBy, Workspace.buildBy, Option.some.injEq] at hc
    by_cases hs : w.stale = true
    · rw [if_pos hs] at hc; subst hc; exact ⟨rfl, he, Nat.le_refl _⟩
    · rw [if_neg hs] at hc
      cases hw : w.cache with
      | none => simp [Workspace.stale, hw] at hs
      | some c' => rw [hw] at hc; cases hc; exact h c' hw

theorem buildStep_env (st : Workspace × List Config) (op : BuildOp) : (buildStep st op).1.env = envAfter st.1.env [op] := by
  cases op <;> rfl

/-- Invariant: the environment is the current one, and what is cached is what the script printed. -/
theorem run_inv (e : EnvVar) (ops : List BuildOp) (ho : OneLiners e ops) : (buildRun e ops).1.env = envAfter e ops ∧ CacheOK (buildRun e ops) := by
  suffices H : ∀ rev : List BuildOp, OneLiners e rev.reverse → (buildRun e rev.reverse).1.env = envAfter e rev.reverse ∧ CacheOK (buildRun e rev.reverse) by
    have := H ops.reverse
    rw [List.reverse_reverse] at this
    exact this ho
  intro rev
  induction rev with
  | nil => exact fun _ => ⟨rfl, fun c h => by cases h⟩
  | cons op rev ih =>
    intro ho
    rw [List.reverse_cons] at ho
    have ih := ih ho.left
    rw [List.reverse_cons, buildRun_snoc, envAfter_append]
    exact ⟨by rw [buildStep_env, ih.1], buildStep_cache ih.2 (by rw [ih.1]; exact envAfter_oneLine ho.left) op⟩

theorem sets_run : ∀ (mid : List BuildOp) (st : Workspace × List Config), OnlySets mid →
    mid.foldl buildStep st = (⟨st.1.files, envAfter st.1.env mid, st.1.cache⟩, st.2)
  | [], _, _ => rfl
  | op :: mid, st, hm => by
    obtain ⟨e', rfl⟩ := hm op List.mem_cons_self
    rw [List.foldl_cons, sets_run mid _ fun x hx => hm x (List.mem_cons_of_mem _ hx)]
    rfl

/-- A build right after the files changed, after `cargo clean`, or as the first one, runs the script. -/
theorem build_fresh (e : EnvVar) (pre mid : List BuildOp) (ho : OneLiners e pre) (hmid : OnlySets mid)
    (h : pre = [] ∨ ∃ pre' op, (op = .edit ∨ op = .clean) ∧ pre = pre' ++ [op]) :
    ∃ files, buildRun e (pre ++ mid ++ [.build]) =
      (⟨files, envAfter e (pre ++ mid), some ⟨files, envAfter e (pre ++ mid), buildLines (envAfter e (pre ++ mid))⟩⟩,
        rowsFor (envAfter e (pre ++ mid))) := by
  have key : ∀ w : Workspace, w.stale = true → w.build = (⟨w.files, w.env, some ⟨w.files, w.env, buildLines w.env⟩⟩, rowsFor w.env) := by
    intro w hw
    simp only [Workspace.build, Workspace.buildBy, hw, if_true, rowsFor]
  have e1 : buildRun e (pre ++ mid) = (⟨(buildRun e pre).1.files, envAfter e (pre ++ mid), (buildRun e pre).1.cache⟩, (buildRun e pre).2) := by
    rw [envAfter_append, ← (run_inv e pre ho).1, ← sets_run mid _ hmid]
    simp only [buildRun, buildRunBy, List.foldl_append]
  rw [buildRun_snoc, e1]
  refine ⟨(buildRun e pre).1.files, key ⟨(buildRun e pre).1.files, envAfter e (pre ++ mid), (buildRun e pre).1.cache⟩ ?_⟩
  rcases h with rfl | ⟨pre', op, hop, rfl⟩
  · rfl
  · have hi := (run_inv e pre' ho.left).2
    rw [buildRun_snoc]
    generalize buildRun e pre' = st at *
    obtain ⟨w, r⟩ := st
    rcases hop with rfl | rfl
    · show Workspace.stale ⟨w.files + 1, _, w.cache⟩ = true
      unfold Workspace.stale
      cases hc : w.cache with
      | none => rfl
      | some c =>
        obtain ⟨h3, h5, h4⟩ := hi c hc
        simp only [h3, buildLines_noRerun h5, Bool.false_eq_true, if_false, Bool.not_eq_true', decide_eq_false_iff_not]
        simp only at h4
        omega
    · rfl

/-- The rows a history ends up with. -/
theorem build_rows (e : EnvVar) (pre mid later : List BuildOp) (ho : OneLiners e (pre ++ mid)) (hmid : OnlySets mid) (hlater : Untouched later)
    (h : pre = [] ∨ ∃ pre' op, (op = .edit ∨ op = .clean) ∧ pre = pre' ++ [op]) :
    (buildRun e (pre ++ mid ++ [.build] ++ later)).2 = rowsFor (envAfter e (pre ++ mid)) := by
  obtain ⟨w, hw⟩ := build_fresh e pre mid ho.left hmid h
  have stay : ∀ (later : List BuildOp), Untouched later → ∀ (w : Workspace) (c : Cached), w.cache = some c → c.files = w.files →
      c.lines = buildLines c.env → c.env.OneLine → (later.foldl buildStep (w, activeRows c.lines)).2 = activeRows c.lines := by
    intro later
    induction later with
    | nil => intros; rfl
    | cons op later ih =>
      intro hl w c h1 h2 h3 h4
      have hl' : Untouched later := fun x hx => hl x (List.mem_cons_of_mem _ hx)
      rcases hl op List.mem_cons_self with rfl | ⟨e', rfl⟩
      · have hs : w.stale = false := by
          simp only [Workspace.stale, h1, h3, buildLines_noRerun h4, Bool.false_eq_true, if_false, h2, decide_true, Bool.not_true]
        have hb : w.build = ({ w with cache := some c }, activeRows c.lines) := by
          simp only [Workspace.build, Workspace.buildBy, hs, Bool.false_eq_true, if_false, h1, Option.getD_some]
        rw [List.foldl_cons]
        show (List.foldl buildStep w.build later).2 = _
        rw [hb]
        exact ih hl' _ c rfl h2 h3 h4
      · exact ih hl' _ c h1 h2 h3 h4
  have : buildRun e (pre ++ mid ++ [.build] ++ later) = later.foldl buildStep (buildRun e (pre ++ mid ++ [.build])) := by
    simp only [buildRun, buildRunBy, List.foldl_append]
  rw [this, hw]
  exact stay later hlater _ ⟨w, envAfter e (pre ++ mid), buildLines (envAfter e (pre ++ mid))⟩ rfl rfl rfl (envAfter_oneLine ho)

/-- **C69**, exactly which setting a build uses: the one of the variable at the *first* build after the fresh checkout, the last change of
the package's files or the last `cargo clean`, however the variable is set and however often one builds afterwards. The claim
thus holds for that first build (`later = []`). Whatever happens, exactly one row is active. Missing: later builds with another value of
the variable (`C69_refuted`); values with line feeds (`C08_refuted`). Every history is covered (`C69_covers`). -/
theorem C69_partial (e : EnvVar) (pre mid later : List BuildOp) (ho : OneLiners e (pre ++ mid)) (hmid : OnlySets mid) (hlater : Untouched later)
    (h : pre = [] ∨ ∃ pre' op, (op = .edit ∨ op = .clean) ∧ pre = pre' ++ [op]) :
    BuiltFor (envAfter e (pre ++ mid)) (buildRun e (pre ++ mid ++ [.build] ++ later)).2 := by
  rw [build_rows e pre mid later ho hmid hlater h]
  exact (C08_partial _ (envAfter_oneLine ho)).1.1

/-- Every history that ends with a build is of the form `C69_partial` speaks about. -/
theorem C69_covers (ops : List BuildOp) : ∃ pre mid later : List BuildOp, OnlySets mid ∧ Untouched later ∧
    (pre = [] ∨ ∃ pre' op, (op = .edit ∨ op = .clean) ∧ pre = pre' ++ [op]) ∧ ops ++ [.build] = pre ++ mid ++ [.build] ++ later := by
  suffices H : ∀ rev : List BuildOp, ∃ pre mid : List BuildOp, ∃ later : Option (List BuildOp), OnlySets mid ∧
      Untouched (later.getD []) ∧ (pre = [] ∨ ∃ pre' op, (op = .edit ∨ op = .clean) ∧ pre = pre' ++ [op]) ∧
      rev.reverse = pre ++ mid ++ (later.map fun l => BuildOp.build :: l).getD [] by
    obtain ⟨pre, mid, later, h1, h2, h3, h4⟩ := H ops.reverse
    rw [List.reverse_reverse] at h4
    cases later with
    | none => exact ⟨pre, mid, [], h1, (fun _ h => by cases h), h3, by simp [h4]⟩
    | some l =>
      refine ⟨pre, mid, l ++ [.build], h1, ?_, h3, by simp [h4]⟩
      intro op h
      rcases List.mem_append.1 h with h | h
      · exact h2 op h
      · exact .inl (List.mem_singleton.1 h)
  intro rev
  induction rev with
  | nil => exact ⟨[], [], none, (fun _ h => by cases h), (fun _ h => by cases h), .inl rfl, rfl⟩
  | cons op rev ih =>
    obtain ⟨pre, mid, later, h1, h2, h3, h4⟩ := ih
    have reset : (op = .edit ∨ op = .clean) → ∃ pre mid : List BuildOp, ∃ later : Option (List BuildOp), OnlySets mid ∧
      Untouched (later.getD []) ∧ (pre = [] ∨ ∃ pre' op, (op = .edit ∨ op = .clean) ∧ pre = pre' ++ [op]) ∧
      (op :: rev).reverse = pre ++ mid ++ (later.map fun l => BuildOp.build :: l).getD [] := fun h =>
      ⟨rev.reverse ++ [op], [], none, (fun _ h => by cases h), (fun _ h => by cases h), .inr ⟨_, op, h, rfl⟩, by simp⟩
    cases op with
    | edit => exact reset (.inl rfl)
    | clean => exact reset (.inr rfl)
    | build =>
      cases later with
      | none => exact ⟨pre, mid, some [], h1, (fun _ h => by cases h), h3, by simp at h4; simp [h4]⟩
      | some l =>
        refine ⟨pre, mid, some (l ++ [.build]), h1, ?_, h3, by simp at h4; simp [h4]⟩
        intro op h
        rcases List.mem_append.1 h with h | h
        · exact h2 op h
        · exact .inl (List.mem_singleton.1 h)
    | setEnv e =>
      cases later with
      | none =>
        refine ⟨pre, mid ++ [.setEnv e], none, ?_, h2, h3, by simp at h4; simp [h4]⟩
        intro op h
        rcases List.mem_append.1 h with h | h
        · exact h1 op h
        · exact ⟨e, List.mem_singleton.1 h⟩
      | some l =>
        refine ⟨pre, mid, some (l ++ [.setEnv e]), h1, ?_, h3, by simp at h4; simp [h4]⟩
        intro op h
        rcases List.mem_append.1 h with h | h
        · exact h2 op h
        · exact .inr ⟨e, List.mem_singleton.1 h⟩

theorem makeRounds_untouched (k : Nat) : Untouched (makeRounds k) := by
  intro op h
  simp only [makeRounds, List.mem_flatMap, List.mem_cons, List.not_mem_nil, or_false] at h
  obtain ⟨f, _, rfl | rfl⟩ := h
  · exact .inr ⟨_, rfl⟩
  · exact .inl rfl

theorem makeRounds_first {k : Nat} (hk : 0 < k) : ∃ later, Untouched later ∧ makeRounds k = [.setEnv (.ok "48bits")] ++ [.build] ++ later := by
  obtain ⟨j, rfl⟩ : ∃ j, k = j + 1 := ⟨k - 1, by omega⟩
  refine ⟨((makeFeatures.drop 1).take j).flatMap fun f => [.setEnv (.ok f), .build], ?_, rfl⟩
  intro op h
  simp only [List.mem_flatMap, List.mem_cons, List.not_mem_nil, or_false] at h
  obtain ⟨f, _, rfl | rfl⟩ := h
  · exact .inr ⟨_, rfl⟩
  · exact .inl rfl

/-- **C69, what it means for the repository's own tasks**: `cargo make test-all` tests in every round the setting of its first round, whatever was done before; and if the package
has been built already and not changed since, that is the setting of that build, not even `48bits`. `cargo make miri-all` runs every round with `48bits`. -/
theorem C69_make_tasks (e : EnvVar) (ops : List BuildOp) (ho : OneLiners e ops) :
    (∀ k, 0 < k → (buildRun e (ops ++ makeRounds k)).2 = (buildRun e (ops ++ makeRounds 1)).2) ∧
    (∀ later k, Untouched later → (buildRun e (ops ++ [.build] ++ later ++ makeRounds k)).2 = (buildRun e (ops ++ [.build])).2) ∧
    (∀ k, 0 < k → BuiltFor (.ok "48bits") (buildRun e (ops ++ miriRounds k)).2) := by
  have same : ∀ (ops later : List BuildOp), OneLiners e ops → Untouched later → (buildRun e (ops ++ [.build] ++ later)).2 = (buildRun e (ops ++ [.build])).2 := by
    intro ops later ho hl
    obtain ⟨pre, mid, l, h1, h2, h3, h4⟩ := C69_covers ops
    have ho' : OneLiners e (pre ++ mid) := by
      have : OneLiners e (ops ++ [.build]) := ⟨ho.1, fun e' he => ho.2 e' (by simpa using he)⟩
      rw [h4, List.append_assoc] at this
      exact this.left
    rw [h4, List.append_assoc _ l, build_rows e pre mid l ho' h1 h2 h3, build_rows e pre mid (l ++ later) ho' h1 ?_ h3]
    intro op h
    rcases List.mem_append.1 h with h | h
    · exact h2 op h
    · exact hl op h
  refine ⟨fun k hk => ?_, fun later k hl => ?_, fun k hk => ?_⟩
  · obtain ⟨later, hl, e1⟩ := makeRounds_first hk
    rw [e1, ← List.append_assoc, ← List.append_assoc, same _ _ ⟨ho.1, fun e' he => ?_⟩ hl]
    · simp only [List.append_assoc]
      rfl
    · rcases List.mem_append.1 he with he | he
      · exact ho.2 e' he
      · cases List.mem_singleton.1 he
        show '\n' ∉ "48bits".toList
        decide
  · rw [List.append_assoc _ later, same _ _ ho]
    intro op h
    rcases List.mem_append.1 h with h | h
    · exact hl op h
    · exact makeRounds_untouched k op h
  · obtain ⟨later, hl, e1⟩ := makeRounds_first hk
    have := C69_partial e (ops ++ [.clean]) [.setEnv (.ok "48bits")] later ⟨ho.1, fun e' he => (by
        simp only [List.mem_append, List.mem_singleton, reduceCtorEq, or_false, BuildOp.setEnv.injEq] at he
        rcases he with he | rfl
        · exact ho.2 e' he
        · show '\n' ∉ "48bits".toList
          decide)⟩
      (fun op h => ⟨_, List.mem_singleton.1 h⟩) hl (.inr ⟨ops, .clean, .inr rfl, rfl⟩)
    have e2 : envAfter e (ops ++ [.clean] ++ [.setEnv (.ok "48bits")]) = .ok "48bits" := by
      have : ∀ (ops : List BuildOp) e, envAfter e (ops ++ [.clean] ++ [.setEnv (.ok "48bits")]) = .ok "48bits" := by
        intro ops
        induction ops with
        | nil => intro e; rfl
        | cons op ops ih => intro e; cases op <;> exact ih _
      exact this ops e
    rw [e2] at this
    rw [miriRounds, e1]
    simpa only [List.append_assoc, List.cons_append, List.nil_append] using this

/-- Ten settings are listed, the default is not among them. -/
example : makeFeatures.length = 10 ∧ "60bits" ∉ makeFeatures ∧ (makeRounds 10).length = 20 := by decide

/-- **C69 does not hold**: build with `48bits`, then set `57bits` and build again. -/
theorem C69_refuted : ¬ C69_Statement := by
  intro h
  obtain ⟨c, h1, h2⟩ := h (.ok "48bits") [.build, .setEnv (.ok "57bits")]
  obtain ⟨c', h3, h4⟩ := C69_partial (.ok "48bits") [] [] [.setEnv (.ok "57bits"), .build] ⟨show '\n' ∉ "48bits".toList by decide, fun _ h => by cases h⟩ (fun _ h => by cases h)
    (by
      intro op h
      simp only [List.mem_cons, List.not_mem_nil, or_false] at h
      rcases h with rfl | rfl
      · exact .inr ⟨_, rfl⟩
      · exact .inl rfl) (.inl rfl)
  have e : c = c' := by
    have := h1.symm.trans h3
    exact (List.cons.inj this).1
  rw [e, h4] at h2
  revert h2
  decide

/-- `cargo clean` in between helps. -/
example : BuiltFor (.ok "57bits") (buildRun (.ok "48bits") [.build, .setEnv (.ok "57bits"), .clean, .build, .build]).2 :=
  C69_partial (.ok "48bits") [.build, .setEnv (.ok "57bits"), .clean] [] [.build] ⟨show '\n' ∉ "48bits".toList by decide, fun e' h => (by
      simp only [List.append_nil, List.mem_cons, reduceCtorEq, BuildOp.setEnv.injEq, List.not_mem_nil, or_false, false_or] at h
      subst h
      exact show '\n' ∉ "57bits".toList by decide)⟩ (fun _ h => by cases h)
    (fun _ h => .inl (List.mem_singleton.1 h)) (.inr ⟨[.build, .setEnv (.ok "57bits")], .clean, .inr rfl, rfl⟩)

/-- **C69, what would make it hold**: let a script print what `build.rs` prints and, in addition, `cargo:rerun-if-env-changed` for the
variable. Then after any history a build uses the setting of the variable at the time (if its value has no line feed). -/
theorem C69_with_line (script : EnvVar → List BuildLine)
    (hscript : ∀ e, ∃ pre post, script e = pre ++ [.rerunIfEnvChanged widthVar] ++ post ∧ pre ++ post = buildLines e)
    (e : EnvVar) (ops : List BuildOp) (ho : (envAfter e ops).OneLine) : BuiltFor (envAfter e ops) (buildRunBy script e (ops ++ [.build])).2 := by
  have hmem : ∀ e, BuildLine.rerunIfEnvChanged widthVar ∈ script e := by
    intro e
    obtain ⟨pre, post, h, _⟩ := hscript e
    rw [h]
    simp
  have hrows : ∀ e, activeRows (script e) = rowsFor e := by
    intro e
    obtain ⟨pre, post, h, h'⟩ := hscript e
    rw [rowsFor, activeRows, activeRows]
    refine List.filter_congr fun c _ => ?_
    rw [h, ← h']
    simp
  have snoc : ∀ (ops : List BuildOp) (op : BuildOp),
      buildRunBy script e (ops ++ [op]) = buildStepBy script (buildRunBy script e ops) op := by
    intro ops op
    simp only [buildRunBy, List.foldl_append, List.foldl_cons, List.foldl_nil]
  have inv : ∀ (n : Nat) (ops : List BuildOp), ops.length = n → (buildRunBy script e ops).1.env = envAfter e ops ∧
      ∀ c, (buildRunBy script e ops).1.cache = some c → c.lines = script c.env := by
    intro n
    induction n with
    | zero =>
      intro ops h
      rw [List.length_eq_zero_iff.1 h]
      exact ⟨rfl, fun c hc => by cases hc⟩
    | succ n ih =>
      intro ops h
      obtain ⟨ops', op, rfl⟩ : ∃ ops' op, ops = ops' ++ [op] :=
        ⟨_, _, (List.dropLast_concat_getLast (l := ops) (by rintro rfl; cases h)).symm⟩
      obtain ⟨h1, h2⟩ := ih ops' (by simpa using h)
      rw [snoc, envAfter_append]
      generalize buildRunBy script e ops' = st at h1 h2 ⊢
      obtain ⟨w, r⟩ := st
      cases op with
      | setEnv e' => exact ⟨rfl, h2⟩
      | edit => exact ⟨h1, h2⟩
      | clean => exact ⟨h1, fun c hc => by cases hc⟩
      | build =>
        refine ⟨h1, fun c hc => ?_⟩
        simp only [buildStepBy, Workspace.buildBy, Option.some.injEq] at hc
        subst hc
        split
        · rfl
        · rename_i hs
          cases hw : w.cache with
          | none => exact absurd (by rw [Workspace.stale, hw]) hs
          | some c => exact h2 c hw
  obtain ⟨h1, h2⟩ := inv _ ops rfl
  rw [← h1] at ho
  rw [snoc, ← h1]
  generalize buildRunBy script e ops = st at h1 h2 ho ⊢
  obtain ⟨w, r⟩ := st
  show BuiltFor w.env (w.buildBy script).2
  have hb : BuiltFor w.env (rowsFor w.env) := (C08_partial w.env ho).1.1
  suffices (w.buildBy script).2 = rowsFor w.env by rw [this]; exact hb
  cases hw : w.cache with
  | none =>
    have hs : w.stale = true := by rw [Workspace.stale, hw]
    simp only [Workspace.buildBy, hs, if_true]
    exact hrows w.env
  | some c =>
    have hl := h2 c hw
    have hany : c.lines.any BuildLine.isRerun = true :=
      List.any_eq_true.2 ⟨_, hl ▸ hmem c.env, rfl⟩
    by_cases hc : c.env = w.env
    · have hs : w.stale = false := by
        rw [Workspace.stale, hw]
        simp [hany, hc]
      simp only [Workspace.buildBy, hs, hw, Option.getD_some, hl, hc, Bool.false_eq_true, if_false]
      exact hrows w.env
    · have hs : w.stale = true := by
        rw [Workspace.stale, hw]
        have := hl ▸ hmem c.env
        simp only [hany, if_true, this, decide_true, hc, decide_false, Bool.not_false, Bool.and_self]
      simp only [Workspace.buildBy, hs, if_true]
      exact hrows w.env

/-- The line as the first one. -/
example : BuiltFor (.ok "57bits") (buildRunBy (fun e => .rerunIfEnvChanged widthVar :: buildLines e) (.ok "48bits")
    [.build, .setEnv (.ok "57bits"), .build]).2 :=
  C69_with_line _ (fun e => ⟨[], buildLines e, rfl, rfl⟩) (.ok "48bits") [.build, .setEnv (.ok "57bits")] (show '\n' ∉ "57bits".toList by decide)

end TB.Props

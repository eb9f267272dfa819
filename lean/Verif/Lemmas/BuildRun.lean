import Verif.Spec.BuildRun
import Verif.Lemmas.RsTop
import Verif.Props.Pointer

/-! # Running the build script (C83) -/

set_option autoImplicit false

namespace TB.Spec

open TB TB.Rust TB.Props

theorem strLit_ne {s : String} {l : String} (h : s ≠ l) : l.toList ≠ s.toList := fun e => h (String.toList_inj.1 e.symm)

theorem skip_arm (vars : List Char → EnvVar) (n : Nat) (ls : List (String × SV)) (out : List Char) (s : String) (l : String) (e : Expr) (arms : List (Pat × Option Expr × Expr))
    (w : String) (hl : strLit l = some w.toList) (h : s ≠ w) :
    sarms vars (n + 1) ls out (.str s.toList) ((.lit l, none, e) :: arms) = sarms vars n ls out (.str s.toList) arms := by
  simp only [sarms, spat, hl, Option.map_some, if_neg (strLit_ne h)]

theorem lit_var : strLit "\"TAGGED_BOX_RESERVED_WIDTH\"" = some widthVar := by decide

theorem buildMain_other {s : String} (h : documentedWidths.lookup s = none) : buildMain (.ok s) =
    ["cargo:warning=".toList ++ s.toList ++ " is an invalid reserved pointer width for `TAGGED_BOX_RESERVED_WIDTH`".toList,
      "cargo:rustc-cfg=tagged_box_reserve_60bits".toList] := by
  unfold buildMain
  simp only
  split
  case h_17 => rfl
  all_goals exact absurd h (by decide)

theorem build_prints_n (vars : List Char → EnvVar) (n : Nat) : (sblock vars (n + 40) [] [] Code.buildFn.body).map (·.2) = some (printlns (buildMain (vars widthVar))) := by
  simp only [Code.buildFn, sblock, sev, lit_var, Option.map_some]
  generalize vars widthVar = v
  cases v with
  | notPresent => rfl
  | notUnicode => rfl
  | ok s =>
    by_cases hd : documentedWidths.lookup s = none
    · have h : ∀ w, documentedWidths.lookup w ≠ none → s ≠ w := fun w hw e => hw (e ▸ hd)
      simp only [envValue, spat, List.cons_append, List.nil_append, List.lookup, beq_self_eq_true, Option.map_some]
      rw [skip_arm _ _ _ _ _ _ _ _ "63bits" (by decide) (h "63bits" (by decide))]
      rw [skip_arm _ _ _ _ _ _ _ _ "62bits" (by decide) (h "62bits" (by decide))]
      rw [skip_arm _ _ _ _ _ _ _ _ "61bits" (by decide) (h "61bits" (by decide))]
      rw [skip_arm _ _ _ _ _ _ _ _ "60bits" (by decide) (h "60bits" (by decide))]
      rw [skip_arm _ _ _ _ _ _ _ _ "59bits" (by decide) (h "59bits" (by decide))]
      rw [skip_arm _ _ _ _ _ _ _ _ "58bits" (by decide) (h "58bits" (by decide))]
      rw [skip_arm _ _ _ _ _ _ _ _ "57bits" (by decide) (h "57bits" (by decide))]
      rw [skip_arm _ _ _ _ _ _ _ _ "56bits" (by decide) (h "56bits" (by decide))]
      rw [skip_arm _ _ _ _ _ _ _ _ "55bits" (by decide) (h "55bits" (by decide))]
      rw [skip_arm _ _ _ _ _ _ _ _ "54bits" (by decide) (h "54bits" (by decide))]
      rw [skip_arm _ _ _ _ _ _ _ _ "53bits" (by decide) (h "53bits" (by decide))]
      rw [skip_arm _ _ _ _ _ _ _ _ "52bits" (by decide) (h "52bits" (by decide))]
      rw [skip_arm _ _ _ _ _ _ _ _ "51bits" (by decide) (h "51bits" (by decide))]
      rw [skip_arm _ _ _ _ _ _ _ _ "50bits" (by decide) (h "50bits" (by decide))]
      rw [skip_arm _ _ _ _ _ _ _ _ "49bits" (by decide) (h "49bits" (by decide))]
      rw [skip_arm _ _ _ _ _ _ _ _ "48bits" (by decide) (h "48bits" (by decide))]
      rw [buildMain_other hd]
      rfl
    · rw [List.lookup_eq_none_iff] at hd
      simp only [documentedWidths, List.forall_mem_cons, bne_iff_ne, ne_eq, List.not_mem_nil, false_implies, implies_true, and_true, Classical.not_and_iff_not_or_not,
        Classical.not_not] at hd
      rcases hd with rfl | rfl | rfl | rfl | rfl | rfl | rfl | rfl | rfl | rfl | rfl | rfl | rfl | rfl | rfl | rfl <;> rfl

theorem runMain_fn (vars : List Char → EnvVar) (f : Fn) (h1 : f.name = "main") (h2 : f.params.isEmpty = true) :
    runMain vars [.fn f] = (sblock vars 200 [] [] f.body).map (·.2) := by
  unfold runMain
  exact if_pos ⟨h1, h2⟩

theorem build_prints (vars : List Char → EnvVar) : buildPrints vars = some (printlns (buildMain (vars widthVar))) := by
  unfold buildPrints
  rw [Code.build_items]
  exact (runMain_fn vars _ rfl rfl).trans (build_prints_n vars 160)

theorem build_tells (vars : List Char → EnvVar) : buildTells vars = some (buildLines (vars widthVar)) := by
  rw [buildTells, build_prints]
  rfl

/-- The module `variables` of a row. -/
def rowOf (c : Config) : List (String × RTy) × List (String × RTy × Expr) := (Rust.lookup c.feature Code.rows).getD ([], [])

theorem rows_eq : Code.rows = table.map fun c => (c.feature, rowOf c) := by rfl

theorem rows_filter (told : List BuildLine) : (Code.rows.filter fun r => decide (BuildLine.cfg r.1 ∈ told)) = (activeRows told).map fun c => (c.feature, rowOf c) := by
  rw [rows_eq, List.filter_map]
  rfl

/-- Compiled with one row active: the crate with that row. -/
theorem compile_one {E : Type} {told : List BuildLine} (env : Env) (user : User E) (h1 : told.any BuildLine.isMalformed = false)
    (h2 : activeRows told = [env.cfg]) : compileWith Code.parts told env user = some (Code.parts.crate env user) := by
  rw [compileWith, h1, show Code.parts.rows = Code.rows from rfl, rows_filter, h2]
  rfl

theorem compile_some {E : Type} {told : List BuildLine} {env : Env} {user : User E} {cr : Crate E} (h : compileWith Code.parts told env user = some cr) :
    ∃ c, activeRows told = [c] ∧ (env.cfg = c → cr = Code.parts.crate env user) := by
  rw [compileWith] at h
  split at h
  · cases h
  · rw [show Code.parts.rows = Code.rows from rfl, rows_filter] at h
    match ha : activeRows told, h with
    | [c], h => exact ⟨c, rfl, fun e => by subst e; exact (Option.some.inj h).symm⟩
    | [], h => cases h
    | _ :: _ :: _, h => cases h

theorem built_of {E : Type} {vars : List Char → EnvVar} {env : Env} {user : User E} {told : List BuildLine} {p : Parts} (h1 : buildTells vars = some told)
    (h2 : sourceParts = some p) : builtCrate vars env user = compileWith p told env user := by
  unfold builtCrate
  rw [h1, h2]

theorem built_eq {E : Type} (vars : List Char → EnvVar) (env : Env) (user : User E) : builtCrate vars env user = compileWith Code.parts (buildLines (vars widthVar)) env user :=
  built_of (build_tells vars) Code.source_parts

theorem not_malformed {v : EnvVar} (h : v.OneLine) : (buildLines v).any BuildLine.isMalformed = false := by
  by_cases hd : ∃ s, v = .ok s ∧ documentedWidths.lookup s = none
  · obtain ⟨s, rfl, hs⟩ := hd
    rw [(C08_partial _ h).2 s rfl hs]
    rfl
  · cases v with
    | notPresent => rfl
    | notUnicode => rfl
    | ok s =>
      have hs : ¬ documentedWidths.lookup s = none := fun hs => hd ⟨s, rfl, hs⟩
      rw [List.lookup_eq_none_iff] at hs
      simp only [documentedWidths, List.forall_mem_cons, bne_iff_ne, ne_eq, List.not_mem_nil, false_implies, implies_true, and_true, Classical.not_and_iff_not_or_not,
        Classical.not_not] at hs
      rcases hs with rfl | rfl | rfl | rfl | rfl | rfl | rfl | rfl | rfl | rfl | rfl | rfl | rfl | rfl | rfl | rfl <;> rfl

/-- The widths of the rows differ. -/
theorem width_inj {c c' : Config} (hc : c ∈ table) (hc' : c' ∈ table) (h : c.ptrWidth = c'.ptrWidth) : c = c' := by
  have H : ∀ c ∈ table, ∀ c' ∈ table, c.ptrWidth = c'.ptrWidth → c = c' := by decide
  exact H c hc c' hc' h

theorem mem_of_active {told : List BuildLine} {c : Config} (h : activeRows told = [c]) : c ∈ table := by
  have : c ∈ activeRows told := by rw [h]; exact List.mem_singleton.2 rfl
  exact (List.mem_filter.1 this).1

end TB.Spec

import Verif.Macro.Depth
import Verif.Lemmas.MacroCheck

/-!
# The nesting depth in terms of the declaration
-/

set_option autoImplicit false

namespace TB.Macro

variable {rc : Rustc}

/-- A tuple variant with no field or with several. -/
def VariantDef.viaTuple (d : VariantDef) : Bool :=
  match d.fields with
  | .tuple [_] => false
  | .tuple _ => true
  | _ => false

def stepOf (s : Step) (d : VariantDef) : Step := if d.viaTuple then s else {}

theorem emit5_step (s : Step) (d : VariantDef) :
    emit5 (always {}) (always s) (always {}) (always {}) d = .ok (stepOf s d) := by
  obtain ⟨v, fl⟩ := d
  match fl with
  | .unit | .tuple [] | .tuple [_] | .tuple (_ :: _ :: _) | .record _ => rfl

theorem emit4_step (d : VariantDef) : emit4 (always {}) (always {}) (always {}) d = .ok {} := by
  obtain ⟨v, fl⟩ := d
  cases fl <;> rfl

theorem run_steps {s : Step} {ts : List Tok} {decl : List VariantDef} (h : DeclSyntax rc ts decl) :
    runMacro rc [(.single, always {}), (.tuple, always s), (.record, always {}), (.recordTrailing, always {}), (.unit, always {})] ts =
      .ok (decl.map (stepOf s)) :=
  (run_iff (fun ts => firstMatch_five (fun _ _ => rfl) ts)).2 ⟨decl, h, .of_total (fun d _ => emit5_step s d)⟩

theorem run_plainSteps {ts : List Tok} {decl : List VariantDef} (h : DeclSyntax rc ts decl) :
    runMacro rc plainSteps ts = .ok (decl.map (fun _ => {})) :=
  (run_iff (fun ts => firstMatch_four (fun _ _ => rfl) ts)).2 ⟨decl, h, .of_total (fun d _ => emit4_step d)⟩

theorem nest_plain (late : Nat) (decl : List VariantDef) : nest late (decl.map (fun _ => {})) = decl.length + 1 + late := by
  induction decl with
  | nil => simp [nest]
  | cons d ds ih =>
    simp only [List.map_cons, nest, Nat.max_zero, ih, List.length_cons]
    omega

theorem nest_into (decl : List VariantDef) :
    nest 0 (decl.map (stepOf { via := 1 })) = decl.length + decl.countP VariantDef.viaTuple + 1 := by
  induction decl with
  | nil => rfl
  | cons d ds ih =>
    simp only [List.map_cons, nest, List.length_cons, List.countP_cons]
    by_cases hv : d.viaTuple = true <;> simp only [stepOf, hv, if_true, if_false, Bool.false_eq_true, Nat.max_self] <;> omega

theorem nest_derive (decl : List VariantDef) : nest 0 (decl.map (stepOf { now := 1 })) = decl.length + 1 := by
  induction decl with
  | nil => rfl
  | cons d ds ih =>
    simp only [List.map_cons, nest, List.length_cons]
    by_cases hv : d.viaTuple = true <;> simp only [stepOf, hv, if_true, if_false, Bool.false_eq_true, Nat.max_self] <;> omega

theorem nest_read (late : Nat) (decl : List VariantDef) :
    nest late (decl.map (stepOf { late := 1 })) =
      decl.length + 1 + max late (if decl.countP VariantDef.viaTuple = 0 then 0 else 1) := by
  induction decl generalizing late with
  | nil => simp only [List.map_nil, List.length_nil, List.countP_nil, nest, if_true]; omega
  | cons d ds ih =>
    simp only [List.map_cons, nest, List.length_cons, ih, List.countP_cons, stepOf]
    generalize ds.countP VariantDef.viaTuple = t
    by_cases hv : d.viaTuple = true <;> simp only [hv, if_true, if_false, Bool.false_eq_true] <;> split <;> split <;> omega

theorem expansionDepth_eq {std : StdDepth} {ts : List Tok} {decl : List VariantDef} (h : DeclSyntax rc ts decl) (hne : decl ≠ []) :
    expansionDepth rc std ts =
      .ok (decl.length + 3 + max (max 1 (decl.countP VariantDef.viaTuple)) (max std.panic std.attrs)) := by
  have h1 := run_plainSteps h
  have h2 : runMacro rc intoSteps ts = _ := run_steps (s := { via := 1 }) h
  have h3 : runMacro rc deriveSteps ts = _ := run_steps (s := { now := 1 }) h
  have h4 : runMacro rc readSteps ts = _ := run_steps (s := { late := 1 }) h
  have he : (decl.map (fun _ => ({} : Step))).isEmpty = false := by cases decl with
    | nil => exact absurd rfl hne
    | cons => rfl
  simp only [expansionDepth, h1, h2, h3, h4, he, nest_plain, nest_into, nest_derive, nest_read]
  congr 1
  generalize decl.countP VariantDef.viaTuple = t
  generalize decl.length = n
  simp only [Bool.false_eq_true, if_false]
  split <;> omega

theorem expansionDepth_err {std : StdDepth} {ts : List Tok} {k : Nat} (h : expansionDepth rc std ts = .ok k) :
    ∃ decl, DeclSyntax rc ts decl := by
  have h1 : ∃ as, runMacro rc plainSteps ts = .ok as := by
    unfold expansionDepth at h
    split at h <;> first | exact ⟨_, by assumption⟩ | cases h
  obtain ⟨as, h1⟩ := h1
  obtain ⟨decl, hd, _⟩ := (run_iff (g := emit4 (always {}) (always {}) (always {}))
    (fun ts => firstMatch_four (fun _ _ => rfl) ts)).1 h1
  exact ⟨decl, hd⟩

end TB.Macro

import Verif.Config

/-! # Reading the output of `build.rs` -/

set_option autoImplicit false

namespace TB

theorem splitLines_ne_nil (l : List Char) : splitLines l ≠ [] := by
  cases l with
  | nil => simp [splitLines]
  | cons c cs =>
    rw [splitLines]
    split
    · simp
    · split <;> simp

theorem splitLines_one {l : List Char} (h : '\n' ∉ l) : splitLines l = [l] := by
  induction l with
  | nil => rfl
  | cons c cs ih =>
    rw [List.mem_cons, not_or] at h
    rw [splitLines, if_neg (Ne.symm h.1), ih h.2]

theorem splitLines_append (x y : List Char) : splitLines (x ++ '\n' :: y) = splitLines x ++ splitLines y := by
  induction x with
  | nil => simp [splitLines]
  | cons c cs ih =>
    rw [List.cons_append, splitLines, splitLines, ih]
    by_cases hc : c = '\n'
    · rw [if_pos hc, if_pos hc, List.cons_append]
    · rw [if_neg hc, if_neg hc]
      cases hs : splitLines cs with
      | nil => exact absurd hs (splitLines_ne_nil cs)
      | cons l ls => rfl

theorem cargoLine_nil : cargoLine [] = none := rfl

/-- What cargo reads, line by line. -/
theorem cargoReads_printlns (ls : List (List Char)) : cargoReads (printlns ls) = ls.flatMap fun l => (splitLines l).filterMap cargoLine := by
  induction ls with
  | nil => rfl
  | cons l ls ih =>
    have : printlns (l :: ls) = l ++ '\n' :: printlns ls := by simp [printlns]
    rw [cargoReads, this, splitLines_append, List.filterMap_append, List.flatMap_cons, ← ih, cargoReads]

theorem stripPrefix_append (p l : List Char) : stripPrefix p (p ++ l) = some l := by
  induction p with
  | nil => rfl
  | cons c p ih => simp [stripPrefix, ih]

theorem trimEnd_snoc {l : List Char} {c : Char} (h : isSpace c = false) : trimEnd (l ++ [c]) = l ++ [c] := by
  simp [trimEnd, List.dropWhile_cons, h]

theorem trimEnd_after (p m : List Char) {c : Char} (h : isSpace c = false) : trimEnd (p ++ c :: m) = p ++ c :: trimEnd m := by
  rw [trimEnd, trimEnd, List.reverse_append, List.reverse_cons, List.append_assoc, List.dropWhile_append]
  split
  · rename_i he
    rw [List.isEmpty_iff.1 he]
    simp [h]
  · simp

/-- A warning. -/
theorem cargoLine_warning (m : List Char) : cargoLine ("cargo:warning=".toList ++ m) = some (.warning (String.ofList (trimEnd (trimEnd m)))) := by
  have e1 : trim ("cargo:warning=".toList ++ m) = "cargo:".toList ++ ("warning=".toList ++ trimEnd m) := by
    rw [trim, show ("cargo:warning=".toList ++ m).dropWhile isSpace = "cargo:warning".toList ++ '=' :: m from rfl, trimEnd_after _ _ (by decide)]
    rfl
  rw [cargoLine, e1, stripPrefix_append]
  rfl

/-- The text of the warning. -/
def warningTail : List Char := " is an invalid reserved pointer width for `TAGGED_BOX_RESERVED_WIDTH`".toList

theorem warningTail_snoc : ∃ t, warningTail = t ++ ['`'] := ⟨" is an invalid reserved pointer width for `TAGGED_BOX_RESERVED_WIDTH".toList, rfl⟩

/-- The lines of a warning, when the value has no line feed. -/
theorem warning_one {s : List Char} (h : '\n' ∉ s) :
    (splitLines ("cargo:warning=".toList ++ s ++ warningTail)).filterMap cargoLine = [.warning (String.ofList (s ++ warningTail))] := by
  have h1 : '\n' ∉ "cargo:warning=".toList ++ s ++ warningTail := by
    have h2 : '\n' ∉ "cargo:warning=".toList := by decide
    have h3 : '\n' ∉ warningTail := by decide
    simp only [List.mem_append, not_or]
    exact ⟨⟨h2, h⟩, h3⟩
  obtain ⟨t, ht⟩ := warningTail_snoc
  have ht' : trimEnd (s ++ warningTail) = s ++ warningTail := by
    rw [ht, ← List.append_assoc, trimEnd_snoc (by decide)]
  rw [splitLines_one h1]
  simp only [List.filterMap_cons, List.filterMap_nil]
  rw [List.append_assoc, cargoLine_warning, ht', ht']

/-- The first line of a split text keeps what it starts with. -/
theorem splitLines_prefix {p : List Char} (hp : '\n' ∉ p) (l : List Char) : ∃ m ls, splitLines (p ++ l) = (p ++ m) :: ls := by
  induction p with
  | nil =>
    cases hs : splitLines l with
    | nil => exact absurd hs (splitLines_ne_nil l)
    | cons m ls => exact ⟨m, ls, by rw [List.nil_append, hs, List.nil_append]⟩
  | cons c p ih =>
    rw [List.mem_cons, not_or] at hp
    obtain ⟨m, ls, h⟩ := ih hp.2
    exact ⟨m, ls, by rw [List.cons_append, splitLines, if_neg (Ne.symm hp.1), h, List.cons_append]⟩

/-- Whatever the value is, there is a warning, and nothing before it. -/
theorem warning_any (s : List Char) :
    ∃ w ls, (splitLines ("cargo:warning=".toList ++ s ++ warningTail)).filterMap cargoLine = .warning w :: ls := by
  obtain ⟨m, ls, h⟩ := splitLines_prefix (p := "cargo:warning=".toList) (by decide) (s ++ warningTail)
  rw [List.append_assoc, h, List.filterMap_cons, cargoLine_warning]
  exact ⟨_, _, rfl⟩

end TB

import Verif.Fmt
import Verif.Spec.Text

/-! # Helper lemmas about printed numbers (no property theorems here) -/

set_option autoImplicit false

namespace TB

theorem charVal_digitChar (up : Bool) (d : Nat) (h : d < 16) : charVal (digitChar up d) = some d := by
  have H : ∀ up : Bool, ∀ d : Fin 16, charVal (digitChar up d.val) = some d.val := by decide
  exact H up ⟨d, h⟩

theorem digitChar_zero (up : Bool) (d : Nat) (h : d < 16) (h0 : digitChar up d = '0') : d = 0 := by
  have := charVal_digitChar up d h
  rw [h0] at this
  have h2 : charVal '0' = some 0 := by decide
  rw [h2] at this
  injection this with this
  exact this.symm

theorem readFrom_append (b : Nat) (l r : List Char) (a : Nat) :
    readFrom b a (l ++ r) = (readFrom b a l).bind (fun v => readFrom b v r) := by
  induction l generalizing a with
  | nil => rfl
  | cons c cs ih =>
    simp only [List.cons_append, readFrom]
    cases charVal c with
    | none => rfl
    | some v =>
      by_cases hv : v < b
      · simp [hv, ih]
      · simp [hv]

theorem readFrom_zeros (b : Nat) (hb : 0 < b) (z : Nat) (ds : List Char) :
    readFrom b 0 (List.replicate z '0' ++ ds) = readFrom b 0 ds := by
  induction z with
  | zero => rfl
  | succ z ih =>
    rw [List.replicate_succ, List.cons_append]
    have h2 : charVal '0' = some 0 := by decide
    simp only [readFrom, h2]
    simp [hb, ih]

theorem radix_ne_nil (b n : Nat) : radix b n ≠ [] := by
  rw [radix]; split <;> simp

theorem digits_read (b : Nat) (up : Bool) (hb : 2 ≤ b) (hb' : b ≤ 16) (n : Nat) :
    readFrom b 0 (digits b up n) = some n := by
  unfold digits
  induction n using Nat.strongRecOn with
  | _ n ih =>
    rw [radix]
    split
    · rename_i h
      have h : n < b := by omega
      simp [readFrom, charVal_digitChar up n (by omega), h]
    · rename_i h
      have h : b ≤ n := by omega
      have hlt : n / b < n := Nat.div_lt_self (by omega) (by omega)
      have hm : n % b < b := Nat.mod_lt _ (by omega)
      rw [List.map_append, readFrom_append, ih _ hlt]
      simp [readFrom, charVal_digitChar up (n % b) (by omega), hm]
      rw [Nat.mul_comm]; exact Nat.div_add_mod n b

theorem digits_head (b : Nat) (up : Bool) (hb : 2 ≤ b) (hb' : b ≤ 16) (n : Nat)
    (h : (digits b up n).head? = some '0') : n = 0 ∧ digits b up n = ['0'] := by
  have H : n = 0 := by
    unfold digits at h
    induction n using Nat.strongRecOn with
    | _ n ih =>
      rw [radix] at h
      split at h
      · rename_i h'
        have h' : n < b := by omega
        simp at h
        exact digitChar_zero up n (by omega) h
      · rename_i h'
        have h' : b ≤ n := by omega
        have hlt : n / b < n := Nat.div_lt_self (by omega) (by omega)
        have hne := radix_ne_nil b (n / b)
        rw [List.map_append, List.head?_append] at h
        have : ((radix b (n / b)).map (digitChar up)).head? = some '0' := by
          cases hr : radix b (n / b) with
          | nil => exact absurd hr hne
          | cons x xs => rw [hr] at h; simpa using h
        have := ih _ hlt this
        have := Nat.div_pos h' (by omega)
        omega
  subst H
  refine ⟨rfl, ?_⟩
  unfold digits
  rw [radix]
  cases up <;> simp [show (0:Nat) < b by omega] <;> decide

theorem radix_lt (b : Nat) (hb : 2 ≤ b) (n : Nat) : ∀ d ∈ radix b n, d < b := by
  induction n using Nat.strongRecOn with
  | _ n ih =>
    intro d hd
    rw [radix] at hd
    split at hd
    · simp at hd; omega
    · rename_i h'
      have hlt : n / b < n := Nat.div_lt_self (by omega) (by omega)
      rcases List.mem_append.1 hd with h | h
      · exact ih _ hlt d h
      · simp at h; rw [h]; exact Nat.mod_lt _ (by omega)

theorem digits_case (b : Nat) (up : Bool) (hb : 2 ≤ b) (hb' : b ≤ 16) (n : Nat) :
    ∀ c ∈ digits b up n, if up then ¬('a' ≤ c ∧ c ≤ 'f') else ¬('A' ≤ c ∧ c ≤ 'F') := by
  intro c hc
  obtain ⟨d, hd, rfl⟩ := List.mem_map.1 hc
  have hlt := radix_lt b hb n d hd
  have H : ∀ up : Bool, ∀ d : Fin 16, if up then ¬('a' ≤ digitChar up d.val ∧ digitChar up d.val ≤ 'f')
      else ¬('A' ≤ digitChar up d.val ∧ digitChar up d.val ≤ 'F') := by decide
  exact H up ⟨d, by omega⟩

theorem digits_ne_nil (b : Nat) (up : Bool) (n : Nat) : digits b up n ≠ [] := by
  unfold digits; simp [radix_ne_nil]

theorem padSplit_sum (align pad : Nat) : (padSplit align pad).1 + (padSplit align pad).2 = pad := by
  unfold padSplit
  split
  · simp
  · split
    · simp; omega
    · simp

theorem padIntegral_denotes (spec : FmtSpec) (pfx : List Char) (b : Nat) (up : Bool) (hb : 2 ≤ b) (hb' : b ≤ 16) (n : Nat) :
    Denotes spec spec.alternate spec.zeroPad spec.width pfx b up (padIntegral spec pfx (digits b up n)) n := by
  have hr := digits_read b up hb hb' n
  have hn := digits_ne_nil b up n
  have hh := digits_head b up hb hb' n
  have hc := digits_case b up hb hb' n
  generalize hds : digits b up n = ds at *
  unfold Denotes padIntegral
  simp only
  generalize (if spec.signPlus = true then ['+'] else [] : List Char) = sg
  generalize (if spec.alternate = true then pfx else [] : List Char) = pr
  cases hw : spec.width with
  | none =>
    exact ⟨0, 0, 0, ds, by simp, hr, hn, hh, hc, fun _ => ⟨rfl, rfl⟩, fun _ => rfl, Or.inl rfl, fun m hm => by cases hm⟩
  | some m =>
    simp only
    by_cases hle : m ≤ sg.length + pr.length + ds.length
    · rw [if_pos hle]
      refine ⟨0, 0, 0, ds, by simp, hr, hn, hh, hc, fun _ => ⟨rfl, rfl⟩, fun _ => rfl, Or.inl rfl, fun m' hm => ?_⟩
      cases hm
      simp only [List.length_append]; omega
    · rw [if_neg hle]
      cases hz : spec.zeroPad with
      | true =>
        simp only [if_true]
        refine ⟨0, 0, m - (sg.length + pr.length + ds.length), ds, by simp, hr, hn, hh, hc, fun _ => ⟨rfl, rfl⟩, fun h => (by cases h),
          Or.inr ?_, fun m' hm => ?_⟩
        · congr 1
          simp only [List.length_append, List.length_replicate]; omega
        · cases hm
          simp only [List.length_append, List.length_replicate]; omega
      | false =>
        simp only [Bool.false_eq_true, if_false]
        have hs := padSplit_sum spec.align (m - (sg.length + pr.length + ds.length))
        refine ⟨(padSplit spec.align (m - (sg.length + pr.length + ds.length))).1,
          (padSplit spec.align (m - (sg.length + pr.length + ds.length))).2, 0, ds, by simp, hr, hn, hh, hc, fun h => ?_, fun _ => rfl, Or.inr ?_, fun m' hm => ?_⟩
        · rcases h with h | h <;> cases h
        · congr 1
          simp only [List.length_append, List.length_replicate]; omega
        · cases hm
          simp only [List.length_append, List.length_replicate]; omega

/-- Without fill characters a text denotes one number only. -/
theorem Denotes.unique {spec : FmtSpec} {alt zero up : Bool} {width : Option Nat} {pfx : List Char} {b : Nat} {text : List Char}
    {n m : Nat} (hb : 0 < b) (h1 : Denotes spec alt zero width pfx b up text n) (h2 : Denotes spec alt zero width pfx b up text m)
    (hw : width = none ∨ zero = true) : n = m := by
  obtain ⟨i, j, z, ds, ht, hr, -, -, -, hp, -⟩ := h1
  obtain ⟨i', j', z', ds', ht', hr', -, -, -, hp', -⟩ := h2
  obtain ⟨rfl, rfl⟩ := hp hw
  obtain ⟨rfl, rfl⟩ := hp' hw
  rw [ht'] at ht
  simp only [List.replicate_zero, List.nil_append, List.append_nil] at ht
  have := List.append_cancel_left ht
  have e1 := readFrom_zeros b hb z ds
  have e2 := readFrom_zeros b hb z' ds'
  rw [this] at e2
  rw [e1, hr, hr'] at e2
  injection e2

theorem readFrom_chars (b : Nat) (ds : List Char) (a n : Nat) (h : readFrom b a ds = some n) :
    ∀ c ∈ ds, charVal c ≠ none := by
  induction ds generalizing a with
  | nil => simp
  | cons c cs ih =>
    intro x hx
    simp only [readFrom] at h
    cases hc : charVal c with
    | none => rw [hc] at h; cases h
    | some v =>
      rw [hc] at h
      simp only at h
      by_cases hv : v < b
      · rw [if_pos hv] at h
        rcases List.mem_cons.1 hx with rfl | hx
        · rw [hc]; simp
        · exact ih _ h x hx
      · rw [if_neg hv] at h; cases h

/-- Without fill characters, the characters of a number are a sign, the prefix, and digits. -/
theorem Denotes.chars {spec : FmtSpec} {alt zero up : Bool} {width : Option Nat} {pfx : List Char} {b : Nat} {text : List Char}
    {n : Nat} (h1 : Denotes spec alt zero width pfx b up text n) (hw : width = none ∨ zero = true) :
    ∀ c ∈ text, c = '+' ∨ c ∈ pfx ∨ charVal c ≠ none := by
  obtain ⟨i, j, z, ds, ht, hr, -, -, -, hp, -⟩ := h1
  obtain ⟨rfl, rfl⟩ := hp hw
  intro c hc
  rw [ht] at hc
  simp only [List.replicate_zero, List.nil_append, List.append_nil] at hc
  rcases List.mem_append.1 hc with h | h
  · rcases List.mem_append.1 h with h | h
    · left; split at h <;> simp_all
    · right; left; split at h <;> simp_all
  · right; right
    rcases List.mem_append.1 h with h | h
    · rw [(List.mem_replicate.1 h).2]; decide
    · exact readFrom_chars _ _ _ _ hr c h

theorem split_at_first {c : Char} {l1 l2 r1 r2 : List Char} (h1 : c ∉ l1) (h2 : c ∉ l2)
    (h : l1 ++ c :: r1 = l2 ++ c :: r2) : l1 = l2 ∧ r1 = r2 := by
  induction l1 generalizing l2 with
  | nil =>
    cases l2 with
    | nil => simpa using h
    | cons x xs =>
      simp at h
      exact absurd h.1 (by simp at h2; exact h2.1)
  | cons y ys ih =>
    cases l2 with
    | nil =>
      simp at h
      exact absurd h.1.symm (by simp at h1; exact h1.1)
    | cons x xs =>
      simp only [List.cons_append, List.cons.injEq] at h
      simp at h1 h2
      obtain ⟨e, e'⟩ := ih h1.2 h2.2 h.2
      exact ⟨by rw [h.1, e], e'⟩

theorem indent_line (l : List Char) (h : '\n' ∉ l) (b : Bool) (hl : l ≠ []) :
    indent b (l ++ ['\n']) = (if b then [' ', ' ', ' ', ' '] else []) ++ l ++ ['\n'] := by
  induction l generalizing b with
  | nil => exact absurd rfl hl
  | cons c cs ih =>
    simp only [List.mem_cons, not_or] at h
    have hc : (c == '\n') = false := by simp; exact fun e => h.1 e.symm
    cases cs with
    | nil => simp [indent, hc]
    | cons d ds =>
      simp only [List.cons_append, indent, hc]
      have := ih h.2 false (by simp)
      simp only [List.cons_append, indent] at this
      simp at this
      simp [this]

end TB

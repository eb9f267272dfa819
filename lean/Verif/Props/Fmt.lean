import Verif.Lemmas.Fmt
import Verif.Lemmas.Word

/-!
# Printed forms of tagged pointers and boxes (C13, C14)

`Denotes` (`Verif/Spec/Text.lean`) says what number a text stands for.
-/

set_option autoImplicit false

namespace TB.Props

open TB

/-- The four integer formats of a number, with their prefix, base and letter case. -/
def PrintsNumber (fmt : IntFmt → FmtSpec → List Char) (n : Nat) : Prop :=
  ∀ spec : FmtSpec,
    Denotes spec spec.alternate spec.zeroPad spec.width "0x".toList 16 false (fmt .lowerHex spec) n ∧
    Denotes spec spec.alternate spec.zeroPad spec.width "0x".toList 16 true (fmt .upperHex spec) n ∧
    Denotes spec spec.alternate spec.zeroPad spec.width "0o".toList 8 false (fmt .octal spec) n ∧
    Denotes spec spec.alternate spec.zeroPad spec.width "0b".toList 2 false (fmt .binary spec) n

/-- Printed as a pointer: always with `0x`, in lower case; `{:#p}` pads with zeros, to the full width unless another is given. -/
def PrintsPointer (ptrBits : Nat) (fmt : FmtSpec → List Char) (n : Nat) : Prop :=
  ∀ spec : FmtSpec,
    Denotes spec true (spec.zeroPad || spec.alternate)
      (if spec.alternate then some (spec.width.getD (ptrBits / 4 + 2)) else spec.width) "0x".toList 16 false (fmt spec) n

theorem fmtInt_prints (n : Nat) : PrintsNumber (fun t spec => fmtInt t spec n) n := fun spec =>
  ⟨padIntegral_denotes spec _ 16 false (by decide) (by decide) n, padIntegral_denotes spec _ 16 true (by decide) (by decide) n,
    padIntegral_denotes spec _ 8 false (by decide) (by decide) n, padIntegral_denotes spec _ 2 false (by decide) (by decide) n⟩

theorem fmtPtr_prints (ptrBits n : Nat) : PrintsPointer ptrBits (fun spec => fmtPtr ptrBits spec n) n := by
  intro spec
  have := padIntegral_denotes
    { spec with
      alternate := true
      zeroPad := spec.zeroPad || spec.alternate
      width := if spec.alternate then some (spec.width.getD (ptrBits / 4 + 2)) else spec.width }
    "0x".toList 16 false (by decide) (by decide) n
  exact this

/-- **C13** The four integer formats and the pointer format of a tagged pointer, and the four integer formats of a box, show
exactly the address (for the pointer format: what of it fits in a native pointer), under all format parameters; whatever
discriminant is stored with an address, the text is the same; and two pointers with different addresses print differently
unless fill characters are in play. -/
theorem C13_address_only (c : Config) (hc : c ∈ table) (ptrBits : Nat) :
    (∀ p : TPtr, PrintsNumber (fun t spec => p.fmtNum c t spec) (p.asU64 c).toNat ∧
      PrintsPointer ptrBits (fun spec => p.fmtPointer c ptrBits spec) ((p.asU64 c).toNat % 2 ^ ptrBits)) ∧
    (∀ (env : Env) (b : TBox), PrintsNumber (fun t spec => b.fmtNum env t spec) (b.boxed.asU64 env.cfg).toNat) ∧
    (∀ (w : BitVec 64) (d d' : c.Discr) (t : IntFmt) (spec : FmtSpec),
      TPtr.fmtNum c t spec ⟨TPtr.storeDiscriminant c w d⟩ = TPtr.fmtNum c t spec ⟨TPtr.storeDiscriminant c w d'⟩ ∧
      TPtr.fmtPointer c ptrBits spec ⟨TPtr.storeDiscriminant c w d⟩ =
        TPtr.fmtPointer c ptrBits spec ⟨TPtr.storeDiscriminant c w d'⟩) ∧
    (∀ (p q : TPtr) (t : IntFmt) (spec : FmtSpec), spec.width = none ∨ spec.zeroPad = true →
      p.fmtNum c t spec = q.fmtNum c t spec → p.asU64 c = q.asU64 c) := by
  have s := sane_of_mem hc
  refine ⟨fun p => ⟨fmtInt_prints _, ?_⟩, fun env b => fmtInt_prints _, fun w d d' t spec => ?_, fun p q t spec hw h => ?_⟩
  · have := fmtPtr_prints ptrBits (p.asPtr c ptrBits)
    simp only [TPtr.asPtr, BitVec.toNat_setWidth] at this
    simpa only [TPtr.fmtPointer, TPtr.asPtr, BitVec.toNat_setWidth, TPtr.asU64] using this
  · have e : TPtr.stripDiscriminant c (TPtr.storeDiscriminant c w d) = TPtr.stripDiscriminant c (TPtr.storeDiscriminant c w d') :=
      BitVec.eq_of_toNat_eq (by rw [s.strip_store, s.strip_store])
    simp only [TPtr.fmtNum, TPtr.fmtPointer, TPtr.asU64, TPtr.asPtr, e, and_self]
  · apply BitVec.eq_of_toNat_eq
    have hp := fmtInt_prints (p.asU64 c).toNat spec
    have hq := fmtInt_prints (q.asU64 c).toNat spec
    simp only [TPtr.fmtNum] at h
    simp only at hp hq
    cases t
    · have a := hp.1; rw [h] at a; exact a.unique (by decide) hq.1 hw
    · have a := hp.2.1; rw [h] at a; exact a.unique (by decide) hq.2.1 hw
    · have a := hp.2.2.1; rw [h] at a; exact a.unique (by decide) hq.2.2.1 hw
    · have a := hp.2.2.2; rw [h] at a; exact a.unique (by decide) hq.2.2.2 hw

/-- The parameters of `{}`. -/
def plainSpec : FmtSpec :=
  { fill := ' ', align := 3, width := none, precision := none, alternate := false, signPlus := false, signMinus := false,
    zeroPad := false, debugHex := 0 }

def cfg60 : Config := ⟨"tagged_box_reserve_60bits", 8, 15, 60, 4⟩

/-- C13 on a case: discriminant 5 over address 0xbeef prints as `0xbeef`, right-aligned in ten columns of dots. -/
example : cfg60 ∈ table ∧
    TPtr.fmtNum cfg60 .lowerHex { plainSpec with width := some 10, fill := '.', alternate := true } ⟨0x500000000000BEEF#64⟩ =
      "....0xbeef".toList ∧
    TPtr.fmtPointer cfg60 64 { plainSpec with alternate := true } ⟨0x500000000000BEEF#64⟩ = "0x000000000000beef".toList := by
  refine ⟨by decide, ?_, ?_⟩
  · have : (TPtr.asU64 cfg60 ⟨0x500000000000BEEF#64⟩).toNat = 0xBEEF := by decide
    simp only [TPtr.fmtNum, this, fmtInt, digits, IntFmt.base]
    simp [radix]
    decide
  · have : TPtr.asPtr cfg60 64 ⟨0x500000000000BEEF#64⟩ = 0xBEEF := by decide
    simp only [TPtr.fmtPointer, this, fmtPtr, fmtInt, digits, IntFmt.base]
    simp [radix]
    decide

/-! ## C14 -/

/-- **C14**, the claim: the `Debug` text of a tagged pointer determines it, under all format parameters. -/
def C14_Statement (ptrBits : Nat) : Prop :=
  ∀ c ∈ table, ∀ (spec : FmtSpec) (p q : TPtr), p.fmtDebug c ptrBits spec = q.fmtDebug c ptrBits spec → p = q

/-- `text` is the number `n` as `Debug` shows an unsigned integer: decimal, or hexadecimal under `{:x?}` and `{:X?}`. -/
def DebugNumber (spec : FmtSpec) (text : List Char) (n : Nat) : Prop :=
  if spec.debugHex = 1 then Denotes spec spec.alternate spec.zeroPad spec.width "0x".toList 16 false text n
  else if spec.debugHex = 2 then Denotes spec spec.alternate spec.zeroPad spec.width "0x".toList 16 true text n
  else Denotes spec spec.alternate spec.zeroPad spec.width [] 10 false text n

theorem fmtDebugInt_prints (spec : FmtSpec) (n : Nat) : DebugNumber spec (fmtDebugInt spec n) n := by
  unfold DebugNumber fmtDebugInt
  split
  · exact (fmtInt_prints n spec).1
  · split
    · exact (fmtInt_prints n spec).2.1
    · exact padIntegral_denotes spec _ 10 false (by decide) (by decide) n

theorem DebugNumber.unique {spec : FmtSpec} {text : List Char} {n m : Nat} (h1 : DebugNumber spec text n)
    (h2 : DebugNumber spec text m) (hw : spec.width = none ∨ spec.zeroPad = true) : n = m := by
  unfold DebugNumber at h1 h2
  split at h1
  · rename_i e; rw [if_pos e] at h2; exact Denotes.unique (by decide) h1 h2 hw
  · rename_i e
    rw [if_neg e] at h2
    split at h1
    · rename_i e'; rw [if_pos e'] at h2; exact Denotes.unique (by decide) h1 h2 hw
    · rename_i e'; rw [if_neg e'] at h2; exact Denotes.unique (by decide) h1 h2 hw

theorem DebugNumber.chars {spec : FmtSpec} {text : List Char} {n : Nat} (h1 : DebugNumber spec text n)
    (hw : spec.width = none ∨ spec.zeroPad = true) : ∀ ch ∈ text, ch = '+' ∨ ch ∈ "0x".toList ∨ charVal ch ≠ none := by
  unfold DebugNumber at h1
  intro ch hch
  split at h1
  · exact h1.chars hw ch hch
  · split at h1
    · exact h1.chars hw ch hch
    · rcases h1.chars hw ch hch with h | h | h
      · exact .inl h
      · cases h
      · exact .inr (.inr h)

/-- The text around the three values. -/
def debugText (alternate : Bool) (A B D : List Char) : List Char :=
  if alternate then "TaggedPointer {\n    raw: ".toList ++ A ++ ",\n    ptr: ".toList ++ B ++ ",\n    discriminant: ".toList ++ D ++
    ",\n}".toList
  else "TaggedPointer { raw: ".toList ++ A ++ ", ptr: ".toList ++ B ++ ", discriminant: ".toList ++ D ++ " }".toList

/-- The width and padding with which pointers are printed. -/
theorem ptr_nofill {spec : FmtSpec} {ptrBits : Nat} (hw : spec.width = none ∨ spec.zeroPad = true) :
    (if spec.alternate then some (spec.width.getD (ptrBits / 4 + 2)) else spec.width) = none ∨
      (spec.zeroPad || spec.alternate) = true := by
  cases ha : spec.alternate
  · rcases hw with h | h
    · left; simpa using h
    · right; simp [h]
  · right; simp

theorem not_mem_of_chars {l : List Char} (ch : Char) (h1 : ch ≠ '+') (h2 : ch ∉ "0x".toList) (h3 : charVal ch = none)
    (h : ∀ x ∈ l, x = '+' ∨ x ∈ "0x".toList ∨ charVal x ≠ none) : ch ∉ l := by
  intro hm
  rcases h ch hm with e | e | e
  · exact h1 e
  · exact h2 e
  · exact e h3

theorem debug_shape (c : Config) (ptrBits : Nat) (spec : FmtSpec) (hw : spec.width = none ∨ spec.zeroPad = true) (p : TPtr) :
    p.fmtDebug c ptrBits spec = debugText spec.alternate (fmtPtr ptrBits spec (p.asRawU64.setWidth ptrBits).toNat)
      (fmtPtr ptrBits spec (p.asPtr c ptrBits)) (fmtDebugInt spec (p.discriminant c).toNat) := by
  unfold TPtr.fmtDebug debugStruct debugText
  cases ha : spec.alternate
  · simp [List.intercalate, List.intersperse]
  · have hA := not_mem_of_chars '\n' (by decide) (by decide) (by decide)
      ((fmtPtr_prints ptrBits (p.asRawU64.setWidth ptrBits).toNat spec).chars (ptr_nofill hw))
    have hB := not_mem_of_chars '\n' (by decide) (by decide) (by decide)
      ((fmtPtr_prints ptrBits (p.asPtr c ptrBits) spec).chars (ptr_nofill hw))
    have hD := not_mem_of_chars '\n' (by decide) (by decide) (by decide)
      ((fmtDebugInt_prints spec (p.discriminant c).toNat).chars hw)
    simp only at hA hB
    generalize fmtPtr ptrBits spec (p.asRawU64.setWidth ptrBits).toNat = A at *
    generalize fmtPtr ptrBits spec (p.asPtr c ptrBits) = B at *
    generalize fmtDebugInt spec (p.discriminant c).toNat = D at *
    have e : ∀ n v : List Char, n ++ ": ".toList ++ v ++ ",\n".toList = (n ++ ": ".toList ++ v ++ [',']) ++ ['\n'] := by
      intro n v; simp
    simp only [if_true, List.map_cons, List.map_nil, e]
    rw [indent_line _ (by simp [hA]) true (by simp), indent_line _ (by simp [hB]) true (by simp),
      indent_line _ (by simp [hD]) true (by simp)]
    simp

theorem debug_values (c : Config) (ptrBits : Nat) (spec : FmtSpec) (hw : spec.width = none ∨ spec.zeroPad = true) (p q : TPtr)
    (h : p.fmtDebug c ptrBits spec = q.fmtDebug c ptrBits spec) :
    (p.asRawU64.setWidth ptrBits).toNat = (q.asRawU64.setWidth ptrBits).toNat ∧
    p.asPtr c ptrBits = q.asPtr c ptrBits ∧ (p.discriminant c).toNat = (q.discriminant c).toNat := by
  rw [debug_shape c ptrBits spec hw, debug_shape c ptrBits spec hw] at h
  have nc : ∀ n, ',' ∉ fmtPtr ptrBits spec n := fun n =>
    not_mem_of_chars ',' (by decide) (by decide) (by decide) ((fmtPtr_prints ptrBits n spec).chars (ptr_nofill hw))
  have nd : ∀ n, ',' ∉ fmtDebugInt spec n := fun n =>
    not_mem_of_chars ',' (by decide) (by decide) (by decide) ((fmtDebugInt_prints spec n).chars hw)
  have ns : ∀ n, ' ' ∉ fmtDebugInt spec n := fun n =>
    not_mem_of_chars ' ' (by decide) (by decide) (by decide) ((fmtDebugInt_prints spec n).chars hw)
  have up : ∀ n m, fmtPtr ptrBits spec n = fmtPtr ptrBits spec m → n = m := fun n m e => by
    have a := fmtPtr_prints ptrBits n spec
    simp only at a
    rw [e] at a
    exact a.unique (by decide) (fmtPtr_prints ptrBits m spec) (ptr_nofill hw)
  have ud : ∀ n m, fmtDebugInt spec n = fmtDebugInt spec m → n = m := fun n m e => by
    have a := fmtDebugInt_prints spec n
    rw [e] at a
    exact a.unique (fmtDebugInt_prints spec m) hw
  unfold debugText at h
  cases ha : spec.alternate
  · simp only [ha, Bool.false_eq_true, if_false, List.append_assoc] at h
    have h := List.append_cancel_left h
    obtain ⟨e1, h⟩ := split_at_first (nc _) (nc _) h
    have h := List.append_cancel_left (as := " ptr: ".toList) h
    obtain ⟨e2, h⟩ := split_at_first (nc _) (nc _) h
    have h := List.append_cancel_left (as := " discriminant: ".toList) h
    obtain ⟨e3, h⟩ := split_at_first (ns _) (ns _) h
    exact ⟨up _ _ e1, up _ _ e2, ud _ _ e3⟩
  · simp only [ha, if_true, List.append_assoc] at h
    have h := List.append_cancel_left h
    obtain ⟨e1, h⟩ := split_at_first (nc _) (nc _) h
    have h := List.append_cancel_left (as := "\n    ptr: ".toList) h
    obtain ⟨e2, h⟩ := split_at_first (nc _) (nc _) h
    have h := List.append_cancel_left (as := "\n    discriminant: ".toList) h
    obtain ⟨e3, h⟩ := split_at_first (nd _) (nd _) h
    exact ⟨up _ _ e1, up _ _ e2, ud _ _ e3⟩

/-- **C14** (part) When no fill characters are in play: the text consists of the three labelled values, on one line or, under
`{:#?}`, on indented lines; they read as the raw word and the address (what of them fits in a native pointer) and the
discriminant; on 64-bit targets the text determines the pointer, and on 32-bit targets it does among pointers whose address fits
in 32 bits. Missing: format parameters with fill, and wider addresses on 32-bit targets; both false (`C14_refuted`). -/
theorem C14_partial (c : Config) (hc : c ∈ table) (spec : FmtSpec) (hw : spec.width = none ∨ spec.zeroPad = true) :
    (∀ (ptrBits : Nat) (p : TPtr), ∃ A B D : List Char, p.fmtDebug c ptrBits spec = debugText spec.alternate A B D ∧
      Denotes spec true (spec.zeroPad || spec.alternate)
        (if spec.alternate then some (spec.width.getD (ptrBits / 4 + 2)) else spec.width) "0x".toList 16 false A
        (p.asRawU64.toNat % 2 ^ ptrBits) ∧
      Denotes spec true (spec.zeroPad || spec.alternate)
        (if spec.alternate then some (spec.width.getD (ptrBits / 4 + 2)) else spec.width) "0x".toList 16 false B
        ((p.asU64 c).toNat % 2 ^ ptrBits) ∧
      DebugNumber spec D (p.discriminant c).toNat) ∧
    (∀ p q : TPtr, p.fmtDebug c 64 spec = q.fmtDebug c 64 spec → p = q) ∧
    (∀ p q : TPtr, (p.asU64 c).toNat < 2 ^ 32 → (q.asU64 c).toNat < 2 ^ 32 →
      p.fmtDebug c 32 spec = q.fmtDebug c 32 spec → p = q) := by
  have s := sane_of_mem hc
  refine ⟨fun ptrBits p => ⟨_, _, _, debug_shape c ptrBits spec hw p, ?_, ?_, fmtDebugInt_prints _ _⟩, fun p q h => ?_,
    fun p q hp hq h => ?_⟩
  · have := fmtPtr_prints ptrBits (p.asRawU64.setWidth ptrBits).toNat spec
    simpa only [BitVec.toNat_setWidth] using this
  · have := fmtPtr_prints ptrBits (p.asPtr c ptrBits) spec
    simpa only [TPtr.asPtr, BitVec.toNat_setWidth, TPtr.asU64] using this
  · have := (debug_values c 64 spec hw p q h).1
    simp only [BitVec.setWidth_eq] at this
    exact TPtr.ext_raw (BitVec.eq_of_toNat_eq this)
  · obtain ⟨-, h2, h3⟩ := debug_values c 32 spec hw p q h
    simp only [TPtr.asPtr, BitVec.toNat_setWidth] at h2
    rw [TPtr.asU64] at hp hq
    rw [Nat.mod_eq_of_lt hp, Nat.mod_eq_of_lt hq] at h2
    exact TPtr.ext_raw (s.eq_of_strip_fetch h2 h3)

/-- **C14** is false: on 32-bit targets because the words are cut down to native pointers, already under `{:?}`; on 64-bit
targets under format parameters whose fill character is a digit. -/
theorem C14_refuted : ¬ C14_Statement 32 ∧ ¬ C14_Statement 64 ∧
    ∃ c ∈ table, ∃ p q : TPtr, p ≠ q ∧ p.fmtDebug c 32 plainSpec = q.fmtDebug c 32 plainSpec := by
  have key : ∃ c ∈ table, ∃ p q : TPtr, p ≠ q ∧ p.fmtDebug c 32 plainSpec = q.fmtDebug c 32 plainSpec := by
    refine ⟨cfg60, by decide, ⟨0x100000000#64⟩, ⟨0x200000000#64⟩, by decide, ?_⟩
    unfold TPtr.fmtDebug
    have h1 : (TPtr.asRawU64 ⟨0x100000000#64⟩).setWidth 32 = (TPtr.asRawU64 ⟨0x200000000#64⟩).setWidth 32 := by decide
    have h2 : TPtr.asPtr cfg60 32 ⟨0x100000000#64⟩ = TPtr.asPtr cfg60 32 ⟨0x200000000#64⟩ := by decide
    have h3 : TPtr.discriminant cfg60 ⟨0x100000000#64⟩ = TPtr.discriminant cfg60 ⟨0x200000000#64⟩ := by decide
    rw [h1, h2, h3]
  refine ⟨fun h => ?_, fun h => ?_, key⟩
  · obtain ⟨c, hc, p, q, hne, e⟩ := key
    exact hne (h c hc _ p q e)
  · have := h cfg60 (by decide) { plainSpec with width := some 6, fill := '1', align := 0 } ⟨0x1#64⟩ ⟨0x11#64⟩ ?_
    · exact absurd this (by decide)
    · unfold TPtr.fmtDebug
      have a1 : ((TPtr.asRawU64 ⟨0x1#64⟩).setWidth 64).toNat = 1 := by decide
      have a2 : ((TPtr.asRawU64 ⟨0x11#64⟩).setWidth 64).toNat = 17 := by decide
      have b1 : TPtr.asPtr cfg60 64 ⟨0x1#64⟩ = 1 := by decide
      have b2 : TPtr.asPtr cfg60 64 ⟨0x11#64⟩ = 17 := by decide
      have d : TPtr.discriminant cfg60 ⟨0x1#64⟩ = TPtr.discriminant cfg60 ⟨0x11#64⟩ := by decide
      have e : fmtPtr 64 { plainSpec with width := some 6, fill := '1', align := 0 } 1 =
          fmtPtr 64 { plainSpec with width := some 6, fill := '1', align := 0 } 17 := by
        simp only [fmtPtr, fmtInt, digits, IntFmt.base]
        simp [radix]
        decide
      rw [a1, a2, b1, b2, d, e]

/-- C14 on a case. -/
example : TPtr.fmtDebug cfg60 64 plainSpec ⟨0x500000000000BEEF#64⟩ =
    "TaggedPointer { raw: 0x500000000000beef, ptr: 0xbeef, discriminant: 5 }".toList := by
  have a : ((TPtr.asRawU64 ⟨0x500000000000BEEF#64⟩).setWidth 64).toNat = 0x500000000000BEEF := by decide
  have b : TPtr.asPtr cfg60 64 ⟨0x500000000000BEEF#64⟩ = 0xBEEF := by decide
  have d : (TPtr.discriminant cfg60 ⟨0x500000000000BEEF#64⟩).toNat = 5 := by decide
  simp only [TPtr.fmtDebug, a, b, d, fmtPtr, fmtInt, fmtDebugInt, fmtDec, digits, IntFmt.base]
  simp [radix, plainSpec]
  decide

end TB.Props

import Verif.Lemmas.Cargo
import Verif.Lemmas.Word

/-!
# Properties of `TaggedPointer` and of the width settings (C01 - C12)

Statements are about natural-number values of words (`toNat`), for every row `c` of the settings table.
-/

set_option autoImplicit false

namespace TB.Props

open TB

/-- **C01** Round trip, every setting, debug and release. -/
theorem C01_roundtrip (c : Config) (hc : c ∈ table) (debug : Bool) (p : BitVec 64) (d : c.Discr)
    (hp : p ≤ c.MAX_POINTER_VALUE) (hd : d ≤ c.MAX_DISCRIMINANT) :
    ∃ t, TPtr.new c debug p d = .ok t ∧ t.discriminant c = d ∧ t.asU64 c = p ∧
      (t.asRawU64).toNat = p.toNat + d.toNat * 2 ^ c.POINTER_WIDTH := by
  have s := sane_of_mem hc
  have hp' := (s.le_maxPtr_iff p).1 hp
  have hd' := (s.le_maxDiscr_iff d).1 hd
  have hdf : d.toNat % 2 ^ c.freeBits = d.toNat :=
    Nat.mod_eq_of_lt (Nat.lt_of_le_of_lt hd' s.max_lt)
  refine ⟨⟨TPtr.storeDiscriminant c p d⟩, ?_, ?_, ?_, ?_⟩
  · simp [TPtr.new, hp, hd]
  · apply BitVec.eq_of_toNat_eq
    rw [TPtr.discriminant, s.fetch_store, hdf, Nat.div_eq_of_lt hp', Nat.zero_or]
  · apply BitVec.eq_of_toNat_eq
    rw [TPtr.asU64, s.strip_store, Nat.mod_eq_of_lt hp']
  · rw [TPtr.asRawU64, s.store_toNat, hdf, Nat.div_eq_of_lt hp', Nat.zero_or, Nat.mod_eq_of_lt hp',
      Config.POINTER_WIDTH]

/-- C01 is not vacuous: the largest address and a non-trivial discriminant at the default width. -/
example : ∃ c ∈ table, c.ptrWidth = 60 ∧ ∃ (p : BitVec 64) (d : c.Discr),
    p = 0x0FFFFFFFFFFFFFFF#64 ∧ d.toNat = 11 ∧ p ≤ c.MAX_POINTER_VALUE ∧ d ≤ c.MAX_DISCRIMINANT :=
  ⟨⟨"tagged_box_reserve_60bits", 8, 15, 60, 4⟩, by decide, rfl, 0x0FFFFFFFFFFFFFFF#64,
    (11#8 : BitVec 8), rfl, rfl, by decide, by decide⟩

/-- **C02**, the documented claim: `new` panics if and only if an argument is out of range. -/
def C02_Statement (debug : Bool) : Prop :=
  ∀ c ∈ table, ∀ (p : BitVec 64) (d : c.Discr),
    (∃ k, TPtr.new c debug p d = .error k) ↔ (c.MAX_DISCRIMINANT < d ∨ c.MAX_POINTER_VALUE < p)

/-- **C02** (part): the documented claim holds in builds with debug assertions, and the discriminant is the one
reported when both are out of range; the addresses out of range are those that do not fit the reserved bits. Missing: release builds, where it is false
(`C02_new_panics_release_refuted`). -/
theorem C02_new_panics_debug_partial : C02_Statement true ∧
    (∀ c ∈ table, ∀ (p : BitVec 64) (d : c.Discr),
      (TPtr.new c true p d = .error .discriminant ↔ c.MAX_DISCRIMINANT < d) ∧
      (TPtr.new c true p d = .error .pointer ↔ d ≤ c.MAX_DISCRIMINANT ∧ c.MAX_POINTER_VALUE < p) ∧
      (c.MAX_POINTER_VALUE < p ↔ 2 ^ c.POINTER_WIDTH ≤ p.toNat)) := by
  constructor
  · intro c _ p d
    simp only [TPtr.new, Bool.true_and, Bool.not_eq_true', decide_eq_false_iff_not, BitVec.not_le]
    split <;> rename_i h
    · simp [h]
    · split <;> rename_i h'
      · simp [h']
      · simp [h, h']
  · intro c hc p d
    rw [← and_assoc]
    refine ⟨?_, by rw [← BitVec.not_le, (sane_of_mem hc).le_maxPtr_iff, Nat.not_lt]; rfl⟩
    simp only [TPtr.new, Bool.true_and, Bool.not_eq_true', decide_eq_false_iff_not, BitVec.not_le]
    split <;> rename_i h
    · simp [h, BitVec.not_le.2 h]
    · split <;> rename_i h'
      · simp [h, h', BitVec.not_lt.1 h]
      · simp [h, h']

/-- **C02** is false without debug assertions: `new` never panics there, whatever the arguments, and
out-of-range arguments exist. -/
theorem C02_new_panics_release_refuted :
    (∀ (c : Config) (p : BitVec 64) (d : c.Discr), ∃ t, TPtr.new c false p d = .ok t) ∧ ¬ C02_Statement false := by
  refine ⟨fun c p d => ⟨_, by simp [TPtr.new]; rfl⟩, fun h => ?_⟩
  have := (h ⟨"tagged_box_reserve_60bits", 8, 15, 60, 4⟩ (by decide) 0#64 (16#8 : BitVec 8)).2
    (Or.inl (by decide))
  obtain ⟨k, hk⟩ := this
  simp [TPtr.new] at hk

/-- **C03** What a release build returns for arbitrary arguments; and both arguments are recovered exactly
when both fit in their bit fields. -/
theorem C03_release_new (c : Config) (hc : c ∈ table) (p : BitVec 64) (d : c.Discr) :
    ∃ t, TPtr.new c false p d = .ok t ∧
      (t.asU64 c).toNat = p.toNat % 2 ^ c.POINTER_WIDTH ∧
      (t.discriminant c).toNat = (d.toNat % 2 ^ c.DISCRIMINANT_BITS) ||| (p.toNat / 2 ^ c.POINTER_WIDTH) ∧
      ((t.asU64 c = p ∧ t.discriminant c = d) ↔
        (p.toNat < 2 ^ c.POINTER_WIDTH ∧ d.toNat < 2 ^ c.DISCRIMINANT_BITS)) := by
  have s := sane_of_mem hc
  have e1 : ((⟨TPtr.storeDiscriminant c p d⟩ : TPtr).asU64 c).toNat = p.toNat % 2 ^ c.ptrWidth := s.strip_store p d
  have e2 : ((⟨TPtr.storeDiscriminant c p d⟩ : TPtr).discriminant c).toNat =
      ((p.toNat / 2 ^ c.ptrWidth) ||| (d.toNat % 2 ^ c.freeBits)) := s.fetch_store p d
  refine ⟨⟨TPtr.storeDiscriminant c p d⟩, by simp [TPtr.new], e1, by rw [e2, Nat.or_comm]; rfl, ?_, ?_⟩
  · rintro ⟨h1, h2⟩
    constructor
    · rw [← h1, e1]; exact Nat.mod_lt _ (Nat.two_pow_pos _)
    · rw [← h2]; exact s.fetch_lt _
  · rintro ⟨h1, h2⟩
    simp only [Config.POINTER_WIDTH, Config.DISCRIMINANT_BITS] at h1 h2
    constructor
    · apply BitVec.eq_of_toNat_eq; rw [e1, Nat.mod_eq_of_lt h1]
    · apply BitVec.eq_of_toNat_eq
      rw [e2, Nat.mod_eq_of_lt h2, Nat.div_eq_of_lt h1, Nat.zero_or]

/-- C03, a concrete corruption: at the default width in release, discriminant 16 is stored as 0 and an
address with bit 60 set turns discriminant 2 into 3. -/
example : TPtr.new ⟨"tagged_box_reserve_60bits", 8, 15, 60, 4⟩ false 0x1000000000000008#64 (2#8 : BitVec 8)
    = .ok ⟨0x3000000000000008#64⟩ := by rfl

/-- **C04** Every 64-bit word is recovered from its two parts; the parts are in range; the narrowing cast in
`fetch_discriminant` loses nothing. -/
theorem C04_decompose (c : Config) (hc : c ∈ table) (w : BitVec 64) :
    TPtr.storeDiscriminant c (TPtr.stripDiscriminant c w) (TPtr.fetchDiscriminant c w) = w ∧
    (TPtr.fetchDiscriminant c w).toNat = w.toNat / 2 ^ c.POINTER_WIDTH ∧
    (TPtr.fetchDiscriminant c w).toNat < 2 ^ c.DISCRIMINANT_BITS ∧
    (TPtr.stripDiscriminant c w).toNat = w.toNat % 2 ^ c.POINTER_WIDTH ∧
    TPtr.stripDiscriminant c w ≤ c.MAX_POINTER_VALUE := by
  have s := sane_of_mem hc
  have hlt : w.toNat % 2 ^ c.ptrWidth < 2 ^ c.ptrWidth := Nat.mod_lt _ (Nat.two_pow_pos _)
  refine ⟨?_, s.fetch_toNat w, s.fetch_lt w, s.strip_toNat w, ?_⟩
  · apply s.eq_of_strip_fetch
    · rw [s.strip_store, s.strip_toNat, Nat.mod_mod]
    · rw [s.fetch_store, s.strip_toNat, Nat.div_eq_of_lt hlt, Nat.zero_or, Nat.mod_eq_of_lt (s.fetch_lt w)]
  · rw [s.le_maxPtr_iff, s.strip_toNat]; exact hlt

/-- **C05** Equality of tagged pointers is equality of address and discriminant; equal ones hash equally
under every hasher, and unequal ones feed it different data. -/
theorem C05_eq_iff (c : Config) (hc : c ∈ table) (a b : TPtr) :
    (a = b ↔ a.asU64 c = b.asU64 c ∧ a.discriminant c = b.discriminant c) ∧
    (a = b ↔ ∀ (H : Type) (w : BitVec 64 → H → H) (h : H), a.hash w h = b.hash w h) := by
  have s := sane_of_mem hc
  refine ⟨⟨fun h => by simp [h], fun ⟨h1, h2⟩ => ?_⟩, fun h => by simp [h],
    fun h => TPtr.ext_raw (h (BitVec 64) (fun x _ => x) 0#64)⟩
  apply TPtr.ext_raw
  apply s.eq_of_strip_fetch
  · exact congrArg BitVec.toNat h1
  · exact congrArg BitVec.toNat h2

/-- **C06** The derived order is lexicographic on (discriminant, address). -/
theorem C06_order (c : Config) (hc : c ∈ table) (a b : TPtr) :
    TPtr.cmp a b =
      (compare (a.discriminant c).toNat (b.discriminant c).toNat).then
        (compare (a.asU64 c).toNat (b.asU64 c).toNat) := by
  have s := sane_of_mem hc
  simp only [TPtr.cmp, TPtr.discriminant, TPtr.asU64, s.fetch_toNat, s.strip_toNat]
  generalize a.raw.toNat = x
  generalize b.raw.toNat = y
  have hK : 0 < 2 ^ c.ptrWidth := Nat.two_pow_pos _
  generalize 2 ^ c.ptrWidth = K at hK
  have ex := Nat.div_add_mod x K
  have ey := Nat.div_add_mod y K
  have hx := Nat.mod_lt x hK
  have hy := Nat.mod_lt y hK
  rcases Nat.lt_trichotomy (x / K) (y / K) with h | h | h
  · have : x < y := by
      have : K * (x / K) + K ≤ K * (y / K) := by
        rw [← Nat.mul_succ]; exact Nat.mul_le_mul_left _ h
      omega
    rw [Nat.compare_eq_lt.2 this, Nat.compare_eq_lt.2 h]; rfl
  · rw [h, Nat.compare_eq_eq.2 rfl]
    show _ = compare _ _
    rw [h] at ex
    rcases Nat.lt_trichotomy (x % K) (y % K) with g | g | g
    · rw [Nat.compare_eq_lt.2 g, Nat.compare_eq_lt.2 (by omega)]
    · rw [Nat.compare_eq_eq.2 g, Nat.compare_eq_eq.2 (by omega)]
    · rw [Nat.compare_eq_gt.2 g, Nat.compare_eq_gt.2 (by omega)]
  · have : y < x := by
      have : K * (y / K) + K ≤ K * (x / K) := by
        rw [← Nat.mul_succ]; exact Nat.mul_le_mul_left _ h
      omega
    rw [Nat.compare_eq_gt.2 this, Nat.compare_eq_gt.2 h]; rfl

/-- **C07**, the full claim about one row. -/
def C07_Statement (c : Config) : Prop :=
  c.POINTER_WIDTH + c.DISCRIMINANT_BITS = 64 ∧
  c.MAX_POINTER_VALUE.toNat = 2 ^ c.POINTER_WIDTH - 1 ∧
  c.DISCRIMINANT_MASK = c.MAX_POINTER_VALUE ∧
  c.DISCRIMINANT_BITS ≤ c.discrBits ∧
  c.MAX_DISCRIMINANT.toNat = 2 ^ c.DISCRIMINANT_BITS - 1

/-- **C07** (part): every row except the 52-bit one satisfies the full claim, and the 52-bit row
satisfies everything but the last conjunct. Missing: the 52-bit row's `MAX_DISCRIMINANT`, see
`C07_constants_refuted_52`. -/
theorem C07_constants_partial (c : Config) (hc : c ∈ table) :
    (c.POINTER_WIDTH ≠ 52 → C07_Statement c) ∧
    (c.POINTER_WIDTH + c.DISCRIMINANT_BITS = 64 ∧
     c.MAX_POINTER_VALUE.toNat = 2 ^ c.POINTER_WIDTH - 1 ∧
     c.DISCRIMINANT_MASK = c.MAX_POINTER_VALUE ∧
     c.DISCRIMINANT_BITS ≤ c.discrBits ∧
     c.MAX_DISCRIMINANT.toNat ≤ 2 ^ c.DISCRIMINANT_BITS - 1) := by
  have s := sane_of_mem hc
  have hm := s.max_lt
  have h5 : c.MAX_DISCRIMINANT.toNat ≤ 2 ^ c.DISCRIMINANT_BITS - 1 := by
    rw [s.maxDiscr_toNat]; simp only [Config.DISCRIMINANT_BITS]; omega
  refine ⟨fun h52 => ?_, s.sum, s.maxPtr_toNat, rfl, s.free_le, h5⟩
  refine ⟨s.sum, s.maxPtr_toNat, rfl, s.free_le, ?_⟩
  rw [s.maxDiscr_toNat]
  have H : ∀ c ∈ table, c.POINTER_WIDTH ≠ 52 → c.maxDiscr = 2 ^ c.DISCRIMINANT_BITS - 1 := by decide
  exact H c hc h52

/-- **C07** is false for the 52-bit setting: it advertises 12 data bits but `MAX_DISCRIMINANT` is 4068, so
27 representable discriminants (4069 ..= 4095) are rejected by the range check in debug builds. -/
theorem C07_constants_refuted_52 :
    ∃ c ∈ table, c.POINTER_WIDTH = 52 ∧ ¬ C07_Statement c ∧
      ∀ d : c.Discr, 4069 ≤ d.toNat → d.toNat ≤ 4095 →
        d.toNat < 2 ^ c.DISCRIMINANT_BITS ∧ ∀ p, TPtr.new c true p d = .error .discriminant := by
  refine ⟨⟨"tagged_box_reserve_52bits", 16, 4068, 52, 12⟩, by decide, rfl, ?_, ?_⟩
  · rintro ⟨_, _, _, _, h⟩
    revert h; decide
  · intro d h1 h2
    refine ⟨by simp only [Config.DISCRIMINANT_BITS]; omega, fun p => ?_⟩
    have : ¬ (d ≤ Config.MAX_DISCRIMINANT ⟨"tagged_box_reserve_52bits", 16, 4068, 52, 12⟩) := by
      rw [BitVec.le_def]
      have : (Config.MAX_DISCRIMINANT ⟨"tagged_box_reserve_52bits", 16, 4068, 52, 12⟩).toNat = 4068 := by decide
      omega
    simp [TPtr.new, this]

/-- The 16 documented values of `TAGGED_BOX_RESERVED_WIDTH` (`src/lib.rs:113-128`), with the width meant. -/
def documentedWidths : List (String × Nat) :=
  [("48bits", 48), ("49bits", 49), ("50bits", 50), ("51bits", 51), ("52bits", 52), ("53bits", 53),
   ("54bits", 54), ("55bits", 55), ("56bits", 56), ("57bits", 57), ("58bits", 58), ("59bits", 59),
   ("60bits", 60), ("61bits", 61), ("62bits", 62), ("63bits", 63)]

/-- The width the documentation promises for an environment. -/
def expectedWidth : EnvVar → Nat
  | .ok s => (documentedWidths.lookup s).getD 60
  | _ => 60

/-- The value has no line feed. -/
def _root_.TB.EnvVar.OneLine : EnvVar → Prop
  | .ok s => '\n' ∉ s.toList
  | _ => True

/-- **C08**: exactly one settings row becomes active, it is the documented one, exactly one setting is enabled, and cargo prints a warning exactly for strings that are not documented
names. -/
def C08_Statement (v : EnvVar) : Prop :=
  (∃ c, activeRows (buildLines v) = [c] ∧ c.POINTER_WIDTH = expectedWidth v) ∧
  (∃ f, (buildLines v).filter (fun l => match l with | .cfg _ => true | _ => false) = [.cfg f]) ∧
  ((∃ m, BuildLine.warning m ∈ buildLines v) ↔ ∃ s, v = .ok s ∧ documentedWidths.lookup s = none)

/-- What cargo reads if the value is not a documented name. -/
theorem buildLines_other {s : String} (h : documentedWidths.lookup s = none) : buildLines (.ok s) =
    (splitLines ("cargo:warning=".toList ++ s.toList ++ warningTail)).filterMap cargoLine ++ [.cfg "tagged_box_reserve_60bits"] := by
  unfold buildLines buildMain
  simp only
  split
  case h_17 => rw [cargoReads_printlns]; rfl
  all_goals exact absurd h (by decide)

/-- A documented name, or none. -/
theorem C08_documented {v : EnvVar} (h : ∀ s, v = .ok s → documentedWidths.lookup s ≠ none) : C08_Statement v := by
  cases v with
  | notPresent => exact ⟨⟨_, rfl, rfl⟩, ⟨_, rfl⟩, ⟨fun ⟨m, hm⟩ => (by revert hm; simp [show buildLines .notPresent = [.cfg "tagged_box_reserve_60bits"] from rfl]), fun ⟨_, h, _⟩ => by cases h⟩⟩
  | notUnicode => exact ⟨⟨_, rfl, rfl⟩, ⟨_, rfl⟩, ⟨fun ⟨m, hm⟩ => (by revert hm; simp [show buildLines .notUnicode = [.cfg "tagged_box_reserve_60bits"] from rfl]), fun ⟨_, h, _⟩ => by cases h⟩⟩
  | ok s =>
    have hs := h s rfl
    rw [ne_eq, List.lookup_eq_none_iff] at hs
    simp only [documentedWidths, List.forall_mem_cons, bne_iff_ne, ne_eq, List.not_mem_nil, false_implies, implies_true, and_true, Classical.not_and_iff_not_or_not,
      Classical.not_not] at hs
    rcases hs with rfl | rfl | rfl | rfl | rfl | rfl | rfl | rfl | rfl | rfl | rfl | rfl | rfl | rfl | rfl | rfl <;>
    · refine ⟨⟨_, rfl, rfl⟩, ⟨_, rfl⟩, ⟨fun ⟨m, hm⟩ => ?_, fun ⟨t, h, h'⟩ => ?_⟩⟩
      · exact nomatch (List.mem_singleton.1 hm)
      · cases h
        exact absurd h' (by decide)

/-- **C08** (part): for values without line feeds; the warning then names the whole value. Missing: values with line feeds (`C08_refuted`; what is true of them is `C08_any`). -/
theorem C08_partial (v : EnvVar) (h : v.OneLine) : C08_Statement v ∧
    ∀ s, v = .ok s → documentedWidths.lookup s = none → buildLines v =
      [.warning (s ++ " is an invalid reserved pointer width for `TAGGED_BOX_RESERVED_WIDTH`"), .cfg "tagged_box_reserve_60bits"] := by
  have key : ∀ s, v = .ok s → documentedWidths.lookup s = none → buildLines v =
      [.warning (s ++ " is an invalid reserved pointer width for `TAGGED_BOX_RESERVED_WIDTH`"), .cfg "tagged_box_reserve_60bits"] := by
    rintro s rfl hs
    rw [buildLines_other hs, warning_one h, String.ofList_append, String.ofList_toList]
    rfl
  refine ⟨?_, key⟩
  by_cases hd : ∃ s, v = .ok s ∧ documentedWidths.lookup s = none
  · obtain ⟨s, rfl, hs⟩ := hd
    rw [C08_Statement, key s rfl hs]
    exact ⟨⟨_, rfl, by simp [expectedWidth, hs, Config.POINTER_WIDTH]⟩, ⟨_, rfl⟩, ⟨fun _ => ⟨s, rfl, hs⟩, fun _ => ⟨_, List.mem_cons_self⟩⟩⟩
  · exact C08_documented fun s h1 h2 => hd ⟨s, h1, h2⟩

/-- **C08**, what is true of every value, also with line feeds: the documented row is active, so that no other width is ever used (with two rows the crate does not compile); and
the warning is given exactly for strings that are not documented names. -/
theorem C08_any (v : EnvVar) :
    (∃ c ∈ activeRows (buildLines v), c.POINTER_WIDTH = expectedWidth v) ∧
    (∀ c, activeRows (buildLines v) = [c] → c.POINTER_WIDTH = expectedWidth v) ∧
    ((∃ m, BuildLine.warning m ∈ buildLines v) ↔ ∃ s, v = .ok s ∧ documentedWidths.lookup s = none) := by
  suffices H : (∃ c ∈ activeRows (buildLines v), c.POINTER_WIDTH = expectedWidth v) ∧
      ((∃ m, BuildLine.warning m ∈ buildLines v) ↔ ∃ s, v = .ok s ∧ documentedWidths.lookup s = none) by
    refine ⟨H.1, fun c h => ?_, H.2⟩
    obtain ⟨c', h1, h2⟩ := H.1
    rw [h] at h1
    rw [← List.mem_singleton.1 h1, h2]
  by_cases hd : ∃ s, v = .ok s ∧ documentedWidths.lookup s = none
  · obtain ⟨s, rfl, hs⟩ := hd
    obtain ⟨w, ls, hw⟩ := warning_any s.toList
    rw [buildLines_other hs, hw]
    refine ⟨⟨⟨"tagged_box_reserve_60bits", 8, 15, 60, 4⟩, ?_, by simp [expectedWidth, hs, Config.POINTER_WIDTH]⟩, ⟨fun _ => ⟨s, rfl, hs⟩, fun _ => ⟨w, by simp⟩⟩⟩
    rw [activeRows, List.mem_filter]
    exact ⟨by decide, by simp⟩
  · obtain ⟨⟨c, h1, h2⟩, _, h3⟩ := C08_documented fun s h1 h2 => hd ⟨s, h1, h2⟩
    exact ⟨⟨c, by rw [h1]; exact List.mem_singleton.2 rfl, h2⟩, h3⟩

/-- **C08** does not hold for all values: the value is printed as it is, and cargo reads line by line. A value can thus enable a second setting (the crate then does not compile). -/
theorem C08_refuted : ¬ ∀ v, C08_Statement v := by
  intro h
  obtain ⟨⟨c, h1, _⟩, _⟩ := h (.ok "x\ncargo:rustc-cfg=tagged_box_reserve_48bits\ny")
  have : activeRows (buildLines (.ok "x\ncargo:rustc-cfg=tagged_box_reserve_48bits\ny")) =
      [⟨"tagged_box_reserve_60bits", 8, 15, 60, 4⟩, ⟨"tagged_box_reserve_48bits", 16, 65535, 48, 16⟩] := by rfl
  rw [this] at h1
  cases h1

/-- C08 is not vacuous: a documented name, an undocumented one. -/
example : expectedWidth (.ok "48bits") = 48 ∧ expectedWidth (.ok "47bits") = 60 ∧ (EnvVar.ok "47bits").OneLine ∧
    BuildLine.warning "47bits is an invalid reserved pointer width for `TAGGED_BOX_RESERVED_WIDTH`" ∈ buildLines (.ok "47bits") := by
  refine ⟨by decide, by decide, ?_, by decide⟩
  show '\n' ∉ "47bits".toList
  decide

/-- **C09** Storing on top of a tagged word ors the discriminants and keeps the address; stripping first
replaces. -/
theorem C09_store_ors (c : Config) (hc : c ∈ table) (w : BitVec 64) (d : c.Discr) :
    TPtr.stripDiscriminant c (TPtr.storeDiscriminant c w d) = TPtr.stripDiscriminant c w ∧
    (TPtr.fetchDiscriminant c (TPtr.storeDiscriminant c w d)).toNat =
      (TPtr.fetchDiscriminant c w).toNat ||| (d.toNat % 2 ^ c.DISCRIMINANT_BITS) ∧
    (d.toNat < 2 ^ c.DISCRIMINANT_BITS →
      TPtr.fetchDiscriminant c (TPtr.storeDiscriminant c (TPtr.stripDiscriminant c w) d) = d ∧
      TPtr.stripDiscriminant c (TPtr.storeDiscriminant c (TPtr.stripDiscriminant c w) d) =
        TPtr.stripDiscriminant c w) := by
  have s := sane_of_mem hc
  have hlt : w.toNat % 2 ^ c.ptrWidth < 2 ^ c.ptrWidth := Nat.mod_lt _ (Nat.two_pow_pos _)
  refine ⟨?_, ?_, fun hd => ⟨?_, ?_⟩⟩
  · apply BitVec.eq_of_toNat_eq; rw [s.strip_store, s.strip_toNat]
  · rw [s.fetch_store, s.fetch_toNat]; rfl
  · apply BitVec.eq_of_toNat_eq
    rw [s.fetch_store, s.strip_toNat, Nat.div_eq_of_lt hlt, Nat.zero_or]
    exact Nat.mod_eq_of_lt hd
  · apply BitVec.eq_of_toNat_eq; rw [s.strip_store, s.strip_toNat, Nat.mod_mod]

/-- C09, concretely: 1 stored over 2 is 3, not 1. -/
example : TPtr.fetchDiscriminant ⟨"tagged_box_reserve_60bits", 8, 15, 60, 4⟩
    (TPtr.storeDiscriminant ⟨"tagged_box_reserve_60bits", 8, 15, 60, 4⟩ 0x2000000000000010#64 (1#8 : BitVec 8))
    = (3#8 : BitVec 8) := by decide

/-- **C10** On a 64-bit target every address in range, and on a 32-bit target every 32-bit address, comes back
unchanged from `as_ptr`/`as_mut_ptr`, with any in-range discriminant and in both build modes. -/
theorem C10_casts (c : Config) (hc : c ∈ table) (debug : Bool) (ptrBits : Nat) (p : BitVec 64) (d : c.Discr)
    (hd : d ≤ c.MAX_DISCRIMINANT)
    (h : (ptrBits = 64 ∧ p ≤ c.MAX_POINTER_VALUE) ∨ (ptrBits = 32 ∧ p.toNat < 2 ^ 32)) :
    ∃ t, TPtr.new c debug p d = .ok t ∧ t.asPtr c ptrBits = p.toNat ∧ t.asMutPtr c ptrBits = p.toNat := by
  have s := sane_of_mem hc
  have hp : p ≤ c.MAX_POINTER_VALUE := by
    rcases h with ⟨_, h⟩ | ⟨_, h⟩
    · exact h
    · rw [s.le_maxPtr_iff]
      exact Nat.lt_of_lt_of_le h (Nat.pow_le_pow_right (by omega) (by have := s.ptr_ge; omega))
  obtain ⟨t, ht, _, ha, _⟩ := C01_roundtrip c hc debug p d hp hd
  have hb : p.toNat < 2 ^ ptrBits := by
    rcases h with ⟨rfl, _⟩ | ⟨rfl, h⟩
    · exact p.isLt
    · exact h
  have key : (BitVec.setWidth ptrBits (TPtr.stripDiscriminant c t.raw)).toNat = p.toNat := by
    have : TPtr.stripDiscriminant c t.raw = p := ha
    rw [this, BitVec.toNat_setWidth, Nat.mod_eq_of_lt hb]
  exact ⟨t, ht, key, key⟩

example : (0xFFFFFFFF#64 : BitVec 64).toNat < 2 ^ 32 := by decide

/-- **C11** `dangling::<T>(d)` for a type of alignment `2^k` (rustc's maximum is `2^29`). -/
theorem C11_dangling (c : Config) (hc : c ∈ table) (k : Nat) (hk : k ≤ 29) (d : c.Discr)
    (hd : d ≤ c.MAX_DISCRIMINANT) :
    (TPtr.dangling c (2 ^ k) d).discriminant c = d ∧
    ((TPtr.dangling c (2 ^ k) d).asU64 c).toNat = 2 ^ k ∧
    ((TPtr.dangling c (2 ^ k) d).asU64 c).toNat ≠ 0 ∧
    (2 ^ k ∣ ((TPtr.dangling c (2 ^ k) d).asU64 c).toNat) ∧
    (∀ ptrBits, ptrBits = 32 ∨ ptrBits = 64 → (TPtr.dangling c (2 ^ k) d).asPtr c ptrBits = 2 ^ k) := by
  have s := sane_of_mem hc
  have hk' : 2 ^ k < 2 ^ 32 := Nat.pow_lt_pow_right (by omega) (by omega)
  have hk'' : (2:Nat) ^ k < 2 ^ 64 := Nat.pow_lt_pow_right (by omega) (by omega)
  have e : (BitVec.ofNat 64 (2 ^ k)).toNat = 2 ^ k := by
    rw [BitVec.toNat_ofNat, Nat.mod_eq_of_lt hk'']
  have hp : (BitVec.ofNat 64 (2 ^ k)) ≤ c.MAX_POINTER_VALUE := by
    rw [s.le_maxPtr_iff, e]
    exact Nat.lt_of_lt_of_le hk' (Nat.pow_le_pow_right (by omega) (by have := s.ptr_ge; omega))
  obtain ⟨t, ht, h1, h2, _⟩ := C01_roundtrip c hc false (BitVec.ofNat 64 (2 ^ k)) d hp hd
  have ht' : TPtr.dangling c (2 ^ k) d = t := by
    simp [TPtr.new] at ht
    rw [← ht]; rfl
  rw [ht', h1, h2, e]
  refine ⟨rfl, rfl, Nat.pos_iff_ne_zero.1 (Nat.two_pow_pos k), Nat.dvd_refl _, ?_⟩
  intro b hb
  have : TPtr.stripDiscriminant c t.raw = BitVec.ofNat 64 (2 ^ k) := h2
  rw [TPtr.asPtr, this, BitVec.toNat_setWidth, e]
  apply Nat.mod_eq_of_lt
  rcases hb with rfl | rfl <;> assumption

/-- **C12**, the claim for the pointer-level function: out-of-range discriminants do not produce a pointer
that silently carries a different discriminant. -/
def C12_Statement : Prop :=
  ∀ c ∈ table, ∀ (k : Nat) (d : c.Discr), k ≤ 29 → (TPtr.dangling c (2 ^ k) d).discriminant c = d

/-- **C12** is false: `dangling` has no check, in any build mode; an out-of-range discriminant is silently
reduced modulo `2^DISCRIMINANT_BITS`. In particular at the default width the discriminant 16 becomes 0. -/
theorem C12_dangling_unchecked_refuted :
    (∀ c ∈ table, ∀ (k : Nat) (d : c.Discr), k ≤ 29 →
      ((TPtr.dangling c (2 ^ k) d).discriminant c).toNat = d.toNat % 2 ^ c.DISCRIMINANT_BITS) ∧
    ¬ C12_Statement := by
  have H : ∀ c ∈ table, ∀ (k : Nat) (d : c.Discr), k ≤ 29 →
      ((TPtr.dangling c (2 ^ k) d).discriminant c).toNat = d.toNat % 2 ^ c.DISCRIMINANT_BITS := by
    intro c hc k d hk
    have s := sane_of_mem hc
    have hk'' : (2:Nat) ^ k < 2 ^ 64 := Nat.pow_lt_pow_right (by omega) (by omega)
    have hlt : 2 ^ k < 2 ^ c.ptrWidth := Nat.pow_lt_pow_right (by omega) (by have := s.ptr_ge; omega)
    rw [TPtr.dangling, TPtr.discriminant, s.fetch_store, BitVec.toNat_ofNat, Nat.mod_eq_of_lt hk'',
      Nat.div_eq_of_lt hlt, Nat.zero_or]
    rfl
  refine ⟨H, fun h => ?_⟩
  have := h ⟨"tagged_box_reserve_60bits", 8, 15, 60, 4⟩ (by decide) 0 (16#8 : BitVec 8) (by omega)
  revert this; decide

/-- **C12** (part): the discriminant is kept whenever it fits the data bits. Missing: rejection of the others,
which the code does not do. -/
theorem C12_dangling_in_range_partial (c : Config) (hc : c ∈ table) (k : Nat) (d : c.Discr) (hk : k ≤ 29) :
    (TPtr.dangling c (2 ^ k) d).discriminant c = d ↔ d.toNat < 2 ^ c.DISCRIMINANT_BITS := by
  have H := C12_dangling_unchecked_refuted.1 c hc k d hk
  constructor
  · intro h; rw [h] at H; rw [H]; exact Nat.mod_lt _ (Nat.two_pow_pos _)
  · intro h; apply BitVec.eq_of_toNat_eq; rw [H, Nat.mod_eq_of_lt h]

/-- **C59**, what the message of the address check promises: if an address is rejected, then building with the setting named in the
message "or above", i.e. with a documented setting at least one wider, gets it accepted (by the same call, with a discriminant that
still fits). -/
def C59_Statement : Prop :=
  ∀ c ∈ table, ∀ (p : BitVec 64) (d : c.Discr), TPtr.new c true p d = .error .pointer →
    (∃ w, documentedWidths.lookup (TPtr.advisedSetting c) = some w) ∧
    ∃ s w c', documentedWidths.lookup s = some w ∧ c.POINTER_WIDTH + 1 ≤ w ∧ activeRows (buildLines (.ok s)) = [c'] ∧
      ∀ d' : c'.Discr, d' ≤ c'.MAX_DISCRIMINANT → ∃ t, TPtr.new c' true p d' = .ok t

theorem width_row : ∀ w, 48 ≤ w → w ≤ 63 → ∃ s c', documentedWidths.lookup s = some w ∧ s = toString w ++ "bits" ∧
    activeRows (buildLines (.ok s)) = [c'] ∧ c' ∈ table ∧ c'.ptrWidth = w := by
  intro w h1 h2
  have : w = 48 ∨ w = 49 ∨ w = 50 ∨ w = 51 ∨ w = 52 ∨ w = 53 ∨ w = 54 ∨ w = 55 ∨ w = 56 ∨ w = 57 ∨ w = 58 ∨ w = 59 ∨ w = 60 ∨
      w = 61 ∨ w = 62 ∨ w = 63 := by omega
  rcases this with rfl | rfl | rfl | rfl | rfl | rfl | rfl | rfl | rfl | rfl | rfl | rfl | rfl | rfl | rfl | rfl <;>
    exact ⟨_, _, rfl, rfl, rfl, by decide, rfl⟩

/-- **C59** (part): the advice works for every address below `2^63` unless the reserved width is already the widest one: the setting
named exists, and the settings from the width of the address on (all of them "or above") accept the address, the others do not.
Missing: addresses with the top bit set, and the widest setting (`C59_refuted`). -/
theorem C59_partial (c : Config) (hc : c ∈ table) (p : BitVec 64) (d : c.Discr) (h : TPtr.new c true p d = .error .pointer)
    (hw : c.POINTER_WIDTH ≠ 63) :
    documentedWidths.lookup (TPtr.advisedSetting c) = some (c.POINTER_WIDTH + 1) ∧
    ∀ s w, documentedWidths.lookup s = some w → ∃ c', activeRows (buildLines (.ok s)) = [c'] ∧
      ((p.toNat < 2 ^ w → c.POINTER_WIDTH + 1 ≤ w ∧
        ∀ d' : c'.Discr, d' ≤ c'.MAX_DISCRIMINANT → ∃ t, TPtr.new c' true p d' = .ok t) ∧
       (¬ p.toNat < 2 ^ w → ∀ d' : c'.Discr, ∃ k, TPtr.new c' true p d' = .error k)) := by
  have sn := sane_of_mem hc
  have hgt := ((C02_new_panics_debug_partial.2 c hc p d).2.1.1 h).2
  have hp : ¬ p.toNat < 2 ^ c.ptrWidth := fun hl => absurd ((sn.le_maxPtr_iff p).2 hl) (BitVec.not_le.2 hgt)
  have hle : c.ptrWidth ≤ 62 := by
    have := sn.sum; have := sn.free_pos; simp only [Config.POINTER_WIDTH] at hw; omega
  refine ⟨?_, fun s w hsw => ?_⟩
  · obtain ⟨s, c', h1, rfl, _⟩ := width_row (c.ptrWidth + 1) (by have := sn.ptr_ge; omega) (by omega)
    exact h1
  · obtain ⟨c', h1, h2⟩ := (C08_documented (v := .ok s) (by intro t ht; cases ht; rw [hsw]; simp)).1
    have hw' : c'.ptrWidth = w := by
      rw [Config.POINTER_WIDTH] at h2; rw [h2, expectedWidth, hsw]; rfl
    have hc' : c' ∈ table := by
      have : c' ∈ activeRows (buildLines (.ok s)) := by rw [h1]; exact List.mem_singleton.2 rfl
      exact (List.mem_filter.1 this).1
    have sn' := sane_of_mem hc'
    refine ⟨c', h1, fun hl => ⟨?_, fun d' hd' => ?_⟩, fun hl d' => ?_⟩
    · rw [Config.POINTER_WIDTH]
      apply Nat.lt_of_not_le
      intro hle'
      exact hp (Nat.lt_of_lt_of_le hl (Nat.pow_le_pow_right (by omega) hle'))
    · obtain ⟨t, ht, _⟩ := C01_roundtrip c' hc' true p d' ((sn'.le_maxPtr_iff p).2 (hw' ▸ hl)) hd'
      exact ⟨t, ht⟩
    · apply (C02_new_panics_debug_partial.1 c' hc' p d').2
      right
      apply BitVec.not_le.1
      intro hle'
      exact hl (hw' ▸ (sn'.le_maxPtr_iff p).1 hle')

/-- C59's hypotheses are met, and one step may not be enough: a 57-bit address at the 48-bit setting. -/
example : ∃ c ∈ table, c.POINTER_WIDTH = 48 ∧ TPtr.advisedSetting c = "49bits" ∧ ∃ d : c.Discr,
    TPtr.new c true (0x0100000000000000#64) d = .error .pointer ∧
    activeRows (buildLines (.ok "49bits")) = [⟨"tagged_box_reserve_49bits", 16, 32767, 49, 15⟩] ∧
    TPtr.new ⟨"tagged_box_reserve_49bits", 16, 32767, 49, 15⟩ true (0x0100000000000000#64) (0#16) = .error .pointer :=
  ⟨⟨"tagged_box_reserve_48bits", 16, 65535, 48, 16⟩, by decide, rfl, rfl, (0#16 : BitVec 16), rfl, by decide, rfl⟩

/-- **C59** is false at the widest setting: the message then names `64bits`, which the build script does not know; following it selects
the 60-bit setting, which rejects all the addresses that were rejected before and more.  It is also false for addresses with the top
bit set: no setting accepts one. -/
theorem C59_refuted :
    (∀ c ∈ table, c.POINTER_WIDTH = 63 → TPtr.advisedSetting c = "64bits" ∧
      BuildLine.warning "64bits is an invalid reserved pointer width for `TAGGED_BOX_RESERVED_WIDTH`" ∈ buildLines (.ok "64bits") ∧
      ∃ c', activeRows (buildLines (.ok "64bits")) = [c'] ∧ c'.MAX_POINTER_VALUE < c.MAX_POINTER_VALUE) ∧
    (∀ (v : EnvVar) (p : BitVec 64), 2 ^ 63 ≤ p.toNat →
      ∀ c ∈ activeRows (buildLines v), ∀ d : c.Discr, ∃ k, TPtr.new c true p d = .error k) ∧
    ¬ C59_Statement := by
  refine ⟨?_, ?_, ?_⟩
  · have H : ∀ c ∈ table, c.POINTER_WIDTH = 63 → c = ⟨"tagged_box_reserve_63bits", 8, 1, 63, 1⟩ := by decide
    intro c hc hw
    rw [H c hc hw]
    exact ⟨rfl, by decide, _, rfl, by decide⟩
  · intro v p hp c h1 d
    have hc : c ∈ table := (List.mem_filter.1 h1).1
    have sn := sane_of_mem hc
    refine (C02_new_panics_debug_partial.1 c hc p d).2 (.inr (BitVec.not_le.1 fun hle => ?_))
    have := (sn.le_maxPtr_iff p).1 hle
    have h63 : 2 ^ c.ptrWidth ≤ 2 ^ 63 := Nat.pow_le_pow_right (by omega) (by have := sn.sum; have := sn.free_pos; omega)
    omega
  · intro h
    obtain ⟨⟨w, hw⟩, _⟩ := h ⟨"tagged_box_reserve_63bits", 8, 1, 63, 1⟩ (by decide) (0xFFFFFFFFFFFFFFFF#64) (0#8 : BitVec 8) rfl
    revert hw
    have : documentedWidths.lookup (TPtr.advisedSetting ⟨"tagged_box_reserve_63bits", 8, 1, 63, 1⟩) = none := by decide
    rw [this]; intro h; cases h

end TB.Props

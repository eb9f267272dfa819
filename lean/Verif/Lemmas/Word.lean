import Verif.TaggedPointer

/-! # Helper lemmas about 64-bit words (no property theorems here) -/

set_option autoImplicit false

namespace TB

/-- Facts shared by every row of the settings table. -/
structure Config.Sane (c : Config) : Prop where
  sum      : c.ptrWidth + c.freeBits = 64
  free_le  : c.freeBits ≤ c.discrBits
  free_pos : 1 ≤ c.freeBits
  discr_le : c.discrBits ≤ 16
  ptr_ge   : 48 ≤ c.ptrWidth
  max_lt   : c.maxDiscr < 2 ^ c.freeBits

theorem sane_of_mem {c : Config} (h : c ∈ table) : c.Sane := by
  have H : ∀ c ∈ table, c.ptrWidth + c.freeBits = 64 ∧ c.freeBits ≤ c.discrBits ∧ 1 ≤ c.freeBits ∧
      c.discrBits ≤ 16 ∧ 48 ≤ c.ptrWidth ∧ c.maxDiscr < 2 ^ c.freeBits := by decide
  obtain ⟨h1, h2, h3, h4, h5, h6⟩ := H c h
  exact ⟨h1, h2, h3, h4, h5, h6⟩

namespace Config.Sane

variable {c : Config} (hc : c.Sane)
include hc

theorem pow_mul : 2 ^ c.ptrWidth * 2 ^ c.freeBits = 2 ^ 64 := by
  rw [← Nat.pow_add, hc.sum]

theorem free_eq : c.freeBits = 64 - c.ptrWidth := by have := hc.sum; omega

theorem maxPtr_toNat : c.MAX_POINTER_VALUE.toNat = 2 ^ c.ptrWidth - 1 := by
  have h := hc.pow_mul
  have hp : 0 < 2 ^ c.freeBits := Nat.two_pow_pos _
  have hq : 0 < 2 ^ c.ptrWidth := Nat.two_pow_pos _
  simp only [Config.MAX_POINTER_VALUE, BitVec.toNat_ushiftRight, BitVec.toNat_allOnes,
    Nat.shiftRight_eq_div_pow]
  rw [← h]
  rw [Nat.div_eq_iff hp]
  constructor
  · rw [Nat.sub_mul]; omega
  · rw [Nat.sub_mul]
    have : 2 ^ c.freeBits ≤ 2 ^ c.ptrWidth * 2 ^ c.freeBits := Nat.le_mul_of_pos_left _ hq
    omega

theorem mask_toNat : c.DISCRIMINANT_MASK.toNat = 2 ^ c.ptrWidth - 1 := hc.maxPtr_toNat

theorem maxDiscr_toNat : c.MAX_DISCRIMINANT.toNat = c.maxDiscr := by
  simp only [Config.MAX_DISCRIMINANT, BitVec.toNat_ofNat]
  apply Nat.mod_eq_of_lt
  exact Nat.lt_of_lt_of_le hc.max_lt (Nat.pow_le_pow_right (by omega) hc.free_le)

theorem strip_toNat (w : BitVec 64) : (TPtr.stripDiscriminant c w).toNat = w.toNat % 2 ^ c.ptrWidth := by
  simp only [TPtr.stripDiscriminant, BitVec.toNat_and, hc.mask_toNat]
  exact Nat.and_two_pow_sub_one_eq_mod _ _

theorem fetch_toNat (w : BitVec 64) : (TPtr.fetchDiscriminant c w).toNat = w.toNat / 2 ^ c.ptrWidth := by
  simp only [TPtr.fetchDiscriminant, BitVec.toNat_setWidth, BitVec.toNat_ushiftRight,
    Nat.shiftRight_eq_div_pow, Config.POINTER_WIDTH]
  apply Nat.mod_eq_of_lt
  have h1 : w.toNat / 2 ^ c.ptrWidth < 2 ^ c.freeBits := by
    rw [Nat.div_lt_iff_lt_mul (Nat.two_pow_pos _), Nat.mul_comm, hc.pow_mul]
    exact w.isLt
  exact Nat.lt_of_lt_of_le h1 (Nat.pow_le_pow_right (by omega) hc.free_le)

theorem fetch_lt (w : BitVec 64) : (TPtr.fetchDiscriminant c w).toNat < 2 ^ c.freeBits := by
  rw [hc.fetch_toNat, Nat.div_lt_iff_lt_mul (Nat.two_pow_pos _), Nat.mul_comm, hc.pow_mul]
  exact w.isLt

theorem shl_toNat (d : c.Discr) :
    ((d.setWidth 64) <<< c.ptrWidth : BitVec 64).toNat = (d.toNat % 2 ^ c.freeBits) * 2 ^ c.ptrWidth := by
  have h16 : d.toNat < 2 ^ 64 :=
    Nat.lt_of_lt_of_le d.isLt (Nat.pow_le_pow_right (by omega) (by have := hc.discr_le; omega))
  rw [BitVec.toNat_shiftLeft, BitVec.toNat_setWidth, Nat.mod_eq_of_lt h16, Nat.shiftLeft_eq,
    ← hc.pow_mul, Nat.mul_comm d.toNat, Nat.mul_mod_mul_left, Nat.mul_comm]

omit hc in
theorem or_split {a b : Nat} (W : Nat) :
    (a ||| b * 2 ^ W) = a % 2 ^ W + ((a / 2 ^ W) ||| b) * 2 ^ W := by
  have e : a = (a / 2 ^ W) * 2 ^ W + a % 2 ^ W := by
    rw [Nat.mul_comm]; exact (Nat.div_add_mod a (2 ^ W)).symm
  have hlt : a % 2 ^ W < 2 ^ W := Nat.mod_lt _ (Nat.two_pow_pos _)
  apply Nat.eq_of_testBit_eq
  intro i
  rw [Nat.testBit_or, Nat.add_comm, Nat.mul_comm b, Nat.mul_comm (_ ||| _),
    Nat.testBit_two_pow_mul_add _ hlt]
  rw [Nat.testBit_two_pow_mul]
  by_cases hi : i < W
  · have : ¬ W ≤ i := by omega
    simp [hi, this, Nat.testBit_mod_two_pow]
  · have hi' : W ≤ i := by omega
    simp only [hi, hi', if_false, decide_true, Bool.true_and, Nat.testBit_or]
    congr 1
    rw [Nat.testBit_div_two_pow]
    congr 1; omega

/-- The exact value stored, for arbitrary (also out-of-range) arguments. -/
theorem store_toNat (p : BitVec 64) (d : c.Discr) :
    (TPtr.storeDiscriminant c p d).toNat =
      p.toNat % 2 ^ c.ptrWidth + ((p.toNat / 2 ^ c.ptrWidth) ||| (d.toNat % 2 ^ c.freeBits)) * 2 ^ c.ptrWidth := by
  simp only [TPtr.storeDiscriminant, BitVec.toNat_or, Config.POINTER_WIDTH]
  rw [hc.shl_toNat]
  exact or_split c.ptrWidth

theorem strip_store (p : BitVec 64) (d : c.Discr) :
    (TPtr.stripDiscriminant c (TPtr.storeDiscriminant c p d)).toNat = p.toNat % 2 ^ c.ptrWidth := by
  rw [hc.strip_toNat, hc.store_toNat, Nat.add_mul_mod_self_right, Nat.mod_mod]

theorem fetch_store (p : BitVec 64) (d : c.Discr) :
    (TPtr.fetchDiscriminant c (TPtr.storeDiscriminant c p d)).toNat =
      ((p.toNat / 2 ^ c.ptrWidth) ||| (d.toNat % 2 ^ c.freeBits)) := by
  rw [hc.fetch_toNat, hc.store_toNat, Nat.add_mul_div_right _ _ (Nat.two_pow_pos _),
    Nat.div_eq_of_lt (Nat.mod_lt _ (Nat.two_pow_pos _)), Nat.zero_add]

theorem le_maxPtr_iff (p : BitVec 64) : p ≤ c.MAX_POINTER_VALUE ↔ p.toNat < 2 ^ c.ptrWidth := by
  rw [BitVec.le_def, hc.maxPtr_toNat]
  have : 0 < 2 ^ c.ptrWidth := Nat.two_pow_pos _
  omega

theorem le_maxDiscr_iff (d : c.Discr) : d ≤ c.MAX_DISCRIMINANT ↔ d.toNat ≤ c.maxDiscr := by
  rw [BitVec.le_def, hc.maxDiscr_toNat]

theorem eq_of_strip_fetch {a b : BitVec 64}
    (h1 : (TPtr.stripDiscriminant c a).toNat = (TPtr.stripDiscriminant c b).toNat)
    (h2 : (TPtr.fetchDiscriminant c a).toNat = (TPtr.fetchDiscriminant c b).toNat) : a = b := by
  rw [hc.strip_toNat, hc.strip_toNat] at h1
  rw [hc.fetch_toNat, hc.fetch_toNat] at h2
  apply BitVec.eq_of_toNat_eq
  rw [← Nat.div_add_mod a.toNat (2 ^ c.ptrWidth), ← Nat.div_add_mod b.toNat (2 ^ c.ptrWidth), h1, h2]

end Config.Sane

theorem TPtr.ext_raw {a b : TPtr} (h : a.raw = b.raw) : a = b := by
  cases a; cases b; simp_all

end TB

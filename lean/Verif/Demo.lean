import Verif.Lemmas.Layout
import Verif.Lemmas.Word

/-!
# A concrete environment

Used only to show that the hypotheses of the theorems can be met (non-vacuity) and as the setting of
counterexamples.  A bump allocator that places each block above all live ones, at address 4096 or higher, and
returns null when the block would not fit below `limit`. The lowest address `start` is a parameter.
-/

set_option autoImplicit false

namespace TB

/-- First address above every live block. -/
def topOf (start : Nat) (bs : List Block) : Nat := bs.foldr (fun b t => max (b.base + b.size) t) start

/-- Bump allocation in `[start, limit)`. -/
def bumpAlloc (start limit : Nat) (s : State) (size align : Nat) : Nat :=
  if roundUp (topOf start s.blocks) align + size ≤ limit ∧ 0 < align then roundUp (topOf start s.blocks) align else 0

theorem topOf_ge {start : Nat} {bs : List Block} {b : Block} (h : b ∈ bs) : b.base + b.size ≤ topOf start bs := by
  induction bs with
  | nil => cases h
  | cons x xs ih =>
    show b.base + b.size ≤ max (x.base + x.size) (topOf start xs)
    rw [List.mem_cons] at h
    rcases h with rfl | h
    · exact Nat.le_max_left _ _
    · exact Nat.le_trans (ih h) (Nat.le_max_right _ _)

/-- Environment with a given settings row, build mode and tuple layout; 64-bit target, at most `2^47` bytes of heap. -/
def demoEnv (c : Config) (debug : Bool) (tuple : List Leaf → Shape) : Env where
  cfg := c
  debug := debug
  ptrBits := 64
  alloc := bumpAlloc 4096 (2 ^ 47)
  tuple := tuple
  enumAlign := 8

theorem bump_lawful {start limit : Nat} {env : Env} (hl : limit ≤ 2 ^ env.ptrBits)
    (ha : env.alloc = bumpAlloc start limit) : env.AllocLawful := by
  intro s size align hs h
  rw [ha] at h ⊢
  unfold bumpAlloc at h ⊢
  split at h
  · rename_i hh
    rw [if_pos hh]
    refine ⟨roundUp_dvd _ _, Nat.le_trans hh.1 hl, fun b hb => Or.inr ?_⟩
    exact Nat.le_trans (topOf_ge hb) (roundUp_ge hh.2)
  · exact absurd rfl h

theorem demoEnv_ok {c : Config} (hc : c ∈ table) (debug : Bool) {tuple : List Leaf → Shape}
    (ht : ∀ ls : List Leaf, (∀ l ∈ ls, l.WF) → (tuple ls).WF ∧ (tuple ls).fields.map (·.2) = ls) :
    (demoEnv c debug tuple).OK where
  cfg_mem := hc
  target := Or.inr rfl
  lawful := bump_lawful (start := 4096) (limit := 2 ^ 47) (by show 2 ^ 47 ≤ 2 ^ 64; omega) rfl
  tuple_legal := ht
  enumAlign_pow := ⟨3, by omega, rfl⟩

theorem demoEnv_inRange {c : Config} (hc : c ∈ table) (debug : Bool) (tuple : List Leaf → Shape) :
    (demoEnv c debug tuple).InRange := by
  intro s size align
  show bumpAlloc 4096 (2 ^ 47) s size align < 2 ^ c.ptrWidth
  have h48 := (sane_of_mem hc).ptr_ge
  have : (2:Nat) ^ 48 ≤ 2 ^ c.ptrWidth := Nat.pow_le_pow_right (by omega) h48
  unfold bumpAlloc
  split
  · omega
  · omega

/-- The default settings row (60 bits). -/
def cfg60 : Config := ⟨"tagged_box_reserve_60bits", 8, 15, 60, 4⟩

theorem cfg60_mem : cfg60 ∈ table := by decide

/-- Default environment: 60 bits, tuples laid out like `repr(C)`. -/
def env60 (debug : Bool) : Env := demoEnv cfg60 debug reprC

theorem env60_ok (debug : Bool) : (env60 debug).OK :=
  demoEnv_ok cfg60_mem debug (fun ls h => ⟨reprC_wf h, reprC_fields ls⟩)

theorem env60_inRange (debug : Bool) : (env60 debug).InRange := demoEnv_inRange cfg60_mem debug _

/-- Like `env60`, with tuples laid out in reverse order (what rustc does with `(u8, u32)`). -/
def env60rev (debug : Bool) : Env := demoEnv cfg60 debug reversedTuple

theorem env60rev_ok (debug : Bool) : (env60rev debug).OK :=
  demoEnv_ok cfg60_mem debug (fun ls h => ⟨reversedTuple_wf h, reversedTuple_fields ls⟩)

theorem env60rev_inRange (debug : Bool) : (env60rev debug).InRange := demoEnv_inRange cfg60_mem debug _

/-- A lawful 64-bit environment whose allocator hands out addresses from `2^60` upwards, i.e. outside the default
60-bit range (as with tagged or high-half addresses). -/
def env60high (debug : Bool) : Env where
  cfg := cfg60
  debug := debug
  ptrBits := 64
  alloc := bumpAlloc (2 ^ 60) (2 ^ 63)
  tuple := reprC
  enumAlign := 8

theorem env60high_ok (debug : Bool) : (env60high debug).OK where
  cfg_mem := cfg60_mem
  target := Or.inr rfl
  lawful := bump_lawful (start := 2 ^ 60) (limit := 2 ^ 63) (by show 2 ^ 63 ≤ 2 ^ 64; omega) rfl
  tuple_legal := fun ls h => ⟨reprC_wf h, reprC_fields ls⟩
  enumAlign_pow := ⟨3, by omega, rfl⟩

/-- An environment whose allocator always fails. -/
def env60null (debug : Bool) : Env where
  cfg := cfg60
  debug := debug
  ptrBits := 64
  alloc := fun _ _ _ => 0
  tuple := reprC
  enumAlign := 8

theorem env60null_ok (debug : Bool) : (env60null debug).OK where
  cfg_mem := cfg60_mem
  target := Or.inr rfl
  lawful := fun _ _ _ _ h => absurd rfl h
  tuple_legal := fun ls h => ⟨reprC_wf h, reprC_fields ls⟩
  enumAlign_pow := ⟨3, by omega, rfl⟩

/-- Empty heap. -/
def state0 : State := ⟨fun _ => none, [], []⟩

theorem state0_inv (env : Env) : HeapInv env state0 := ⟨by simp [state0], by simp [state0]⟩

/-- Integers of `n` bytes: every initialised byte string is valid. -/
def intLeaf (id n : Nat) : Leaf := ⟨id, n, n, fun bs => bs.all (·.isSome), false⟩

/-- `u8`, `u32`, `u64` -/
def u8L : Leaf := intLeaf 1 1
def u32L : Leaf := intLeaf 2 4
def u64L : Leaf := intLeaf 3 8

/-- `bool`: the single byte 0 or 1. -/
def boolL : Leaf := ⟨4, 1, 1, fun bs => decide (bs = [some 0#8]) || decide (bs = [some 1#8]), false⟩

/-- A type with a destructor, pointer-sized and never null (like `Box<..>`). -/
def ownedL : Leaf := ⟨5, 8, 8, fun bs => bs.all (·.isSome) && !decide (bs = List.replicate 8 (some 0#8)), true⟩

/-- A zero-sized type with a destructor (a guard or token type). -/
def guardL : Leaf := ⟨6, 0, 1, fun bs => bs.isEmpty, true⟩

theorem u8L_wf : u8L.WF := ⟨⟨0, by omega, rfl⟩, Nat.dvd_refl _⟩
theorem u32L_wf : u32L.WF := ⟨⟨2, by omega, rfl⟩, Nat.dvd_refl _⟩
theorem u64L_wf : u64L.WF := ⟨⟨3, by omega, rfl⟩, Nat.dvd_refl _⟩
theorem boolL_wf : boolL.WF := ⟨⟨0, by omega, rfl⟩, Nat.dvd_refl _⟩
theorem ownedL_wf : ownedL.WF := ⟨⟨3, by omega, rfl⟩, Nat.dvd_refl _⟩
theorem guardL_wf : guardL.WF := ⟨⟨0, by omega, rfl⟩, Nat.dvd_zero _⟩

end TB

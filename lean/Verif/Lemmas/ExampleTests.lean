import Verif.Lemmas.ExampleRun

/-! # Running the tests of `src/tagged_pointer.rs` (helper lemmas; no property theorems here) -/

set_option autoImplicit false
set_option linter.unusedSectionVars false
set_option linter.unusedSimpArgs false

namespace TB.Rust

open TB TB.Rust.Code

variable {E : Type}

section
variable {env : Env} {user : User E} [InTable env] {std : Std} {addr : String → Nat}

/-- `TaggedPointer::new`, where it does not panic. -/
theorem tp_new_ret {p : BitVec 64} {d : env.cfg.Discr} (hp : p ≤ env.cfg.MAX_POINTER_VALUE) (hd : d ≤ env.cfg.MAX_DISCRIMINANT) (exp : RT) (l : Locals E) (s : State) :
    tcall (src env user) "TaggedPointer" "new" [] none [.int .u64 p, dV d] exp l s = .ret (ptrV ⟨TPtr.storeDiscriminant env.cfg p d⟩) l s := by
  rw [tp_new, if_neg (fun h => h.2 hd), if_neg (fun h => h.2 hp)]

@[rs] theorem litE_u64 (n : Nat) : litE (src env user) std (.int .u64) (.num n) = .int .u64 (BitVec.ofNat 64 n) := by
  simp [litE, rs]

attribute [rs high] coerce_discr

theorem zero_le_max : ∀ c ∈ table, BitVec.ofNat 64 0 ≤ c.MAX_POINTER_VALUE := by decide

variable (std addr) in
theorem test2 (s : State) : runBody (src env user) std addr test_max_pointer.body s = .ret .unit [] s := by
  have hp : env.cfg.MAX_POINTER_VALUE ≤ env.cfg.MAX_POINTER_VALUE := BitVec.le_refl _
  have hd : env.cfg.MAX_DISCRIMINANT ≤ env.cfg.MAX_DISCRIMINANT := BitVec.le_refl _
  obtain ⟨h1, h2⟩ := parts_of (in_table (env := env)) hp hd
  have hn := tp_new_ret (user := user) hp hd
  simp [runBody, test_max_pointer, rs, hn, h1, h2, TPtr.asU64, TPtr.discriminant]

variable (std addr) in
theorem test3 (s : State) : runBody (src env user) std addr test_min_pointer.body s = .ret .unit [] s := by
  have hp : BitVec.ofNat 64 0 ≤ env.cfg.MAX_POINTER_VALUE := zero_le_max _ in_table
  have hd : env.cfg.MAX_DISCRIMINANT ≤ env.cfg.MAX_DISCRIMINANT := BitVec.le_refl _
  obtain ⟨h1, h2⟩ := parts_of (in_table (env := env)) hp hd
  have hn := tp_new_ret (user := user) hp hd
  simp [runBody, test_min_pointer, rs, hn, h1, h2, TPtr.asU64, TPtr.discriminant]

theorem addr_back {n a : Nat} (ha : a < 2 ^ 64) (hb : a < 2 ^ n) : ((BitVec.ofNat 64 a).setWidth n).toNat = a := by
  rw [BitVec.toNat_setWidth, BitVec.toNat_ofNat, Nat.mod_eq_of_lt ha, Nat.mod_eq_of_lt hb]

/-- A local variable whose address a box can hold, and which holds `v`. -/
structure HasVar (env : Env) (sh : Shape) (v : TB.Val) (a : Nat) (s : State) : Prop where
  fits : a < 2 ^ 64
  max : BitVec.ofNat 64 a ≤ env.cfg.MAX_POINTER_VALUE
  bits : a < 2 ^ env.ptrBits
  read : ptrRead sh a s = .ret v s

variable (std) in
theorem test1 (s : State) (hd : BitVec.ofNat env.cfg.discrBits 10 ≤ env.cfg.MAX_DISCRIMINANT) (hv : HasVar env (std.shape "i32") (std.enc (std.shape "i32") (.num 100)) (addr "integer") s) :
    ∃ s', runBody (src env user) std addr test_tagged_pointer.body s = .ret .unit [] s' := by
  obtain ⟨ha, hp, hb, hr⟩ := hv
  obtain ⟨h1, h2⟩ := parts_of (in_table (env := env)) hp hd
  have hn := tp_new_ret (user := user) hp hd
  have e : (⟨TPtr.storeDiscriminant env.cfg (BitVec.ofNat 64 (addr "integer")) (BitVec.ofNat env.cfg.discrBits 10)⟩ : TPtr).asPtr env.cfg env.ptrBits = addr "integer" := by
    simp only [TPtr.asPtr, TPtr.asU64, h1]
    exact addr_back ha hb
  have hA := fun l => tp_asRef env user ⟨TPtr.storeDiscriminant env.cfg (BitVec.ofNat 64 (addr "integer")) (BitVec.ofNat env.cfg.discrBits 10)⟩ (std.shape "i32") _ .unknown l s s (by rw [e]; exact hr)
  have hl := fun l => same_lit env (E := E) (BitVec.ofNat env.cfg.discrBits 10) 10 (by decide) l s
  simp [runBody, test_tagged_pointer, rs, hn, h1, h2, TPtr.asU64, TPtr.discriminant, hA, e, hr, dropVal, M.log, hl]

variable (std) in
theorem test4 (s : State) (hv : HasVar env (std.shape "usize") (std.enc (std.shape "usize") (.num 100)) (addr "integer") s) :
    ∃ s', runBody (src env user) std addr test_max_discriminant.body s = .ret .unit [] s' := by
  obtain ⟨ha, hp, hb, hr⟩ := hv
  have hd : env.cfg.MAX_DISCRIMINANT ≤ env.cfg.MAX_DISCRIMINANT := BitVec.le_refl _
  obtain ⟨h1, h2⟩ := parts_of (in_table (env := env)) hp hd
  have hn := tp_new_ret (user := user) hp hd
  have e : (⟨TPtr.storeDiscriminant env.cfg (BitVec.ofNat 64 (addr "integer")) (env.cfg.MAX_DISCRIMINANT)⟩ : TPtr).asPtr env.cfg env.ptrBits = addr "integer" := by
    simp only [TPtr.asPtr, TPtr.asU64, h1]
    exact addr_back ha hb
  have hA := fun l => tp_asRef env user ⟨TPtr.storeDiscriminant env.cfg (BitVec.ofNat 64 (addr "integer")) (env.cfg.MAX_DISCRIMINANT)⟩ (std.shape "usize") _ .unknown l s s (by rw [e]; exact hr)
  simp [runBody, test_max_discriminant, rs, hn, h1, h2, TPtr.asU64, TPtr.discriminant, hA, e, hr, dropVal, M.log]

variable (std) in
theorem test5 (s : State) (hv : HasVar env (std.shape "usize") (std.enc (std.shape "usize") (.num 100)) (addr "integer") s) :
    ∃ s', runBody (src env user) std addr test_min_discriminant.body s = .ret .unit [] s' := by
  obtain ⟨ha, hp, hb, hr⟩ := hv
  have hd : BitVec.ofNat env.cfg.discrBits 0 ≤ env.cfg.MAX_DISCRIMINANT := by simp [BitVec.le_def]
  obtain ⟨h1, h2⟩ := parts_of (in_table (env := env)) hp hd
  have hn := tp_new_ret (user := user) hp hd
  have e : (⟨TPtr.storeDiscriminant env.cfg (BitVec.ofNat 64 (addr "integer")) (BitVec.ofNat env.cfg.discrBits 0)⟩ : TPtr).asPtr env.cfg env.ptrBits = addr "integer" := by
    simp only [TPtr.asPtr, TPtr.asU64, h1]
    exact addr_back ha hb
  have hA := fun l => tp_asRef env user ⟨TPtr.storeDiscriminant env.cfg (BitVec.ofNat 64 (addr "integer")) (BitVec.ofNat env.cfg.discrBits 0)⟩ (std.shape "usize") _ .unknown l s s (by rw [e]; exact hr)
  have hl := fun l => same_lit env (E := E) (BitVec.ofNat env.cfg.discrBits 0) 0 (by decide) l s
  simp [runBody, test_min_discriminant, rs, hn, h1, h2, TPtr.asU64, TPtr.discriminant, hA, e, hr, dropVal, M.log, hl]

/-- 10 is too large: `new` panics, or the discriminant is another one. -/
theorem test1_wrong (s : State) (hp : BitVec.ofNat 64 (addr "integer") ≤ env.cfg.MAX_POINTER_VALUE) (hd : ¬ BitVec.ofNat env.cfg.discrBits 10 ≤ env.cfg.MAX_DISCRIMINANT)
    (hf : ∀ p, TPtr.fetchDiscriminant env.cfg p ≠ BitVec.ofNat env.cfg.discrBits 10) :
    ∃ m s', runBody (src env user) std addr test_tagged_pointer.body s = .panic m [] s' := by
  cases hg : env.debug with
  | true => simp [runBody, test_tagged_pointer, rs, tp_new, hg, hd, dropVal, M.log]
  | false =>
    have hl := fun (p : BitVec 64) (l : Locals E) => same_lit env (TPtr.fetchDiscriminant env.cfg p) 10 (by decide) l s
    simp [runBody, test_tagged_pointer, rs, tp_new, hg, TPtr.discriminant, hl, hf, dropVal, M.log]

theorem name_dV (d : env.cfg.Discr) : (dV d : V E).tyName = "" := rfl

theorem discr_bits : (discrTy env.cfg).bits env.ptrBits = env.cfg.discrBits := by
  rows <;> rfl

theorem max_next : ∀ c ∈ table, (c.MAX_DISCRIMINANT.toNat + 1 < 2 ^ c.discrBits ↔ c.ptrWidth ≠ 48 ∧ c.ptrWidth ≠ 56) := by decide

theorem checked (l : Locals E) (s : State) : checkedAdd (src env user) (dV env.cfg.MAX_DISCRIMINANT) (.lit 1) l s =
    if env.cfg.MAX_DISCRIMINANT.toNat + 1 < 2 ^ env.cfg.discrBits then .ret (someV (dV (env.cfg.MAX_DISCRIMINANT + 1#_))) l s else .ret noneV l s := by
  have hb : env.cfg.discrBits = 8 ∨ env.cfg.discrBits = 16 := by rows <;> first | exact .inl rfl | exact .inr rfl
  have h2 : (2:Nat) ^ env.cfg.discrBits = 256 ∨ (2:Nat) ^ env.cfg.discrBits = 65536 := by rcases hb with h | h <;> rw [h] <;> simp
  have h1 : env.cfg.MAX_DISCRIMINANT.toNat < 2 ^ env.cfg.discrBits := env.cfg.MAX_DISCRIMINANT.isLt
  have e : (BitVec.setWidth 64 env.cfg.MAX_DISCRIMINANT).toNat = env.cfg.MAX_DISCRIMINANT.toNat := by
    rw [BitVec.toNat_setWidth, Nat.mod_eq_of_lt (by omega)]
  simp only [checkedAdd, dV, show (src env user).env = env from rfl, discr_bits, e]
  split
  next h =>
    simp only [x_pure]
    congr 3
    apply BitVec.eq_of_toNat_eq
    have h3 : (1#env.cfg.discrBits).toNat = 1 := by rw [BitVec.toNat_ofNat]; rcases h2 with h | h <;> rw [h]
    have h4 : (env.cfg.MAX_DISCRIMINANT + 1#_).toNat = env.cfg.MAX_DISCRIMINANT.toNat + 1 := by rw [BitVec.toNat_add, h3, Nat.mod_eq_of_lt h]
    rw [BitVec.toNat_add, e, BitVec.toNat_setWidth, h4]
    rfl
  next => rfl

theorem checked_none (h : env.cfg.ptrWidth = 48 ∨ env.cfg.ptrWidth = 56) (l : Locals E) (s : State) :
    checkedAdd (src env user) (dV env.cfg.MAX_DISCRIMINANT) (.lit 1) l s = .ret noneV l s := by
  rw [checked, if_neg]
  rw [max_next _ in_table]
  omega

theorem checked_some (h1 : env.cfg.ptrWidth ≠ 48) (h2 : env.cfg.ptrWidth ≠ 56) (l : Locals E) (s : State) :
    checkedAdd (src env user) (dV env.cfg.MAX_DISCRIMINANT) (.lit 1) l s = .ret (someV (dV (env.cfg.MAX_DISCRIMINANT + 1#_))) l s := by
  rw [checked, if_pos]
  rw [max_next _ in_table]
  omega

theorem max_over : ∀ c ∈ table, c.ptrWidth ≠ 48 → c.ptrWidth ≠ 56 → ¬ c.MAX_DISCRIMINANT + 1#_ ≤ c.MAX_DISCRIMINANT := by decide

/-- `oversized_discriminant` panics before it makes a pointer. -/
theorem test7_none (h : env.cfg.ptrWidth = 48 ∨ env.cfg.ptrWidth = 56) (s : State) :
    runBody (src env user) std addr test_oversized_discriminant.body s =
      .panic (.text "\"Adding one to discriminant would overflow type, aborting test\"" []) [] s := by
  simp [runBody, test_oversized_discriminant, rs, name_dV, checked_none h, noneV]

theorem test7_debug (h1 : env.cfg.ptrWidth ≠ 48) (h2 : env.cfg.ptrWidth ≠ 56) (hd : env.debug = true) (s : State) :
    ∃ m, runBody (src env user) std addr test_oversized_discriminant.body s = .panic m [] s := by
  have hm := max_over _ (in_table (env := env)) h1 h2
  simp [runBody, test_oversized_discriminant, rs, name_dV, checked_some h1 h2, someV, tp_new, hd, hm]

theorem test7_release (h1 : env.cfg.ptrWidth ≠ 48) (h2 : env.cfg.ptrWidth ≠ 56) (hd : env.debug = false) (s : State) :
    runBody (src env user) std addr test_oversized_discriminant.body s = .ret .unit [] s := by
  simp [runBody, test_oversized_discriminant, rs, name_dV, checked_some h1 h2, someV, tp_new, hd]

end

end TB.Rust

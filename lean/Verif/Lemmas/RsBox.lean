import Verif.Lemmas.RsPtr

/-! # Running `TaggedBox`'s code (helper lemmas; no property theorems here) -/

set_option autoImplicit false
set_option linter.unusedSectionVars false
set_option linter.unusedSimpArgs false

namespace TB.Rust

open TB TB.Rust.Code

variable {E : Type}

section
variable (env : Env) (user : User E) [InTable env]

@[rs high] theorem peel_boxV (b : TBox) : (boxV b : V E).peel = boxV b := rfl
@[rs high] theorem tyName_boxV (b : TBox) : (boxV b : V E).tyName = "TaggedBox" := rfl
@[rs high] theorem copies_boxV (b : TBox) : (boxV b : V E).copies = false := rfl
@[rs high] theorem drop_boxV (b : TBox) (l : Locals E) (s : State) : dropV (src env user) (boxV b) l s = .ret () l s := rfl
@[rs high] theorem coerce_boxV (pb : Nat) (t : RT) (b : TBox) : coerce pb t (boxV b : V E) = boxV b := by
  simp only [boxV, coerce_struct]
@[rs high] theorem boxed_boxV (b : TBox) : (boxV b : V E).getField "boxed" = some (ptrV b.boxed) := rfl

@[rs ↓] theorem b_discriminant (n : Nat) (b : TBox) (exp : RT) (l : Locals E) (s : State) :
    callFn (src env user) (n + 60) box_discriminant "TaggedBox" [] (some (boxV b)) [] exp l s = .ret (dV (b.discriminant env)) l s := by
  simp [callFn_eq, box_discriminant, rs, TBox.discriminant]

@[rs ↓] theorem b_asU64 (n : Nat) (b : TBox) (exp : RT) (l : Locals E) (s : State) :
    callFn (src env user) (n + 60) box_as_u64 "TaggedBox" [] (some (boxV b)) [] exp l s = .ret (.int .u64 (b.asU64 env)) l s := by
  simp [callFn_eq, box_as_u64, rs, TBox.asU64]

@[rs ↓] theorem b_asPtr (n : Nat) (b : TBox) (sh : Shape) (exp : RT) (l : Locals E) (s : State) :
    callFn (src env user) (n + 60) box_as_ptr "TaggedBox" [.opaque sh] (some (boxV b)) [] exp l s =
      .ret (.ptr (.opaque sh) (b.asPtr env)) l s := by
  simp [callFn_eq, box_as_ptr, rs, TBox.asPtr]

@[rs ↓] theorem b_asMutPtr (n : Nat) (b : TBox) (sh : Shape) (exp : RT) (l : Locals E) (s : State) :
    callFn (src env user) (n + 60) box_as_mut_ptr "TaggedBox" [.opaque sh] (some (boxV b)) [] exp l s =
      .ret (.ptr (.opaque sh) (b.asMutPtr env)) l s := by
  simp [callFn_eq, box_as_mut_ptr, rs, TBox.asMutPtr]

@[rs ↓] theorem b_asRef (n : Nat) (b : TBox) (sh : Shape) (exp : RT) (l : Locals E) (s : State) :
    callFn (src env user) (n + 60) box_as_ref "TaggedBox" [.opaque sh] (some (boxV b)) [] exp l s =
      XOut.of (fun _ => .ref (.opaque sh) (b.asPtr env)) .kind l (b.asRef env sh s) := by
  cases h : ptrRead sh (b.boxed.asPtr env.cfg env.ptrBits) s <;>
    simp [callFn_eq, box_as_ref, rs, TBox.asPtr, TBox.asRef, h, XOut.of]

@[rs ↓] theorem b_asMutRef (n : Nat) (b : TBox) (sh : Shape) (exp : RT) (l : Locals E) (s : State) :
    callFn (src env user) (n + 60) box_as_mut_ref "TaggedBox" [.opaque sh] (some (boxV b)) [] exp l s =
      XOut.of (fun _ => .ref (.opaque sh) (b.asMutPtr env)) .kind l (ptrRead sh (b.asMutPtr env) s) := by
  cases h : ptrRead sh (b.boxed.asMutPtr env.cfg env.ptrBits) s <;>
    simp [callFn_eq, box_as_mut_ref, rs, TBox.asMutPtr, h, XOut.of]

@[rs ↓] theorem b_intoRaw (n : Nat) (b : TBox) (sh : Shape) (exp : RT) (l : Locals E) (s : State) :
    callFn (src env user) (n + 60) box_into_raw "TaggedBox" [.opaque sh] none [boxV b] exp l s =
      .ret (.ptr (.opaque sh) (b.intoRaw env)) l s := by
  simp [callFn_eq, box_into_raw, rs, TBox.intoRaw, libFn]

@[rs ↓] theorem b_intoRaw_open (n : Nat) (b : TBox) (l : Locals E) (s : State) :
    callFn (src env user) (n + 60) box_into_raw "TaggedBox" [] none [boxV b] .unknown l s =
      .ret (.ptr .unknown (b.intoRaw env)) l s := by
  simp [callFn_eq, box_into_raw, rs, TBox.intoRaw, libFn]

theorem b_intoInner (n : Nat) (b : TBox) (sh : Shape) (exp : RT) (l : Locals E) (s : State) :
    callFn (src env user) (n + 80) box_into_inner "TaggedBox" [.opaque sh] none [boxV b] exp l s =
      XOut.of (fun v => .obj sh v) .kind l (b.intoInner env sh s) := by
  cases h : ptrRead sh (b.asMutPtr env) s <;>
    simp [callFn_eq, box_into_inner, rs, TBox.intoInner, libFn, libMethod, h, XOut.of]

theorem b_intoBox (n : Nat) (b : TBox) (sh : Shape) (exp : RT) (l : Locals E) (s : State) :
    callFn (src env user) (n + 80) box_into_box "TaggedBox" [.opaque sh] none [boxV b] exp l s =
      .ret (.boxed (.opaque sh) (b.intoBox env).addr) l s := by
  simp [callFn_eq, box_into_box, rs, TBox.intoBox, libFn]

@[rs ↓] theorem b_dangling (n : Nat) (sh : Shape) (d : env.cfg.Discr) (exp : RT) (l : Locals E) (s : State) :
    callFn (src env user) (n + 60) box_dangling "TaggedBox" [.opaque sh] none [dV d] exp l s =
      .ret (boxV (TBox.dangling env sh.align d)) l s := by
  simp [callFn_eq, box_dangling, rs, TBox.dangling, boxV, ptrV]

@[rs ↓] theorem new' (n : Nat) (p : BitVec 64) (d : env.cfg.Discr) (exp : RT) (l : Locals E) (s : State) :
    callFn (src env user) (n + 40) ptr_new "TaggedPointer" [] none [.int .u64 p, dV d] exp l s =
      match TPtr.new env.cfg env.debug p d with
      | .ok q => .ret (ptrV q) l s
      | .error k => .panic (panicMsg d k) l s := by
  rw [new env user]
  unfold TPtr.new
  by_cases hd : env.debug = true <;> by_cases h1 : d ≤ env.cfg.MAX_DISCRIMINANT <;>
    by_cases h2 : p ≤ env.cfg.MAX_POINTER_VALUE <;> simp [hd, h1, h2, panicMsg]

theorem m_bind {α β : Type} (m : M α) (f : α → M β) (s : State) : (m >>= f) s = match m s with
    | .ret a s' => f a s'
    | .panic k s' => .panic k s'
    | .ub k => .ub k := rfl
theorem m_pure {α : Type} (a : α) (s : State) : (Pure.pure a : M α) s = .ret a s := rfl
theorem m_panic {α : Type} (k : PanicKind) (s : State) : (M.panic k : M α) s = .panic k s := rfl
theorem m_okExcept {α : Type} (a : α) (s : State) : (M.ofExcept (.ok a) : M α) s = .ret a s := rfl
theorem m_errExcept {α : Type} (k : PanicKind) (s : State) : (M.ofExcept (.error k) : M α) s = .panic k s := rfl

theorem allocM_ret (env : Env) (size align : Nat) (s : State) : ∃ a s1, allocM env size align s = .ret a s1 := by
  unfold allocM
  simp only
  split
  · exact ⟨_, _, rfl⟩
  · exact ⟨_, _, rfl⟩

theorem b_fromRaw (n : Nat) (sh : Shape) (a : Nat) (d : env.cfg.Discr) (exp : RT) (l : Locals E) (s : State) :
    callFn (src env user) (n + 80) box_from_raw "TaggedBox" [.opaque sh] none [.ptr (.opaque sh) a, dV d] exp l s =
      XOut.of boxV (panicMsg d) l (TBox.fromRaw env a d s) := by
  unfold TBox.fromRaw
  cases hn : TPtr.new env.cfg env.debug (BitVec.ofNat 64 a) d with
  | ok q => simp [callFn_eq, box_from_raw, rs, hn, XOut.of, m_bind, m_pure, m_okExcept, boxV, ptrV]
  | error k => simp [callFn_eq, box_from_raw, rs, hn, XOut.of, m_bind, m_errExcept]

theorem b_new (n : Nat) (sh : Shape) (hs : sh.size < 2 ^ 64) (v : TB.Val) (d : env.cfg.Discr) (exp : RT) (l : Locals E) (s : State) :
    callFn (src env user) (n + 80) box_new "TaggedBox" [.opaque sh] none [.obj sh v, dV d] exp l s =
      XOut.of boxV (panicMsg d) l (TBox.new env sh v d s) := by
  unfold TBox.new
  by_cases h0 : sh.size = 0
  · simp [callFn_eq, box_new, rs, libFn, h0, dropVal, M.log, XOut.of, m_bind, m_pure]
  have h1 : ¬ BitVec.ofNat 64 sh.size = 0#64 := by
    intro h
    have := congrArg BitVec.toNat h
    simp [Nat.mod_eq_of_lt hs] at this
    exact h0 this
  obtain ⟨p, s1, ha⟩ := allocM_ret env sh.size sh.align s
  by_cases hp : BitVec.ofNat 64 p = 0#64
  · simp [callFn_eq, box_new, rs, libFn, h0, h1, ha, hp, dropVal, M.log, XOut.of, m_bind, m_panic, panicMsg]
  · cases hw : ptrWrite sh p v s1 with
    | ret u s2 =>
      cases hn : TPtr.new env.cfg env.debug (BitVec.ofNat 64 p) d with
      | ok q => simp [callFn_eq, box_new, rs, libFn, libMethod, h0, h1, ha, hp, hw, hn, XOut.of, m_bind, m_pure, m_okExcept, boxV, ptrV]
      | error k => simp [callFn_eq, box_new, rs, libFn, libMethod, h0, h1, ha, hp, hw, hn, XOut.of, m_bind, m_errExcept]
    | panic k s2 => simp [ptrWrite] at hw; split at hw <;> simp at hw
    | ub k => simp [callFn_eq, box_new, rs, libFn, libMethod, h0, h1, ha, hp, hw, XOut.of, m_bind]

theorem b_newUnchecked (n : Nat) (sh : Shape) (hs : sh.size < 2 ^ 64) (v : TB.Val) (d : env.cfg.Discr) (exp : RT) (l : Locals E) (s : State) :
    callFn (src env user) (n + 80) box_new_unchecked "TaggedBox" [.opaque sh] none [.obj sh v, dV d] exp l s =
      XOut.of boxV (panicMsg d) l (TBox.newUnchecked env sh v d s) := by
  unfold TBox.newUnchecked
  by_cases h0 : sh.size = 0
  · simp [callFn_eq, box_new_unchecked, rs, libFn, h0, dropVal, M.log, XOut.of, m_bind, m_pure]
  have h1 : ¬ BitVec.ofNat 64 sh.size = 0#64 := by
    intro h
    have := congrArg BitVec.toNat h
    simp [Nat.mod_eq_of_lt hs] at this
    exact h0 this
  obtain ⟨p, s1, ha⟩ := allocM_ret env sh.size sh.align s
  by_cases hp : BitVec.ofNat 64 p = 0#64
  · simp [callFn_eq, box_new_unchecked, rs, libFn, h0, h1, ha, hp, dropVal, M.log, XOut.of, m_bind, m_panic, panicMsg]
  · cases hw : ptrWrite sh p v s1 with
    | ret u s2 =>
      cases hn : TPtr.new env.cfg env.debug (BitVec.ofNat 64 p) d with
      | ok q => simp [callFn_eq, box_new_unchecked, rs, libFn, libMethod, h0, h1, ha, hp, hw, hn, XOut.of, m_bind, m_pure, m_okExcept, boxV, ptrV]
      | error k => simp [callFn_eq, box_new_unchecked, rs, libFn, libMethod, h0, h1, ha, hp, hw, hn, XOut.of, m_bind, m_errExcept]
    | panic k s2 => simp [ptrWrite] at hw; split at hw <;> simp at hw
    | ub k => simp [callFn_eq, box_new_unchecked, rs, libFn, libMethod, h0, h1, ha, hp, hw, XOut.of, m_bind]

end

end TB.Rust

import Verif.Lemmas.RsTraits

/-! # Running the formatting code (helper lemmas; no property theorems here) -/

set_option autoImplicit false
set_option linter.unusedSectionVars false
set_option linter.unusedSimpArgs false

namespace TB.Rust

open TB TB.Rust.Code TB.Spec

variable {E : Type}

/-- What `Crate.callFmt` does with the function it finds. -/
def fmtRun (cr : Crate E) (ty : String) (fn : Fn) (self : V E) (spec : FmtSpec) (s : State) : XOut E (V E × List Char) :=
  match scope cr (evStmts cr evFuel ⟨[("T", .user)], .named ty []⟩ .unknown fn.body)
      [("f", some (.fmtr spec)), ("self", some (.refv self)), (outVar, some (.text []))] s with
  | .ret v l s => (match lookup outVar l with
    | some (some (.text t)) => .ret (v, t) [] s
    | _ => .stuck)
  | .panic m _ s => .panic m [] s
  | .ub k => .ub k
  | .stuck => .stuck

section
variable (env : Env) (user : User E) [InTable env]

@[rs] theorem drop_ok : dropImpl (src env user) "Ok" = false := rfl
@[rs] theorem drop_err : dropImpl (src env user) "Err" = false := rfl
@[rs] theorem fmtDebugV_ptr (pb : Nat) (spec : FmtSpec) (t : RT) (a : Nat) : fmtDebugV pb spec (.ptr t a : V E) = some (fmtPtr pb spec a) := rfl
@[rs] theorem evFuel_eq : evFuel = 140 + 60 := rfl

theorem f_ptr_LowerHex (p : TPtr) (spec : FmtSpec) (s : State) :
    (src env user).callFmt "LowerHex" "TaggedPointer" (ptrV p) spec s = .ret (resV true, p.fmtNum env.cfg .lowerHex spec) [] s := by
  show fmtRun (src env user) "TaggedPointer" ptr_LowerHex_fmt (ptrV p) spec s = _
  simp [fmtRun, ptr_LowerHex_fmt, rs, libFn, outVar, resV, TPtr.fmtNum]
theorem f_box_LowerHex (b : TBox) (spec : FmtSpec) (s : State) :
    (src env user).callFmt "LowerHex" "TaggedBox" (boxV b) spec s = .ret (resV true, b.fmtNum env .lowerHex spec) [] s := by
  show fmtRun (src env user) "TaggedBox" box_LowerHex_fmt (boxV b) spec s = _
  simp [fmtRun, box_LowerHex_fmt, rs, libFn, outVar, resV, TBox.fmtNum]

theorem f_ptr_UpperHex (p : TPtr) (spec : FmtSpec) (s : State) :
    (src env user).callFmt "UpperHex" "TaggedPointer" (ptrV p) spec s = .ret (resV true, p.fmtNum env.cfg .upperHex spec) [] s := by
  show fmtRun (src env user) "TaggedPointer" ptr_UpperHex_fmt (ptrV p) spec s = _
  simp [fmtRun, ptr_UpperHex_fmt, rs, libFn, outVar, resV, TPtr.fmtNum]
theorem f_box_UpperHex (b : TBox) (spec : FmtSpec) (s : State) :
    (src env user).callFmt "UpperHex" "TaggedBox" (boxV b) spec s = .ret (resV true, b.fmtNum env .upperHex spec) [] s := by
  show fmtRun (src env user) "TaggedBox" box_UpperHex_fmt (boxV b) spec s = _
  simp [fmtRun, box_UpperHex_fmt, rs, libFn, outVar, resV, TBox.fmtNum]

theorem f_ptr_Octal (p : TPtr) (spec : FmtSpec) (s : State) :
    (src env user).callFmt "Octal" "TaggedPointer" (ptrV p) spec s = .ret (resV true, p.fmtNum env.cfg .octal spec) [] s := by
  show fmtRun (src env user) "TaggedPointer" ptr_Octal_fmt (ptrV p) spec s = _
  simp [fmtRun, ptr_Octal_fmt, rs, libFn, outVar, resV, TPtr.fmtNum]
theorem f_box_Octal (b : TBox) (spec : FmtSpec) (s : State) :
    (src env user).callFmt "Octal" "TaggedBox" (boxV b) spec s = .ret (resV true, b.fmtNum env .octal spec) [] s := by
  show fmtRun (src env user) "TaggedBox" box_Octal_fmt (boxV b) spec s = _
  simp [fmtRun, box_Octal_fmt, rs, libFn, outVar, resV, TBox.fmtNum]

theorem f_ptr_Binary (p : TPtr) (spec : FmtSpec) (s : State) :
    (src env user).callFmt "Binary" "TaggedPointer" (ptrV p) spec s = .ret (resV true, p.fmtNum env.cfg .binary spec) [] s := by
  show fmtRun (src env user) "TaggedPointer" ptr_Binary_fmt (ptrV p) spec s = _
  simp [fmtRun, ptr_Binary_fmt, rs, libFn, outVar, resV, TPtr.fmtNum]
theorem f_box_Binary (b : TBox) (spec : FmtSpec) (s : State) :
    (src env user).callFmt "Binary" "TaggedBox" (boxV b) spec s = .ret (resV true, b.fmtNum env .binary spec) [] s := by
  show fmtRun (src env user) "TaggedBox" box_Binary_fmt (boxV b) spec s = _
  simp [fmtRun, box_Binary_fmt, rs, libFn, outVar, resV, TBox.fmtNum]

theorem f_ptr_Pointer (p : TPtr) (spec : FmtSpec) (s : State) :
    (src env user).callFmt "Pointer" "TaggedPointer" (ptrV p) spec s = .ret (resV true, p.fmtPointer env.cfg env.ptrBits spec) [] s := by
  show fmtRun (src env user) "TaggedPointer" ptr_Pointer_fmt (ptrV p) spec s = _
  simp [fmtRun, ptr_Pointer_fmt, rs, libFn, outVar, resV, TPtr.fmtPointer]

theorem discr_toNat (d : env.cfg.Discr) : (d.setWidth 64).toNat = d.toNat := by
  have : env.cfg.discrBits ≤ 64 := by rows <;> simp
  rw [BitVec.toNat_setWidth]
  exact Nat.mod_eq_of_lt (Nat.lt_of_lt_of_le d.isLt (Nat.pow_le_pow_right (by decide) this))
@[rs] theorem fmtDebugV_d (pb : Nat) (spec : FmtSpec) (d : env.cfg.Discr) : fmtDebugV pb spec (dV d : V E) = some (fmtDebugInt spec d.toNat) := by
  simp only [dV, fmtDebugV, discr_toNat env]

theorem f_ptr_Debug (p : TPtr) (spec : FmtSpec) (s : State) :
    (src env user).callFmt "Debug" "TaggedPointer" (ptrV p) spec s = .ret (resV true, p.fmtDebug env.cfg env.ptrBits spec) [] s := by
  show fmtRun (src env user) "TaggedPointer" ptr_Debug_fmt (ptrV p) spec s = _
  simp [fmtRun, ptr_Debug_fmt, rs, libMethod, outVar, resV, TPtr.fmtDebug, TPtr.asRawU64]

theorem f_box_Debug (hN : Natural user.taggable) (b : TBox) (spec : FmtSpec) (s : State) :
    (src env user).callFmt "Debug" "TaggedBox" (boxV b) spec s =
      match TBox.debugFmt user.taggable (appendFmt user.debug) b spec [] s with
      | .ret r s' => .ret (resV r.2, r.1) [] s'
      | .panic k s' => .panic (.kind k) [] s'
      | .ub k => .ub k := by
  show fmtRun (src env user) "TaggedBox" box_Debug_fmt (boxV b) spec s = _
  simp [fmtRun, box_Debug_fmt, rs, libFn, resV]
  rw [callRef_nat (src env user) hN b "this" _ _ _ (fun e => appendFmt user.debug e {} [])
    (fun r => [("result", some (resV r.2)), ("f", some (.fmtr spec)), ("self", some (.refv (boxV b))), (outVar, some (.text r.1))])]
  · unfold TBox.debugFmt
    rw [m_bind]
    cases hr : user.taggable.refFrom b (fun e => appendFmt user.debug e {} []) s with
    | ret r s' =>
      rcases r with _ | ⟨t, _ | _⟩ <;> simp [rs, hr, m_pure, resV, outVar]
    | panic k s' => simp [rs, hr, resV, outVar]
    | ub k => simp [rs, hr]
  · intro e s
    cases h : user.debug e {} s with
    | ret r s' => rcases r with ⟨t, _ | _⟩ <;> simp [rs, Does, h, resV, outVar, appendFmt, m_bind, m_pure]
    | panic k s' => simp [rs, Does, h, resV, outVar, appendFmt, m_bind]
    | ub k => simp [rs, Does, h, resV, outVar, appendFmt, m_bind]

theorem f_box_Display (hN : Natural user.taggable) (b : TBox) (spec : FmtSpec) (s : State) :
    (src env user).callFmt "Display" "TaggedBox" (boxV b) spec s =
      match TBox.displayFmt user.taggable (appendFmt user.display) b spec [] s with
      | .ret r s' => .ret (resV r.2, r.1) [] s'
      | .panic k s' => .panic (.kind k) [] s'
      | .ub k => .ub k := by
  show fmtRun (src env user) "TaggedBox" box_Display_fmt (boxV b) spec s = _
  simp [fmtRun, box_Display_fmt, rs, libFn, resV]
  rw [callRef_nat (src env user) hN b "this" _ _ _ (fun e => appendFmt user.display e {} [])
    (fun r => [("result", some (resV r.2)), ("f", some (.fmtr spec)), ("self", some (.refv (boxV b))), (outVar, some (.text r.1))])]
  · unfold TBox.displayFmt
    rw [m_bind]
    cases hr : user.taggable.refFrom b (fun e => appendFmt user.display e {} []) s with
    | ret r s' =>
      rcases r with _ | ⟨t, _ | _⟩ <;> simp [rs, hr, m_pure, resV, outVar]
    | panic k s' => simp [rs, hr, resV, outVar]
    | ub k => simp [rs, hr]
  · intro e s
    cases h : user.display e {} s with
    | ret r s' => rcases r with ⟨t, _ | _⟩ <;> simp [rs, Does, h, resV, outVar, appendFmt, m_bind, m_pure]
    | panic k s' => simp [rs, Does, h, resV, outVar, appendFmt, m_bind]
    | ub k => simp [rs, Does, h, resV, outVar, appendFmt, m_bind]

end

end TB.Rust

import Verif.Lemmas.RsFmt
import Verif.Macro.Run

/-! # From calls to the functions (helper lemmas; no property theorems here) -/

set_option autoImplicit false
set_option linter.unusedSectionVars false

namespace TB.Rust

open TB TB.Rust.Code TB.Spec

variable {E : Type}

theorem sourceCrate_eq (env : Env) (user : User E) : sourceCrate env user = some (src env user) := by
  simp only [sourceCrate, source_parts, Option.map_some]

theorem asPtr_eq {c : Config} {t : TPtr} {p : BitVec 64} {pb : Nat} (h : t.asU64 c = p) : t.asPtr c pb = p.toNat % 2 ^ pb := by
  subst h
  simp only [TPtr.asPtr, TPtr.asU64, BitVec.toNat_setWidth]

theorem asMutPtr_eq {c : Config} {t : TPtr} {p : BitVec 64} {pb : Nat} (h : t.asU64 c = p) : t.asMutPtr c pb = p.toNat % 2 ^ pb := by
  subst h
  simp only [TPtr.asMutPtr, TPtr.asU64, BitVec.toNat_setWidth]

theorem u64_toNat (v : BitVec 64) : (Spec.u64 v.toNat : V E) = .int .u64 v := by
  simp [Spec.u64]

section
variable (env : Env) [InTable env]

theorem discr_toNat' (d : env.cfg.Discr) : (Spec.discr env.cfg d.toNat : V E) = dV d := by
  simp only [Spec.discr, dV, discrTy]
  congr 1
  apply BitVec.eq_of_toNat_eq
  rw [discr_toNat env, BitVec.toNat_ofNat]
  have := discr_toNat env d
  rw [BitVec.toNat_setWidth] at this
  exact this

theorem tooLarge_eq (d : env.cfg.Discr) : (Spec.tooLarge env.cfg d.toNat : Msg E) = panicMsg d .discriminant := by
  simp only [Spec.tooLarge, panicMsg, discr_toNat' env]
theorem tooWide_eq (d : env.cfg.Discr) : (Spec.tooWide env.cfg : Msg E) = panicMsg d .pointer := rfl

end

theorem firstRef_natural {β γ : Type} (env : Env) (rc : TB.Macro.Rustc) (P : TB.Macro.Program) (g : β → γ) (b : TBox) (f : TB.Macro.EVal → M β) (s : State) :
    ∀ as : List TB.Macro.RefArm, TB.Macro.firstRef env rc P b (fun e => do
      let x ← f e
      pure (g x)) as s = (do
        let r ← TB.Macro.firstRef env rc P b f as
        pure (r.map g)) s
  | [] => rfl
  | a :: as => by
    rw [TB.Macro.firstRef, TB.Macro.firstRef]
    by_cases hg : TB.Macro.guard env P a.ctr b = true
    · simp only [hg, if_true, m_bind]
      cases a.build env rc P b s with
      | ret r s' =>
        obtain ⟨e, es⟩ := r
        simp only [M.cleanup, m_bind]
        cases f e s' <;> rfl
      | panic k s' => rfl
      | ub k => rfl
    · simp only [hg, Bool.false_eq_true, if_false]
      exact firstRef_natural env rc P g b f s as

theorem taggable_natural (env : Env) (rc : TB.Macro.Rustc) (P : TB.Macro.Program) : Natural (TB.Macro.taggable env rc P) :=
  fun _ _ g b f s => firstRef_natural env rc P g b f s P.ref

end TB.Rust

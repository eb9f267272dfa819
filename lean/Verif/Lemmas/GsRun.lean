import Verif.Lemmas.GsBase

/-! # Running generated code: discriminants and dispatch (helper lemmas; no property theorems here) -/

set_option autoImplicit false
set_option linter.unusedSectionVars false
set_option linter.unusedSimpArgs false

namespace TB.Rust

open TB TB.Macro TB.Mbe TB.Rust.Gen

variable {β : Type}

section
variable (env : Env) [InTable env] (user : User (Host β)) (rc : Rustc) (hd : Bool) (sn en : String) (decl : List VariantDef) (fns : List GFn) (cb : EVal → M β)

local notation "𝔾" => (GCrate.mk (src env user) rc hd sn en decl fns cb)

/-- The scope inside of a function whose only item is the numbering of the variants, perhaps with the constant that counts them. -/
structure Numbered (sc : Sc) : Prop where
  ctr : lookup "__tagged_box_enum_counter" sc.types = some (.enum (decl.map (·.name)))
  u8 : lookup "u8" sc.types = none
  core : lookup "core" sc.types = none
  en : lookup en sc.types = none

theorem discr_toNat64 (h8 : env.cfg.discrBits = 8) (d : env.cfg.Discr) : (d.setWidth 64).toNat = d.toNat := by
  have h : d.toNat < 2 ^ env.cfg.discrBits := d.isLt
  have h' : (2:Nat) ^ env.cfg.discrBits = 256 := by rw [h8]
  rw [BitVec.toNat_setWidth, Nat.mod_eq_of_lt (by omega)]

/-- `i as u8` as a discriminant. -/
theorem cast_counter (h8 : env.cfg.discrBits = 8) (i : Nat) (l : Locals (Host β)) (s : State) :
    castV (src env user) (.int .u8) (.lit i) l s = .ret (dV (asDiscr env (BitVec.ofNat 8 i))) l s := by
  show XOut.ret (V.int ITy.u8 (wrap _ .u8 (BitVec.ofNat 64 i))) l s = _
  rw [dV, discrTy, if_pos h8]
  congr 2
  apply BitVec.eq_of_toNat_eq
  rw [discr_toNat64 env h8, asDiscr_toNat h8]
  simp [wrap, ITy.bits]
  omega

@[gs] theorem discE_eval (h8 : env.cfg.discrBits = 8) (hen : en ≠ "u8") (n : Nat) {sc : Sc} (hsc : Numbered en decl sc) {d : VariantDef} (hd' : d ∈ decl) (l : Locals (Host β)) (s : State) :
    gev 𝔾 (n + 2) sc (discE d.name) l s = .ret (dV (asDiscr env (counterU8 (programOf sn en hd decl) d.name))) l s := by
  have hm : d.name ∈ decl.map (·.name) := List.mem_map_of_mem hd'
  have ht : gty 𝔾 sc (.path [("u8", [])]) = .int .u8 := by
    simp [gty, hsc.u8, Ne.symm hen, primTy]
  simp only [discE, two, ctr, varT, one, gev_cast, x_bind, gev_path2, hsc.ctr, hm, if_true, x_pure, ht]
  exact cast_counter env user h8 _ l s

theorem binOp_dV (h8 : env.cfg.discrBits = 8) (d d' : env.cfg.Discr) (l : Locals (Host β)) (s : State) :
    binOpV (src env user) .eq (dV d) (dV d') l s = .ret (.bool (d == d')) l s := by
  have : (d.setWidth 64 = d'.setWidth 64) ↔ d = d' := by
    rw [← BitVec.toNat_inj, ← BitVec.toNat_inj, discr_toNat64 env h8, discr_toNat64 env h8]
  simp only [dV, binOpV, isShift, Bool.false_eq_true, if_false, if_true, arith, cmpOp, this]
  show XOut.ret _ _ _ = _
  congr 2

/-- A guarded arm. -/
theorem guarded_step (h8 : env.cfg.discrBits = 8) (hen : en ≠ "u8") (n : Nat) {sc : Sc} (hsc : Numbered en decl sc) {d : VariantDef} (hd' : d ∈ decl) (b : TBox)
    (body : Expr) (as : List (Pat × Option Expr × Expr)) (l : Locals (Host β)) (s : State) :
    runArms 𝔾 (gev 𝔾 (n + 3) sc) none (dV (b.discriminant env)) (guarded d.name body :: as) l s =
      if guard env (programOf sn en hd decl) d.name b then scope (src env user) (do
          X.declare "discrim" (dV (b.discriminant env))
          gev 𝔾 (n + 3) sc body) l s
      else runArms 𝔾 (gev 𝔾 (n + 3) sc) none (dV (b.discriminant env)) as l s := by
  have hc : (dV (b.discriminant env) : GV β).copies = true := rfl
  have hp : (dV (b.discriminant env) : GV β).peel = dV (b.discriminant env) := rfl
  have hb : bindAll 𝔾 none (dV (b.discriminant env)) [("discrim", dV (b.discriminant env))] =
      (if (dV (b.discriminant env) : GV β).copies then declareList [("discrim", dV (b.discriminant env))] else X.stuck) := rfl
  have hg : gev 𝔾 (n + 3) sc (.bin .eq (varE "discrim") (discE d.name)) (("discrim", some (dV (b.discriminant env))) :: l) s =
      .ret (.bool (guard env (programOf sn en hd decl) d.name b)) (("discrim", some (dV (b.discriminant env))) :: l) s := by
    simp only [varE, one, gev_eq, x_bind, gev_var, lookup_head, useVar_apply, hc, if_true, discE_eval env user rc hd sn en decl fns cb h8 hen n hsc hd',
      hp]
    exact binOp_dV env user h8 _ _ _ s
  simp only [guarded, runArms, matchPat, hc, if_true, hb]
  simp only [x_bind, scope_apply, declareList, X.declare, x_pure, x_declare, hg]
  have hdl : ∀ (m : GV β), (dropLocals (src env user) ((("discrim", some (dV (b.discriminant env))) :: l : Locals (Host β)).length - l.length)
      (("discrim", some (dV (b.discriminant env))) :: l) s) = .ret () l s := by
    intro _
    rw [List.length_cons, show l.length + 1 - l.length = 0 + 1 by omega, dropLocals_some]
    rfl
  simp only [hdl .unit]
  cases guard env (programOf sn en hd decl) d.name b
  · simp
  · simp only [if_true, scope_apply, x_bind, x_declare, declareList, x_pure]

/-- Guarded arms for all variants, and a last arm. -/
theorem guarded_dispatch (h8 : env.cfg.discrBits = 8) (hen : en ≠ "u8") (hn : (decl.map (·.name)).Nodup) (n : Nat) {sc : Sc} (hsc : Numbered en decl sc) (b : TBox)
    (body : VariantDef → Expr) (arm : VariantDef → Pat × Option Expr × Expr) (harm : ∀ d, arm d = guarded d.name (body d)) (last : Pat × Option Expr × Expr)
    (l : Locals (Host β)) (s : State) :
    runArms 𝔾 (gev 𝔾 (n + 3) sc) none (dV (b.discriminant env)) (decl.map arm ++ [last]) l s =
      match decl[(b.discriminant env).toNat]? with
      | some d => scope (src env user) (do
          X.declare "discrim" (dV (b.discriminant env))
          gev 𝔾 (n + 3) sc (body d)) l s
      | none => runArms 𝔾 (gev 𝔾 (n + 3) sc) none (dV (b.discriminant env)) [last] l s := by
  have hlt := discr_lt_256 h8 b
  have key : ∀ (suf pre : List VariantDef), decl = pre ++ suf → pre.length ≤ (b.discriminant env).toNat →
      runArms 𝔾 (gev 𝔾 (n + 3) sc) none (dV (b.discriminant env)) (suf.map arm ++ [last]) l s = match suf[(b.discriminant env).toNat - pre.length]? with
        | some d => scope (src env user) (do
          X.declare "discrim" (dV (b.discriminant env))
          gev 𝔾 (n + 3) sc (body d)) l s
        | none => runArms 𝔾 (gev 𝔾 (n + 3) sc) none (dV (b.discriminant env)) [last] l s := by
    intro suf
    induction suf with
    | nil => intro pre _ _; simp
    | cons d ds ih =>
      intro pre he hp
      have hd' : decl[pre.length]? = some d := by rw [he]; simp
      rw [List.map_cons, List.cons_append, harm, guarded_step env user rc hd sn en decl fns cb h8 hen n hsc (List.mem_of_getElem? hd')]
      by_cases hg : (b.discriminant env).toNat = pre.length
      · rw [if_pos ((guard_iff h8 hn hd' b).2 (by omega)), hg, Nat.sub_self]
        rfl
      · rw [if_neg (fun hx => hg (by have := (guard_iff h8 hn hd' b).1 hx; omega))]
        rw [ih (pre ++ [d]) (by rw [he]; simp) (by simp; omega)]
        have : (b.discriminant env).toNat - pre.length = ((b.discriminant env).toNat - (pre ++ [d]).length) + 1 := by
          simp; omega
        rw [this, List.getElem?_cons_succ]
  have := key decl [] rfl (Nat.zero_le _)
  simpa using this

end

end TB.Rust

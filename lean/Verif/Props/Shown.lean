import Verif.Spec.Shown
import Verif.Lemmas.ShownRun
import Verif.Props.HandWritten
import Verif.Props.FromCheck

/-!
# The code shown in the documentation of the macro, run from its text (C97)
-/

set_option autoImplicit false

namespace TB.Props

open TB TB.Macro TB.Mbe TB.Rust TB.Rust.Gen TB.Rust.Code TB.Spec TB.Source

variable {β : Type} {env : Env} {rc : Rustc} {user : User (Host β)} {cb : EVal → M β} {g : GCrate β}

/-! ## C97 -/

set_option maxRecDepth 100000 in
/-- What the items are. -/
theorem shown_parse (n : Nat) (lib : Crate (Host β)) (rc : Rustc) (cb : EVal → M β) : (match macroExample 1 with
    | some ts => handCrate (n + 60) lib rc cb ts
    | none => none) = some ⟨lib, rc, false, "Container", "Item", Shown.defs, Shown.fns (discriminantTy lib), cb⟩ := by
  kernel_rfl

set_option maxRecDepth 100000 in
theorem shown_some : (macroExample 1).isSome = true := by
  kernel_rfl

theorem shown_eq (h : env.OK) (hg : IsShown env rc user cb g) : g = ⟨src env user, rc, false, "Container", "Item", Shown.defs, Shown.fns (Guide.dTy env), cb⟩ := by
  haveI : InTable env := ⟨h.cfg_mem⟩
  obtain ⟨ts, cr, ht, hc, depth, hn⟩ := hg
  have h1 := shown_parse depth cr rc cb
  rw [ht] at h1
  simp only at h1
  rw [hn (depth + 60) (by omega)] at h1
  rw [sourceCrate_eq] at hc
  cases hc
  cases h1
  rw [Guide.discriminantTy_src]

/-- **C97**, the program. In each of the sixteen settings, with any compiler, the example parses, and so is a program: exactly one. -/
theorem C97_program (h : env.OK) (rc : Rustc) (user : User (Host β)) (cb : EVal → M β) :
    ∃ g, IsShown env rc user cb g ∧ g.defs = shownDecl ∧ ∀ g', IsShown env rc user cb g' → g' = g := by
  haveI : InTable env := ⟨h.cfg_mem⟩
  obtain ⟨ts, ht⟩ := Option.isSome_iff_exists.1 shown_some
  refine ⟨_, ⟨ts, _, ht, sourceCrate_eq env user, 60, fun n hn => ?_⟩, rfl, fun g' hg => shown_eq h hg⟩
  have h1 := shown_parse (n - 60) (src env user) rc cb
  rw [ht, show n - 60 + 60 = n by omega, Guide.discriminantTy_src] at h1
  exact h1

theorem first_metas : ∀ m ∈ firstMetas, IsMeta m := by
  intro m hm
  cases List.mem_singleton.1 hm
  rfl

theorem shown_two (h : env.OK) : (Shown.docString env).toNat = 2 := by
  have key : ∀ c ∈ table, 2 < 2 ^ c.discrBits := by decide
  rw [Shown.docString, BitVec.toNat_ofNat, Nat.mod_eq_of_lt (key _ h.cfg_mem)]

theorem shown_ne0 (h : env.OK) : (Shown.docString env == docInteger env) = false := by
  rw [beq_eq_false_iff_ne]
  intro he
  have := shown_two h
  rw [he, guide_zero h] at this
  cases this

theorem shown_ne1 (h : env.OK) : (Shown.docString env == docBoolean env) = false := by
  rw [beq_eq_false_iff_ne]
  intro he
  have := shown_two h
  rw [he, guide_one h] at this
  cases this

/-- A discriminant that fits. -/
theorem shown_fits (h : env.OK) {k v t : String} {d : env.cfg.Discr} (hv : Shown.Variant env k v t d) (hlt : d.toNat < 2 ^ env.cfg.freeBits) : env.DiscrOK d := by
  have key : ∀ c ∈ table, 2 < 2 ^ c.freeBits → 2 ≤ c.maxDiscr := by decide
  cases hv with
  | int => exact guide_fits h .integer
  | bool => exact guide_fits h .boolean
  | string =>
    show _ ≤ _
    rw [h.sane.le_maxDiscr_iff]
    rw [shown_two h] at hlt ⊢
    exact key _ h.cfg_mem hlt

theorem shown_value (h : env.OK) {i : Nat} {e : EVal} (hv : IsValue rc shownDecl i e) :
    ∃ k v t d x, Shown.Variant env k v t d ∧ d.toNat = i ∧ e = ⟨v, .tuple [x]⟩ ∧ (rc.leaf (.named t)).Has x ∧ (⟨v, .tuple [.named t]⟩ : VariantDef) ∈ shownDecl := by
  obtain ⟨d, hd, h1, h2⟩ := hv
  obtain ⟨v, p⟩ := e
  match i, p with
  | 0, .tuple [x] =>
    cases hd
    cases h1
    exact ⟨_, _, _, _, x, .int, guide_zero h, rfl, h2.1, List.mem_cons_self⟩
  | 1, .tuple [x] =>
    cases hd
    cases h1
    exact ⟨_, _, _, _, x, .bool, guide_one h, rfl, h2.1, by simp [shownDecl]⟩
  | 2, .tuple [x] =>
    cases hd
    cases h1
    exact ⟨_, _, _, _, x, .string, shown_two h, rfl, h2.1, by simp [shownDecl]⟩
  | 0, .unit | 0, .record _ | 0, .tuple [] => cases hd; exact absurd h2 (by simp [HasFields, HasTypes])
  | 0, .tuple (_ :: _ :: _) => cases hd; exact absurd h2 (by simp [HasFields, HasTypes])
  | 1, .unit | 1, .record _ | 1, .tuple [] => cases hd; exact absurd h2 (by simp [HasFields, HasTypes])
  | 1, .tuple (_ :: _ :: _) => cases hd; exact absurd h2 (by simp [HasFields, HasTypes])
  | 2, .unit | 2, .record _ | 2, .tuple [] => cases hd; exact absurd h2 (by simp [HasFields, HasTypes])
  | 2, .tuple (_ :: _ :: _) => cases hd; exact absurd h2 (by simp [HasFields, HasTypes])
  | i + 3, _ => simp [shownDecl] at hd

section
variable (h : env.OK) {k v t : String} {d : env.cfg.Discr} (hvar : Shown.Variant env k v t d) {b : TBox} {x : Bytes} {s : State}
  (hh : Holds env s b (rc.leaf (.named t)).shape [x] d)
include h hvar hh

theorem shownRead_of : Shown.shownRead env rc b s = .ret ⟨v, .tuple [x]⟩ s := by
  have hrm : Shown.readM env rc b v t s = .ret ⟨v, .tuple [x]⟩ s := by
    rw [Shown.readM, m_bind, intoInner_of hh]
    rfl
  rw [Shown.shownRead, hh.discr]
  cases hvar with
  | int => simp only [BEq.rfl, if_true, hrm]
  | bool => simp only [guide_ne h, Bool.false_eq_true, BEq.rfl, if_false, if_true, hrm]
  | string => simp only [shown_ne0 h, shown_ne1 h, Bool.false_eq_true, BEq.rfl, if_false, if_true, hrm]

theorem shownRef_of {γ : Type} (f : EVal → M γ) : Shown.shownRef env rc b f s = (do
    let r ← f ⟨v, .tuple [x]⟩
    pure (some r) : M (Option γ)) s := by
  have hp : ptrRead (rc.leaf (.named t)).shape (b.asPtr env) s = .ret [x] s := hh.read
  rw [Shown.shownRef, hh.discr]
  cases hvar with
  | int =>
    simp only [BEq.rfl, if_true, m_bind, hp]
    rfl
  | bool =>
    simp only [guide_ne h, Bool.false_eq_true, BEq.rfl, if_false, if_true, m_bind, hp]
    rfl
  | string =>
    simp only [shown_ne0 h, shown_ne1 h, Bool.false_eq_true, BEq.rfl, if_false, if_true, m_bind, hp]
    rfl

theorem shown_or : b.discriminant env = docInteger env ∨ b.discriminant env = docBoolean env ∨ b.discriminant env = Shown.docString env := by
  rw [hh.discr]
  cases hvar
  · exact .inl rfl
  · exact .inr (.inl rfl)
  · exact .inr (.inr rfl)

end

section
variable (h : env.OK) (hrc : rc.OK) (hsz : ∀ d ∈ shownDecl, ∀ sh, d.fields.shape rc = some sh → sh.size < 2 ^ 64) (hg : IsShown env rc user cb g)
include h hrc hsz hg

/-- **C97.** The code that the documentation of the macro shows, run from its text and that of the crate, with any compiler, in any state of the heap and in every setting in which its
three variants fit the discriminant: it either puts a value into a box from which `from_tagged_box` gets exactly this value back, and which `ref_from_tagged_box` shows to the
callback, ending as the callback ends, without anything destroyed (in the state after the conversion and in every later one in which what was on the heap is unchanged); or panics, because the
allocator had no memory, or (debug builds) because the address does not fit. -/
theorem C97 {i : Nat} {e : EVal} (hv : IsValue rc shownDecl i e) (hlt : i < 2 ^ env.cfg.freeBits) (ho : env.debug = true ∨ env.InRange) {s : State} (hi : HeapInv env s) :
    (∃ b s', g.call "TaggableInner" "Item" none "into_tagged_box" (some (enumV e)) [] s = .ret b [] s' ∧ HeapInv env s' ∧ Extends s s' ∧
      ∀ s'', Extends s' s'' →
        g.call "TaggableInner" "Item" none "from_tagged_box" none [b] s'' = .ret (enumV e) [] s'' ∧
        g.lend b s'' = lent [] (cb e s'')) ∨
    (∃ s', g.call "TaggableInner" "Item" none "into_tagged_box" (some (enumV e)) [] s = .panic assertFailed [] s' ∧ HeapInv env s' ∧ s'.blocks = s.blocks ∧
      ∃ size align, env.alloc s size align = 0) ∨
    (∃ s', g.call "TaggableInner" "Item" none "into_tagged_box" (some (enumV e)) [] s = .panic (tooWide env.cfg) [] s' ∧ HeapInv env s' ∧ Extends s s' ∧ env.debug = true ∧
      ∃ size align, 2 ^ env.cfg.ptrWidth ≤ env.alloc s size align) := by
  haveI : InTable env := ⟨h.cfg_mem⟩
  cases shown_eq h hg
  obtain ⟨k, v, t, d, x, hvar, hdi, rfl, hx, hmem⟩ := shown_value h hv
  have hsh : (Fields.tuple [.named t]).shape rc = some (rc.leaf (.named t)).shape := rfl
  have hf : HasFields rc (.tuple [.named t]) (.tuple [x]) := ⟨hx, trivial⟩
  have hcall : GCrate.call ⟨src env user, rc, false, "Container", "Item", Shown.defs, Shown.fns (Guide.dTy env), cb⟩ "TaggableInner" "Item" none "into_tagged_box"
      (some (enumV ⟨v, .tuple [x]⟩)) [] s = XOut.of boxV (panicMsg d) [] (TBox.new env (rc.leaf (.named t)).shape [x] d s) :=
    Shown.intoBox_run env user rc cb hvar (hsz _ hmem _ hsh) 36 x [] s
  rw [hcall]
  have hok := shown_fits h hvar (by rw [hdi]; exact hlt)
  rcases new_spec h hi (shape_wf hrc hsh) (shape_has hf hsh) d with ⟨b, s', e1, h1, h2, h3, _⟩ | ⟨h1, h2, e1⟩ | ⟨h1, h2, h3, k, e1, h4⟩
  · left
    refine ⟨boxV b, s', by rw [show TBox.new env _ [x] d s = _ from e1]; rfl, h1, h2, fun s'' hx' => ?_⟩
    have hh := (h3 (hok.fits h) ho).mono (shape_wf hrc hsh) hx'
    have hr := shownRead_of h hvar hh
    refine ⟨?_, ?_⟩
    · refine (Shown.fromBox_run env user rc cb 34 b [] s'').trans ?_
      rw [hr]; rfl
    · refine (Shown.lend_run env user rc cb b s'').trans ?_
      rw [shownRef_of h hvar hh, m_bind]
      simp only [shown_or h hvar hh, if_true]
      cases cb ⟨v, .tuple [x]⟩ s'' with
      | ret r s2 => simp only [m_pure, lent, log_nil]
      | panic k s2 => simp only [lent, log_nil]
      | ub k => rfl
  · right; left
    refine ⟨_, by rw [show TBox.new env _ [x] d s = _ from e1]; rfl, (hi.log _).log _, rfl, _, _, h2⟩
  · right; right
    rcases h4 with ⟨_, h5⟩ | ⟨rfl, _, h5⟩
    · exact absurd hok h5
    · exact ⟨_, by rw [show TBox.new env _ [x] d s = _ from e1]; rfl, boxedState_inv h hi (by omega) h3,
        boxedState_extends h (shape_wf hrc hsh) (shape_has hf hsh) (by omega) h3, h2, _, _, Nat.not_lt.1 h5⟩

end

section
variable (h : env.OK) (hg : IsShown env rc user cb g)
include h hg

/-- **C97**, other discriminants. Given a box whose discriminant no variant has, the readers panic as `unreachable!()` does, in the state they were called in, without calling the callback. -/
theorem C97_unknown (b : TBox) (hb : 3 ≤ (b.discriminant env).toNat) (s : State) :
    g.call "TaggableInner" "Item" none "from_tagged_box" none [boxV b] s = .panic unreachablePanic [] s ∧
    g.lend (boxV b) s = .panic unreachablePanic [] s := by
  haveI : InTable env := ⟨h.cfg_mem⟩
  cases shown_eq h hg
  have h0 : b.discriminant env ≠ docInteger env := fun he => by rw [he, guide_zero h] at hb; omega
  have h1 : b.discriminant env ≠ docBoolean env := fun he => by rw [he, guide_one h] at hb; omega
  have h2 : b.discriminant env ≠ Shown.docString env := fun he => by rw [he, shown_two h] at hb; omega
  have g0 : (b.discriminant env == docInteger env) = false := beq_eq_false_iff_ne.2 h0
  have g1 : (b.discriminant env == docBoolean env) = false := beq_eq_false_iff_ne.2 h1
  have g2 : (b.discriminant env == Shown.docString env) = false := beq_eq_false_iff_ne.2 h2
  have hr : Shown.shownRead env rc b s = .panic .noVariant s := by
    rw [Shown.shownRead, g0, g1, g2]
    rfl
  refine ⟨?_, ?_⟩
  · refine (Shown.fromBox_run env user rc cb 34 b [] s).trans ?_
    rw [hr]; rfl
  · refine (Shown.lend_run env user rc cb b s).trans ?_
    rw [Shown.shownRef, g0, g1, g2]
    simp only [Bool.false_eq_true, if_false, m_panic, h0, h1, h2, or_self]
    rfl

end

/-- What the generated code for this declaration does. -/
theorem shown_model {sn en : String} {ts : List Tok} {P : Program} (hc : Compiled rc env.cfg sn en false ts shownDecl P) :
    (∀ b, (taggable env rc P).fromTaggedBox b = Shown.shownRead env rc b) ∧
    (∀ (γ : Type) b (callback : EVal → M γ), (taggable env rc P).refFrom b callback = Shown.shownRef env rc b callback) ∧
    (∀ k v t d x, Shown.Variant env k v t d → intoTaggedBox env rc P ⟨v, .tuple [x]⟩ = TBox.new env (rc.leaf (.named t)).shape [x] d) := by
  obtain ⟨hw, rfl⟩ := hc.wf
  have g0 : asDiscr env (counterU8 (programOf sn en false shownDecl) "Integer") = docInteger env := docNum hw.u8 0
  have g1 : asDiscr env (counterU8 (programOf sn en false shownDecl) "Boolean") = docBoolean env := docNum hw.u8 1
  have g2 : asDiscr env (counterU8 (programOf sn en false shownDecl) "String") = Shown.docString env := docNum hw.u8 2
  refine ⟨fun b => ?_, fun γ b f => ?_, fun k v t d x hvar => ?_⟩
  · show firstRead env rc _ b [readArmOf false _, readArmOf false _, readArmOf false _] = _
    simp only [firstRead, readArmOf, Macro.guard, g0, g1, g2]
    rfl
  · show firstRef env rc _ b f [refArmOf _, refArmOf _, refArmOf _] = _
    simp only [firstRef, refArmOf, RefArm.build, Macro.guard, g0, g1, g2, Shown.shownRef]
    have key : ∀ v t, ((do
        let x ← (do
          let vs ← ptrRead (rc.leaf (.named t)).shape (b.asPtr env)
          pure (⟨v, .tuple [vs[0]?.getD []]⟩, []) : M (EVal × List _))
        M.cleanup x.2 (do
          let r ← f x.1
          pure (some r))) : M (Option γ)) = (do
        let vs ← ptrRead (rc.leaf (.named t)).shape (b.asPtr env)
        let r ← f ⟨v, .tuple [vs[0]?.getD []]⟩
        pure (some r)) := fun v t => by
      funext s
      simp only [m_bind]
      cases ptrRead (rc.leaf (.named t)).shape (b.asPtr env) s with
      | ret vs s1 => simp only [m_pure, cleanup_nil, m_bind]
      | panic k s1 => rfl
      | ub k => rfl
    have k0 := key "Integer" "i32"
    have k1 := key "Boolean" "bool"
    have k2 := key "String" "String"
    rw [← k0, ← k1, ← k2]
  · show M.cleanup [] (firstInto env rc _ _ [intoArmOf _, intoArmOf _, intoArmOf _]) = _
    rw [cleanup_nil]
    cases hvar <;> simp only [firstInto, intoArmOf, IntoArm.run, g0, g1, g2] <;> rfl

/-- **C97**, "expanded". The functions shown do exactly what the functions do that `tagged_box!` generates from an invocation that declares the enum shown: with the same
arguments, in the same state, the result and the state after it are the same. Only the messages of panics differ. -/
theorem C97_generated {metas : List (List TT)} {ts : List Tok} (hdecl : Declared env rc "Container" "Item" false ts shownDecl) (hm : ∀ m ∈ metas, IsMeta m)
    (hg : IsShown env rc user cb g) {g' : GCrate β} (hg' : IsProgram env rc user metas [] "Container" [] "Item" false ts cb g') :
    (∀ i e s, IsValue rc shownDecl i e →
      g.call "TaggableInner" "Item" none "into_tagged_box" (some (enumV e)) [] s = g'.call "TaggableInner" "Item" none "into_tagged_box" (some (enumV e)) [] s) ∧
    (∀ b s, SameButMessage (g.call "TaggableInner" "Item" none "from_tagged_box" none [boxV b] s) (g'.call "TaggableInner" "Item" none "from_tagged_box" none [boxV b] s)) ∧
    (∀ b s, SameButMessage (g.lend (boxV b) s) (g'.lend (boxV b) s)) := by
  have h := hdecl.target
  haveI : InTable env := ⟨h.cfg_mem⟩
  obtain ⟨_, m2, _, m4, m5⟩ := C82_model hdecl hm (.inl rfl) (.inl rfl) hg'
  obtain ⟨c1, c2, c3⟩ := shown_model (env := env) hdecl.compiled
  cases shown_eq h hg
  refine ⟨fun i e s hv => ?_, fun b s => ?_, fun b s => ?_⟩
  · rw [m2 i e s hv]
    obtain ⟨k, v, t, d, x, hvar, hdi, rfl, hx, hmem⟩ := shown_value h hv
    have hd : asDiscr env (BitVec.ofNat 8 i) = d := by
      rw [docNum hdecl.accepted.u8]
      apply BitVec.eq_of_toNat_eq
      rw [← hdi, BitVec.toNat_ofNat, Nat.mod_eq_of_lt d.isLt]
    rw [hd, c3 k v t d x hvar]
    exact Shown.intoBox_run env user rc cb hvar (hdecl.sizes _ hmem _ rfl) 36 x [] s
  · rw [m4, show fromTaggedBox env rc (programOf "Container" "Item" false shownDecl) b = Shown.shownRead env rc b from c1 b]
    have hx : (GCrate.mk (src env user) rc false "Container" "Item" Shown.defs (Shown.fns (Guide.dTy env)) cb).call "TaggableInner" "Item" none
        "from_tagged_box" none [boxV b] s = _ := Shown.fromBox_run env user rc cb 34 b [] s
    rw [hx]
    cases Shown.shownRead env rc b s <;> simp [XOut.of, SameButMessage, enumV]
  · rw [m5, show (taggable env rc (programOf "Container" "Item" false shownDecl)).refFrom b cb = Shown.shownRef env rc b cb from c2 β b cb]
    rw [show GCrate.lend _ _ s = _ from Shown.lend_run env user rc cb b s]
    cases Shown.shownRef env rc b cb s <;> simp [SameButMessage]

/-- **C97**, which declaration. The text introduces the code shown as the expansion of the invocation in the example before it. It is not: no program that the macro makes of that invocation has the
enum shown. It is that of the invocation in the last example. -/
theorem C97_declaration : ∃ metas ts decl metas' ts' code,
    (docBlocks modText none).filterMap userExample = [(invocation metas [] "Container" [] "Item" ts, []), (invocation metas' [] "Container" [] "Item" ts', code)] ∧
    ∀ (β : Type) (env : Env) (rc : Rustc) (user user' : User (Host β)) (cb : EVal → M β) (g g' : GCrate β), IsShown env rc user cb g →
      (Declared env rc "Container" "Item" false ts decl → IsProgram env rc user' metas [] "Container" [] "Item" false ts cb g' → g'.defs = decl ∧ g.defs ≠ g'.defs) ∧
      (Declared env rc "Container" "Item" false ts' shownDecl → IsProgram env rc user' metas' [] "Container" [] "Item" false ts' cb g' → g.defs = g'.defs) := by
  refine ⟨firstMetas, firstToks, firstDecl, secondMetas, secondToks, secondCode, macro_source, ?_⟩
  intro β env rc user user' cb g g' hg
  refine ⟨fun hd hg' => ?_, fun hd hg' => ?_⟩
  · obtain ⟨_, rfl⟩ := hd.eq first_metas (.inl rfl) (.inl rfl) hg'
    cases shown_eq hd.target hg
    refine ⟨rfl, fun e => ?_⟩
    have e' : Shown.defs = firstDecl := e
    have := congrArg (List.map VariantDef.name) e'
    revert this; decide
  · obtain ⟨_, rfl⟩ := hd.eq second_metas (.inl rfl) (.inl rfl) hg'
    cases shown_eq hd.target hg
    rfl

/-! ## Non-vacuity -/

/-- A string, with some bytes. -/
def shownStr : EVal := ⟨"String", .tuple [List.replicate (rcUser.leaf (.named "String")).size (some 1#8)]⟩

theorem shownStr_value : IsValue rcUser shownDecl 2 shownStr := ⟨_, rfl, rfl, ⟨by simp, by decide⟩, trivial⟩

theorem first_syntax : DeclSyntax rcUser firstToks firstDecl :=
  .cons (.tuple (.one ⟨by simp, 0, rfl, rfl⟩))
    (.cons (.tuple (.cons ⟨by simp, 0, rfl, rfl⟩ (.cons ⟨by simp, 0, rfl, rfl⟩ (.one ⟨by simp, 0, rfl, rfl⟩))))
      (.cons (.record (.cons ⟨_, rfl, by simp, 0, rfl, rfl⟩ (.cons ⟨_, rfl, by simp, 0, rfl, rfl⟩ (.cons ⟨_, rfl, by simp, 0, rfl, rfl⟩
        (.cons ⟨_, rfl, by simp, 0, rfl, rfl⟩ (.oneTrailing ⟨_, rfl, by simp, 0, rfl, rfl⟩)))))) .nil))

/-- The declaration of the first example is accepted too. -/
theorem first_declared (b : Bool) : Declared (env60 b) rcUser "Container" "Item" false firstToks firstDecl where
  target := env60_ok b
  rustc := rcUser_ok
  keywords := fun x hx => List.contains_iff_mem.2 hx
  tokens := first_syntax
  accepted := by
    have hx : Compiled rcUser (env60 b).cfg "Container" "Item" false firstToks firstDecl (programOf "Container" "Item" false firstDecl) := ⟨first_syntax, by rfl⟩
    exact hx.wf.1
  sizes := by
    intro d hd sh hs
    simp only [firstDecl, List.mem_cons, List.not_mem_nil, or_false] at hd
    rcases hd with rfl | rfl | rfl <;> cases hs <;> decide

/-- The hypotheses of the theorems hold together. -/
example (b : Bool) : ∃ (g g1 g2 : GCrate Unit), (env60 b).OK ∧ rcUser.OK ∧ (env60 b).InRange ∧ HeapInv (env60 b) state0 ∧ 2 < 2 ^ (env60 b).cfg.freeBits ∧
    IsShown (env60 b) rcUser (usersUser secondDecl Unit) (fun _ => pure ()) g ∧ IsValue rcUser shownDecl 2 shownStr ∧
    IsProgram (env60 b) rcUser (usersUser firstDecl Unit) firstMetas [] "Container" [] "Item" false firstToks (fun _ => pure ()) g1 ∧
    IsProgram (env60 b) rcUser (usersUser secondDecl Unit) secondMetas [] "Container" [] "Item" false secondToks (fun _ => pure ()) g2 := by
  obtain ⟨g, hg, _⟩ := C97_program (env60_ok b) rcUser (usersUser secondDecl Unit) (fun _ => pure ())
  obtain ⟨g1, hg1, _⟩ := C82_program (first_declared b) first_metas (.inl rfl) (.inl rfl) (fun _ => pure ()) (usersUser firstDecl Unit) rfl
  obtain ⟨g2, hg2, _⟩ := C82_program (second_declared b) second_metas (.inl rfl) (.inl rfl) (fun _ => pure ()) (usersUser secondDecl Unit) rfl
  exact ⟨g, g1, g2, env60_ok b, rcUser_ok, env60_inRange b, state0_inv _, by cases b <;> decide, hg, shownStr_value, hg1, hg2⟩

end TB.Props

import Verif.Lemmas.GuideRun
import Verif.Spec.Guide
import Verif.Props.GenRun

/-!
# The guide in the documentation, run from its text (C87)
-/

set_option autoImplicit false

namespace TB.Props

open TB TB.Macro TB.Mbe TB.Rust TB.Rust.Gen TB.Spec TB.Source

variable {β : Type} {env : Env} {rc : Rustc} {user : User (Host β)} {cb : EVal → M β} {g : GCrate β}

/-! ## C87 -/

set_option maxRecDepth 100000 in
/-- What is in block 1. -/
theorem guide_parse (n : Nat) (lib : Crate (Host β)) (rc : Rustc) (cb : EVal → M β) : (match example? 1 with
    | some ts => plainCrate (n + 40) lib rc false cb ts
    | none => none) = some ⟨lib, rc, false, "Container", "Item", Guide.defs, Guide.fns (discriminantTy lib), cb⟩ := by
  kernel_rfl

theorem guide_tokens : ∃ ts, example? 1 = some ts := by
  cases h : example? 1 with
  | some ts => exact ⟨ts, rfl⟩
  | none =>
    have := guide_parse (β := Unit) 0 (src (env60 true) ⟨⟨fun _ => M.panic .nullAlloc, fun _ => M.panic .noVariant, fun _ _ => pure none⟩, fun e => pure e, fun _ _ => pure true,
      fun _ _ => pure none, fun _ _ => pure .eq, fun _ _ => pure ([], true), fun _ _ => pure ([], true), fun _ => pure ()⟩) rcDemo (fun _ => pure ())
    rw [h] at this
    cases this

theorem guide_eq (h : env.OK) (hg : IsGuide env rc user cb g) : g = ⟨src env user, rc, false, "Container", "Item", Guide.defs, Guide.fns (Guide.dTy env), cb⟩ := by
  haveI : InTable env := ⟨h.cfg_mem⟩
  obtain ⟨ts, cr, ht, hc, depth, hn⟩ := hg
  have h1 := guide_parse depth cr rc cb
  rw [ht] at h1
  simp only at h1
  rw [hn (depth + 40) (by omega)] at h1
  rw [sourceCrate_eq] at hc
  cases hc
  cases h1
  rw [Guide.discriminantTy_src]

/-- **C87**, the program. In each of the sixteen settings, with any compiler, the code in the guide parses, and so is a program: exactly one. -/
theorem C87_program (h : env.OK) (rc : Rustc) (user : User (Host β)) (cb : EVal → M β) :
    ∃ g, IsGuide env rc user cb g ∧ g.defs = itemDecl ∧ ∀ g', IsGuide env rc user cb g' → g' = g := by
  haveI : InTable env := ⟨h.cfg_mem⟩
  obtain ⟨ts, ht⟩ := guide_tokens
  refine ⟨_, ⟨ts, _, ht, sourceCrate_eq env user, 40, fun n hn => ?_⟩, rfl, fun g' hg => guide_eq h hg⟩
  have h1 := guide_parse (n - 40) (src env user) rc cb
  rw [ht, show n - 40 + 40 = n by omega, Guide.discriminantTy_src] at h1
  exact h1

/-- The invocation in block 0 of the guide. -/
theorem C87_invocation : (example? 0).bind macroInput = some (invocation [] [] "Container" [] "Item" itemToks) := by
  kernel_rfl

theorem guide_zero (_ : env.OK) : (docInteger env).toNat = 0 := by
  rw [docInteger, BitVec.toNat_ofNat, Nat.zero_mod]

theorem guide_one (h : env.OK) : (docBoolean env).toNat = 1 := by
  have key : ∀ c ∈ table, 1 < 2 ^ c.discrBits := by decide
  rw [docBoolean, BitVec.toNat_ofNat, Nat.mod_eq_of_lt (key _ h.cfg_mem)]

theorem guide_ne (h : env.OK) : (docBoolean env == docInteger env) = false := by
  rw [beq_eq_false_iff_ne]
  intro he
  have := guide_one h
  rw [he, guide_zero h] at this
  cases this

/-- A discriminant `Discriminant` can hold in all settings. -/
theorem guide_fits (h : env.OK) {v t : String} {d : env.cfg.Discr} (hv : Guide.Variant env v t d) : env.DiscrOK d := by
  have key : ∀ c ∈ table, 1 ≤ c.maxDiscr := by decide
  show _ ≤ _
  rw [h.sane.le_maxDiscr_iff]
  cases hv with
  | integer => rw [guide_zero h]; exact Nat.zero_le _
  | boolean => rw [guide_one h]; exact key _ h.cfg_mem

theorem guide_value (h : env.OK) {i : Nat} {e : EVal} (hv : IsValue rc itemDecl i e) :
    ∃ v t d x, Guide.Variant env v t d ∧ d.toNat = i ∧ e = ⟨v, .tuple [x]⟩ ∧ (rc.leaf (.named t)).Has x ∧ (⟨v, .tuple [.named t]⟩ : VariantDef) ∈ itemDecl := by
  obtain ⟨d, hd, h1, h2⟩ := hv
  obtain ⟨v, p⟩ := e
  match i, p with
  | 0, .tuple [x] =>
    cases hd
    cases h1
    exact ⟨_, _, _, x, .integer, guide_zero h, rfl, h2.1, List.mem_cons_self⟩
  | 1, .tuple [x] =>
    cases hd
    cases h1
    exact ⟨_, _, _, x, .boolean, guide_one h, rfl, h2.1, by simp [itemDecl]⟩
  | 0, .unit | 0, .record _ | 0, .tuple [] => cases hd; exact absurd h2 (by simp [HasFields, HasTypes])
  | 0, .tuple (_ :: _ :: _) => cases hd; exact absurd h2 (by simp [HasFields, HasTypes])
  | 1, .unit | 1, .record _ | 1, .tuple [] => cases hd; exact absurd h2 (by simp [HasFields, HasTypes])
  | 1, .tuple (_ :: _ :: _) => cases hd; exact absurd h2 (by simp [HasFields, HasTypes])
  | i + 2, _ => simp [itemDecl] at hd

section
variable (h : env.OK) (hrc : rc.OK) (hsz : ∀ d ∈ itemDecl, ∀ sh, d.fields.shape rc = some sh → sh.size < 2 ^ 64) (hg : IsGuide env rc user cb g)
include h hrc hsz hg

/-- **C87.** In each of the sixteen settings, with any compiler and in any state of the heap: the code in the guide, run from the text of the guide and of the crate,
either puts a value of `Item` into a box from which `from_tagged_box`, and `into_inner` of a container around the box, get exactly this value back, and which
`ref_from_tagged_box` shows to the callback, ending as the callback ends, without anything destroyed (in the state after the conversion and in every later one in which what
was on the heap is unchanged); or panics, because the allocator had no memory, or (debug builds) because the address does not fit. -/
theorem C87 {i : Nat} {e : EVal} (hv : IsValue rc itemDecl i e) (ho : env.debug = true ∨ env.InRange) {s : State} (hi : HeapInv env s) :
    (∃ b s', g.call "TaggableInner" "Item" none "into_tagged_box" (some (enumV e)) [] s = .ret b [] s' ∧ HeapInv env s' ∧ Extends s s' ∧
      ∀ s'', Extends s' s'' →
        g.call "TaggableInner" "Item" none "from_tagged_box" none [b] s'' = .ret (enumV e) [] s'' ∧
        g.call "TaggableContainer" "Container" none "into_inner" (some (containerOf b)) [] s'' = .ret (enumV e) [] s'' ∧
        g.lend b s'' = lent [] (cb e s'')) ∨
    (∃ s', g.call "TaggableInner" "Item" none "into_tagged_box" (some (enumV e)) [] s = .panic assertFailed [] s' ∧ HeapInv env s' ∧ s'.blocks = s.blocks ∧
      ∃ size align, env.alloc s size align = 0) ∨
    (∃ s', g.call "TaggableInner" "Item" none "into_tagged_box" (some (enumV e)) [] s = .panic (tooWide env.cfg) [] s' ∧ HeapInv env s' ∧ Extends s s' ∧ env.debug = true ∧
      ∃ size align, 2 ^ env.cfg.ptrWidth ≤ env.alloc s size align) := by
  haveI : InTable env := ⟨h.cfg_mem⟩
  cases guide_eq h hg
  obtain ⟨v, t, d, x, hvar, _, rfl, hx, hmem⟩ := guide_value h hv
  have hsh : (Fields.tuple [.named t]).shape rc = some (rc.leaf (.named t)).shape := rfl
  have hf : HasFields rc (.tuple [.named t]) (.tuple [x]) := ⟨hx, trivial⟩
  have hcall : GCrate.call ⟨src env user, rc, false, "Container", "Item", Guide.defs, Guide.fns (Guide.dTy env), cb⟩ "TaggableInner" "Item" none "into_tagged_box"
      (some (enumV ⟨v, .tuple [x]⟩)) [] s = XOut.of boxV (panicMsg d) [] (docInto env rc ⟨v, .tuple [x]⟩ s) :=
    Guide.intoBox_run env user rc cb hvar (hsz _ hmem _ hsh) 36 x [] s
  have hdoc : docInto env rc ⟨v, .tuple [x]⟩ s = TBox.new env (rc.leaf (.named t)).shape [x] d s := by cases hvar <;> rfl
  rw [hcall, hdoc]
  have hok := guide_fits h hvar
  rcases new_spec h hi (shape_wf hrc hsh) (shape_has hf hsh) d with ⟨b, s', e1, h1, h2, h3, _⟩ | ⟨h1, h2, e1⟩ | ⟨h1, h2, h3, k, e1, h4⟩
  · left
    refine ⟨boxV b, s', by rw [show TBox.new env _ [x] d s = _ from e1]; rfl, h1, h2, fun s'' hx' => ?_⟩
    have hh := (h3 (hok.fits h) ho).mono (shape_wf hrc hsh) hx'
    have hr : docRead env rc b s'' = .ret ⟨v, .tuple [x]⟩ s'' := by
      have hrm : Guide.readM env rc b v t s'' = .ret ⟨v, .tuple [x]⟩ s'' := by
        rw [Guide.readM, m_bind, intoInner_of hh]
        rfl
      rw [Guide.docRead_eq, hh.discr]
      cases hvar with
      | integer => simp only [BEq.rfl, if_true, hrm]
      | boolean => simp only [guide_ne h, Bool.false_eq_true, BEq.rfl, if_false, if_true, hrm]
    refine ⟨?_, ?_, ?_⟩
    · refine (Guide.fromBox_run env user rc cb 34 b [] s'').trans ?_
      rw [hr]; rfl
    · refine (Guide.intoInner_run env user rc cb 34 b [] s'').trans ?_
      rw [hr]; rfl
    · refine (Guide.lend_run env user rc cb b s'').trans ?_
      have hrr : docRef env rc b cb s'' = (do
          let r ← cb ⟨v, .tuple [x]⟩
          pure (some r) : M (Option β)) s'' := by
        have hp : ptrRead (rc.leaf (.named t)).shape (b.asPtr env) s'' = .ret [x] s'' := hh.read
        rw [docRef, hh.discr]
        cases hvar with
        | integer =>
          simp only [BEq.rfl, if_true, m_bind, hp]
          rfl
        | boolean =>
          simp only [guide_ne h, Bool.false_eq_true, BEq.rfl, if_false, if_true, m_bind, hp]
          rfl
      have hor : b.discriminant env = docInteger env ∨ b.discriminant env = docBoolean env := by
        rw [hh.discr]
        cases hvar
        · exact .inl rfl
        · exact .inr rfl
      rw [hrr, m_bind]
      simp only [hor, if_true]
      cases cb ⟨v, .tuple [x]⟩ s'' with
      | ret r s2 => simp only [m_pure, lent, log_nil]
      | panic k s2 => simp only [lent, log_nil]
      | ub k => rfl
  · right; left
    refine ⟨_, by rw [show TBox.new env _ [x] d s = _ from e1]; rfl, (hi.log _).log _, rfl, _, _, h2⟩
  · right; right
    rcases h4 with ⟨_, h5⟩ | ⟨rfl, _, h5⟩
    · exact absurd hok h5
    · exact ⟨_, by rw [show TBox.new env _ [x] d s = _ from e1]; rfl, boxedState_inv h hi (by omega) h3,
        boxedState_extends h (shape_wf hrc hsh) (shape_has hf hsh) (by omega) h3, h2, _, _, Nat.not_lt.1 h5⟩

omit hrc hsz in
/-- **C87**, other discriminants. Given a box whose discriminant no variant has, the readers in the guide panic in the state they were called in, without calling the
callback. -/
theorem C87_unknown (b : TBox) (hb : 2 ≤ (b.discriminant env).toNat) (s : State) :
    g.call "TaggableContainer" "Container" none "into_inner" (some (contV b)) [] s = .panic explicitPanic [] s ∧
    g.call "TaggableInner" "Item" none "from_tagged_box" none [boxV b] s = .panic explicitPanic [] s ∧
    g.lend (boxV b) s = .panic explicitPanic [] s := by
  haveI : InTable env := ⟨h.cfg_mem⟩
  cases guide_eq h hg
  have h0 : b.discriminant env ≠ docInteger env := fun he => by rw [he, guide_zero h] at hb; omega
  have h1 : b.discriminant env ≠ docBoolean env := fun he => by rw [he, guide_one h] at hb; omega
  have g0 : (b.discriminant env == docInteger env) = false := beq_eq_false_iff_ne.2 h0
  have g1 : (b.discriminant env == docBoolean env) = false := beq_eq_false_iff_ne.2 h1
  have hr : docRead env rc b s = .panic .noVariant s := by
    rw [Guide.docRead_eq, g0, g1]
    rfl
  refine ⟨?_, ?_, ?_⟩
  · refine (Guide.intoInner_run env user rc cb 34 b [] s).trans ?_
    rw [hr]; rfl
  · refine (Guide.fromBox_run env user rc cb 34 b [] s).trans ?_
    rw [hr]; rfl
  · refine (Guide.lend_run env user rc cb b s).trans ?_
    rw [docRef, g0, g1]
    simp only [Bool.false_eq_true, if_false, m_panic, h0, h1, or_self]
    rfl

end

/-- **C87**, "this code will be generated". Where the invocation shown in the guide compiles (that is, for the settings with `u8` discriminants), the functions in the guide do
exactly what the functions do that `tagged_box!` generates from that invocation: with the same arguments, in the same state, the result and the state after it are the
same. Only the messages of panics differ. -/
theorem C87_generated (hdecl : Declared env rc "Container" "Item" false itemToks itemDecl) (hg : IsGuide env rc user cb g) {g' : GCrate β}
    (hg' : IsProgram env rc user [] [] "Container" [] "Item" false itemToks cb g') :
    (∀ i e s, IsValue rc itemDecl i e →
      g.call "TaggableInner" "Item" none "into_tagged_box" (some (enumV e)) [] s = g'.call "TaggableInner" "Item" none "into_tagged_box" (some (enumV e)) [] s) ∧
    (∀ b s, SameButMessage (g.call "TaggableContainer" "Container" none "into_inner" (some (contV b)) [] s)
      (g'.call "TaggableContainer" "Container" none "into_inner" (some (contV b)) [] s)) ∧
    (∀ b s, SameButMessage (g.call "TaggableInner" "Item" none "from_tagged_box" none [boxV b] s) (g'.call "TaggableInner" "Item" none "from_tagged_box" none [boxV b] s)) ∧
    (∀ b s, SameButMessage (g.lend (boxV b) s) (g'.lend (boxV b) s)) := by
  have h := hdecl.target
  haveI : InTable env := ⟨h.cfg_mem⟩
  obtain ⟨_, m2, m3, m4, m5⟩ := C82_model hdecl (by simp) (.inl rfl) (.inl rfl) hg'
  obtain ⟨c1, c2, c3, c4⟩ := C50_manual (env := env) hdecl.compiled
  cases guide_eq h hg
  refine ⟨fun i e s hv => ?_, fun b s => ?_, fun b s => ?_, fun b s => ?_⟩
  · rw [m2 i e s hv]
    obtain ⟨v, t, d, x, hvar, hdi, rfl, hx, hmem⟩ := guide_value h hv
    have hd : asDiscr env (BitVec.ofNat 8 i) = d := by
      rw [docNum hdecl.accepted.u8]
      apply BitVec.eq_of_toNat_eq
      rw [← hdi, BitVec.toNat_ofNat, Nat.mod_eq_of_lt d.isLt]
    rw [hd]
    have hc3 : intoTaggedBox env rc (programOf "Container" "Item" false itemDecl) ⟨v, .tuple [x]⟩ = docInto env rc ⟨v, .tuple [x]⟩ := c3 ⟨v, .tuple [x]⟩
    rw [hc3]
    exact Guide.intoBox_run env user rc cb hvar (hdecl.sizes _ hmem _ rfl) 36 x [] s
  · rw [m3, show containerIntoInner env rc (programOf "Container" "Item" false itemDecl) b = docRead env rc b from c1 b]
    have hx : (GCrate.mk (src env user) rc false "Container" "Item" Guide.defs (Guide.fns (Guide.dTy env)) cb).call "TaggableContainer" "Container" none
        "into_inner" (some (contV b)) [] s = _ := Guide.intoInner_run env user rc cb 34 b [] s
    rw [hx]
    cases docRead env rc b s <;> simp [XOut.of, SameButMessage, enumV]
  · rw [m4, show fromTaggedBox env rc (programOf "Container" "Item" false itemDecl) b = docRead env rc b from c2 b]
    have hx : (GCrate.mk (src env user) rc false "Container" "Item" Guide.defs (Guide.fns (Guide.dTy env)) cb).call "TaggableInner" "Item" none
        "from_tagged_box" none [boxV b] s = _ := Guide.fromBox_run env user rc cb 34 b [] s
    rw [hx]
    cases docRead env rc b s <;> simp [XOut.of, SameButMessage, enumV]
  · rw [m5, show (taggable env rc (programOf "Container" "Item" false itemDecl)).refFrom b cb = docRef env rc b cb from c4 β b cb]
    rw [show GCrate.lend _ _ s = _ from Guide.lend_run env user rc cb b s]
    cases docRef env rc b cb s <;> simp [SameButMessage]

/-! ## Non-vacuity -/

/-- `Integer(0x04030201)` -/
def guideInt : EVal := ⟨"Integer", .tuple [[some 1#8, some 2#8, some 3#8, some 4#8]]⟩

theorem guideInt_value : IsValue rcWords itemDecl 0 guideInt := ⟨_, rfl, rfl, ⟨rfl, by decide⟩, trivial⟩

theorem guide_sizes : ∀ d ∈ itemDecl, ∀ sh, d.fields.shape rcWords = some sh → sh.size < 2 ^ 64 := by
  intro d hd sh hs
  simp only [itemDecl, List.mem_cons, List.not_mem_nil, or_false] at hd
  rcases hd with rfl | rfl <;> cases hs <;> decide

/-- The hypotheses of `C87` hold in every setting, and the conversion does return; the callback, which returns what it is given, is given the value. -/
example (c : Config) (hc : c ∈ table) (b : Bool) : ∃ g w s', (demoEnv c b reprC).OK ∧ (demoEnv c b reprC).InRange ∧ HeapInv (demoEnv c b reprC) state0 ∧
    IsGuide (demoEnv c b reprC) rcWords userMix (fun e => pure e) g ∧
    g.call "TaggableInner" "Item" none "into_tagged_box" (some (enumV guideInt)) [] state0 = .ret w [] s' ∧
    g.call "TaggableContainer" "Container" none "into_inner" (some (containerOf w)) [] s' = .ret (enumV guideInt) [] s' ∧
    g.lend w s' = .ret (some guideInt) [] s' := by
  have hok : (demoEnv c b reprC).OK := demoEnv_ok hc b (fun ls h => ⟨reprC_wf h, reprC_fields ls⟩)
  have hin : (demoEnv c b reprC).InRange := demoEnv_inRange hc b _
  haveI : InTable (demoEnv c b reprC) := ⟨hc⟩
  obtain ⟨g, hg, _⟩ := C87_program hok rcWords userMix (fun e => pure e)
  have hret : ∃ w t, docInto (demoEnv c b reprC) rcWords guideInt state0 = .ret w t := by
    simp only [table, List.mem_cons, List.not_mem_nil, or_false] at hc
    rcases hc with rfl | rfl | rfl | rfl | rfl | rfl | rfl | rfl | rfl | rfl | rfl | rfl | rfl | rfl | rfl | rfl <;> cases b <;> exact ⟨_, _, rfl⟩
  obtain ⟨w, t, hw⟩ := hret
  have hcall : g.call "TaggableInner" "Item" none "into_tagged_box" (some (enumV guideInt)) [] state0 = .ret (boxV w) [] t := by
    cases guide_eq hok hg
    refine (Guide.intoBox_run (demoEnv c b reprC) userMix rcWords (fun e => pure e) .integer (by decide) 36 _ [] state0).trans ?_
    rw [show (⟨"Integer", .tuple [[some 1#8, some 2#8, some 3#8, some 4#8]]⟩ : EVal) = guideInt from rfl, hw]
    rfl
  rcases C87 (rc := rcWords) hok ⟨rcDemo_ok.leaf_wf, rcDemo_ok.copy_no_drop⟩ guide_sizes hg guideInt_value (.inr hin) (state0_inv _) with ⟨b', s', e1, _, _, e2⟩ | ⟨s', e1, _⟩ | ⟨s', e1, _⟩
  · obtain ⟨_, f2, f3⟩ := e2 s' (Extends.refl _)
    refine ⟨g, b', s', hok, hin, state0_inv _, hg, e1, f2, ?_⟩
    rw [f3]
    simp only [m_pure, lent, log_nil]
  · rw [hcall] at e1; cases e1
  · rw [hcall] at e1; cases e1

/-- The invocation in the guide is a declaration the compiler accepts, in the default setting. -/
theorem guide_declared (b : Bool) : Declared (env60 b) rcWords "Container" "Item" false itemToks itemDecl where
  target := env60_ok b
  rustc := ⟨rcDemo_ok.leaf_wf, rcDemo_ok.copy_no_drop⟩
  keywords := fun x hx => List.contains_iff_mem.2 hx
  tokens := .cons (.tuple (.one ⟨by simp, 0, rfl, rfl⟩)) (.cons (.tuple (.one ⟨by simp, 0, rfl, rfl⟩)) .nil)
  accepted := by
    have hc : Compiled rcWords (env60 b).cfg "Container" "Item" false itemToks itemDecl (programOf "Container" "Item" false itemDecl) :=
      ⟨.cons (.tuple (.one ⟨by simp, 0, rfl, rfl⟩)) (.cons (.tuple (.one ⟨by simp, 0, rfl, rfl⟩)) .nil), by rfl⟩
    exact hc.wf.1
  sizes := guide_sizes

example (b : Bool) : ∃ (user : User (Host EVal)) (g g' : GCrate EVal), IsGuide (env60 b) rcWords user (fun e => pure e) g ∧
    IsProgram (env60 b) rcWords user [] [] "Container" [] "Item" false itemToks (fun e => pure e) g' ∧ g.defs = g'.defs := by
  obtain ⟨g, hg, h1, _⟩ := C87_program (env60_ok b) rcWords { userMix with drop := hostDrop rcWords false itemDecl } (fun e => pure e)
  obtain ⟨g', hg', h2, _⟩ := C82_program (metas := []) (guide_declared b) (by simp) (.inl rfl) (.inl rfl) (fun e => pure e)
    { userMix with drop := hostDrop rcWords false itemDecl } rfl
  exact ⟨_, g, g', hg, hg', h1.trans h2.symm⟩

end TB.Props

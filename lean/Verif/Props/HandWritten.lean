import Verif.Spec.HandWritten
import Verif.Lemmas.HandRun
import Verif.Lemmas.HandTest
import Verif.Props.Guide
import Verif.Props.UserRun

/-!
# The implementation written by hand, run from its text (C92)
-/

set_option autoImplicit false

namespace TB.Props

open TB TB.Macro TB.Mbe TB.Rust TB.Rust.Gen TB.Spec TB.Source TB.Rust.User

variable {β : Type} {env : Env} {rc : Rustc} {user : User (Host β)} {cb : EVal → M β} {g : GCrate β}

/-! ## C92 -/

set_option maxRecDepth 100000 in
/-- What the items are. -/
theorem hand_parse (n : Nat) (lib : Crate (Host β)) (rc : Rustc) (cb : EVal → M β) : (match handTest "tagged_box" boxText with
    | some (ts, _) => handCrate (n + 40) lib rc cb ts
    | none => none) = some ⟨lib, rc, false, "Container", "Value", Hand.defs, Hand.fns (discriminantTy lib), cb⟩ := by
  kernel_rfl

set_option maxRecDepth 100000 in
/-- What the statements are. -/
theorem hand_stmts : (handTest "tagged_box" boxText).map (·.2) = some Hand.stmts := by
  kernel_rfl

theorem hand_tokens : ∃ ts, handTest "tagged_box" boxText = some (ts, Hand.stmts) := by
  have h := hand_stmts
  revert h
  cases handTest "tagged_box" boxText with
  | none => intro h; cases h
  | some p =>
    intro h
    obtain ⟨ts, ss⟩ := p
    cases h
    exact ⟨ts, rfl⟩

theorem hand_eq (h : env.OK) (hg : IsHand env rc user cb g) : g = ⟨src env user, rc, false, "Container", "Value", Hand.defs, Hand.fns (Guide.dTy env), cb⟩ := by
  haveI : InTable env := ⟨h.cfg_mem⟩
  obtain ⟨ts, ss, cr, ht, hc, depth, hn⟩ := hg
  have h1 := hand_parse depth cr rc cb
  rw [ht] at h1
  simp only at h1
  rw [hn (depth + 40) (by omega)] at h1
  rw [sourceCrate_eq] at hc
  cases hc
  cases h1
  rw [Guide.discriminantTy_src]

/-- **C92**, the program. In each of the sixteen settings, with any compiler, the items of the test parse, and so are a program: exactly one. -/
theorem C92_program (h : env.OK) (rc : Rustc) (user : User (Host β)) (cb : EVal → M β) :
    ∃ g, IsHand env rc user cb g ∧ g.defs = valueDecl ∧ ∀ g', IsHand env rc user cb g' → g' = g := by
  haveI : InTable env := ⟨h.cfg_mem⟩
  obtain ⟨ts, ht⟩ := hand_tokens
  refine ⟨_, ⟨ts, _, _, ht, sourceCrate_eq env user, 40, fun n hn => ?_⟩, rfl, fun g' hg => hand_eq h hg⟩
  have h1 := hand_parse (n - 40) (src env user) rc cb
  rw [ht, show n - 40 + 40 = n by omega, Guide.discriminantTy_src] at h1
  exact h1

/-- A discriminant `Discriminant` can hold in all settings. -/
theorem hand_fits (h : env.OK) {k v t : String} {d : env.cfg.Discr} (hv : Hand.Variant env k v t d) : env.DiscrOK d := by
  cases hv with
  | int => exact guide_fits h .integer
  | bool => exact guide_fits h .boolean

theorem hand_value (h : env.OK) {i : Nat} {e : EVal} (hv : IsValue rc valueDecl i e) :
    ∃ k v t d x, Hand.Variant env k v t d ∧ d.toNat = i ∧ e = ⟨v, .tuple [x]⟩ ∧ (rc.leaf (.named t)).Has x ∧ (⟨v, .tuple [.named t]⟩ : VariantDef) ∈ valueDecl := by
  obtain ⟨d, hd, h1, h2⟩ := hv
  obtain ⟨v, p⟩ := e
  match i, p with
  | 0, .tuple [x] =>
    cases hd
    cases h1
    exact ⟨_, _, _, _, x, .int, guide_zero h, rfl, h2.1, List.mem_cons_self⟩
  | 1, .tuple [x] =>
    cases hd
    cases h1
    exact ⟨_, _, _, _, x, .bool, guide_one h, rfl, h2.1, by simp [valueDecl]⟩
  | 0, .unit | 0, .record _ | 0, .tuple [] => cases hd; exact absurd h2 (by simp [HasFields, HasTypes])
  | 0, .tuple (_ :: _ :: _) => cases hd; exact absurd h2 (by simp [HasFields, HasTypes])
  | 1, .unit | 1, .record _ | 1, .tuple [] => cases hd; exact absurd h2 (by simp [HasFields, HasTypes])
  | 1, .tuple (_ :: _ :: _) => cases hd; exact absurd h2 (by simp [HasFields, HasTypes])
  | i + 2, _ => simp [valueDecl] at hd

section
variable (h : env.OK) {k v t : String} {d : env.cfg.Discr} (hvar : Hand.Variant env k v t d) {b : TBox} {x : Bytes} {s : State}
  (hh : Holds env s b (rc.leaf (.named t)).shape [x] d)
include h hvar hh

theorem handRead_of : Hand.handRead env rc b s = .ret ⟨v, .tuple [x]⟩ s := by
  have hrm : Hand.readM env rc b v t s = .ret ⟨v, .tuple [x]⟩ s := by
    rw [Hand.readM, m_bind, intoInner_of hh]
    rfl
  rw [Hand.handRead, hh.discr]
  cases hvar with
  | int => simp only [BEq.rfl, if_true, hrm]
  | bool => simp only [guide_ne h, Bool.false_eq_true, BEq.rfl, if_false, if_true, hrm]

theorem handRef_of {γ : Type} (f : EVal → M γ) : Hand.handRef env rc b f s = (do
    let r ← f ⟨v, .tuple [x]⟩
    pure (some r) : M (Option γ)) s := by
  have hp : ptrRead (rc.leaf (.named t)).shape (b.asPtr env) s = .ret [x] s := hh.read
  rw [Hand.handRef, hh.discr]
  cases hvar with
  | int =>
    simp only [BEq.rfl, if_true, m_bind, hp]
    rfl
  | bool =>
    simp only [guide_ne h, Bool.false_eq_true, BEq.rfl, if_false, if_true, m_bind, hp]
    rfl

theorem hand_or : b.discriminant env = docInteger env ∨ b.discriminant env = docBoolean env := by
  rw [hh.discr]
  cases hvar
  · exact .inl rfl
  · exact .inr rfl

end

section
variable (h : env.OK) (hrc : rc.OK) (hsz : ∀ d ∈ valueDecl, ∀ sh, d.fields.shape rc = some sh → sh.size < 2 ^ 64) (hg : IsHand env rc user cb g)
include h hrc hsz hg

/-- **C92.** In each of the sixteen settings, with any compiler and in any state of the heap: the functions that the test implements by hand, run from the text of the test and of the
crate, either put a value of `Value` into a box from which `from_tagged_box`, and `into_inner` of a container around the box, get exactly this value back, and which
`ref_from_tagged_box` shows to the callback, ending as the callback ends, without anything destroyed (in the state after the conversion and in every later one in which what
was on the heap is unchanged); or panic, because the allocator had no memory, or (debug builds) because the address does not fit. -/
theorem C92 {i : Nat} {e : EVal} (hv : IsValue rc valueDecl i e) (ho : env.debug = true ∨ env.InRange) {s : State} (hi : HeapInv env s) :
    (∃ b s', g.call "TaggableInner" "Value" none "into_tagged_box" (some (enumV e)) [] s = .ret b [] s' ∧ HeapInv env s' ∧ Extends s s' ∧
      ∀ s'', Extends s' s'' →
        g.call "TaggableInner" "Value" none "from_tagged_box" none [b] s'' = .ret (enumV e) [] s'' ∧
        g.call "TaggableContainer" "Container" none "into_inner" (some (holderOf b)) [] s'' = .ret (enumV e) [] s'' ∧
        g.lend b s'' = lent [] (cb e s'')) ∨
    (∃ s', g.call "TaggableInner" "Value" none "into_tagged_box" (some (enumV e)) [] s = .panic assertFailed [] s' ∧ HeapInv env s' ∧ s'.blocks = s.blocks ∧
      ∃ size align, env.alloc s size align = 0) ∨
    (∃ s', g.call "TaggableInner" "Value" none "into_tagged_box" (some (enumV e)) [] s = .panic (tooWide env.cfg) [] s' ∧ HeapInv env s' ∧ Extends s s' ∧ env.debug = true ∧
      ∃ size align, 2 ^ env.cfg.ptrWidth ≤ env.alloc s size align) := by
  haveI : InTable env := ⟨h.cfg_mem⟩
  cases hand_eq h hg
  obtain ⟨k, v, t, d, x, hvar, _, rfl, hx, hmem⟩ := hand_value h hv
  have hsh : (Fields.tuple [.named t]).shape rc = some (rc.leaf (.named t)).shape := rfl
  have hf : HasFields rc (.tuple [.named t]) (.tuple [x]) := ⟨hx, trivial⟩
  have hcall : GCrate.call ⟨src env user, rc, false, "Container", "Value", Hand.defs, Hand.fns (Guide.dTy env), cb⟩ "TaggableInner" "Value" none "into_tagged_box"
      (some (enumV ⟨v, .tuple [x]⟩)) [] s = XOut.of boxV (panicMsg d) [] (TBox.new env (rc.leaf (.named t)).shape [x] d s) :=
    Hand.intoBox_run env user rc cb hvar (hsz _ hmem _ hsh) 36 x [] s
  rw [hcall]
  have hok := hand_fits h hvar
  rcases new_spec h hi (shape_wf hrc hsh) (shape_has hf hsh) d with ⟨b, s', e1, h1, h2, h3, _⟩ | ⟨h1, h2, e1⟩ | ⟨h1, h2, h3, k, e1, h4⟩
  · left
    refine ⟨boxV b, s', by rw [show TBox.new env _ [x] d s = _ from e1]; rfl, h1, h2, fun s'' hx' => ?_⟩
    have hh := (h3 (hok.fits h) ho).mono (shape_wf hrc hsh) hx'
    have hr := handRead_of h hvar hh
    refine ⟨?_, ?_, ?_⟩
    · refine (Hand.fromBox_run env user rc cb 34 b [] s'').trans ?_
      rw [hr]; rfl
    · refine (Hand.intoInner_run env user rc cb 34 b [] s'').trans ?_
      rw [hr]; rfl
    · refine (Hand.lend_run env user rc cb b s'').trans ?_
      rw [handRef_of h hvar hh, m_bind]
      simp only [hand_or h hvar hh, if_true]
      cases cb ⟨v, .tuple [x]⟩ s'' with
      | ret r s2 => simp only [m_pure, lent, log_nil]
      | panic k s2 => simp only [lent, log_nil]
      | ub k => rfl
  · right; left
    refine ⟨_, by rw [show TBox.new env _ [x] d s = _ from e1]; rfl, (hi.log _).log _, rfl, _, _, h2⟩
  · right; right
    rcases h4 with ⟨_, h5⟩ | ⟨rfl, _, h5⟩
    · exact absurd hok h5
    · exact ⟨_, by rw [show TBox.new env _ [x] d s = _ from e1]; rfl, boxedState_inv h hi (by omega) h3,
        boxedState_extends h (shape_wf hrc hsh) (shape_has hf hsh) (by omega) h3, h2, _, _, Nat.not_lt.1 h5⟩

omit hrc hsz in
/-- **C92**, other discriminants. Given a box whose discriminant no variant has, the readers panic as `unreachable!()` does, in the state they were called in, without calling the callback. -/
theorem C92_unknown (b : TBox) (hb : 2 ≤ (b.discriminant env).toNat) (s : State) :
    g.call "TaggableContainer" "Container" none "into_inner" (some (holderOf (boxV b))) [] s = .panic unreachablePanic [] s ∧
    g.call "TaggableInner" "Value" none "from_tagged_box" none [boxV b] s = .panic unreachablePanic [] s ∧
    g.lend (boxV b) s = .panic unreachablePanic [] s := by
  haveI : InTable env := ⟨h.cfg_mem⟩
  cases hand_eq h hg
  have h0 : b.discriminant env ≠ docInteger env := fun he => by rw [he, guide_zero h] at hb; omega
  have h1 : b.discriminant env ≠ docBoolean env := fun he => by rw [he, guide_one h] at hb; omega
  have g0 : (b.discriminant env == docInteger env) = false := beq_eq_false_iff_ne.2 h0
  have g1 : (b.discriminant env == docBoolean env) = false := beq_eq_false_iff_ne.2 h1
  have hr : Hand.handRead env rc b s = .panic .noVariant s := by
    rw [Hand.handRead, g0, g1]
    rfl
  refine ⟨?_, ?_, ?_⟩
  · refine (Hand.intoInner_run env user rc cb 34 b [] s).trans ?_
    rw [hr]; rfl
  · refine (Hand.fromBox_run env user rc cb 34 b [] s).trans ?_
    rw [hr]; rfl
  · refine (Hand.lend_run env user rc cb b s).trans ?_
    rw [Hand.handRef, g0, g1]
    simp only [Bool.false_eq_true, if_false, m_panic, h0, h1, or_self]
    rfl

end

/-! ## The test -/

section
variable {users : ∀ β : Type, User (Host β)} {G : Programs} (h : env.OK) (hrc : rc.OK) (hr : env.InRange)
  (hsz : ∀ d ∈ valueDecl, ∀ sh, d.fields.shape rc = some sh → sh.size < 2 ^ 64)
  (hG : ∀ (β : Type) (f : EVal → M β), IsHand env rc (users β) f (G β f)) (u : User EVal)
include h hG

theorem hand_linked_ref {γ : Type} (b : TBox) (f : EVal → M γ) (s : State) : (linked G "Value").refFrom b f s =
    if b.discriminant env = docInteger env ∨ b.discriminant env = docBoolean env then Hand.handRef env rc b f s else .ub .badValue := by
  haveI : InTable env := ⟨h.cfg_mem⟩
  show outcome some ((G _ f).lend (boxV b) s) = _
  rw [hand_eq h (hG γ f), Hand.lend_run]
  by_cases hd : b.discriminant env = docInteger env ∨ b.discriminant env = docBoolean env
  · simp only [hd, if_true]
    cases Hand.handRef env rc b f s <;> rfl
  · simp only [hd, if_false]
    have h0 := fun e => hd (.inl e)
    have h1 := fun e => hd (.inr e)
    have g0 : (b.discriminant env == docInteger env) = false := beq_eq_false_iff_ne.2 h0
    have g1 : (b.discriminant env == docBoolean env) = false := beq_eq_false_iff_ne.2 h1
    rw [Hand.handRef, g0, g1]
    simp only [Bool.false_eq_true, if_false, m_panic]
    have hk : kindOf (Hand.unreachableMsg (β := γ)) = none := by simp [kindOf, Hand.unreachableMsg]
    simp only [outcome, hk]

theorem hand_natural : Natural (linked G "Value") := by
  intro γ δ f b a s
  rw [hand_linked_ref h hG, m_bind, hand_linked_ref h hG]
  split
  · simp only [Hand.handRef]
    split
    · simp only [m_bind]
      cases ptrRead (rc.leaf (.named "i32")).shape (b.asPtr env) s with
      | ret vs s1 =>
        simp only []
        cases a ⟨"I32", .tuple [vs[0]?.getD []]⟩ s1 <;> rfl
      | panic k s1 => rfl
      | ub k => rfl
    · split
      · simp only [m_bind]
        cases ptrRead (rc.leaf (.named "bool")).shape (b.asPtr env) s with
        | ret vs s1 =>
          simp only []
          cases a ⟨"Bool", .tuple [vs[0]?.getD []]⟩ s1 <;> rfl
        | panic k s1 => rfl
        | ub k => rfl
      · rfl
  · rfl

omit hG in
theorem hand_inCrate {α γ : Type} (user : User EVal) (dec : α → Option γ) (run : Crate EVal → State → XOut EVal α) :
    inCrate env user dec run = fun s => outcome dec (run (src env user) s) := by
  haveI : InTable env := ⟨h.cfg_mem⟩
  funext s
  unfold inCrate
  rw [sourceCrate_eq]

include hrc hr hsz

/-- The state of a test: the box gives its value back. -/
def Boxed (env : Env) (rc : Rustc) (t : String) (d : env.cfg.Discr) (x : Bytes) (b : TBox) (s : State) : Prop :=
  Holds env s b (rc.leaf (.named t)).shape [x] d

variable {k v t : String} {d : env.cfg.Discr} (hvar : Hand.Variant env k v t d) {x : Bytes} (hx : (rc.leaf (.named t)).Has x)
include hvar hx

omit hG in
theorem hand_new {s : State} (hi : HeapInv env s) {n : Nat} (hd : d = BitVec.ofNat env.cfg.discrBits n) :
    (∃ b s1, (handOps env rc u G).new (.named t) x n s = .ret b s1 ∧ HeapInv env s1 ∧ Extends s s1 ∧ Boxed env rc t d x b s1) ∨
    ∃ k s1, (handOps env rc u G).new (.named t) x n s = .panic k s1 ∧ NullBetween s s1 := by
  haveI : InTable env := ⟨h.cfg_mem⟩
  have hmem : (⟨v, .tuple [.named t]⟩ : VariantDef) ∈ valueDecl := by cases hvar <;> simp [valueDecl]
  have hsh : (Fields.tuple [.named t]).shape rc = some (rc.leaf (.named t)).shape := rfl
  have hf : HasFields rc (.tuple [.named t]) (.tuple [x]) := ⟨hx, trivial⟩
  have hnew : (handOps env rc u G).new (.named t) x n s = TBox.new env (rc.leaf (.named t)).shape [x] d s := by
    have e : (src env u).call "TaggedBox" "new" [.opaque (rc.leaf (.named t)).shape] none [.obj (rc.leaf (.named t)).shape [x], dV d] .unknown s =
        XOut.of boxV (panicMsg d) [] (TBox.new env (rc.leaf (.named t)).shape [x] d s) := Rust.b_new env u 120 _ (hsz _ hmem _ hsh) _ _ .unknown [] s
    simp only [handOps, hand_inCrate h, ← hd, e]
    exact outcome_of boxV toBox (fun _ => rfl) (panicMsg d) _ (fun k _ _ => kindOf_panicMsg _ k) []
  rw [hnew]
  have hok := hand_fits h hvar
  rcases new_spec h hi (shape_wf hrc hsh) (shape_has hf hsh) d with ⟨b, s', e1, h1, h2, h3, _⟩ | ⟨h1, h2, e1⟩ | ⟨h1, h2, h3, k, e1, h4⟩
  · exact .inl ⟨b, s', e1, h1, h2, h3 (hok.fits h) (.inr hr)⟩
  · exact .inr ⟨_, _, e1, _, _, by simp [State.log]; exact .inl ⟨rfl, rfl⟩⟩
  · rcases h4 with ⟨_, h5⟩ | ⟨rfl, _, h5⟩
    · exact absurd hok h5
    · exact absurd (hr _ _ _) h5

section
variable {b : TBox} {s : State} (hh : Boxed env rc t d x b s)
include hh

omit hrc hr hsz hvar hx hG in
theorem hand_discr : (handOps env rc u G).discr b s = .ret d.toNat s := by
  haveI : InTable env := ⟨h.cfg_mem⟩
  have e : (src env u).call "TaggedBox" "discriminant" [] (some (boxV b)) [] .unknown s = .ret (dV (b.discriminant env)) [] s := Rust.b_discriminant env u 140 b .unknown [] s
  simp only [handOps, hand_inCrate h, e, hh.discr, outcome, toNumber, dV]
  have h1 : d.toNat < 2 ^ env.cfg.discrBits := d.isLt
  have h2 : (2:Nat) ^ env.cfg.discrBits ≤ 2 ^ 16 := Nat.pow_le_pow_right (by decide) h.sane.discr_le
  rw [BitVec.toNat_setWidth, Nat.mod_eq_of_lt (by omega)]

omit hrc hr hsz hvar hx hG in
theorem hand_look : (handOps env rc u G).look (.named t) b s = .ret x s := by
  haveI : InTable env := ⟨h.cfg_mem⟩
  have hp : ptrRead (rc.leaf (.named t)).shape (b.asPtr env) s = .ret [x] s := hh.read
  have ha : b.asRef env (rc.leaf (.named t)).shape s = .ret [x] s := hh.read
  have e : (src env u).call "TaggedBox" "as_ref" [.opaque (rc.leaf (.named t)).shape] (some (boxV b)) [] .unknown s =
      XOut.of (fun _ => .ref (.opaque (rc.leaf (.named t)).shape) (b.asPtr env)) .kind [] (b.asRef env (rc.leaf (.named t)).shape s) :=
    Rust.b_asRef env u 140 b _ .unknown [] s
  rw [ha] at e
  have e' : inCrate env u toAddress (fun cr => cr.call "TaggedBox" "as_ref" [.opaque (rc.leaf (.named t)).shape] (some (boxV b)) [] .unknown) s = .ret (b.asPtr env) s := by
    simp only [hand_inCrate h, e]
    rfl
  simp only [handOps, m_bind, e', hp]
  rfl

omit hrc hr hsz hx in
theorem hand_inner : (handOps env rc u G).inner b s = .ret ⟨v, .tuple [x]⟩ s := by
  haveI : InTable env := ⟨h.cfg_mem⟩
  have hp : someProgram G = ⟨src env (users Unit), rc, false, "Container", "Value", Hand.defs, Hand.fns (Guide.dTy env), fun _ => pure ()⟩ := hand_eq h (hG Unit _)
  have e : (GCrate.mk (src env (users Unit)) rc false "Container" "Value" Hand.defs (Hand.fns (Guide.dTy env)) (fun _ => pure ())).call "TaggableContainer" "Container" none
      "into_inner" (some (holderOf (boxV b))) [] s = XOut.of (fun e => .user (.inl e)) (fun _ => Hand.unreachableMsg) [] (Hand.handRead env rc b s) :=
    Hand.intoInner_run env (users Unit) rc (fun _ => pure ()) 34 b [] s
  rw [handRead_of h hvar hh] at e
  simp only [handOps, hp, e]
  rfl

theorem hand_clone (hi : HeapInv env s) :
    (∃ b' s1, (handOps env rc u G).clone b s = .ret b' s1 ∧ HeapInv env s1 ∧ Extends s s1 ∧ Boxed env rc t d x b' s1) ∨
    ∃ k s1, (handOps env rc u G).clone b s = .panic k s1 ∧ NullBetween s s1 := by
  haveI : InTable env := ⟨h.cfg_mem⟩
  have hmem : (⟨v, .tuple [.named t]⟩ : VariantDef) ∈ valueDecl := by cases hvar <;> simp [valueDecl]
  have hsh : (Fields.tuple [.named t]).shape rc = some (rc.leaf (.named t)).shape := rfl
  have hf : HasFields rc (.tuple [.named t]) (.tuple [x]) := ⟨hx, trivial⟩
  have hinto : (linked G "Value").intoTaggedBox ⟨v, .tuple [x]⟩ s = TBox.new env (rc.leaf (.named t)).shape [x] d s := by
    have hp : someProgram G = ⟨src env (users Unit), rc, false, "Container", "Value", Hand.defs, Hand.fns (Guide.dTy env), fun _ => pure ()⟩ := hand_eq h (hG Unit _)
    have e : (GCrate.mk (src env (users Unit)) rc false "Container" "Value" Hand.defs (Hand.fns (Guide.dTy env)) (fun _ => pure ())).call "TaggableInner" "Value" none
        "into_tagged_box" (some (enumV ⟨v, .tuple [x]⟩)) [] s = XOut.of boxV (panicMsg d) [] (TBox.new env (rc.leaf (.named t)).shape [x] d s) :=
      Hand.intoBox_run env (users Unit) rc (fun _ => pure ()) hvar (hsz _ hmem _ hsh) 36 x [] s
    simp only [linked, hp, e]
    exact outcome_of boxV toBox (fun _ => rfl) (panicMsg d) _ (fun k _ _ => kindOf_panicMsg _ k) []
  have hcl : (handOps env rc u G).clone b s = TBox.new env (rc.leaf (.named t)).shape [x] d s := by
    have ht : ∀ w : User EVal, Natural w.taggable → (src env w).callTrait "Clone" "TaggedBox" "clone" (some (boxV b)) [] .unknown s =
        match w.taggable.refFrom b w.clone s with
        | .ret (some e) s' => XOut.of boxV .kind [] (w.taggable.intoTaggedBox e s')
        | .ret none s' => .panic notFetched [] s'
        | .panic k s' => .panic (.kind k) [] s'
        | .ub k => .ub k := by
      intro w hw
      refine (Rust.t_clone env w hw 140 b .unknown [] s).trans ?_
      cases w.taggable.refFrom b w.clone s with
      | ret r s' => cases r <;> rfl
      | panic k s' => rfl
      | ub k => rfl
    simp only [handOps, hand_inCrate h]
    rw [ht _ (hand_natural h hG)]
    simp only [hand_linked_ref h hG, hand_or h hvar hh, if_true, handRef_of h hvar hh, m_bind, m_pure, hinto]
    exact outcome_of boxV toBox (fun _ => rfl) .kind _ (fun k _ _ => rfl) []
  rw [hcl]
  have hok := hand_fits h hvar
  rcases new_spec h hi (shape_wf hrc hsh) (shape_has hf hsh) d with ⟨b, s', e1, h1, h2, h3, _⟩ | ⟨h1, h2, e1⟩ | ⟨h1, h2, h3, k, e1, h4⟩
  · exact .inl ⟨b, s', e1, h1, h2, h3 (hok.fits h) (.inr hr)⟩
  · exact .inr ⟨_, _, e1, _, _, by simp [State.log]; exact .inl ⟨rfl, rfl⟩⟩
  · rcases h4 with ⟨_, h5⟩ | ⟨rfl, _, h5⟩
    · exact absurd hok h5
    · exact absurd (hr _ _ _) h5

end

end

section
variable {users : ∀ β : Type, User (Host β)} {G : Programs} {L : Lits} {s : State}

theorem runHandTest_eq (u : User EVal) : runHandTest env rc u G L s = hstmts L valueDecl (handOps env rc u G) "Container" "tagged" "Value" [] Hand.stmts s := by
  obtain ⟨ts, ht⟩ := hand_tokens
  unfold runHandTest
  rw [ht]

/-- **C92**, the test. In each of the sixteen settings, with any compiler and in any state of the heap: the statements of the test `tagged_box`, run from the text with the functions
that the test implements by hand and with the crate, all run from their text, finish, with every assertion true, unless an allocation fails. -/
theorem C92_test (h : env.OK) (hrc : rc.OK) (hr : env.InRange) (hsz : ∀ d ∈ valueDecl, ∀ sh, d.fields.shape rc = some sh → sh.size < 2 ^ 64)
    (hG : ∀ (β : Type) (f : EVal → M β), IsHand env rc (users β) f (G β f)) (u : User EVal) (hL : LitsOK rc L) (hU : Usual L) (hi : HeapInv env s) :
    (∃ s', runHandTest env rc u G L s = .ret () s') ∨ ∃ k s', runHandTest env rc u G L s = .panic k s' ∧ NullBetween s s' := by
  obtain ⟨ri, hri⟩ := hU.i32
  obtain ⟨rb, hrb⟩ := hU.bool
  obtain ⟨a1, a2, a3⟩ := hri 110 (by decide)
  have a4 : L.eq (.named "i32") (ri 110) (ri 110) = true := by rw [(a3 110 (by decide)).1]; rfl
  obtain ⟨a5, a6⟩ := hrb true
  have x1 := hL _ _ _ a1
  have x2 := hL _ _ _ a5
  rw [runHandTest_eq]
  have z0 := guide_zero h
  have z1 := guide_one h
  have w1 : (rc.leaf (.named "i32")).shape.WF := shape_wf hrc (show (Fields.tuple [.named "i32"]).shape rc = some _ from rfl)
  have w2 : (rc.leaf (.named "bool")).shape.WF := shape_wf hrc (show (Fields.tuple [.named "bool"]).shape rc = some _ from rfl)
  rcases hand_new h hrc hr hsz u (G := G) .int x1 hi (n := 0) rfl with ⟨b1, s1, e1, i1, y1, g1⟩ | ⟨k, s1, e1, n1⟩
  case inr => exact .inr ⟨k, s1, Hand.test_fail1 a1 e1, n1⟩
  rcases hand_new h hrc hr hsz u (G := G) .bool x2 i1 (n := 1) rfl with ⟨b2, s2, e2, i2, y2, g2⟩ | ⟨k, s2, e2, n2⟩
  case inr => exact .inr ⟨k, s2, Hand.test_fail2 a1 a5 e1 e2, null_mono y1 n2⟩
  have g1 : Boxed env rc "i32" (docInteger env) (ri 110) b1 s2 := g1.mono w1 y2
  have d1 := hand_discr h u (G := G) g1
  have d2 := hand_discr h u (G := G) g2
  rw [z0] at d1
  rw [z1] at d2
  have l1 := hand_look h u (G := G) g1
  have l2 := hand_look h u (G := G) g2
  rcases hand_clone h hrc hr hsz hG u .int x1 g1 i2 with ⟨b3, s3, c1, i3, y3, g3⟩ | ⟨k, s3, c1, n3⟩
  case inr => exact .inr ⟨k, s3, Hand.test_fail3 a1 a2 a4 a5 a6 e1 e2 d1 d2 l1 l2 c1, null_mono (y1.trans y2) n3⟩
  have j3 := hand_inner h hG u .int g3
  rcases hand_clone h hrc hr hsz hG u .bool x2 (g2.mono w2 y3) i3 with ⟨b4, s4, c2, i4, y4, g4⟩ | ⟨k, s4, c2, n4⟩
  case inr => exact .inr ⟨k, s4, Hand.test_fail4 a1 a2 a4 a5 a6 e1 e2 d1 d2 l1 l2 c1 j3 c2, null_mono ((y1.trans y2).trans y3) n4⟩
  have j4 := hand_inner h hG u .bool g4
  have j1 := hand_inner h hG u .int (g1.mono w1 (y3.trans y4))
  have j2 := hand_inner h hG u .bool (g2.mono w2 (y3.trans y4))
  exact .inl ⟨s4, Hand.test_run a1 a2 a4 a5 a6 e1 e2 d1 d2 l1 l2 c1 j3 c2 j4 j1 j2⟩

/-- **C92**, assertions that fail. For all numbers `a` and `b` of the type `i32` that are not negative: with a container made from `a`, exactly those assertions pass that compare with an equal
value, for `into_inner`, for `as_ref` and for `discriminant` (0). So a test of this form that expects the wrong value fails. -/
theorem C92_assert (h : env.OK) (hrc : rc.OK) (hr : env.InRange) (hsz : ∀ d ∈ valueDecl, ∀ sh, d.fields.shape rc = some sh → sh.size < 2 ^ 64)
    (hG : ∀ (β : Type) (f : EVal → M β), IsHand env rc (users β) f (G β f)) (u : User EVal) (hL : LitsOK rc L) (hU : Usual L) (hi : HeapInv env s)
    {a b : String} {n m : Nat} (ha : numLit a = some (n, none)) (hb : numLit b = some (m, none)) (hn : n ≤ 2 ^ 31 - 1) (hm : m ≤ 2 ^ 31 - 1) :
    PassesIff (runCheck env rc u G L a (.method cE "into_inner" [] []) (.call (.path [("Value", []), ("I32", [])]) [.lit b]) s) s (n = m) ∧
    PassesIff (runCheck env rc u G L a (.block [.tail (.method (.field cE "tagged") "as_ref" [.path [("i32", [])]] [])]) (.ref false (.lit b)) s) s (n = m) ∧
    PassesIff (runCheck env rc u G L a (.method (.field cE "tagged") "discriminant" [] []) (.lit b) s) s (0 = m) := by
  obtain ⟨ri, hri⟩ := hU.i32
  obtain ⟨a1, _, a3⟩ := hri n hn
  obtain ⟨b1, _, _⟩ := hri m hm
  have hq := (a3 m hm).1
  have x1 := hL _ _ _ a1
  have z0 := guide_zero h
  have done : ∀ {x y : Expr} {p : Prop} [Decidable p], (∀ b s1, HeapInv env s1 → Boxed env rc "i32" (docInteger env) (ri n) b s1 →
      ∃ v w, hev L valueDecl (handOps env rc u G) "Container" "tagged" "Value" [("c", .cont b)] 20 x s1 = .ret v s1 ∧
        hev L valueDecl (handOps env rc u G) "Container" "tagged" "Value" [("c", .cont b)] 20 y s1 = .ret w s1 ∧ heq L valueDecl v w s1 = .ret (decide p) s1) →
      PassesIff (runCheck env rc u G L a x y s) s p := by
    intro x y p _ hv
    rcases hand_new h hrc hr hsz u (G := G) .int x1 hi (n := 0) rfl with ⟨b, s1, e1, i1, y1, g1⟩ | ⟨k, s1, e1, n1⟩
    case inr => exact .inr (.inr ⟨k, s1, Hand.check_panic ha a1 e1, n1⟩)
    obtain ⟨v, w, h1, h2, h3⟩ := hv b s1 i1 g1
    have hrun : runCheck env rc u G L a x y s = _ := Hand.check_run ha a1 e1 h1 h2 h3
    by_cases hp : p
    · exact .inl ⟨hp, s1, by rw [hrun]; simp [hp]⟩
    · exact .inr (.inl ⟨hp, s1, by rw [hrun]; simp [hp]⟩)
  refine ⟨done fun b s1 i1 g1 => ?_, done fun b s1 i1 g1 => ?_, done fun b s1 i1 g1 => ?_⟩
  · refine ⟨_, _, Hand.ev_inner (Hand.var_c b) (hand_inner h hG u .int g1), Hand.ev_intN hb b1, ?_⟩
    rw [show (⟨"I32", .tuple [ri n]⟩ : EVal) = Hand.int110 (ri n) from rfl, Hand.eq_intN, hq]
    rfl
  · refine ⟨_, _, Hand.ev_look (Hand.var_c b) (hand_look h u (G := G) g1), Hand.ev_ref (Hand.ev_lit hb), ?_⟩
    simp only [heq, m_bind, b1, orHStuck, m_pure, hq]
    rfl
  · have d1 := hand_discr h u (G := G) g1
    rw [z0] at d1
    exact ⟨_, _, Hand.ev_discr (Hand.var_c b) d1, Hand.ev_lit hb, rfl⟩

end

/-! ## Non-vacuity -/

/-- `I32(0x04030201)` -/
def handInt : EVal := ⟨"I32", .tuple [[some 1#8, some 2#8, some 3#8, some 4#8]]⟩

theorem handInt_value : IsValue rcWords valueDecl 0 handInt := ⟨_, rfl, rfl, ⟨rfl, by decide⟩, trivial⟩

theorem hand_sizes : ∀ d ∈ valueDecl, ∀ sh, d.fields.shape rcWords = some sh → sh.size < 2 ^ 64 := by
  intro d hd sh hs
  simp only [valueDecl, List.mem_cons, List.not_mem_nil, or_false] at hd
  rcases hd with rfl | rfl <;> cases hs <;> decide

/-- The hypotheses of `C92` hold in every setting, and the conversion does return; the callback, which returns what it is given, is given the value. -/
example (c : Config) (hc : c ∈ table) (b : Bool) : ∃ g w s', (demoEnv c b reprC).OK ∧ (demoEnv c b reprC).InRange ∧ HeapInv (demoEnv c b reprC) state0 ∧
    IsHand (demoEnv c b reprC) rcWords userMix (fun e => pure e) g ∧
    g.call "TaggableInner" "Value" none "into_tagged_box" (some (enumV handInt)) [] state0 = .ret w [] s' ∧
    g.call "TaggableContainer" "Container" none "into_inner" (some (holderOf w)) [] s' = .ret (enumV handInt) [] s' ∧
    g.lend w s' = .ret (some handInt) [] s' := by
  have hok : (demoEnv c b reprC).OK := demoEnv_ok hc b (fun ls h => ⟨reprC_wf h, reprC_fields ls⟩)
  have hin : (demoEnv c b reprC).InRange := demoEnv_inRange hc b _
  haveI : InTable (demoEnv c b reprC) := ⟨hc⟩
  obtain ⟨g, hg, _⟩ := C92_program hok rcWords userMix (fun e => pure e)
  have hret : ∃ w t, TBox.new (demoEnv c b reprC) (rcWords.leaf (.named "i32")).shape [[some 1#8, some 2#8, some 3#8, some 4#8]] (docInteger (demoEnv c b reprC)) state0 = .ret w t := by
    simp only [table, List.mem_cons, List.not_mem_nil, or_false] at hc
    rcases hc with rfl | rfl | rfl | rfl | rfl | rfl | rfl | rfl | rfl | rfl | rfl | rfl | rfl | rfl | rfl | rfl <;> cases b <;> exact ⟨_, _, rfl⟩
  obtain ⟨w, t, hw⟩ := hret
  have hcall : g.call "TaggableInner" "Value" none "into_tagged_box" (some (enumV handInt)) [] state0 = .ret (boxV w) [] t := by
    cases hand_eq hok hg
    refine (Hand.intoBox_run (demoEnv c b reprC) userMix rcWords (fun e => pure e) .int (by decide) 36 _ [] state0).trans ?_
    rw [hw]
    rfl
  rcases C92 (rc := rcWords) hok ⟨rcDemo_ok.leaf_wf, rcDemo_ok.copy_no_drop⟩ hand_sizes hg handInt_value (.inr hin) (state0_inv _) with ⟨b', s', e1, _, _, e2⟩ | ⟨s', e1, _⟩ | ⟨s', e1, _⟩
  · obtain ⟨_, f2, f3⟩ := e2 s' (Extends.refl _)
    refine ⟨g, b', s', hok, hin, state0_inv _, hg, e1, f2, ?_⟩
    rw [f3]
    simp only [m_pure, lent, log_nil]
  · rw [hcall] at e1; cases e1
  · rw [hcall] at e1; cases e1

/-- Literals as in `C92_assert`: two equal numbers and a different one. -/
example : numLit "110" = some (110, none) ∧ numLit "0x6E" = some (110, none) ∧ numLit "111" = some (111, none) := by decide

/-- All hypotheses of `C92_test` (and of `C92_assert`) can be met, in every setting. -/
example (c : Config) (hc : c ∈ table) (b : Bool) (u : User EVal) : ∃ G, (∀ (β : Type) (f : EVal → M β), IsHand (demoEnv c b reprC) rcUser (usersMix β) f (G β f)) ∧
    ((∃ s', runHandTest (demoEnv c b reprC) rcUser u G litsUser state0 = .ret () s') ∨
      ∃ k s', runHandTest (demoEnv c b reprC) rcUser u G litsUser state0 = .panic k s' ∧ NullBetween state0 s') := by
  have hok : (demoEnv c b reprC).OK := demoEnv_ok hc b (fun ls h => ⟨reprC_wf h, reprC_fields ls⟩)
  refine ⟨fun β f => Classical.choose (C92_program hok rcUser (usersMix β) f), fun β f => (Classical.choose_spec (C92_program hok rcUser (usersMix β) f)).1, ?_⟩
  refine C92_test hok rcUser_ok (demoEnv_inRange hc b _) ?_ (fun β f => (Classical.choose_spec (C92_program hok rcUser (usersMix β) f)).1) _ litsUser_ok litsUser_usual (state0_inv _)
  intro d hd sh hs
  simp only [valueDecl, List.mem_cons, List.not_mem_nil, or_false] at hd
  rcases hd with rfl | rfl <;> cases hs <;> decide

end TB.Props

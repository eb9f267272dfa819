import Verif.Spec.BoxTests
import Verif.Lemmas.BoxTests
import Verif.Lemmas.UserRun
import Verif.Props.Examples

/-!
# The tests `new` and `new_zst` of `TaggedBox`, run from their text (C91)
-/

set_option autoImplicit false

namespace TB.Props

open TB TB.Macro TB.Rust TB.Rust.Code TB.Source TB.Spec TB.Rust.User

/-- In a release build, bits of the discriminant that do not fit are lost. -/
theorem store_cut {c : Config} (hc : c ∈ table) (p : BitVec 64) (d : c.Discr) :
    TPtr.storeDiscriminant c p d = TPtr.storeDiscriminant c p (BitVec.ofNat c.discrBits (d.toNat % 2 ^ c.freeBits)) := by
  have s := sane_of_mem hc
  have h1 : d.toNat < 2 ^ c.discrBits := d.isLt
  have h2 : d.toNat % 2 ^ c.freeBits ≤ d.toNat := Nat.mod_le _ _
  have h3 : (2:Nat) ^ c.discrBits ≤ 2 ^ 16 := Nat.pow_le_pow_right (by decide) s.discr_le
  unfold TPtr.storeDiscriminant
  congr 1
  apply BitVec.eq_of_toNat_eq
  simp only [BitVec.toNat_shiftLeft, BitVec.toNat_setWidth, BitVec.toNat_ofNat, Nat.shiftLeft_eq]
  rw [Nat.mod_eq_of_lt (show d.toNat < 2 ^ 64 by omega), Nat.mod_eq_of_lt (show d.toNat % 2 ^ c.freeBits < 2 ^ c.discrBits by omega),
    Nat.mod_eq_of_lt (show d.toNat % 2 ^ c.freeBits < 2 ^ 64 by omega)]
  have h4 : (2:Nat) ^ 64 = 2 ^ c.freeBits * 2 ^ c.POINTER_WIDTH := by rw [Nat.mul_comm]; exact s.pow_mul.symm
  rw [h4, Nat.mul_mod_mul_right, Nat.mul_mod_mul_right, Nat.mod_mod]

section
variable {env : Env} {s : State}

theorem new_cut (ok : env.OK) (hg : env.debug = false) (sh : Shape) (v : TB.Val) (d : env.cfg.Discr) :
    TBox.new env sh v d s = TBox.new env sh v (BitVec.ofNat env.cfg.discrBits (d.toNat % 2 ^ env.cfg.freeBits)) s := by
  have h := fun p => store_cut ok.cfg_mem p d
  simp only [TBox.new, TPtr.new, hg, Bool.false_and, Bool.false_eq_true, if_false, TBox.dangling, TPtr.dangling, ← h]

/-- A box that is made gives its value back as long as it is not changed. -/
theorem new_gives (ok : env.OK) (hr : env.InRange) (hi : HeapInv env s) {sh : Shape} {v : TB.Val} (hw : sh.WF) (hv : sh.Has v) {d : env.cfg.Discr}
    (hd : env.debug = false ∨ d ≤ env.cfg.MAX_DISCRIMINANT) :
    (∃ b s1, TBox.new env sh v d s = .ret b s1 ∧ HeapInv env s1 ∧ Extends s s1 ∧ ∀ s2, Extends s1 s2 → b.intoInner env sh s2 = .ret v s2) ∨
    ∃ k s1, TBox.new env sh v d s = .panic k s1 ∧ NullBetween s s1 := by
  have main : ∀ d : env.cfg.Discr, env.DiscrFits d → (env.debug = false ∨ d ≤ env.cfg.MAX_DISCRIMINANT) →
      (∃ b s1, TBox.new env sh v d s = .ret b s1 ∧ HeapInv env s1 ∧ Extends s s1 ∧ ∀ s2, Extends s1 s2 → b.intoInner env sh s2 = .ret v s2) ∨
      ∃ k s1, TBox.new env sh v d s = .panic k s1 ∧ NullBetween s s1 := by
    intro d hf hd
    rcases new_spec ok hi hw hv d with ⟨b, s1, e, i1, x1, hh, _⟩ | ⟨hp, ha, e⟩ | ⟨hp, hdbg, ha, kk, e, hkk⟩
    · exact .inl ⟨b, s1, e, i1, x1, fun s2 hx => ((hh hf (Or.inr hr)).mono hw hx).read⟩
    · exact .inr ⟨_, _, e, sh.size, sh.align, by simp [State.log]⟩
    · rcases hkk with ⟨_, h⟩ | ⟨_, _, h⟩
      · rcases hd with hd | hd
        · rw [hdbg] at hd; cases hd
        · exact absurd hd h
      · exact absurd (hr _ _ _) h
  rcases hd with hg | hd
  · rw [new_cut ok hg]
    refine main _ ?_ (.inl hg)
    show (BitVec.ofNat env.cfg.discrBits (d.toNat % 2 ^ env.cfg.freeBits)).toNat < _
    rw [BitVec.toNat_ofNat]
    exact Nat.lt_of_le_of_lt (Nat.mod_le _ _) (Nat.mod_lt _ (Nat.two_pow_pos _))
  · exact main d (Env.DiscrOK.fits ok hd) (.inr hd)

theorem div_le (k : Nat) : env.cfg.MAX_DISCRIMINANT / BitVec.ofNat env.cfg.discrBits k ≤ env.cfg.MAX_DISCRIMINANT := by
  rw [BitVec.le_def, BitVec.toNat_udiv]
  exact Nat.div_le_self _ _

theorem zero_le : BitVec.ofNat env.cfg.discrBits 0 ≤ env.cfg.MAX_DISCRIMINANT := by
  rw [BitVec.le_def, BitVec.toNat_ofNat, Nat.zero_mod]
  exact Nat.zero_le _

variable {E : Type} {user : User E} {std : Std} {addr : String → Nat}

theorem gives_of {b : TBox} {ty : String} {x : Lit} {s1 s2 : State} (h : ∀ s2, Extends s1 s2 → b.intoInner env (std.shape ty) s2 = .ret (std.enc (std.shape ty) x) s2)
    (hx : Extends s1 s2) : Gives env std b ty x s2 := fun es => h _ (hx.trans (Extends.log _ _))

theorem finishes_test_new (ok : env.OK) (hr : env.InRange) (hi : HeapInv env s) (hs : StdOK std) (hp : env.ptrBits = 64)
    (hd : env.debug = false ∨ BitVec.ofNat env.cfg.discrBits 10 ≤ env.cfg.MAX_DISCRIMINANT) : Finishes (runBody (src env user) std addr box_test_new s) s := by
  haveI : InTable env := ⟨ok.cfg_mem⟩
  rcases new_gives ok hr hi (hs.wf "usize") (hs.lit "usize" (.num 0xF00DBEEF)) (.inr (div_le 2)) with ⟨b1, s1, e1, i1, x1, g1⟩ | ⟨k, s1, e1, n1⟩
  case inr =>
    obtain ⟨m, h⟩ := new_fail1 (user := user) (addr := addr) hs.size e1
    exact .inr ⟨m, s1, h, n1⟩
  rcases new_gives ok hr i1 (hs.wf "Custom") (hs.lit "Custom" customLit) (.inr (div_le 4)) with ⟨b2, s2, e2, i2, x2, g2⟩ | ⟨k, s2, e2, n2⟩
  case inr =>
    obtain ⟨m, h⟩ := new_fail2 (user := user) (addr := addr) hp hs.size e1 e2
    exact .inr ⟨m, s2, h, null_mono x1 n2⟩
  rcases new_gives ok hr i2 (hs.wf "String") (hs.lit "String" (.text "\"Hello world!\"")) (.inr zero_le) with ⟨b3, s3, e3, i3, x3, g3⟩ | ⟨k, s3, e3, n3⟩
  case inr =>
    obtain ⟨m, h⟩ := new_fail3 (user := user) (addr := addr) hp hs.size e1 e2 e3
    exact .inr ⟨m, s3, h, null_mono (x1.trans x2) n3⟩
  rcases new_gives ok hr i3 (hs.wf "Vec<i32>") (hs.lit "Vec<i32>" (.nums [1, 2, 3, 4, 5, 6])) hd with ⟨b4, s4, e4, i4, x4, g4⟩ | ⟨k, s4, e4, n4⟩
  case inr =>
    exact .inr ⟨_, s4, new_fail4 (user := user) (addr := addr) hp hs.size e1 e2 e3 e4, null_mono ((x1.trans x2).trans x3) n4⟩
  exact .inl (run_new (user := user) (addr := addr) hp hs.size e1 e2 e3 e4 (gives_of g1 ((x2.trans x3).trans x4)) (gives_of g2 (x3.trans x4)) (gives_of g3 x4)
    (gives_of g4 (Extends.refl _)))

/-- A box of a value without a size. -/
theorem new_zst_gives (ok : env.OK) {sh : Shape} {v : TB.Val} (hw : sh.WF) (hv : sh.Has v) (hz : sh.size = 0) {d : env.cfg.Discr} (hd : d ≤ env.cfg.MAX_DISCRIMINANT) :
    ∃ b, TBox.new env sh v d s = .ret b (s.log (dropEvents sh v)) ∧ ∀ s2, b.intoInner env sh s2 = .ret v s2 := by
  refine ⟨_, new_zst hz, fun s2 => ?_⟩
  obtain ⟨p1, p2, p3⟩ := align_lt ok hw.align_pow
  obtain ⟨e1, e2⟩ := store_parts ok p2 p3 (Env.DiscrOK.fits ok hd)
  have e1' : (TBox.dangling env sh.align d).asPtr env = sh.align := e1
  show ptrRead sh ((TBox.dangling env sh.align d).asPtr env) _ = _
  rw [e1']
  exact ptrRead_zst hw hv hz (by omega) (Nat.dvd_refl _) _

/-- **C91**, `new_zst`: on every target, in every setting and build, with any allocator (it may fail always), the test passes, and it allocates nothing. -/
theorem C91_zst {cr : Crate E} (hcr : sourceCrate env user = some cr) (ok : env.OK) (hs : StdOK std) (hu : (std.shape "()").size = 0) (hz : (std.shape "Zst").size = 0) :
    ∃ code s', boxTest "new_zst" boxText = some code ∧ runBody cr std addr code s = .ret .unit [] s' ∧ s'.blocks = s.blocks := by
  haveI : InTable env := ⟨ok.cfg_mem⟩
  rw [sourceCrate_eq] at hcr
  cases hcr
  obtain ⟨b1, e1, g1⟩ := new_zst_gives (s := s) ok (hs.wf "()") (hs.lit "()" (.record [])) hu (d := BitVec.ofNat env.cfg.discrBits 0) zero_le
  obtain ⟨b2, e2, g2⟩ := new_zst_gives (s := s.log (dropEvents (std.shape "()") (std.enc (std.shape "()") (.record [])))) ok (hs.wf "Zst") (hs.lit "Zst" (.record [])) hz
    (d := env.cfg.MAX_DISCRIMINANT) (BitVec.le_refl _)
  obtain ⟨s', h, h'⟩ := run_zst (user := user) (addr := addr) hs.size e1 e2 (fun _ => g1 _) (fun _ => g2 _)
  exact ⟨_, s', new_zst_source, h, h'⟩

/-- No allocation failed in between. -/
def NoNull (s s' : State) : Prop := ∃ es, s'.trace = s.trace ++ es ∧ ∀ z a, Event.allocNull z a ∉ es

theorem NoNull.trans {s s' s'' : State} (h : NoNull s s') (h' : NoNull s' s'') : NoNull s s'' := by
  obtain ⟨es, e, f⟩ := h
  obtain ⟨es', e', f'⟩ := h'
  exact ⟨es ++ es', by rw [e', e, List.append_assoc], fun z a hm => (List.mem_append.1 hm).elim (f z a) (f' z a)⟩

theorem NoNull.not {s s' : State} (h : NoNull s s') : ¬ NullBetween s s' := by
  obtain ⟨es, e, f⟩ := h
  rintro ⟨z, a, hm⟩
  rw [e, List.drop_left] at hm
  exact f z a hm

theorem noNull_boxed (s : State) (a : Nat) (sh : Shape) (v : TB.Val) : NoNull s (boxedState s a sh v) :=
  ⟨[.alloc ⟨a, sh.size, sh.align⟩], rfl, fun z a hm => by simp at hm⟩

/-- What making a box does if there is memory. -/
theorem new_mem (ok : env.OK) (hr : env.InRange) (hi : HeapInv env s) {sh : Shape} {v : TB.Val} (hw : sh.WF) (hv : sh.Has v) {d : env.cfg.Discr}
    (hd : d ≤ env.cfg.MAX_DISCRIMINANT) (hz : 0 < sh.size) {a : Nat} (ha : env.alloc s sh.size sh.align = a) (h0 : a ≠ 0) :
    ∃ b, TBox.new env sh v d s = .ret b (boxedState s a sh v) ∧ HeapInv env (boxedState s a sh v) := by
  subst ha
  rcases new_spec ok hi hw hv d with ⟨b, s1, e, i1, _, _, ⟨h, _⟩ | ⟨_, _, h⟩⟩ | ⟨_, h, _⟩ | ⟨_, _, _, kk, e, ⟨_, h⟩ | ⟨_, _, h⟩⟩
  · omega
  · subst h
    exact ⟨b, e, i1⟩
  · exact absurd h h0
  · exact absurd hd h
  · exact absurd (hr _ _ _) h

/-- A discriminant of 10 that does not fit. -/
theorem new_10 (ok : env.OK) (hg : env.debug = true) (hw : 61 ≤ env.cfg.ptrWidth) {sh : Shape} {v : TB.Val} (hz : 0 < sh.size)
    (ha : env.alloc s sh.size sh.align ≠ 0) :
    TBox.new env sh v (BitVec.ofNat env.cfg.discrBits 10) s = .panic .discriminant (boxedState s (env.alloc s sh.size sh.align) sh v) := by
  have key : ∀ c ∈ table, 61 ≤ c.ptrWidth → ¬ BitVec.ofNat c.discrBits 10 ≤ c.MAX_DISCRIMINANT := by decide
  have k1 := key _ ok.cfg_mem hw
  rw [new_alloc ok (by omega) ha, hg]
  simp [TPtr.new, k1]

/-- **C91**, where `new` fails: in a debug build with fewer than four bits reserved, the test always panics, because of the discriminant 10 unless an allocation fails. -/
theorem C91_narrow {cr : Crate E} (hcr : sourceCrate env user = some cr) (ok : env.OK) (hr : env.InRange) (hi : HeapInv env s) (hs : StdOK std) (hp : env.ptrBits = 64)
    (hg : env.debug = true) (hw : 61 ≤ env.cfg.POINTER_WIDTH) (hz : 0 < (std.shape "Vec<i32>").size) :
    ∃ code m s', boxTest "new" boxText = some code ∧ runBody cr std addr code s = .panic m [] s' ∧
      (NullBetween s s' ∨ m = panicMsg (BitVec.ofNat env.cfg.discrBits 10 : env.cfg.Discr) .discriminant) := by
  haveI : InTable env := ⟨ok.cfg_mem⟩
  rw [sourceCrate_eq] at hcr
  cases hcr
  rcases new_gives ok hr hi (hs.wf "usize") (hs.lit "usize" (.num 0xF00DBEEF)) (.inr (div_le 2)) with ⟨b1, s1, e1, i1, x1, g1⟩ | ⟨k, s1, e1, n1⟩
  case inr =>
    obtain ⟨m, h⟩ := new_fail1 (user := user) (addr := addr) hs.size e1
    exact ⟨_, m, s1, new_source, h, .inl n1⟩
  rcases new_gives ok hr i1 (hs.wf "Custom") (hs.lit "Custom" customLit) (.inr (div_le 4)) with ⟨b2, s2, e2, i2, x2, g2⟩ | ⟨k, s2, e2, n2⟩
  case inr =>
    obtain ⟨m, h⟩ := new_fail2 (user := user) (addr := addr) hp hs.size e1 e2
    exact ⟨_, m, s2, new_source, h, .inl (null_mono x1 n2)⟩
  rcases new_gives ok hr i2 (hs.wf "String") (hs.lit "String" (.text "\"Hello world!\"")) (.inr zero_le) with ⟨b3, s3, e3, i3, x3, g3⟩ | ⟨k, s3, e3, n3⟩
  case inr =>
    obtain ⟨m, h⟩ := new_fail3 (user := user) (addr := addr) hp hs.size e1 e2 e3
    exact ⟨_, m, s3, new_source, h, .inl (null_mono (x1.trans x2) n3)⟩
  by_cases ha : env.alloc s3 (std.shape "Vec<i32>").size (std.shape "Vec<i32>").align = 0
  · have e4 := new_null (v := std.enc (std.shape "Vec<i32>") (.nums [1, 2, 3, 4, 5, 6])) (d := BitVec.ofNat env.cfg.discrBits 10) (by omega) ha
    exact ⟨_, _, _, new_source, new_fail4 (user := user) (addr := addr) hp hs.size e1 e2 e3 e4,
      .inl (null_mono ((x1.trans x2).trans x3) ⟨_, _, by simp [State.log]; exact .inl ⟨rfl, rfl⟩⟩)⟩
  · have e4 := new_10 (s := s3) (v := std.enc (std.shape "Vec<i32>") (.nums [1, 2, 3, 4, 5, 6])) ok hg hw hz ha
    exact ⟨_, _, _, new_source, new_fail4 (user := user) (addr := addr) hp hs.size e1 e2 e3 e4, .inr rfl⟩

end

/-- **C91.** The test `new` of `TaggedBox`, run from its text together with the text of the crate, on targets with 64 bits: it works in release builds in every setting, and in
debug builds in exactly those settings in which at least four bits are reserved. It does so for every allocator, memory, and layout of the types it uses. -/
theorem C91 {cfg : Config} (hm : cfg ∈ table) (debug : Bool) : BoxTestWorks "new" cfg debug ↔ debug = false ∨ cfg.POINTER_WIDTH ≤ 60 := by
  constructor
  · intro h
    by_cases hw : 61 ≤ cfg.POINTER_WIDTH
    · cases debug with
      | false => exact .inl rfl
      | true =>
        exfalso
        have ok := demo_ok hm true
        haveI : InTable (demoEnv cfg true reprC) := ⟨ok.cfg_mem⟩
        have hr := demoEnv_inRange hm true reprC
        obtain ⟨b1, e1, i1⟩ := new_mem ok hr (state0_inv _) (stdDemo_ok.wf "usize") (stdDemo_ok.lit "usize" (.num 0xF00DBEEF)) (div_le 2) (by decide)
          (a := 4096) (by dsimp only [demoEnv]; decide) (by decide)
        obtain ⟨b2, e2, i2⟩ := new_mem ok hr i1 (stdDemo_ok.wf "Custom") (stdDemo_ok.lit "Custom" customLit) (div_le 4) (by decide) (a := 4104) (by dsimp only [demoEnv]; decide) (by decide)
        obtain ⟨b3, e3, i3⟩ := new_mem ok hr i2 (stdDemo_ok.wf "String") (stdDemo_ok.lit "String" (.text "\"Hello world!\"")) zero_le (by decide)
          (a := 4128) (by dsimp only [demoEnv]; decide) (by decide)
        have e4 := new_10 (s := boxedState (boxedState (boxedState state0 4096 (stdDemo.shape "usize") (stdDemo.enc (stdDemo.shape "usize") (.num 0xF00DBEEF)))
            4104 (stdDemo.shape "Custom") (stdDemo.enc (stdDemo.shape "Custom") customLit)) 4128 (stdDemo.shape "String") (stdDemo.enc (stdDemo.shape "String") (.text "\"Hello world!\"")))
          (sh := stdDemo.shape "Vec<i32>") (v := stdDemo.enc (stdDemo.shape "Vec<i32>") (.nums [1, 2, 3, 4, 5, 6])) ok rfl hw (by decide) (by dsimp only [demoEnv]; decide)
        obtain ⟨code, hc, hf⟩ := h _ _ userMix _ stdDemo (fun _ => 0) state0 rfl rfl rfl ok hr (state0_inv _) stdDemo_ok (sourceCrate_eq _ _)
        rw [new_source] at hc
        cases hc
        rw [new_fail4 rfl stdDemo_ok.size e1 e2 e3 e4] at hf
        rcases hf with ⟨s', hf⟩ | ⟨m, s', hf, hn⟩
        · cases hf
        · cases hf
          exact (((noNull_boxed _ _ _ _).trans (noNull_boxed _ _ _ _)).trans ((noNull_boxed _ _ _ _).trans (noNull_boxed _ _ _ _))).not hn
    · exact .inr (by omega)
  · rintro hd E env user cr std addr s rfl rfl hp ok hr hi hs hcr
    rw [sourceCrate_eq] at hcr
    cases hcr
    have key : ∀ c ∈ table, c.ptrWidth ≤ 60 → BitVec.ofNat c.discrBits 10 ≤ c.MAX_DISCRIMINANT := by decide
    exact ⟨_, new_source, finishes_test_new ok hr hi hs hp (hd.imp id (key _ ok.cfg_mem))⟩

/-- The setting with 63 bits. -/
def cfgB63 : Config := ⟨"tagged_box_reserve_63bits", 8, 1, 63, 1⟩

/-- The hypotheses can be met: the test `new` in a release build with 63 bits, where 10 is not a discriminant. -/
example : ∃ cr code, sourceCrate (demoEnv cfgB63 false reprC) userMix = some cr ∧ boxTest "new" boxText = some code ∧
    Finishes (runBody cr stdDemo (fun _ => 0) code state0) state0 := by
  have hm : cfgB63 ∈ table := by decide
  obtain ⟨code, h1, h2⟩ := (C91 hm false).2 (.inl rfl) _ (demoEnv cfgB63 false reprC) userMix _ stdDemo (fun _ => 0) state0 rfl rfl rfl (demo_ok hm false)
    (demoEnv_inRange hm _ _) (state0_inv _) stdDemo_ok (sourceCrate_eq _ _)
  exact ⟨_, code, sourceCrate_eq _ _, h1, h2⟩

/-- Types without a size. -/
def stdZst : Std where
  shape _ := (⟨6, 0, 1, fun bs => bs.all (·.isSome), false⟩ : Leaf).shape
  enc _ _ := [[]]

/-- Those of C91_zst can be met. -/
example : ∃ cr code s', sourceCrate (demoEnv cfgB63 true reprC) userMix = some cr ∧ boxTest "new_zst" boxText = some code ∧
    runBody cr stdZst (fun _ => 0) code state0 = .ret .unit [] s' ∧ s'.blocks = [] := by
  obtain ⟨code, s', h1, h2, h3⟩ := C91_zst (std := stdZst) (addr := fun _ => 0) (s := state0) (sourceCrate_eq (demoEnv cfgB63 true reprC) userMix) (demo_ok (by decide) true)
    ⟨fun _ => Leaf.WF.shape ⟨⟨0, by decide, rfl⟩, ⟨0, rfl⟩⟩, fun _ => (by decide : (0:Nat) < 2 ^ 64), fun _ _ => ⟨⟨rfl, rfl⟩, trivial⟩⟩ rfl rfl
  exact ⟨_, code, s', sourceCrate_eq _ _, h1, h2, h3⟩

end TB.Props

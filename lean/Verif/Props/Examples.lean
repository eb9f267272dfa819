import Verif.Spec.Examples
import Verif.Lemmas.ExampleTests
import Verif.Lemmas.RsTop
import Verif.Props.GenRun

/-!
# The examples in the documentation and the tests, run from their text (C89)
-/

set_option autoImplicit false

namespace TB.Props

open TB TB.Macro TB.Rust TB.Rust.Code TB.Source TB.Spec

section
variable {E : Type} {env : Env} {user : User E} {std : Std} {addr : String → Nat} {s : State}

/-- An example that makes a box and goes on. -/
theorem finishes_new (ok : env.OK) (hr : env.InRange) (hi : HeapInv env s) {sh : Shape} {v : TB.Val} (hw : sh.WF) (hv : sh.Has v) {d : env.cfg.Discr}
    (hd : d ≤ env.cfg.MAX_DISCRIMINANT) {o : XOut E (V E)} {msg : PanicKind → Msg E}
    (hk : ∀ b s1, Made env s sh v d b s1 → ∃ s', o = .ret .unit [] s') (hf : ∀ k s1, TBox.new env sh v d s = .panic k s1 → o = .panic (msg k) [] s1) : Finishes o s := by
  rcases new_spec ok hi hw hv d with ⟨b, s1, e, i1, _, hh, _⟩ | ⟨hp, ha, e⟩ | ⟨hp, hdbg, ha, kk, e, hkk⟩
  · exact .inl (hk b s1 ⟨e, i1, hh (Env.DiscrOK.fits ok hd) (Or.inr hr)⟩)
  · exact .inr ⟨_, _, hf _ _ e, sh.size, sh.align, by simp [State.log]⟩
  · rcases hkk with ⟨_, h⟩ | ⟨_, _, h⟩
    · exact absurd hd h
    · exact absurd (hr _ _ _) h

theorem docs_finish (ok : env.OK) (hr : env.InRange) (hi : HeapInv env s) (hs : StdOK std) (hc : env.cfg.ptrWidth ≤ 60) :
    ∀ code ∈ [doc0, doc1, doc2, doc3, doc4, doc5, doc6, doc7, doc8, doc9, doc10, doc11, doc12], Finishes (runBody (src env user) std addr code s) s := by
  haveI : InTable env := ⟨ok.cfg_mem⟩
  have key : ∀ c ∈ table, c.ptrWidth ≤ 60 → ∀ n ≤ 11, BitVec.ofNat c.discrBits n ≤ c.MAX_DISCRIMINANT := by decide
  have hn := key _ ok.cfg_mem hc
  intro code hm
  simp only [List.mem_cons, List.not_mem_nil, or_false] at hm
  rcases hm with rfl | rfl | rfl | rfl | rfl | rfl | rfl | rfl | rfl | rfl | rfl | rfl | rfl
  · exact finishes_new ok hr hi (hs.wf _) (hs.lit _ _) (hn 0 (by omega)) (fun b s1 h => run0 hs.size h) (fun k s1 h => fail0 hs.size h)
  · exact finishes_new ok hr hi (hs.wf _) (hs.lit _ _) (hn 0 (by omega)) (fun b s1 h => run1 hs.size h) (fun k s1 h => fail1 hs.size h)
  · exact finishes_new ok hr hi (hs.wf _) (hs.lit _ _) (hn 0 (by omega)) (fun b s1 h => run0 hs.size h) (fun k s1 h => fail0 hs.size h)
  · exact finishes_new ok hr hi (hs.wf _) (hs.lit _ _) (hn 0 (by omega)) (fun b s1 h => run1 hs.size h) (fun k s1 h => fail1 hs.size h)
  · exact finishes_new ok hr hi (hs.wf _) (hs.lit _ _) (hn 0 (by omega)) (fun b s1 h => run4 hs.size h) (fun k s1 h => fail4 hs.size h)
  · exact finishes_new ok hr hi (hs.wf _) (hs.lit _ _) (hn 0 (by omega)) (fun b s1 h => run5 hs.wf hs.lit hs.size h) (fun k s1 h => fail5 hs.size h)
  · exact finishes_new ok hr hi (hs.wf _) (hs.lit _ _) (hn 0 (by omega)) (fun b s1 h => run6 hs.size h) (fun k s1 h => fail6 hs.size h)
  · exact finishes_new ok hr hi (hs.wf _) (hs.lit _ _) (hn 8 (by omega)) (fun b s1 h => run7 hs.size h) (fun k s1 h => fail7 hs.size h)
  · exact finishes_new ok hr hi (hs.wf _) (hs.lit _ _) (hn 8 (by omega)) (fun b s1 h => run8 hs.size h) (fun k s1 h => fail8 hs.size h)
  · exact finishes_new ok hr hi (hs.wf _) (hs.lit _ _) (hn 10 (by omega)) (fun b s1 h => run9 hs.wf ok (hn 10 (by omega)) hs.size h) (fun k s1 h => fail9 hs.size h)
  · exact finishes_new ok hr hi (hs.wf _) (hs.lit _ _) (hn 11 (by omega)) (fun b s1 h => run10 hs.size h) (fun k s1 h => fail10 hs.size h)
  · exact finishes_new ok hr hi (hs.wf _) (hs.lit _ _) (hn 0 (by omega)) (fun b s1 h => run11 hs.size h) (fun k s1 h => fail11 hs.size h)
  · exact finishes_new ok hr hi (hs.wf _) (hs.lit _ _) (hn 0 (by omega)) (fun b s1 h => run12 hs.wf hs.lit hs.size h) (fun k s1 h => fail12 hs.size h)

/-- Where there are fewer than 12 discriminants, a box with 11 panics, or has another one. -/
theorem new_11 (ok : env.OK) (hp : 61 ≤ env.cfg.ptrWidth) {sh : Shape} {v : TB.Val} (hz : 0 < sh.size) (ha : env.alloc s sh.size sh.align ≠ 0) :
    ∃ s', ¬ NullBetween s s' ∧ ((∃ k, TBox.new env sh v (BitVec.ofNat env.cfg.discrBits 11) s = .panic k s') ∨
    ∃ b, TBox.new env sh v (BitVec.ofNat env.cfg.discrBits 11) s = .ret b s' ∧ b.discriminant env ≠ BitVec.ofNat env.cfg.discrBits 11) := by
  have key : ∀ c ∈ table, 61 ≤ c.ptrWidth → ¬ BitVec.ofNat c.discrBits 11 ≤ c.MAX_DISCRIMINANT ∧ c.freeBits ≤ 3 ∧ c.discrBits = 8 := by decide
  obtain ⟨k1, k2, k3⟩ := key _ ok.cfg_mem hp
  have hn := new_alloc ok (v := v) (d := BitVec.ofNat _ 11) (s := s) (sh := sh) (by omega) ha
  rw [hn]
  refine ⟨boxedState s (env.alloc s sh.size sh.align) sh v, ?_, ?_⟩
  · rintro ⟨size, align, h⟩
    simp [boxedState] at h
  cases hdbg : env.debug with
  | true =>
    have e : TPtr.new env.cfg true (BitVec.ofNat 64 (env.alloc s sh.size sh.align)) (BitVec.ofNat _ 11) = .error .discriminant := by
      simp [TPtr.new, k1]
    rw [e]
    exact .inl ⟨_, rfl⟩
  | false =>
    obtain ⟨t, e, _⟩ := C03_release_new env.cfg ok.cfg_mem (BitVec.ofNat 64 (env.alloc s sh.size sh.align)) (BitVec.ofNat _ 11)
    rw [e]
    refine .inr ⟨_, rfl, ?_⟩
    intro h
    have h1 := congrArg BitVec.toNat h
    have h2 : (TBox.discriminant env ⟨t⟩).toNat < 2 ^ env.cfg.freeBits := ok.sane.fetch_lt _
    have h3 : 2 ^ env.cfg.freeBits ≤ 2 ^ 3 := Nat.pow_le_pow_right (by decide) k2
    rw [h1, BitVec.toNat_ofNat, k3] at h2
    omega

/-- **C89**, the example that fails: where fewer than four bits are reserved, the example of `discriminant` panics whenever there is memory for its box. -/
theorem C89_discriminant {cr : Crate E} (hcr : sourceCrate env user = some cr) (ok : env.OK) (hs : StdOK std) (hz : 0 < (std.shape "i32").size)
    (hp : 61 ≤ env.cfg.POINTER_WIDTH) (ha : env.alloc s (std.shape "i32").size (std.shape "i32").align ≠ 0) :
    ∃ block code m s', (docBlocks boxText none)[10]? = some block ∧ exampleCode block = some code ∧ runBody cr std addr code s = .panic m [] s' ∧
      ¬ NullBetween s s' := by
  haveI : InTable env := ⟨ok.cfg_mem⟩
  rw [sourceCrate_eq] at hcr
  cases hcr
  have hd := congrArg (fun l => l[10]?) docs_source
  simp only [List.getElem?_map, List.getElem?_cons_succ, List.getElem?_cons_zero] at hd
  cases hb : (docBlocks boxText none)[10]? with
  | none => rw [hb] at hd; cases hd
  | some block =>
    rw [hb] at hd
    simp only [Option.map_some, Option.some.injEq] at hd
    have hp' : 61 ≤ env.cfg.ptrWidth := hp
    rcases new_11 (v := std.enc (std.shape "i32") (.num 0)) ok hp' hz ha with ⟨s', hx, ⟨k, e⟩ | ⟨b, e, hne⟩⟩
    · exact ⟨block, _, _, _, rfl, hd, fail10 hs.size e, hx⟩
    · exact ⟨block, _, _, _, rfl, hd, wrong10 hs.size e hne, hx⟩

/-! ### The tests -/

theorem bind_find {o : Option (List Fn)} {fs : List Fn} {f : Fn} {n : String} (h : o = some fs) (h' : fs.find? (·.name == n) = some f) :
    (o.bind fun fs => fs.find? (·.name == n)) = some f := by
  subst h
  exact h'

theorem test_of {f : Fn} {n : String} (h : [test_utility_functions, test_tagged_pointer, test_max_pointer, test_min_pointer, test_max_discriminant, test_min_discriminant,
    test_string_pointer, test_oversized_discriminant].find? (·.name == n) = some f) : testNamed n = some f := by
  exact bind_find tests_source h

theorem var_has {sh : Shape} {v : TB.Val} {a : Nat} (hc : env.cfg ∈ table) (h : IsVar env sh v a s) : HasVar env sh v a s := by
  have h1 : ∀ c ∈ table, c.POINTER_WIDTH < 64 := by decide
  have h4 : 2 ^ env.cfg.POINTER_WIDTH < 2 ^ 64 := Nat.pow_lt_pow_right (by decide) (h1 _ hc)
  have h5 : a < 2 ^ 64 := Nat.lt_trans h.width h4
  refine ⟨h5, ?_, h.bits, h.read⟩
  rw [(sane_of_mem hc).le_maxPtr_iff, BitVec.toNat_ofNat, Nat.mod_eq_of_lt h5]
  exact h.width

/-- **C89**, the tests of `src/tagged_pointer.rs`, apart from `string_pointer`. In every setting, build mode and memory, whatever the addresses of their variables (that the
reserved width allows): five of them pass; `tagged_pointer` passes exactly where at least four bits are reserved, and `oversized_discriminant` in debug builds, and in release
builds only where all bits of the type `Discriminant` are used. -/
theorem C89_tests {cr : Crate E} (hcr : sourceCrate env user = some cr) (hc : env.cfg ∈ table) :
    (∀ n ∈ ["utility_functions", "max_pointer", "min_pointer"], ∃ f, testNamed n = some f ∧ Passes f (runBody cr std addr f.body s)) ∧
    (∀ n ∈ ["max_discriminant", "min_discriminant"], ∃ f, testNamed n = some f ∧ (IntegerVar env std addr "usize" s → Passes f (runBody cr std addr f.body s))) ∧
    (∃ f, testNamed "tagged_pointer" = some f ∧ (IntegerVar env std addr "i32" s → (Passes f (runBody cr std addr f.body s) ↔ env.cfg.POINTER_WIDTH ≤ 60))) ∧
    (∃ f, testNamed "oversized_discriminant" = some f ∧
      (Passes f (runBody cr std addr f.body s) ↔ env.debug = true ∨ env.cfg.POINTER_WIDTH = 48 ∨ env.cfg.POINTER_WIDTH = 56)) := by
  haveI : InTable env := ⟨hc⟩
  rw [sourceCrate_eq] at hcr
  cases hcr
  refine ⟨?_, ?_, ?_, ?_⟩
  · intro n hn
    simp only [List.mem_cons, List.not_mem_nil, or_false] at hn
    rcases hn with rfl | rfl | rfl
    · exact ⟨_, test_of rfl, rfl, _, _, _, test0 std addr s⟩
    · exact ⟨_, test_of rfl, rfl, _, _, _, test2 std addr s⟩
    · exact ⟨_, test_of rfl, rfl, _, _, _, test3 std addr s⟩
  · intro n hn
    simp only [List.mem_cons, List.not_mem_nil, or_false] at hn
    rcases hn with rfl | rfl
    · refine ⟨_, test_of rfl, fun hv => ?_⟩
      obtain ⟨s', h⟩ := test4 (user := user) std s (var_has hc hv)
      exact ⟨rfl, _, _, _, h⟩
    · refine ⟨_, test_of rfl, fun hv => ?_⟩
      obtain ⟨s', h⟩ := test5 (user := user) std s (var_has hc hv)
      exact ⟨rfl, _, _, _, h⟩
  · refine ⟨_, test_of rfl, fun hv => ⟨?_, ?_⟩⟩
    · rintro ⟨_, v, l, s', h⟩
      by_cases hp : 61 ≤ env.cfg.ptrWidth
      · exfalso
        have key : ∀ c ∈ table, 61 ≤ c.ptrWidth → ¬ BitVec.ofNat c.discrBits 10 ≤ c.MAX_DISCRIMINANT ∧ c.freeBits ≤ 3 ∧ c.discrBits = 8 := by decide
        obtain ⟨k1, k2, k3⟩ := key _ hc hp
        obtain ⟨m, s'', h'⟩ := test1_wrong (user := user) (std := std) s (var_has hc hv).max k1 (by
          intro p e
          have h2 : (TPtr.fetchDiscriminant env.cfg p).toNat < 2 ^ env.cfg.freeBits := (sane_of_mem hc).fetch_lt _
          have h3 : 2 ^ env.cfg.freeBits ≤ 2 ^ 3 := Nat.pow_le_pow_right (by decide) k2
          rw [e, BitVec.toNat_ofNat, k3] at h2
          omega)
        rw [h] at h'
        cases h'
      · show env.cfg.ptrWidth ≤ 60
        omega
    · intro hp
      have key : ∀ c ∈ table, c.ptrWidth ≤ 60 → BitVec.ofNat c.discrBits 10 ≤ c.MAX_DISCRIMINANT := by decide
      obtain ⟨s', h⟩ := test1 (user := user) std s (key _ hc hp) (var_has hc hv)
      exact ⟨rfl, _, _, _, h⟩
  · refine ⟨_, test_of rfl, ⟨?_, ?_⟩⟩
    · rintro ⟨_, m, l, s', h⟩
      by_cases h1 : env.cfg.ptrWidth = 48
      · exact .inr (.inl h1)
      by_cases h2 : env.cfg.ptrWidth = 56
      · exact .inr (.inr h2)
      cases hg : env.debug with
      | true => exact .inl rfl
      | false =>
        rw [test7_release h1 h2 hg] at h
        cases h
    · intro hh
      refine ⟨rfl, ?_⟩
      show ∃ m l s', _
      by_cases h : env.cfg.ptrWidth = 48 ∨ env.cfg.ptrWidth = 56
      · exact ⟨_, _, _, test7_none h s⟩
      · have h1 : env.cfg.ptrWidth ≠ 48 := fun e => h (.inl e)
        have h2 : env.cfg.ptrWidth ≠ 56 := fun e => h (.inr e)
        obtain ⟨m, e⟩ := test7_debug (user := user) (std := std) (addr := addr) h1 h2 (by
          rcases hh with hh | hh | hh
          · exact hh
          · exact absurd hh h1
          · exact absurd hh h2) s
        exact ⟨_, _, _, e⟩

end

/-! ### Types of other libraries, for demonstration -/

/-- The lowest `n` bytes of a number. -/
def bytesOf : Nat → Nat → Bytes
  | 0, _ => []
  | n + 1, k => some (BitVec.ofNat 8 k) :: bytesOf n (k / 256)

theorem bytesOf_ok (n k : Nat) : (bytesOf n k).length = n ∧ (bytesOf n k).all (·.isSome) = true := by
  induction n generalizing k with
  | zero => exact ⟨rfl, rfl⟩
  | succ n ih => exact ⟨congrArg (· + 1) (ih _).1, by simpa [bytesOf] using (ih (k / 256)).2⟩

/-- A number for each literal. -/
def litCode : Lit → Nat
  | .num n => n
  | .nums ns => ns.foldr (fun n k => n + 256 * k) 0
  | .text s => s.toList.foldr (fun c k => c.toNat + 256 * k) 0
  | .flag b => b.toNat
  | .record fs => fs.length

/-- Layouts of the types in the examples. -/
def stdDemo : Std where
  shape x := if x = "i32" then (⟨2, 4, 4, fun bs => bs.all (·.isSome), false⟩ : Leaf).shape
    else if x = "usize" then (⟨3, 8, 8, fun bs => bs.all (·.isSome), false⟩ : Leaf).shape
    else if x = "[u8; 10]" then (⟨4, 10, 1, fun bs => bs.all (·.isSome), false⟩ : Leaf).shape
    else (⟨5, 24, 8, fun bs => bs.all (·.isSome), true⟩ : Leaf).shape
  enc sh l := [bytesOf sh.size (litCode l)]

theorem stdDemo_ok : StdOK stdDemo where
  wf x := by
    simp only [stdDemo]
    split
    · exact Leaf.WF.shape ⟨⟨2, by decide, rfl⟩, ⟨1, rfl⟩⟩
    split
    · exact Leaf.WF.shape ⟨⟨3, by decide, rfl⟩, ⟨1, rfl⟩⟩
    split
    · exact Leaf.WF.shape ⟨⟨0, by decide, rfl⟩, ⟨10, rfl⟩⟩
    · exact Leaf.WF.shape ⟨⟨3, by decide, rfl⟩, ⟨3, rfl⟩⟩
  size x := by
    simp only [stdDemo]
    split
    · decide
    split
    · decide
    split <;> decide
  lit x l := by
    simp only [stdDemo]
    split
    · exact ⟨bytesOf_ok _ _, trivial⟩
    split
    · exact ⟨bytesOf_ok _ _, trivial⟩
    split
    · exact ⟨bytesOf_ok _ _, trivial⟩
    · exact ⟨bytesOf_ok _ _, trivial⟩

/-- **C89.** The examples in the documentation comments of `src/tagged_box.rs`, run from their text together with the text of the crate, work in exactly those settings in which
at least four bits are reserved: then they do for every allocator, memory, layout of the types they use, in debug and release builds. -/
theorem C89 {cfg : Config} (hm : cfg ∈ table) : DocsWork cfg ↔ cfg.POINTER_WIDTH ≤ 60 := by
  constructor
  · intro h
    by_cases hw : 61 ≤ cfg.POINTER_WIDTH
    · exfalso
      have ok := demo_ok hm true
      obtain ⟨cr, hcr⟩ : ∃ cr, sourceCrate (demoEnv cfg true reprC) userMix = some cr := ⟨_, sourceCrate_eq _ _⟩
      obtain ⟨block, code, m, s', hb, he, hr, hx⟩ := C89_discriminant (addr := fun _ => 0) (s := state0) hcr ok stdDemo_ok (by decide) hw
        (show bumpAlloc 4096 (2 ^ 47) state0 4 4 ≠ 0 by decide)
      obtain ⟨code', he', hf⟩ := h _ _ _ cr stdDemo (fun _ => 0) state0 rfl ok (demoEnv_inRange hm _ _) (state0_inv _) stdDemo_ok hcr block
        (List.mem_of_getElem? hb)
      rw [he] at he'
      cases he'
      rcases hf with ⟨s'', hf⟩ | ⟨m', s'', hf, hn⟩
      · rw [hr] at hf
        cases hf
      · rw [hr] at hf
        cases hf
        exact hx hn
    · omega
  · rintro hw E env user cr std addr s rfl ok hr hi hs hcr block hb
    rw [sourceCrate_eq] at hcr
    cases hcr
    have h1 : exampleCode block ∈ (docBlocks boxText none).map exampleCode := List.mem_map_of_mem hb
    rw [docs_source] at h1
    obtain ⟨code, he⟩ : ∃ code, exampleCode block = some code := by
      simp only [List.mem_cons, List.not_mem_nil, or_false] at h1
      rcases h1 with h | h | h | h | h | h | h | h | h | h | h | h | h <;> exact ⟨_, h⟩
    rw [he] at h1
    exact ⟨code, he, docs_finish ok hr hi hs hw code (by simpa only [List.mem_cons, Option.some.injEq, List.not_mem_nil, or_false] using h1)⟩

/-- The hypotheses of C89 can be met: with 60 bits, and a memory that is empty, all examples finish. -/
example : ∀ block ∈ docBlocks boxText none, ∃ cr code, sourceCrate (demoEnv cfg60 true reprC) userMix = some cr ∧ exampleCode block = some code ∧
    Finishes (runBody cr stdDemo (fun _ => 0) code state0) state0 := by
  intro block hb
  have hm : cfg60 ∈ table := by decide
  obtain ⟨code, h1, h2⟩ := (C89 hm).2 (by decide) _ _ _ _ stdDemo (fun _ => 0) state0 rfl (demo_ok hm true) (demoEnv_inRange hm _ _) (state0_inv _) stdDemo_ok
    (sourceCrate_eq (demoEnv cfg60 true reprC) userMix) block hb
  exact ⟨_, code, sourceCrate_eq _ _, h1, h2⟩

/-- A memory with a variable in it. -/
def stateVar : State := { state0 with
  mem := putVal state0.mem 8192 (stdDemo.shape "usize") (stdDemo.enc (stdDemo.shape "usize") (.num 100))
  blocks := [⟨8192, 8, 8⟩] }

/-- The hypothesis of C89_tests can be met. -/
example : IntegerVar (demoEnv cfg60 true reprC) stdDemo (fun _ => 8192) "usize" stateVar := ⟨by decide, by decide, by rfl⟩

end TB.Props

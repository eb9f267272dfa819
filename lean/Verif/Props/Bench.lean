import Verif.Lemmas.Bench

/-!
# The benchmarks, run from their text (C100)
-/

set_option autoImplicit false
set_option linter.unusedSimpArgs false

namespace TB.Props

open TB TB.Macro TB.Mbe TB.Rust TB.Rust.User TB.Spec TB.Source TB.Rust.Code

/-- The sizes and alignments of the primitive types that the benchmarks use, on a target with 64-bit pointers. -/
def Sizes64 (rc : Rustc) : Prop :=
  ((rc.leaf (.named "usize")).size = 8 ∧ (rc.leaf (.named "usize")).align = 8) ∧ ((rc.leaf (.named "f32")).size = 4 ∧ (rc.leaf (.named "f32")).align = 4) ∧
  ((rc.leaf (.named "u32")).size = 4 ∧ (rc.leaf (.named "u32")).align = 4) ∧ (rc.leaf (.named "bool")).size = 1 ∧ (rc.leaf (.named "bool")).align = 1

theorem foot_single {rc : Rustc} (h : Sizes64 rc) : footOf rc (.tuple [.named "usize"]) = [(8, 8)] := by
  obtain ⟨⟨h1, h2⟩, -⟩ := h
  simp [footOf, Fields.shape, Leaf.shape, reprC, placeC, maxAlign, roundUp, h1, h2]

theorem foot_many {rc : Rustc} (h : Sizes64 rc) : footOf rc (.tuple [.named "usize", .named "usize", .named "f32", .named "usize"]) = [(32, 8)] := by
  obtain ⟨⟨h1, h2⟩, ⟨h3, h4⟩, -⟩ := h
  simp [footOf, Fields.shape, Leaf.shape, reprC, placeC, maxAlign, roundUp, h1, h2, h3, h4]

theorem foot_orphan {rc : Rustc} (h : Sizes64 rc) : footOf rc (.record [("int", .named "u32"), ("boolean", .named "bool")]) = [(8, 4)] := by
  obtain ⟨-, -, ⟨h1, h2⟩, h3, h4⟩ := h
  simp [footOf, Fields.shape, Leaf.shape, reprC, placeC, maxAlign, roundUp, h1, h2, h3, h4]

/-- **C100**. `benches/tagged_box.rs`, from its text: the file is the invocation of `tagged_box!` of the tests and six benchmarks, the first four of which call `into_tagged_box` on a value of each variant. If the
invocation is accepted and its four variants fit the discriminant, then running such a benchmark `n` times never gives back memory: every iteration for `SingleTuple`, `ManyTuple` and `Orphan` leaves one more block
allocated, of 8, 32 and 8 bytes, and everything allocated before stays; the iterations for `Unit` allocate nothing. A run ends early only if the allocator fails. -/
theorem C100 : ∃ metas toks decl unit single many orphan,
    benchFile benchText = some (invocation metas [] "Container" [] "Item" toks,
      [("\"Unit into_tagged_box\"", some unit), ("\"Single element Tuple into_tagged_box\"", some single), ("\"Multiple element Tuple into_tagged_box\"", some many),
       ("\"Orphan Struct into_tagged_box\"", some orphan), ("\"TaggedBox::new\"", none), ("\"Box::new\"", none)]) ∧
    ∀ (env : Env) (rc : Rustc) (users : ∀ β : Type, User (Host β)) (G : Programs) (L : Lits), Declared env rc "Container" "Item" false toks decl →
      AreProgram env rc metas [] "Container" [] "Item" false toks users G → 4 ≤ 2 ^ env.cfg.DISCRIMINANT_BITS → env.InRange → LitsOK rc L → Usual L → Sizes64 rc →
      ∀ p ∈ [(unit, []), (single, [(8, 8)]), (many, [(32, 8)]), (orphan, [(8, 4)])], ∀ n s, HeapInv env s →
        (∃ s', iterations (runUser L decl (crateIface env rc G "Container" "Item") "Container" "Item" p.1) n s = .ret () s' ∧ Kept s s' (List.replicate n p.2).flatten) ∨
        ∃ s', iterations (runUser L decl (crateIface env rc G "Container" "Item") "Container" "Item" p.1) n s = .panic .nullAlloc s' ∧ NullBetween s s' := by
  refine ⟨testsMetas, testsToks, testsDecl, _, _, _, _, bench_source, ?_⟩
  intro env rc users G L h hG hlen ho hL hU hz p hp n s hi
  have hfree : env.cfg.DISCRIMINANT_BITS = env.cfg.freeBits := rfl
  rw [hfree] at hlen
  have go : ∀ (code : List Stmt) (i : Nat) (d : VariantDef) (e : EVal) (foot : List (Nat × Nat)), testsDecl[i]? = some d → e.variant = d.name → HasFields rc d.fields e.payload → i < 4 →
      runUser L testsDecl (crateIface env rc G "Container" "Item") "Container" "Item" code = (crateIface env rc G "Container" "Item").into e >>= (fun _ => pure ()) → footOf rc d.fields = foot →
      (∃ s', iterations (runUser L testsDecl (crateIface env rc G "Container" "Item") "Container" "Item" code) n s = .ret () s' ∧ Kept s s' (List.replicate n foot).flatten) ∨
      ∃ s', iterations (runUser L testsDecl (crateIface env rc G "Container" "Item") "Container" "Item" code) n s = .panic .nullAlloc s' ∧ NullBetween s s' := by
    intro code i d e foot hd hn hf h4 hrun hfoot
    rw [hrun, ← hfoot]
    rcases into_often h tests_metas (.inl rfl) (.inl rfl) hG hd hn hf (Nat.lt_of_lt_of_le h4 hlen) ho n hi with ⟨s', e1, _, _, k⟩ | hp
    · exact .inl ⟨s', e1, k⟩
    · exact .inr hp
  simp only [List.mem_cons, List.not_mem_nil, or_false] at hp
  rcases hp with rfl | rfl | rfl | rfl
  · exact go _ 2 _ ⟨"Unit", .unit⟩ _ rfl rfl trivial (by decide) (bench_unit hU _) rfl
  · obtain ⟨v, h1, hr⟩ := bench_single hU (crateIface env rc G "Container" "Item")
    exact go _ 0 _ ⟨"SingleTuple", .tuple [v]⟩ _ rfl rfl ⟨hL _ _ _ h1, trivial⟩ (by decide) hr (foot_single hz)
  · obtain ⟨x, y, z, w, h1, h2, h3, h4, hr⟩ := bench_many hU (crateIface env rc G "Container" "Item")
    exact go _ 1 _ ⟨"ManyTuple", .tuple [x, y, z, w]⟩ _ rfl rfl ⟨hL _ _ _ h1, hL _ _ _ h2, hL _ _ _ h3, hL _ _ _ h4, trivial⟩ (by decide) hr (foot_many hz)
  · obtain ⟨x, y, h1, h2, hr⟩ := bench_orphan hU (crateIface env rc G "Container" "Item")
    exact go _ 3 _ ⟨"Orphan", .record [("int", x), ("boolean", y)]⟩ _ rfl rfl ⟨rfl, hL _ _ _ h1, hL _ _ _ h2, trivial⟩ (by decide) hr (foot_orphan hz)

/-- All hypotheses of `C100` can be met. -/
example (b : Bool) : ∃ G, Declared (env60 b) rcUser "Container" "Item" false testsToks testsDecl ∧
    AreProgram (env60 b) rcUser testsMetas [] "Container" [] "Item" false testsToks (usersUser testsDecl) G ∧ 4 ≤ 2 ^ (env60 b).cfg.DISCRIMINANT_BITS ∧ (env60 b).InRange ∧
    LitsOK rcUser litsUser ∧ Usual litsUser ∧ Sizes64 rcUser ∧ HeapInv (env60 b) state0 := by
  have h := tests_declared (env60_ok b) (.inl rfl)
  obtain ⟨G, hG, _⟩ := C85_program h tests_metas (.inl rfl) (.inl rfl) (usersUser testsDecl) (fun _ => rfl)
  exact ⟨G, h, hG, by cases b <;> decide, env60_inRange b, litsUser_ok, litsUser_usual, by refine ⟨⟨?_, ?_⟩, ⟨?_, ?_⟩, ⟨?_, ?_⟩, ?_, ?_⟩ <;> rfl, state0_inv _⟩

end TB.Props

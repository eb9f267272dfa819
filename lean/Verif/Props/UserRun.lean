import Verif.Lemmas.UserRun
import Verif.Lemmas.UserTests
import Verif.Props.ContainerRun
import Verif.Replay

/-!
# Code of users, run from its text with the generated code (C90)
-/

set_option autoImplicit false
set_option linter.unusedSimpArgs false

namespace TB.Props

open TB TB.Macro TB.Mbe TB.Rust TB.Rust.User TB.Spec TB.Source

section

variable {env : Env} {rc : Rustc} {sn en : String} {ts : List Tok} {decl : List VariantDef} {metas : List (List TT)} {svis evis : List TT}
  {users : ∀ β : Type, User (Host β)} {G : Programs} (h : Declared env rc sn en false ts decl) (hm : ∀ m ∈ metas, IsMeta m) (hs : IsVis svis) (he : IsVis evis)
  (hG : AreProgram env rc metas svis sn evis en false ts users G)
include h hm hs he hG

theorem crate_good {readable storable : EVal → Bool} (hfit : ∀ e, storable e = true → Fits env decl e) (ho : env.InRange)
    (hread : ∀ e, readable e = true → LaidOut env rc decl e) : Good env rc decl readable storable (crateIface env rc G sn en) := by
  have hP : IsProgram env rc (users Unit) metas svis sn evis en false ts (fun _ => pure ()) (someProgram G) := hG Unit _
  have hM := C82_model h hm hs he hP
  have hfree : env.cfg.DISCRIMINANT_BITS = env.cfg.freeBits := rfl
  have hinto : ∀ e, (crateIface env rc G sn en).into e = (linked G en).intoTaggedBox e := fun _ => rfl
  have hstore : ∀ i e, IsValue rc decl i e → storable e = true → ∀ s, HeapInv env s →
      Agrees env (Stored rc decl readable (crateIface env rc G sn en)) (intoTaggedBox env rc (programOf sn en false decl) e) (.ok e) s := by
    intro i e hv hst s hi
    have hlt : i < 2 ^ env.cfg.freeBits := by
      obtain ⟨d, hd, hn, _⟩ := hv
      exact hfit e hst i d hd hn.symm
    rcases C29_container_roundtrip h.target h.rustc h.compiled hv hlt (.inr ho) hi with ⟨b, s', e1, e2, e3, e4⟩ | ⟨s', e1, e2, e3, _, size, align, _, e4⟩ |
      ⟨s', _, _, _, _, size, align, e5⟩
    · refine .inl ⟨b, s', e1, e2, e3, ⟨i, hv⟩, ?_, ?_, ?_⟩
      · intro s'' hx
        show outcome toEnum _ = _
        rw [hM.2.2.1, e4 s'' hx]
        rfl
      · intro hr s'' hx
        show outcome toEnum _ = _
        obtain ⟨d, hdi, hn, hf⟩ := id hv
        rw [hM.2.2.2.1, C30_partial h.target h.rustc h.compiled hdi hv hlt (.inr ho)
          (hread e hr d (List.mem_of_getElem? hdi) hn.symm) hi e1 s'' hx]
        rfl
      · intro s'' hx f
        obtain ⟨es, hp, h3, _⟩ := C31_ref_presents h.target h.rustc h.compiled hv hlt (.inr ho) hi e1 s'' hx
        have hl : outcome some ((G Unit f).lend (boxV b) s'') = M.cleanup es (do let r ← f e; pure (some r)) s'' := by
          rw [← hp Unit f]
          exact congrFun (linked_ref h hm hs he hG b f) s''
        rw [h3 rfl] at hl
        show outcome (fun _ => some ()) ((G Unit f).lend (boxV b) s'') = f e s''
        have hc : M.cleanup [] (do let r ← f e; pure (some r)) s'' = match f e s'' with
            | .ret r s => .ret (some r) s
            | .panic k s => .panic k s
            | .ub k => .ub k := by
          simp only [M.cleanup, M.bind_def]
          cases f e s'' <;> simp only [log_nil] <;> rfl
        rw [hc] at hl
        generalize (G Unit f).lend (boxV b) s'' = o at hl
        cases hf : f e s'' with
        | ret r s3 =>
          rw [hf] at hl
          cases o with
          | ret a l s => cases hl; rfl
          | panic m l s => simp only [outcome] at hl; split at hl <;> cases hl
          | ub k => cases hl
          | stuck => cases hl
        | panic k s3 =>
          rw [hf] at hl
          cases o with
          | ret a l s => cases hl
          | panic m l s =>
            simp only [outcome] at hl ⊢
            cases hk : kindOf m with
            | none => rw [hk] at hl; cases hl
            | some k' => rw [hk] at hl; cases hl; rfl
          | ub k => cases hl
          | stuck => cases hl
        | ub k =>
          rw [hf] at hl
          cases o with
          | ret a l s => cases hl
          | panic m l s =>
            simp only [outcome] at hl ⊢
            cases hk : kindOf m with
            | none => rw [hk] at hl; cases hl; rfl
            | some k' => rw [hk] at hl; cases hl
          | ub k => cases hl; rfl
          | stuck => cases hl; rfl
    · exact .inr ⟨_, s', e1, size, align, e4⟩
    · exact absurd (ho s size align) (Nat.not_lt.2 e5)
  refine ⟨?_, ?_, ?_, fun _ _ => rfl⟩
  · rintro e ⟨i, hv⟩ hst s hi
    refine (hstore i e hv hst s hi).congr ?_
    rw [hinto, linked_into h hm hs he hG ⟨i, hv⟩]
    rfl
  · rintro e ⟨i, hv⟩ hst s hi
    refine (hstore i e hv hst s hi).congr ?_
    show outcome toCont _ = _
    rw [hM.1 i e s hv]
    exact outcome_of contV toCont (fun _ => rfl) _ _ (fun k _ _ => kindOf_panicMsg _ k) _
  · intro v tys vs hd hty hne hst s hi
    obtain ⟨i, hdi⟩ := List.mem_iff_getElem?.1 hd
    have hv : IsValue rc decl i ⟨v, .tuple vs⟩ := ⟨_, hdi, rfl, hty⟩
    refine (hstore i _ hv hst s hi).congr ?_
    have hf : ∃ ty, (Fields.tuple tys).fromTy = some ty := by
      match tys with
      | [t] => exact ⟨_, rfl⟩
      | t :: t' :: ts => exact ⟨_, rfl⟩
      | [] => exact absurd rfl hne
    obtain ⟨ty, hf⟩ := hf
    show (match (Fields.tuple tys).fromTy with
      | some ty => outcome toCont ((someProgram G).call "From" sn (some ty) "from" none [payloadV env rc tys vs] s)
      | none => .ub .badValue) = _
    rw [hf]
    show outcome toCont _ = _
    rw [(C82_payload h hm hs he hP hdi hty hf s).1, hM.1 i _ s hv]
    exact outcome_of contV toCont (fun _ => rfl) _ _ (fun k _ _ => kindOf_panicMsg _ k) _

/-- **C90.** Code that uses boxed enums does what the same code does with plain values. The code is any sequence of statements over the generated functions (`Container::from`,
`Container { value: .. }`, `into_inner`, `into_tagged_box`, `from_tagged_box`, `ref_from_tagged_box` with closures that may use other boxes), constructors, variables, comparisons and
assertions; it is run once with the code of the crate and the macros, from their text, on a heap, and once with the values themselves in place of the boxes. Then both finish, or an
assertion fails in both, or the allocator failed. Only values whose number fits the discriminant are to be stored (C34), and `from_tagged_box` is only to be used for variants for which the compiler's layout of tuples agrees with
C's (C30). -/
theorem C90 {readable storable : EVal → Bool} (hfit : ∀ e, storable e = true → Fits env decl e) (ho : env.InRange) (hread : ∀ e, readable e = true → LaidOut env rc decl e)
    {L : Lits} (hL : LitsOK rc L) (code : List Stmt) (s : State) (hi : HeapInv env s) :
    AsPlain s (runUser L decl (crateIface env rc G sn en) sn en code s) (runUser L decl (plainIface readable storable) sn en code) := by
  have g := crate_good h hm hs he hG hfit ho hread
  have h1 : Agrees env (fun _ _ _ => True) (runUser L decl (crateIface env rc G sn en) sn en code) (runUser L decl (plainIface readable storable) sn en code) s :=
    ((sim g hL 100).2.2 code s [] [] hi ⟨rfl, trivial⟩).bind fun _ _ s' hi' _ _ => Agrees.pure hi' trivial
  generalize runUser L decl (plainIface readable storable) sn en code = r at h1
  match r, h1 with
  | .ok _, h1 =>
    rcases h1 with ⟨_, s', e, _⟩ | h1
    · exact .inl ⟨s', e⟩
    · exact .inr h1
  | .error .failed, h1 => exact h1
  | .error .stuck, _ => exact trivial

end


/-- If there are not too many variants, every value fits. -/
theorem fits_all {env : Env} {decl : List VariantDef} (h : decl.length ≤ 2 ^ env.cfg.DISCRIMINANT_BITS) (e : EVal) : Fits env decl e := by
  intro i d hd _
  have := (List.getElem?_eq_some_iff.1 hd).1
  omega

/-! ## The tests and examples of the repository -/

open TB.Rust.Code

/-- The variants with at least two unnamed fields have the layout C gives them: needed for `from_tagged_box` (C30). -/
def TuplesAsC (env : Env) (rc : Rustc) (decl : List VariantDef) : Prop := ∀ e, LaidOut env rc decl e

/-- The code passes: it finishes, or the allocator failed. -/
def Passes (s : State) (o : Out Unit) : Prop := (∃ s', o = .ret () s') ∨ ∃ k s', o = .panic k s' ∧ NullBetween s s'

theorem tests_metas : ∀ m ∈ testsMetas, IsMeta m := by
  intro m hm
  cases List.mem_singleton.1 hm
  rfl

theorem quick_metas : ∀ m ∈ quickMetas, IsMeta m := by
  intro m hm
  cases List.mem_singleton.1 hm
  rfl

theorem second_metas : ∀ m ∈ secondMetas, IsMeta m := by
  intro m hm
  cases List.mem_singleton.1 hm
  rfl

/-- **C90**, the tests. `tests/tagged_box_macro.rs`, from its text: the file is one invocation of `tagged_box!` and five tests, the same as in `src/taggable.rs`, and if the invocation is accepted and its four variants
fit the discriminant, then every test passes in every state of the heap; `inner_from_tagged_box` only if the tuple of the fields of `ManyTuple` is laid out as in C (`C90_layout`). -/
theorem C90_tests : ∃ metas toks decl tests, userFile testsText = some (invocation metas [] "Container" [] "Item" toks, tests) ∧
    userTestsIn taggableText = userFile testsText ∧
    tests.map (·.name) = ["container_into_inner", "inner_into_tagged_box", "inner_from_tagged_box", "inner_ref_from_tagged_box", "wrapped_refs_from_tagged_box"] ∧
    ∀ (env : Env) (rc : Rustc) (users : ∀ β : Type, User (Host β)) (G : Programs) (L : Lits), Declared env rc "Container" "Item" false toks decl →
      AreProgram env rc metas [] "Container" [] "Item" false toks users G → 4 ≤ 2 ^ env.cfg.DISCRIMINANT_BITS → env.InRange → LitsOK rc L → Usual L →
      ∀ f ∈ tests, (f.name = "inner_from_tagged_box" → TuplesAsC env rc decl) → ∀ s, HeapInv env s →
        Passes s (runUser L decl (crateIface env rc G "Container" "Item") "Container" "Item" f.body s) := by
  refine ⟨testsMetas, testsToks, testsDecl, userTests, file_source, taggable_source.trans file_source.symm, rfl, ?_⟩
  intro env rc users G L h hG hlen ho hL hU f hf hc s hi
  have go : ∀ readable : EVal → Bool, (∀ e, readable e = true → LaidOut env rc testsDecl e) →
      runUser L testsDecl (plainIface readable fun _ => true) "Container" "Item" f.body = .ok () →
      Passes s (runUser L testsDecl (crateIface env rc G "Container" "Item") "Container" "Item" f.body s) := by
    intro readable hr hrun
    have := C90 (storable := fun _ => true) h tests_metas (.inl rfl) (.inl rfl) hG (fun e _ => fits_all (decl := testsDecl) hlen e) ho hr hL f.body s hi
    rw [hrun] at this
    exact this
  have hm : ∀ e : EVal, (e.variant != "ManyTuple") = true → LaidOut env rc testsDecl e := by
    intro e he d hd hn tys ht hl
    simp only [testsDecl, List.mem_cons, List.not_mem_nil, or_false] at hd
    rcases hd with rfl | rfl | rfl | rfl
    · cases ht; simp at hl
    · rw [← hn] at he; simp at he
    · cases ht
    · cases ht
  simp only [userTests, List.mem_cons, List.not_mem_nil, or_false] at hf
  rcases hf with rfl | rfl | rfl | rfl | rfl
  · exact go _ hm (run1 _ hU)
  · exact go _ hm (run2 _ hU)
  · exact go (fun _ => true) (fun e _ => hc rfl e) (run3 _ hU fun _ => rfl)
  · exact go _ hm (run4 _ hU)
  · exact go _ hm (run5 _ hU fun e he => by simpa using he)

/-- **C90**, the examples. The example in the documentation of the crate (`src/lib.rs:34-75`) is the only one there that uses the macro, and the same as in `README.md`; it passes. Of the examples of `tagged_box!`
(`src/tagged_box_macro/mod.rs`), the first consists of an invocation only; the second passes. -/
theorem C90_examples : ∃ metas toks decl code metas' toks' decl' code' first,
    (innerBlocks libText none).filterMap userExample = [(invocation metas [.atom (.ident "pub")] "Container" [.atom (.ident "pub")] "Item" toks, code)] ∧
    (fencedBlocks readmeText none).filterMap userExample = (innerBlocks libText none).filterMap userExample ∧
    (docBlocks modText none).filterMap userExample = [(first, []), (invocation metas' [] "Container" [] "Item" toks', code')] ∧
    ∀ (env : Env) (rc : Rustc) (users : ∀ β : Type, User (Host β)) (G : Programs) (L : Lits), 4 ≤ 2 ^ env.cfg.DISCRIMINANT_BITS → env.InRange → LitsOK rc L → Usual L →
      (Declared env rc "Container" "Item" false toks decl →
        AreProgram env rc metas [.atom (.ident "pub")] "Container" [.atom (.ident "pub")] "Item" false toks users G → ∀ s, HeapInv env s →
        Passes s (runUser L decl (crateIface env rc G "Container" "Item") "Container" "Item" code s)) ∧
      (Declared env rc "Container" "Item" false toks' decl' → AreProgram env rc metas' [] "Container" [] "Item" false toks' users G → ∀ s, HeapInv env s →
        Passes s (runUser L decl' (crateIface env rc G "Container" "Item") "Container" "Item" code' s)) := by
  refine ⟨quickMetas, quickToks, quickDecl, quickCode, secondMetas, secondToks, secondDecl, secondCode, firstInput, quickstart_source, readme_source.trans quickstart_source.symm, macro_source, ?_⟩
  intro env rc users G L hlen ho hL hU
  refine ⟨fun h hG s hi => ?_, fun h hG s hi => ?_⟩
  · have := C90 (readable := fun _ => false) (storable := fun _ => true) h quick_metas (.inr (.inl rfl)) (.inr (.inl rfl)) hG (fun e _ => fits_all (decl := quickDecl) hlen e) ho (fun _ hr => by cases hr) hL quickCode s hi
    rw [run6 _ hU] at this
    exact this
  · have := C90 (readable := fun _ => false) (storable := fun _ => true) h second_metas (.inl rfl) (.inl rfl) hG (fun e _ => fits_all (Nat.le_trans (by decide) hlen) e) ho (fun _ hr => by cases hr) hL secondCode s hi
    rw [run7 _ hU] at this
    exact this

theorem storage_metas : ∀ m ∈ storageMetas, IsMeta m := by
  intro m hm
  cases List.mem_singleton.1 hm
  rfl

/-- **C90**, the test `storage` of `src/tagged_box.rs`, from its text. It has ten variants, of which it uses the first eight (arrays, vectors and a structure of the user among their types):
it passes in every state of the heap if eight variants fit the discriminant. -/
theorem C90_storage : ∃ metas toks decl code, userTestFn "storage" boxText = some (invocation metas [] "Outer" [] "Inner" toks, code) ∧ decl.length = 10 ∧
    ∀ (env : Env) (rc : Rustc) (users : ∀ β : Type, User (Host β)) (G : Programs) (L : Lits), Declared env rc "Outer" "Inner" false toks decl →
      AreProgram env rc metas [] "Outer" [] "Inner" false toks users G → 8 ≤ 2 ^ env.cfg.DISCRIMINANT_BITS → env.InRange → LitsOK rc L → Usual L → UsualStorage L →
      ∀ s, HeapInv env s → Passes s (runUser L decl (crateIface env rc G "Outer" "Inner") "Outer" "Inner" code s) := by
  refine ⟨storageMetas, storageToks, storageDecl, storageCode, storage_source, rfl, ?_⟩
  intro env rc users G L h hG hlen ho hL hU hS s hi
  have hfit : ∀ e, usedInStorage e = true → Fits env storageDecl e := by
    intro e he i d hd hn
    have hi : i < 10 := (List.getElem?_eq_some_iff.1 hd).1
    by_cases h8 : i = 8
    · subst h8; cases hd; rw [usedInStorage, ← hn] at he; exact absurd he (by decide)
    by_cases h9 : i = 9
    · subst h9; cases hd; rw [usedInStorage, ← hn] at he; exact absurd he (by decide)
    omega
  have := C90 (readable := fun _ => false) h storage_metas (.inl rfl) (.inl rfl) hG hfit ho (fun _ hr => by cases hr) hL storageCode s hi
  rw [run8 _ hU hS] at this
  exact this

/-! ## Non-vacuity, and what happens with the layout of tuples that rustc uses -/

/-- A compiler that knows the types of the tests and examples. -/
def rcUser : Rustc :=
  { rcWords with
    parseTy := fun
      | .ident h :: .other "<" :: .ident x :: .other ">" :: _ => .ok (.app h [.named x]) 3
      | .ident s :: _ => .ok (.named s) 0
      | .group .bracket [.ident s, .other ";", .other n] :: _ => .ok (.named ("[" ++ s ++ "; " ++ n ++ "]")) 0
      | _ => .noStart
    leaf := fun t => match t with
      | .named "usize" => u64L
      | .named "f32" => intLeaf 7 4
      | .named "[u8; 8]" => ⟨9, 8, 1, fun bs => bs.all (·.isSome), false⟩
      | .app "Vec" _ => ⟨10, 24, 8, fun bs => bs.all (·.isSome), true⟩
      | .named "CustomStruct" => ⟨11, 16, 8, fun bs => (bs.take 9).all (·.isSome), false⟩
      | .named "String" => ⟨8, 24, 8, fun bs => bs.all (·.isSome), true⟩
      | t => rcDemo.leaf t
    isCopy := fun t => match t with
      | .named "String" => false
      | .app "Vec" _ => false
      | t => rcDemo.isCopy t }

theorem rcUser_ok : rcUser.OK where
  leaf_wf t := by
    simp only [rcUser]
    split
    · exact u64L_wf
    · exact ⟨⟨2, by omega, rfl⟩, Nat.dvd_refl _⟩
    · exact ⟨⟨0, by omega, rfl⟩, by decide⟩
    · exact ⟨⟨3, by omega, rfl⟩, by decide⟩
    · exact ⟨⟨3, by omega, rfl⟩, by decide⟩
    · exact ⟨⟨3, by omega, rfl⟩, by decide⟩
    · exact rcDemo_ok.leaf_wf t
  copy_no_drop t h := by
    by_cases h1 : t = .named "usize"
    · rw [h1]; rfl
    by_cases h2 : t = .named "f32"
    · rw [h2]; rfl
    by_cases h3 : t = .named "String"
    · rw [h3] at h; cases h
    by_cases h4 : t = .named "[u8; 8]"
    · rw [h4]; rfl
    by_cases h5 : t = .named "CustomStruct"
    · rw [h5]; rfl
    by_cases h6 : ∃ as, t = .app "Vec" as
    · obtain ⟨as, h6⟩ := h6
      rw [h6] at h; cases h
    have h6 : ∀ as, t ≠ .app "Vec" as := fun as e => h6 ⟨as, e⟩
    have e1 : rcUser.leaf t = rcDemo.leaf t := by
      simp only [rcUser]
    have e2 : rcUser.isCopy t = rcDemo.isCopy t := by
      simp only [rcUser]
    rw [e1]
    rw [e2] at h
    exact rcDemo_ok.copy_no_drop t h

/-- The number with the given bytes. -/
def unle : Bytes → Nat
  | [] => 0
  | b :: bs => (b.getD 0).toNat + 256 * unle bs

/-- Literals for that compiler: numbers are little-endian; floating-point numbers, strings, arrays and vectors are represented by their length. -/
def litsUser : Lits where
  enc t p := match t, p with
    | .named "usize", .num q n => if (q = none ∨ q = some "usize") ∧ n ≤ 2 ^ 64 - 1 then some (Replay.le 8 n) else none
    | .named "u32", .num q n => if (q = none ∨ q = some "u32") ∧ n ≤ 2 ^ 32 - 1 then some (Replay.le 4 n) else none
    | .named "i32", .num q n => if (q = none ∨ q = some "i32") ∧ n ≤ 2 ^ 31 - 1 then some (Replay.le 4 n) else none
    | .named "u8", .num q n => if (q = none ∨ q = some "u8") ∧ n ≤ 255 then some (Replay.le 1 n) else none
    | .named "f32", .float a b => some (Replay.le 4 (a.length + (b.toList.takeWhile isDigit).length))
    | .named "bool", .bool b => some (Replay.le 1 b.toNat)
    | .named "String", .text t => some (Replay.le 24 t.length)
    | .named "[u8; 8]", .list false ps => if ps.length = 8 then some (Replay.le 8 ps.length) else none
    | .app "Vec" [.named "u8"], .list true ps => some (Replay.le 24 ps.length)
    | .named "CustomStruct", .record "CustomStruct" [("int", .num none n), ("boolean", .bool b)] => some (Replay.le 8 n ++ Replay.le 8 b.toNat)
    | _, _ => none
  eq _ a b := a == b
  cmp _ a b := some (compare (unle a) (unle b))
  max _ := 2 ^ 64 - 1

theorem le_succ (k n : Nat) : Replay.le (k + 1) n = some (BitVec.ofNat 8 n) :: Replay.le k (n / 256) := by
  simp only [Replay.le, List.range_succ_eq_map, List.map_cons, List.map_map, Nat.pow_zero, Nat.div_one]
  congr 1
  refine List.map_congr_left fun i _ => ?_
  simp only [Function.comp, Nat.pow_succ', Nat.div_div_eq_div_mul]

theorem unle_le (k : Nat) : ∀ n, n < 256 ^ k → unle (Replay.le k n) = n := by
  induction k with
  | zero => intro n h; simp only [Nat.pow_zero] at h; show 0 = n; omega
  | succ k ih =>
    intro n h
    rw [le_succ, unle, ih (n / 256) (by rw [Nat.pow_succ'] at h; exact Nat.div_lt_of_lt_mul h)]
    simp only [Option.getD_some, BitVec.toNat_ofNat]
    omega

theorem le_length (k n : Nat) : (Replay.le k n).length = k := by simp [Replay.le]
theorem le_some (k n : Nat) : (Replay.le k n).all (·.isSome) = true := by simp [Replay.le]

theorem le_integers {k m n i : Nat} (hn : n ≤ m) (hi : i ≤ m) (hm : m < 256 ^ k) :
    (Replay.le k n == Replay.le k i) = (n == i) ∧ (some (compare (unle (Replay.le k n)) (unle (Replay.le k i)))) = some (compare n i) := by
  rw [unle_le k n (by omega), unle_le k i (by omega)]
  refine ⟨?_, rfl⟩
  by_cases h : n = i
  · rw [h]; simp
  · have : Replay.le k n ≠ Replay.le k i := fun e => h (by rw [← unle_le k n (by omega), e, unle_le k i (by omega)])
    rw [beq_eq_false_iff_ne.2 this, beq_eq_false_iff_ne.2 h]

theorem litsUser_usual : Usual litsUser where
  usize := ⟨⟨Replay.le 8, fun n hn => ⟨by simp [litsUser] at hn ⊢; omega, by simp [litsUser] at hn ⊢; omega, fun i hi => le_integers hn hi (by decide)⟩⟩, by decide⟩
  u32 := ⟨Replay.le 4, fun n hn => ⟨by simp [litsUser]; omega, by simp [litsUser]; omega, fun i hi => le_integers hn hi (by decide)⟩⟩
  i32 := ⟨Replay.le 4, fun n hn => ⟨by simp [litsUser]; omega, by simp [litsUser]; omega, fun i hi => le_integers hn hi (by decide)⟩⟩
  f32 := ⟨fun a b => Replay.le 4 (a.length + (b.toList.takeWhile isDigit).length), fun a b => ⟨rfl, by simp [litsUser]⟩⟩
  bool := ⟨fun b => Replay.le 1 b.toNat, fun b => ⟨rfl, by simp [litsUser]⟩⟩
  string := ⟨fun t => Replay.le 24 t.length, fun t => ⟨rfl, by simp [litsUser]⟩⟩
  typed := fun t => ⟨rfl, rfl⟩

theorem litsUser_storage : UsualStorage litsUser where
  usize := by decide
  u8 := ⟨Replay.le 1, fun n hn => ⟨by simp [litsUser]; omega, by simp [litsUser]; omega, fun i hi => le_integers hn hi (by decide)⟩⟩
  suffix a b hb := by
    have hself : b.toList.takeWhile isDigit = b.toList := by
      have := List.takeWhile_append_of_pos (l₂ := []) (p := isDigit) (l₁ := b.toList) (by simpa using hb)
      simpa using this
    have h : (b ++ "f32").toList.takeWhile isDigit = b.toList.takeWhile isDigit := by
      rw [String.toList_append, List.takeWhile_append_of_pos (by simpa using hb), show "f32".toList.takeWhile isDigit = [] from by decide, List.append_nil,
        hself]
    simp only [litsUser, h]
  array := ⟨fun ns => Replay.le 8 ns.length, fun ns hn _ => ⟨by simp [litsUser, hn], by simp [litsUser]⟩⟩
  vector := ⟨fun ns => Replay.le 24 ns.length, fun ns _ => ⟨by simp [litsUser], by simp [litsUser]⟩⟩
  custom := ⟨fun n b => Replay.le 8 n ++ Replay.le 8 b.toNat, fun n _ b => ⟨rfl, by simp [litsUser]⟩⟩
  onlyF32 p b h := by cases p <;> first | exact ⟨_, _, rfl⟩ | cases h
  onlyI32 p b h := by
    cases p with
    | num t n =>
      refine ⟨t, n, rfl, ?_⟩
      simp only [litsUser] at h
      split at h
      · rename_i h'; exact h'.1
      · cases h
    | _ => cases h
  onlyU8 p b h := by
    cases p with
    | num t n =>
      refine ⟨t, n, rfl, ?_⟩
      simp only [litsUser] at h
      split at h
      · rename_i h'; exact h'.1
      · cases h
    | _ => cases h
  onlyBool p b h := by cases p <;> first | exact ⟨_, rfl⟩ | cases h
  onlyArray p b h := by
    cases p with
    | list v ps => cases v with
      | false => exact ⟨ps, rfl⟩
      | true => cases h
    | _ => cases h
  onlyVector p b h := by
    cases p with
    | list v ps => cases v with
      | true => exact ⟨ps, rfl⟩
      | false => cases h
    | _ => cases h

theorem litsUser_ok : LitsOK rcUser litsUser := by
  intro t p b h
  simp only [litsUser] at h
  split at h
  · split at h <;> cases h; exact ⟨le_length _ _, le_some _ _⟩
  · split at h <;> cases h; exact ⟨le_length _ _, le_some _ _⟩
  · split at h <;> cases h; exact ⟨le_length _ _, le_some _ _⟩
  · split at h <;> cases h; exact ⟨le_length _ _, le_some _ _⟩
  · cases h; exact ⟨le_length _ _, le_some _ _⟩
  · rename_i c; cases h; cases c <;> exact ⟨rfl, by decide⟩
  · cases h; exact ⟨le_length _ _, le_some _ _⟩
  · split at h <;> cases h; exact ⟨le_length _ _, le_some _ _⟩
  · cases h; exact ⟨le_length _ _, le_some _ _⟩
  · rename_i n c
    cases h
    refine ⟨by simp [le_length, rcUser], ?_⟩
    show ((Replay.le 8 n ++ Replay.le 8 c.toNat).take 9).all (·.isSome) = true
    refine List.all_eq_true.2 fun x hx => ?_
    rcases List.mem_append.1 (List.mem_of_mem_take hx) with h | h
    · exact List.all_eq_true.1 (le_some 8 n) x h
    · exact List.all_eq_true.1 (le_some 8 c.toNat) x h
  · cases h

/-- The test, with functions that behave as given. -/
theorem run3_ub (A : Iface M TBox) (w1 w2 : TBox) (t1 t2 : State) (h1 : A.into ⟨"SingleTuple", .tuple [Replay.le 8 (2 ^ 64 - 1)]⟩ state0 = .ret w1 t1)
    (h2 : A.read w1 t1 = .ret ⟨"SingleTuple", .tuple [Replay.le 8 (2 ^ 64 - 1)]⟩ t1)
    (h3 : A.into ⟨"ManyTuple", .tuple [Replay.le 8 12200, Replay.le 8 23300, Replay.le 4 9, Replay.le 8 34400]⟩ t1 = .ret w2 t2)
    (h4 : A.read w2 t2 = .ub .badValue) : runUser litsUser testsDecl A "Container" "Item" user_inner_from_tagged_box.body state0 = .ub .badValue := by
  obtain ⟨_, _, _, _, _, _, _, n8, n9, n10, n11, _⟩ := nums
  have hp : ∀ {α : Type} (a : α) (s : State), (pure a : M α) s = .ret a s := fun _ _ => rfl
  have hb : ∀ {α β : Type} (a : α) (f : α → M β), (pure a >>= f) = f a := fun _ _ => rfl
  have c : (9 : Nat) = "500".length + (['1', '0', '0', '0', '0', '5'].takeWhile isDigit).length := by decide
  rw [c] at h3
  simp [runUser, user_inner_from_tagged_box, ustmts, uev, uevs, callUV, methodUV, structUV, eqUV, binUV, cmpUV, litUV, nameUV, prims, orStuck, tupleItem, recordItem, unitItem, pickPrims,
    findFrom, encAll, testsDecl, eqItem, eqFields, lookupDef, lookup, litsUser, M.bind_def, hp, hb, n8, n9, n10, n11, h1, h2, h3, h4]

/-- The setting with one bit for the discriminant. -/
def cfg63 : Config := ⟨"tagged_box_reserve_63bits", 8, 1, 63, 1⟩

/-- The invocation of the tests is accepted, whatever the layout of tuples. -/
theorem tests_declared {env : Env} (hok : env.OK) (hc : env.cfg = cfg60 ∨ env.cfg = cfg63) : Declared env rcUser "Container" "Item" false testsToks testsDecl where
  target := hok
  rustc := rcUser_ok
  keywords := fun x hx => List.contains_iff_mem.2 hx
  tokens := .cons (.tuple (.one ⟨by simp, 0, rfl, rfl⟩))
    (.cons (.tuple (.cons ⟨by simp, 0, rfl, rfl⟩ (.cons ⟨by simp, 0, rfl, rfl⟩ (.cons ⟨by simp, 0, rfl, rfl⟩ (.one ⟨by simp, 0, rfl, rfl⟩)))))
      (.cons .unit (.cons (.record (.cons ⟨_, rfl, by simp, 0, rfl, rfl⟩ (.oneTrailing ⟨_, rfl, by simp, 0, rfl, rfl⟩))) .nil)))
  accepted := by
    have hx : ∀ c, c = cfg60 ∨ c = cfg63 → Compiled rcUser c "Container" "Item" false testsToks testsDecl (programOf "Container" "Item" false testsDecl) := fun c hc =>
      ⟨.cons (.tuple (.one ⟨by simp, 0, rfl, rfl⟩))
        (.cons (.tuple (.cons ⟨by simp, 0, rfl, rfl⟩ (.cons ⟨by simp, 0, rfl, rfl⟩ (.cons ⟨by simp, 0, rfl, rfl⟩ (.one ⟨by simp, 0, rfl, rfl⟩)))))
          (.cons .unit (.cons (.record (.cons ⟨_, rfl, by simp, 0, rfl, rfl⟩ (.oneTrailing ⟨_, rfl, by simp, 0, rfl, rfl⟩))) .nil))), by rcases hc with rfl | rfl <;> rfl⟩
    exact (hx _ hc).wf.1
  sizes := by
    intro d hd sh hs
    simp only [testsDecl, List.mem_cons, List.not_mem_nil, or_false] at hd
    rcases hd with rfl | rfl | rfl | rfl <;> cases hs <;> decide

def usersUser (decl : List VariantDef) (β : Type) : User (Host β) := { usersMix β with drop := hostDrop rcUser false decl }

/-- All hypotheses of `C90_tests` can be met, with a layout of tuples as in C. -/
example (b : Bool) : ∃ G, Declared (env60 b) rcUser "Container" "Item" false testsToks testsDecl ∧
    AreProgram (env60 b) rcUser testsMetas [] "Container" [] "Item" false testsToks (usersUser testsDecl) G ∧ 4 ≤ 2 ^ (env60 b).cfg.DISCRIMINANT_BITS ∧ (env60 b).InRange ∧
    LitsOK rcUser litsUser ∧ Usual litsUser ∧ TuplesAsC (env60 b) rcUser testsDecl ∧ HeapInv (env60 b) state0 := by
  have h := tests_declared (env60_ok b) (.inl rfl)
  obtain ⟨G, hG, _⟩ := C85_program h tests_metas (.inl rfl) (.inl rfl) (usersUser testsDecl) (fun _ => rfl)
  exact ⟨G, h, hG, by cases b <;> decide, env60_inRange b, litsUser_ok, litsUser_usual, fun _ _ _ _ _ _ _ => by cases b <;> rfl, state0_inv _⟩

/-- The invocation of the test `storage` is accepted. -/
theorem storage_declared (b : Bool) : Declared (env60 b) rcUser "Outer" "Inner" false storageToks storageDecl where
  target := env60_ok b
  rustc := rcUser_ok
  keywords := fun x hx => List.contains_iff_mem.2 hx
  tokens := .cons (.tuple (.one ⟨by simp, 0, rfl, rfl⟩)) (.cons (.tuple (.one ⟨by simp, 0, rfl, rfl⟩)) (.cons (.tuple (.one ⟨by simp, 0, rfl, rfl⟩)) (.cons .unit
    (.cons (.tuple (.one ⟨by simp, 0, rfl, rfl⟩)) (.cons (.tuple (.one ⟨by simp, 0, rfl, rfl⟩)) (.cons (.tuple (.one ⟨by simp, 3, rfl, rfl⟩)) (.cons (.tuple (.one ⟨by simp, 0, rfl, rfl⟩))
    (.cons (.record (.cons ⟨_, rfl, by simp, 0, rfl, rfl⟩ (.oneTrailing ⟨_, rfl, by simp, 0, rfl, rfl⟩)))
    (.cons (.record (.cons ⟨_, rfl, by simp, 0, rfl, rfl⟩ (.one ⟨_, rfl, by simp, 0, rfl, rfl⟩))) .nil)))))))))
  accepted := by
    have hx : Compiled rcUser (env60 b).cfg "Outer" "Inner" false storageToks storageDecl (programOf "Outer" "Inner" false storageDecl) := ⟨.cons (.tuple (.one ⟨by simp, 0, rfl, rfl⟩)) (.cons (.tuple (.one ⟨by simp, 0, rfl, rfl⟩)) (.cons (.tuple (.one ⟨by simp, 0, rfl, rfl⟩)) (.cons .unit
    (.cons (.tuple (.one ⟨by simp, 0, rfl, rfl⟩)) (.cons (.tuple (.one ⟨by simp, 0, rfl, rfl⟩)) (.cons (.tuple (.one ⟨by simp, 3, rfl, rfl⟩)) (.cons (.tuple (.one ⟨by simp, 0, rfl, rfl⟩))
    (.cons (.record (.cons ⟨_, rfl, by simp, 0, rfl, rfl⟩ (.oneTrailing ⟨_, rfl, by simp, 0, rfl, rfl⟩)))
    (.cons (.record (.cons ⟨_, rfl, by simp, 0, rfl, rfl⟩ (.one ⟨_, rfl, by simp, 0, rfl, rfl⟩))) .nil))))))))), by rfl⟩
    exact hx.wf.1
  sizes := by
    intro d hd sh hs
    simp only [storageDecl, List.mem_cons, List.not_mem_nil, or_false] at hd
    rcases hd with rfl | rfl | rfl | rfl | rfl | rfl | rfl | rfl | rfl | rfl <;> cases hs <;> decide

/-- All hypotheses of `C90_storage` can be met. -/
example (b : Bool) : ∃ G, Declared (env60 b) rcUser "Outer" "Inner" false storageToks storageDecl ∧
    AreProgram (env60 b) rcUser storageMetas [] "Outer" [] "Inner" false storageToks (usersUser storageDecl) G ∧ 8 ≤ 2 ^ (env60 b).cfg.DISCRIMINANT_BITS ∧ (env60 b).InRange ∧
    LitsOK rcUser litsUser ∧ Usual litsUser ∧ UsualStorage litsUser ∧ HeapInv (env60 b) state0 := by
  have h := storage_declared b
  obtain ⟨G, hG, _⟩ := C85_program h storage_metas (.inl rfl) (.inl rfl) (usersUser storageDecl) (fun _ => rfl)
  exact ⟨G, h, hG, by cases b <;> decide, env60_inRange b, litsUser_ok, litsUser_usual, litsUser_storage, state0_inv _⟩

/-- **C90**, the layout. With the layout rustc chooses for `(usize, usize, f32, usize)` (the fields sorted by alignment), the test `inner_from_tagged_box` of the repository is undefined
behaviour, although it has no `unsafe` block: the fourth number is read from the bytes of the third, which has padding behind it. -/
theorem C90_layout (b : Bool) : ∃ f ∈ userTests, f.name = "inner_from_tagged_box" ∧
    ∃ G, Declared (Replay.envR b) rcUser "Container" "Item" false testsToks testsDecl ∧
    AreProgram (Replay.envR b) rcUser testsMetas [] "Container" [] "Item" false testsToks (usersUser testsDecl) G ∧
    runUser litsUser testsDecl (crateIface (Replay.envR b) rcUser G "Container" "Item") "Container" "Item" f.body state0 = .ub .badValue := by
  have h := tests_declared (Replay.envR_ok b) (.inl rfl)
  obtain ⟨G, hG, _⟩ := C85_program h tests_metas (.inl rfl) (.inl rfl) (usersUser testsDecl) (fun _ => rfl)
  refine ⟨user_inner_from_tagged_box, by simp [userTests], rfl, G, h, hG, ?_⟩
  have hP : IsProgram (Replay.envR b) rcUser (usersUser testsDecl Unit) testsMetas [] "Container" [] "Item" false testsToks (fun _ => pure ()) (someProgram G) := hG Unit _
  have hM := C82_model h tests_metas (.inl rfl) (.inl rfl) hP
  generalize hP' : programOf "Container" "Item" false testsDecl = P at hM
  have hread : ∀ w s, (crateIface (Replay.envR b) rcUser G "Container" "Item").read w s =
      outcome (toEnum (β := Unit)) (XOut.of enumV (fun _ => noVariantToCreate (Replay.envR b).cfg "Item" testsDecl.length (w.discriminant (Replay.envR b)).toNat) [] (fromTaggedBox (Replay.envR b) rcUser P w s)) := by
    intro w s
    show outcome toEnum _ = _
    rw [hM.2.2.2.1]
  have hinto : ∀ i e s, IsValue rcUser testsDecl i e → (crateIface (Replay.envR b) rcUser G "Container" "Item").into e s = intoTaggedBox (Replay.envR b) rcUser P e s := by
    intro i e s hv
    show (linked G "Item").intoTaggedBox e s = _
    rw [linked_into h tests_metas (.inl rfl) (.inl rfl) hG ⟨i, hv⟩, ← hP']
    rfl
  have hv1 : IsValue rcUser testsDecl 0 ⟨"SingleTuple", .tuple [Replay.le 8 (2 ^ 64 - 1)]⟩ := ⟨_, rfl, rfl, ⟨rfl, by decide⟩, trivial⟩
  have hv2 : IsValue rcUser testsDecl 1 ⟨"ManyTuple", .tuple [Replay.le 8 12200, Replay.le 8 23300, Replay.le 4 9, Replay.le 8 34400]⟩ :=
    ⟨_, rfl, rfl, ⟨rfl, by decide⟩, ⟨rfl, by decide⟩, ⟨rfl, by decide⟩, ⟨rfl, by decide⟩, trivial⟩
  have hrun : ∃ w1 t1 w2 t2, intoTaggedBox (Replay.envR b) rcUser P ⟨"SingleTuple", .tuple [Replay.le 8 (2 ^ 64 - 1)]⟩ state0 = .ret w1 t1 ∧
      fromTaggedBox (Replay.envR b) rcUser P w1 t1 = .ret ⟨"SingleTuple", .tuple [Replay.le 8 (2 ^ 64 - 1)]⟩ t1 ∧
      intoTaggedBox (Replay.envR b) rcUser P ⟨"ManyTuple", .tuple [Replay.le 8 12200, Replay.le 8 23300, Replay.le 4 9, Replay.le 8 34400]⟩ t1 = .ret w2 t2 ∧
      fromTaggedBox (Replay.envR b) rcUser P w2 t2 = .ub .badValue := by
    subst hP'
    cases b <;> exact ⟨_, _, _, _, rfl, rfl, rfl, rfl⟩
  obtain ⟨w1, t1, w2, t2, r1, r2, r3, r4⟩ := hrun
  refine run3_ub _ w1 w2 t1 t2 ?_ ?_ ?_ ?_
  · rw [hinto 0 _ _ hv1, r1]
  · rw [hread, r2]; rfl
  · rw [hinto 1 _ _ hv2, r3]
  · rw [hread, r4]; rfl

/-- The test `inner_into_tagged_box`, with functions that behave as given. -/
theorem run2_ub (A : Iface M TBox) (w1 w2 w3 : TBox) (t1 t2 t3 : State) (h1 : A.into ⟨"SingleTuple", .tuple [Replay.le 8 (2 ^ 64 - 1)]⟩ state0 = .ret w1 t1)
    (h2 : A.inner w1 t1 = .ret ⟨"SingleTuple", .tuple [Replay.le 8 (2 ^ 64 - 1)]⟩ t1)
    (h3 : A.into ⟨"ManyTuple", .tuple [Replay.le 8 100, Replay.le 8 200, Replay.le 4 8, Replay.le 8 300]⟩ t1 = .ret w2 t2)
    (h4 : A.inner w2 t2 = .ret ⟨"ManyTuple", .tuple [Replay.le 8 100, Replay.le 8 200, Replay.le 4 8, Replay.le 8 300]⟩ t2)
    (h5 : A.into ⟨"Unit", .unit⟩ t2 = .ret w3 t3) (h6 : A.inner w3 t3 = .ub .badPointer) :
    runUser litsUser testsDecl A "Container" "Item" user_inner_into_tagged_box.body state0 = .ub .badPointer := by
  obtain ⟨n1, n2, n3, _⟩ := nums
  have hp : ∀ {α : Type} (a : α) (s : State), (pure a : M α) s = .ret a s := fun _ _ => rfl
  have hb : ∀ {α β : Type} (a : α) (f : α → M β), (pure a >>= f) = f a := fun _ _ => rfl
  have c : (8 : Nat) = "50".length + "100005".length := rfl
  have h3 := h3
  have h4 := h4
  rw [show Replay.le 4 8 = Replay.le 4 ("50".length + (['1', '0', '0', '0', '0', '5'].takeWhile isDigit).length) from by decide] at h3 h4
  simp [runUser, user_inner_into_tagged_box, ustmts, uev, uevs, callUV, methodUV, structUV, eqUV, binUV, cmpUV, litUV, nameUV, prims, orStuck, tupleItem, recordItem, unitItem, pickPrims,
    findFrom, encAll, testsDecl, eqItem, eqFields, lookupDef, lookup, litsUser, M.bind_def, hp, hb, n1, n2, n3, h1, h2, h3, h4, h5, h6]

def env63 (b : Bool) : Env := demoEnv cfg63 b reprC

/-- **C90**, too many variants. With 63 bits reserved, the invocation of the tests is accepted, in debug and release builds, although its four variants do not fit the discriminant;
and the test `inner_into_tagged_box` is undefined behaviour, without an `unsafe` block: `Unit`, number 2, is stored as number 0, and read back as `SingleTuple`. -/
theorem C90_narrow (b : Bool) : ∃ f ∈ userTests, f.name = "inner_into_tagged_box" ∧
    ∃ G, Declared (env63 b) rcUser "Container" "Item" false testsToks testsDecl ∧
    AreProgram (env63 b) rcUser testsMetas [] "Container" [] "Item" false testsToks (usersUser testsDecl) G ∧
    runUser litsUser testsDecl (crateIface (env63 b) rcUser G "Container" "Item") "Container" "Item" f.body state0 = .ub .badPointer := by
  have h := tests_declared (env := env63 b) (demoEnv_ok (by decide) b fun ls h => ⟨reprC_wf h, reprC_fields ls⟩) (.inr rfl)
  obtain ⟨G, hG, _⟩ := C85_program h tests_metas (.inl rfl) (.inl rfl) (usersUser testsDecl) (fun _ => rfl)
  refine ⟨user_inner_into_tagged_box, by simp [userTests], rfl, G, h, hG, ?_⟩
  have hP : IsProgram (env63 b) rcUser (usersUser testsDecl Unit) testsMetas [] "Container" [] "Item" false testsToks (fun _ => pure ()) (someProgram G) := hG Unit _
  have hM := C82_model h tests_metas (.inl rfl) (.inl rfl) hP
  generalize hP' : programOf "Container" "Item" false testsDecl = P at hM
  have hinner : ∀ w s, (crateIface (env63 b) rcUser G "Container" "Item").inner w s =
      outcome (toEnum (β := Unit)) (XOut.of enumV (fun _ => noVariantInside) [] (containerIntoInner (env63 b) rcUser P w s)) := by
    intro w s
    show outcome toEnum _ = _
    rw [hM.2.2.1]
  have hinto : ∀ i e s, IsValue rcUser testsDecl i e → (crateIface (env63 b) rcUser G "Container" "Item").into e s = intoTaggedBox (env63 b) rcUser P e s := by
    intro i e s hv
    show (linked G "Item").intoTaggedBox e s = _
    rw [linked_into h tests_metas (.inl rfl) (.inl rfl) hG ⟨i, hv⟩, ← hP']
    rfl
  have hv1 : IsValue rcUser testsDecl 0 ⟨"SingleTuple", .tuple [Replay.le 8 (2 ^ 64 - 1)]⟩ := ⟨_, rfl, rfl, ⟨rfl, by decide⟩, trivial⟩
  have hv2 : IsValue rcUser testsDecl 1 ⟨"ManyTuple", .tuple [Replay.le 8 100, Replay.le 8 200, Replay.le 4 8, Replay.le 8 300]⟩ :=
    ⟨_, rfl, rfl, ⟨rfl, by decide⟩, ⟨rfl, by decide⟩, ⟨rfl, by decide⟩, ⟨rfl, by decide⟩, trivial⟩
  have hv3 : IsValue rcUser testsDecl 2 ⟨"Unit", .unit⟩ := ⟨_, rfl, rfl, trivial⟩
  have hrun : ∃ w1 t1 w2 t2 w3 t3, intoTaggedBox (env63 b) rcUser P ⟨"SingleTuple", .tuple [Replay.le 8 (2 ^ 64 - 1)]⟩ state0 = .ret w1 t1 ∧
      containerIntoInner (env63 b) rcUser P w1 t1 = .ret ⟨"SingleTuple", .tuple [Replay.le 8 (2 ^ 64 - 1)]⟩ t1 ∧
      intoTaggedBox (env63 b) rcUser P ⟨"ManyTuple", .tuple [Replay.le 8 100, Replay.le 8 200, Replay.le 4 8, Replay.le 8 300]⟩ t1 = .ret w2 t2 ∧
      containerIntoInner (env63 b) rcUser P w2 t2 = .ret ⟨"ManyTuple", .tuple [Replay.le 8 100, Replay.le 8 200, Replay.le 4 8, Replay.le 8 300]⟩ t2 ∧
      intoTaggedBox (env63 b) rcUser P ⟨"Unit", .unit⟩ t2 = .ret w3 t3 ∧
      containerIntoInner (env63 b) rcUser P w3 t3 = .ub .badPointer := by
    subst hP'
    cases b <;> exact ⟨_, _, _, _, _, _, rfl, rfl, rfl, rfl, rfl, rfl⟩
  obtain ⟨w1, t1, w2, t2, w3, t3, r1, r2, r3, r4, r5, r6⟩ := hrun
  refine run2_ub _ w1 w2 w3 t1 t2 t3 ?_ ?_ ?_ ?_ ?_ ?_
  · rw [hinto 0 _ _ hv1, r1]
  · rw [hinner, r2]; rfl
  · rw [hinto 1 _ _ hv2, r3]
  · rw [hinner, r4]; rfl
  · rw [hinto 2 _ _ hv3, r5]
  · rw [hinner, r6]; rfl

end TB.Props

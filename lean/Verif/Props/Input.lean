import Verif.Lemmas.MbeHeader
import Verif.Lemmas.MbeLex

/-!
# What `tagged_box!` accepts (C86)
-/

set_option autoImplicit false

namespace TB.Props

open TB.Mbe TB.Macro TB.Source

/-- **C86.** Whatever the user writes between the delimiters of `tagged_box! { .. }`: if the macro text expands it, then it consists of attributes, a visibility (or none), the
word `struct`, a name, a comma, a visibility (or none), the word `enum`, a name, and a non-empty group in braces, in this order and nothing else. -/
theorem C86 (rc : Rustc) (input out : List TT) (hw : Written input) (h : ExpandsTo rc input out) :
    ∃ metas svis sn evis en us, (∀ m ∈ metas, IsMeta m) ∧ IsVis svis ∧ IsVis evis ∧ us ≠ [] ∧ input = header metas svis sn evis en us := by
  obtain ⟨rules, body, h1, h2, _⟩ := h
  have hr : crateMacros "tagged_box" = some taggedBoxRules := rfl
  rw [hr] at h1
  cases h1
  exact header_inv hw h2

/-- **C86**, exactly. With C78: the inputs that expand are exactly those of this form whose group is a non-empty list of variants, none of which has more than 32 unnamed
fields; and the expansion is the code `Spec.generated` writes out for what was written. (`ttsOf`: tokens of a declaration, as token trees.) -/
theorem C86_exact (rc : Rustc) (input out : List TT) (hw : Written input) (hb : ∀ us, TT.group .brace us ∈ input → ∃ ts, us = ttOf.ttsOf ts) :
    ExpandsTo rc input out ↔
      ∃ metas svis sn evis en ts decl, (∀ m ∈ metas, IsMeta m) ∧ IsVis svis ∧ IsVis evis ∧ input = invocation metas svis sn evis en ts ∧
        decl ≠ [] ∧ DeclSyntax rc ts decl ∧ (∀ d ∈ decl, ∀ tys, d.fields = .tuple tys → tys.length ≤ 32) ∧ out = Spec.generated metas svis sn evis en decl := by
  constructor
  · intro h
    obtain ⟨metas, svis, sn, evis, en, us, hm, hs, he, _, rfl⟩ := C86 rc input out hw h
    obtain ⟨ts, rfl⟩ := hb us (by simp [header])
    obtain ⟨decl, h1, h2, h3, h4⟩ := (C78 rc metas svis evis sn en ts out hm hs he).1 h
    exact ⟨metas, svis, sn, evis, en, ts, decl, hm, hs, he, rfl, h1, h2, h3, h4⟩
  · rintro ⟨metas, svis, sn, evis, en, ts, decl, hm, hs, he, rfl, h1, h2, h3, h4⟩
    exact (C78 rc metas svis evis sn en ts out hm hs he).2 ⟨decl, h1, h2, h3, h4⟩

/-- **C86**, from characters. Whatever text the user writes between the delimiters, as long as it consists of tokens and its delimiters match: the macro text expands it
exactly if its tokens are of this form, and to the code `Spec.generated` writes out for what was written. -/
theorem C86_text (rc : Rustc) (text : List (List Char)) (input out : List TT) (h : parseText text = some input) :
    ExpandsTo rc input out ↔
      ∃ metas svis sn evis en ts decl, (∀ m ∈ metas, IsMeta m) ∧ IsVis svis ∧ IsVis evis ∧ input = invocation metas svis sn evis en ts ∧
        decl ≠ [] ∧ DeclSyntax rc ts decl ∧ (∀ d ∈ decl, ∀ tys, d.fields = .tuple tys → tys.length ≤ 32) ∧ out = Spec.generated metas svis sn evis en decl := by
  obtain ⟨toks, rfl⟩ := parseText_ok h
  exact C86_exact rc _ out (written_ttsOf toks) fun us hu => brace_ttsOf hu

/-- The comma cannot be left out, -/
example (rc : Rustc) (input out : List TT) (hw : Written input) (h : TT.atom (.punct ",") ∉ input) : ¬ ExpandsTo rc input out := by
  intro hx
  obtain ⟨metas, svis, sn, evis, en, us, _, _, _, _, rfl⟩ := C86 rc input out hw hx
  exact h (by simp [header])

/-- nor can anything follow the group, -/
example (rc : Rustc) (input out : List TT) (t : TT) (hw : Written (input ++ [t])) (h : ∀ us, t ≠ .group .brace us) : ¬ ExpandsTo rc (input ++ [t]) out := by
  intro hx
  obtain ⟨metas, svis, sn, evis, en, us, _, _, _, _, e⟩ := C86 rc _ out hw hx
  have e' : header metas svis sn evis en us = ((metas.flatMap fun m => [.atom (.punct "#"), .group .bracket m]) ++ svis ++
      .atom (.ident "struct") :: .atom (.ident sn) :: .atom (.punct ",") :: (evis ++ [.atom (.ident "enum"), .atom (.ident en)])) ++ [.group .brace us] := by
    simp [header]
  rw [e'] at e
  have h1 := (List.append_inj' e rfl).2
  cases h1
  exact h us rfl

/-- and two attributes that are not followed by a structure are not enough. -/
example (rc : Rustc) (m m' out : List TT) (hm : ∀ t ∈ m, TT.written t = true) (hm' : ∀ t ∈ m', TT.written t = true) :
    ¬ ExpandsTo rc [.atom (.punct "#"), .group .bracket m, .atom (.punct "#"), .group .bracket m'] out := by
  intro hx
  have hw : Written [.atom (.punct "#"), .group .bracket m, .atom (.punct "#"), .group .bracket m'] := by
    intro t ht
    simp only [List.mem_cons, List.not_mem_nil, or_false] at ht
    rcases ht with rfl | rfl | rfl | rfl
    · exact ⟨rfl, fun us h => by cases h⟩
    · exact ⟨rfl, fun us h => by cases h; exact hm⟩
    · exact ⟨rfl, fun us h => by cases h⟩
    · exact ⟨rfl, fun us h => by cases h; exact hm'⟩
  obtain ⟨metas, svis, sn, evis, en, us, _, _, _, _, e⟩ := C86 rc _ out hw hx
  have h1 : TT.atom (.ident "struct") ∈ [TT.atom (.punct "#"), .group .bracket m, .atom (.punct "#"), .group .bracket m'] := by
    rw [e]
    simp [header]
  simp at h1

/-- The hypotheses hold of the invocation of C78's example, which does expand. -/
example : Written (invocation [rust% "derive(Debug)"] (rust% "pub") "Container" (rust% "pub(crate)") "Item" toksMix) ∧
    (∀ us, TT.group .brace us ∈ invocation [rust% "derive(Debug)"] (rust% "pub") "Container" (rust% "pub(crate)") "Item" toksMix → ∃ ts, us = ttOf.ttsOf ts) ∧
    ExpandsTo rcDemo (invocation [rust% "derive(Debug)"] (rust% "pub") "Container" (rust% "pub(crate)") "Item" toksMix)
      (Spec.generated [rust% "derive(Debug)"] (rust% "pub") "Container" (rust% "pub(crate)") "Item" declMix) := by
  refine ⟨?_, ?_, ?_⟩
  · intro t ht
    simp only [invocation, List.flatMap_cons, List.flatMap_nil, List.append_nil, List.cons_append, List.nil_append, List.mem_cons, List.not_mem_nil, or_false] at ht
    rcases ht with rfl | rfl | rfl | rfl | rfl | rfl | rfl | rfl | rfl | rfl | rfl
    all_goals exact ⟨rfl, fun us h => by cases h <;> simp [TT.written]⟩
  · intro us h
    simp only [invocation, List.flatMap_cons, List.flatMap_nil, List.append_nil, List.cons_append, List.nil_append, List.mem_cons, List.not_mem_nil, or_false] at h
    refine ⟨toksMix, ?_⟩
    rcases h with h | h | h | h | h | h | h | h | h | h | h
    all_goals cases h
    rfl
  · refine (C78 _ _ _ _ _ _ _ _ ?_ (.inr (.inl rfl)) (.inr (.inr ⟨_, rfl, rfl⟩))).2 ⟨declMix, by simp [declMix], declMix_syntax, ?_, rfl⟩
    · intro m hm
      cases List.mem_singleton.1 hm
      rfl
    · have : Compiled rcDemo (env60 true).cfg "Container" "Item" false toksMix declMix progMix := mix_compiled true
      exact this.wf.1.arity

set_option maxRecDepth 8000 in
/-- From characters: this text expands, -/
example : ∃ input, parseText [src% "#[derive(Debug)]", src% "pub struct Container, pub(crate) enum Item {", src% "Tag, Pair(u8, u32), // two fields",
      src% "Heap(Owned), Rec { x: u64, y: bool }, }"] = some input ∧
    ExpandsTo rcDemo input (Spec.generated [rust% "derive(Debug)"] (rust% "pub") "Container" (rust% "pub(crate)") "Item" declMix) := by
  refine ⟨_, rfl, (C78 rcDemo [rust% "derive(Debug)"] (rust% "pub") (rust% "pub(crate)") "Container" "Item" toksMix _ ?_ (.inr (.inl rfl))
    (.inr (.inr ⟨_, rfl, rfl⟩))).2 ⟨declMix, by simp [declMix], declMix_syntax, ?_, rfl⟩⟩
  · intro m hm
    cases List.mem_singleton.1 hm
    rfl
  · have : Compiled rcDemo (env60 true).cfg "Container" "Item" false toksMix declMix progMix := mix_compiled true
    exact this.wf.1.arity

set_option maxRecDepth 8000 in
/-- the tokens of this one are those (`3` is a literal, `<` and `'` are punctuation), -/
example : ∃ input, parseText [src% "#[derive(Debug)]", src% "pub struct Container, pub(crate) enum Item { Unit, Boxed(Other<'a, 3>), }"] = some input ∧
    input = invocation [rust% "derive(Debug)"] (rust% "pub") "Container" (rust% "pub(crate)") "Item"
      [.ident "Unit", .comma, .ident "Boxed", .group .paren [.ident "Other", .other "<", .other "'", .ident "a", .comma, .other "3", .other ">"], .comma] :=
  ⟨_, rfl, rfl⟩

/-- and with the marks the macros use among themselves (`@inner`) in the group, nothing expands. -/
example (rc : Rustc) (sn en : String) (rest : List Tok) (out : List TT) :
    ¬ ExpandsTo rc (invocation [] [] sn [] en (.other "@" :: .ident "inner" :: rest)) out := by
  rw [C78 _ _ _ _ _ _ _ _ (by simp) (.inl rfl) (.inl rfl)]
  rintro ⟨decl, hne, h, _⟩
  cases h with
  | cons hv _ =>
    obtain ⟨us, h⟩ := decl_head hv
    cases h

end TB.Props

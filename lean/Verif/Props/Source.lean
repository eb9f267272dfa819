import Verif.DemoMacro
import Verif.Lemmas.Generated

/-!
# The macro text of the crate

`modText` and `metaText` are the files `src/tagged_box_macro/mod.rs` and `meta_macros.rs`, line by line. `ExpandsTo rc input out`: by the rules in these
texts `tagged_box! { input }` expands to `out`, with no invocation of a macro of the crate left. `Spec.generated` is the code a reader of the declaration
expects.
-/

set_option autoImplicit false

namespace TB.Props

open TB.Macro TB.Mbe TB.Source

/-! ## C78 -/

/-- **C78.** Whatever attributes, visibilities, names and variants the user writes: the invocation expands if and only if the tokens in braces are a
non-empty list of variants none of which has more than 32 unnamed fields; and the expansion is, token for token, the code `Spec.generated` writes out for
these variants. -/
theorem C78 (rc : Rustc) (metas : List (List TT)) (svis evis : List TT) (sn en : String) (ts : List Tok) (out : List TT)
    (hm : ∀ m ∈ metas, IsMeta m) (hs : IsVis svis) (he : IsVis evis) :
    ExpandsTo rc (invocation metas svis sn evis en ts) out ↔
      ∃ decl, decl ≠ [] ∧ DeclSyntax rc ts decl ∧ (∀ d ∈ decl, ∀ tys, d.fields = .tuple tys → tys.length ≤ 32) ∧
        out = Spec.generated metas svis sn evis en decl := by
  rw [expandsTo_iff hm hs he sn en ts false]
  simp only [Spec.generated_eq, ArityOK]

/-- **C78**, the model. The model of the macros used by the other properties (`expand`) succeeds exactly if the macro text expands, and its result `P` stands
for exactly the code the macro text expands to. -/
theorem C78_model (rc : Rustc) (metas : List (List TT)) (svis evis : List TT) (sn en : String) (hasDrop : Bool) (ts : List Tok) (out : List TT)
    (hm : ∀ m ∈ metas, IsMeta m) (hs : IsVis svis) (he : IsVis evis) :
    ExpandsTo rc (invocation metas svis sn evis en ts) out ↔
      ∃ P, expand rc sn en hasDrop ts = .ok P ∧ out = P.rust metas svis evis P.counter := by
  rw [expandsTo_iff hm hs he sn en ts hasDrop]
  simp only [expand_ok]
  constructor
  · rintro ⟨decl, hne, h, ha, rfl⟩
    exact ⟨_, ⟨decl, hne, h, ha, rfl⟩, rfl⟩
  · rintro ⟨P, ⟨decl, hne, h, ha, rfl⟩, rfl⟩
    exact ⟨decl, hne, h, ha, rfl⟩

/-- **C78**, the text. The rules `ExpandsTo` uses are those in the two source files. -/
theorem C78_text :
    (∃ rules, macrosIn modText ["__make_enum", "__taggable_into_box", "__derive_from", "__boxed_into_inner", "__from_tagged_box", "__ref_from_tagged",
        "__counter_enum", "__count_variants", "tagged_box"] = some rules ∧
      ["__make_enum", "__taggable_into_box", "__derive_from", "__boxed_into_inner", "__from_tagged_box", "__ref_from_tagged",
        "__counter_enum", "__count_variants", "tagged_box"].map crateMacros = rules.map some) ∧
    (∃ rules, macrosIn metaText ["__expand_tuple", "__expand_tuple_arm"] = some rules ∧
      ["__expand_tuple", "__expand_tuple_arm"].map crateMacros = rules.map some) :=
  ⟨⟨_, modText_rules, rfl⟩, ⟨_, metaText_rules, rfl⟩⟩

/-- At most one expansion: the same tokens never expand in two ways. -/
theorem C78_unique (rc : Rustc) (input out out' : List TT) (h : ExpandsTo rc input out) (h' : ExpandsTo rc input out') : out = out' := by
  obtain ⟨rules, body, h1, h2, h3⟩ := h
  obtain ⟨rules', body', h1', h2', h3'⟩ := h'
  rw [h1] at h1'
  cases h1'
  rw [h2] at h2'
  cases h2'
  exact h3.det h3'

/-- Non-vacuity: `#[derive(Debug)] pub struct Container, pub(crate) enum Item { .. }` with all kinds of variants. -/
example : ExpandsTo rcDemo
    (invocation [rust% "derive(Debug)"] (rust% "pub") "Container" (rust% "pub(crate)") "Item" toksMix)
    (Spec.generated [rust% "derive(Debug)"] (rust% "pub") "Container" (rust% "pub(crate)") "Item" declMix) := by
  refine (C78 _ _ _ _ _ _ _ _ ?_ (.inr (.inl rfl)) (.inr (.inr ⟨_, rfl, rfl⟩))).2 ⟨declMix, by simp [declMix], declMix_syntax, ?_, rfl⟩
  · intro m hm
    cases List.mem_singleton.1 hm
    rfl
  · have : Compiled rcDemo (env60 true).cfg "Container" "Item" false toksMix declMix progMix := mix_compiled true
    exact this.wf.1.arity

/-- No variants, no expansion. -/
example (out : List TT) : ¬ ExpandsTo rcDemo (invocation [] [] "Container" [] "Item" []) out := by
  rw [C78 _ _ _ _ _ _ _ _ (by simp) (.inl rfl) (.inl rfl)]
  rintro ⟨decl, hne, h, _⟩
  cases h with
  | nil => exact hne rfl
  | cons hv _ =>
    obtain ⟨us, h⟩ := decl_head hv
    cases h

/-- Part of the expansion of a variant with two fields, as tokens. -/
example (A B : Ty) : Spec.unboxArm false "Item" (rust% "tagged") ⟨"Pair", .tuple [A, B]⟩ =
    (rust% "discrim if discrim == __tagged_box_enum_counter::Pair as u8 => {
      ⟦{
        let tuple = ⟦$crate::TaggedBox::<Item>::into_inner::<(«A», «B»)>(⟦tagged⟧)⟧;
        ⟨Item::Pair⟩(tuple.0, tuple.1)
      }⟧
    },") := by
  have h0 : (0 : Nat).repr = "0" := by decide
  have h1 : (1 : Nat).repr = "1" := by decide
  simp [h0, h1, Spec.unboxArm, Spec.rebuild, Spec.disc, tyList, commas, accessList, List.range_succ, ToTT.toTT]

end TB.Props

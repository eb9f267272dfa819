import Verif.Lemmas.MbeChain
import Verif.Spec.Invocation

/-! # `tagged_box!` as a whole (no property theorems here) -/

set_option autoImplicit false

namespace TB.Source

open TB.Mbe TB.Macro

variable {rc : Rustc}

/-- The items `tagged_box!` produces at first, after the implementation of `From` for the enum. -/
def topTail (metas : List (List TT)) (sn : String) (evis : List TT) (en : String) (ts : List TT) : List TT :=
  rust% "
  $crate::__derive_from! { «sn», «en», «ts» }

  $crate::__make_enum! { «TT.frag .vis evis», «en» [«metas.map metaTT»] «ts» }

  impl $crate::TaggableInner for «en» {
    fn into_tagged_box(self) -> $crate::TaggedBox<Self> {
      $crate::__counter_enum! { «ts» }
      $crate::__taggable_into_box!(self, «en», __tagged_box_enum_counter, «ts»)
    }

    fn from_tagged_box(tagged: $crate::TaggedBox<«en»>) -> Self {
      unsafe {
        $crate::__counter_enum! { «ts» }
        const __TAGGED_BOX_TOTAL_VARIANTS: usize = $crate::__count_variants!(«ts»);
        $crate::__from_tagged_box!(tagged, «en», __tagged_box_enum_counter, __TAGGED_BOX_TOTAL_VARIANTS, «ts»)
      }
    }

    unsafe fn ref_from_tagged_box<F>(tagged: &$crate::TaggedBox<«en»>, callback: F)
    where
      F: FnOnce(&«en»),
    {
      $crate::__counter_enum! { «ts» }
      const __TAGGED_BOX_TOTAL_VARIANTS: usize = $crate::__count_variants!(«ts»);
      $crate::__ref_from_tagged!(tagged, callback, «en», __tagged_box_enum_counter, __TAGGED_BOX_TOTAL_VARIANTS, «ts»);
    }
  }"

/-- What `tagged_box!` produces at first. -/
def topBody (metas : List (List TT)) (svis : List TT) (sn : String) (evis : List TT) (en : String) (ts : List TT) : List TT :=
  rust% "
  «attrs metas»
  #[repr(transparent)]
  «TT.frag .vis svis» struct «sn» {
    value: $crate::TaggedBox<«en»>,
  }

  impl $crate::TaggableContainer for «sn» {
    type Inner = «en»;

    fn into_inner(self) -> «en» {
      $crate::__counter_enum! { «ts» }
      unsafe {
        $crate::__boxed_into_inner!(self.value, «en», __tagged_box_enum_counter, «ts»)
      }
    }
  }

  impl From<«en»> for «sn» {
    #[inline]
    fn from(variant: «en») -> Self {
      use $crate::TaggableInner;
      Self { value: variant.into_tagged_box(), }
    }
  }

  «topTail metas sn evis en ts»"

theorem visFrag_vis {v : List TT} (h : IsVis v) (x : String) (hx : x ≠ "pub") (r : List TT) :
    visFrag (v ++ .atom (.ident x) :: r) = .yes (.frag .vis v, .atom (.ident x) :: r) := by
  rcases h with rfl | rfl | ⟨g, hg, rfl⟩
  · simp [visFrag, hx]
  · simp [visFrag, visArg]
  · simp [visFrag, hg]

theorem visHead {v : List TT} (h : IsVis v) (x : String) (r : List TT) : headIs (.punct "#") (v ++ .atom (.ident x) :: r) = false := by
  rcases h with rfl | rfl | ⟨g, hg, rfl⟩ <;> simp [headIs]

theorem matchL_vis {v : List TT} (h : IsVis v) (y : String) (hy : y ≠ "pub") (x : String) (ps : List MP) (fol : List TT → Bool) (r : List TT) :
    matchL rc fol (.var x .vis :: ps) (v ++ .atom (.ident y) :: r) =
      (matchL rc fol ps (.atom (.ident y) :: r)).map fun z => ((x, .one (.frag .vis v)) :: z.1, z.2) := by
  rw [matchL_var, parseFrag, visFrag_vis h y hy]

theorem taggedBox_run {metas : List (List TT)} {svis evis : List TT} (hm : ∀ m ∈ metas, IsMeta m) (hs : IsVis svis) (he : IsVis evis)
    (sn en : String) {ts : List Tok} (hne : ts ≠ []) :
    applyRules rc taggedBoxRules (invocation metas svis sn evis en ts) = some (topBody metas svis sn evis en (ttsOf ts)) := by
  obtain ⟨t, us, rfl⟩ := List.exists_cons_of_ne_nil hne
  rw [taggedBoxRules, applyRules, matchAll, invocation, List.append_assoc]
  have h1 := visFrag_vis hs "struct" (by decide)
  have := fun x ps fol r => matchL_attrs (rc := rc) x ps fol (svis ++ .atom (.ident "struct") :: r) (visHead hs _ _) (by rw [h1]; rfl) metas hm
  rw [attrToks] at this
  rw [this]
  have e : ttsOf (t :: us) = ttOf t :: ttsOf us := rfl
  rw [e]
  have hv : ∀ x, visArg (.atom x) = false := fun _ => rfl
  rcases he with rfl | rfl | ⟨g, hg, rfl⟩
  · simp [mbe, ↓matchL_vis hs "struct" (by decide), hv, matchL_tts_plus, topBody, topTail, attrs, List.flatMap_map, metaTT]
  · simp [mbe, ↓matchL_vis hs "struct" (by decide), hv, matchL_tts_plus, topBody, topTail, attrs, List.flatMap_map, metaTT]
  · simp [mbe, ↓matchL_vis hs "struct" (by decide), hv, hg, matchL_tts_plus, topBody, topTail, attrs, List.flatMap_map, metaTT]

theorem taggedBox_empty {metas : List (List TT)} {svis evis : List TT} (hm : ∀ m ∈ metas, IsMeta m) (hs : IsVis svis) (he : IsVis evis)
    (sn en : String) : applyRules rc taggedBoxRules (invocation metas svis sn evis en []) = none := by
  rw [taggedBoxRules, applyRules, matchAll, invocation, List.append_assoc]
  have h1 := visFrag_vis hs "struct" (by decide)
  have := fun x ps fol r => matchL_attrs (rc := rc) x ps fol (svis ++ .atom (.ident "struct") :: r) (visHead hs _ _) (by rw [h1]; rfl) metas hm
  rw [attrToks] at this
  rw [this]
  have h3 : matchL rc List.isEmpty [.rep [.var "variants" .tt] none .plus] [] = .no := by
    simp [matchL, repMatch, MP.startsL, MP.starts, parseFrag, MR.isNo]
  have hv : ∀ x, visArg (.atom x) = false := fun _ => rfl
  rcases he with rfl | rfl | ⟨g, hg, rfl⟩
  · simp [mbe, ↓matchL_vis hs "struct" (by decide), hv, h3]
  · simp [mbe, ↓matchL_vis hs "struct" (by decide), hv, h3]
  · simp [mbe, ↓matchL_vis hs "struct" (by decide), hv, hg, h3]

/-! ## The invocations in it -/

theorem decl_first {ts : List Tok} {decl : List VariantDef} (h : DeclSyntax rc ts decl) (hne : decl ≠ []) : ∃ x us, ts = .ident x :: us := by
  cases h with
  | nil => exact absurd rfl hne
  | cons hv _ =>
    obtain ⟨us, h⟩ := decl_head hv
    exact ⟨_, us, h⟩

section
variable {ts : List Tok} {decl : List VariantDef}

theorem top_counter (h : DeclSyntax rc ts decl) (hne : decl ≠ []) (s : Bool) (rest : List TT) :
    exp rc crateMacros s true (call "__counter_enum" .brace (ttsOf ts) ++ rest) =
      (exp rc crateMacros s true rest).map (counterRust (decl.map (·.name)) ++ ·) := by
  obtain ⟨x, hx⟩ := decl_first h hne
  have := exp_counter h []
  rw [call, List.cons_append, List.cons_append, List.cons_append, List.cons_append, List.cons_append, List.nil_append,
    exp_stmts (by simp [isStmt]), runMac_counter, counter_start x hx, Option.bind_some]
  simp only [variantList, List.flatMap_nil, List.nil_append] at this
  rw [this, both_some_left]

theorem top_count (h : DeclSyntax rc ts decl) (hne : decl ≠ []) (s : Bool) (rest : List TT) :
    exp rc crateMacros s false (call "__count_variants" .paren (ttsOf ts) ++ rest) =
      (exp rc crateMacros s false rest).map (totalRust (decl.map (·.name)) ++ ·) := by
  obtain ⟨x, hx⟩ := decl_first h hne
  have := exp_count h [] false
  rw [call, List.cons_append, List.cons_append, List.cons_append, List.cons_append, List.cons_append, List.nil_append,
    exp_expr (by simp [isStmt]), runMac_count, count_start x hx, Option.bind_some, dropSemi_call]
  simp only [variantList, List.flatMap_nil, List.nil_append] at this
  rw [this, both_some_left]
  simp [totalRust, mkExpr_expr]

theorem top_inner (en : String) (h : DeclSyntax rc ts decl) (hd : ∀ d ∈ decl, DefOK d) (b : Bool) :
    exp rc crateMacros false b (call "__boxed_into_inner" .paren (rust% "self.value, «en», __tagged_box_enum_counter, «ttsOf ts»")) =
      some (innerEnd (rust% "self.value") (decl.flatMap fun d => (readArmOf true d).rust en (rust% "self.value"))) := by
  rw [exp_callExpr, runMac_inner, inner_start, Option.bind_some, dropSemi_call]
  have := exp_inner (rust% "self.value") en h [] hd false
  simp only [List.flatMap_nil, List.nil_append] at this
  rw [this]
  simp [innerEnd, mkExpr_expr]

theorem top_from (en : String) (h : DeclSyntax rc ts decl) (hd : ∀ d ∈ decl, DefOK d) (b : Bool) :
    exp rc crateMacros false b (call "__from_tagged_box" .paren
        (rust% "tagged, «en», __tagged_box_enum_counter, __TAGGED_BOX_TOTAL_VARIANTS, «ttsOf ts»")) =
      some (fromEnd (rust% "tagged") en (rust% "__TAGGED_BOX_TOTAL_VARIANTS")
        (decl.flatMap fun d => (readArmOf false d).rust en (rust% "tagged"))) := by
  rw [exp_callExpr, runMac_from, from_start, Option.bind_some, dropSemi_call]
  have := exp_from (rust% "tagged") en (rust% "__TAGGED_BOX_TOTAL_VARIANTS") h [] hd false
  simp only [List.flatMap_nil, List.nil_append] at this
  rw [this]
  simp [fromEnd, mkExpr_expr]

theorem top_ref (en : String) (h : DeclSyntax rc ts decl) (hd : ∀ d ∈ decl, DefOK d) (s : Bool) (rest : List TT) :
    exp rc crateMacros s true (call "__ref_from_tagged" .paren
        (rust% "tagged, callback, «en», __tagged_box_enum_counter, __TAGGED_BOX_TOTAL_VARIANTS, «ttsOf ts»") ++
          .atom (.punct ";") :: rest) =
      (exp rc crateMacros s true (.atom (.punct ";") :: rest)).map
        (refEnd en (rust% "__TAGGED_BOX_TOTAL_VARIANTS") (decl.flatMap fun d => (refArmOf d).rust en) ++ ·) := by
  rw [call, List.cons_append, List.cons_append, List.cons_append, List.cons_append, List.cons_append, List.nil_append,
    exp_stmts (by simp [isStmt, headIs]), runMac_ref, ref_start, Option.bind_some]
  have := exp_ref en (rust% "__TAGGED_BOX_TOTAL_VARIANTS") h [] hd
  simp only [List.flatMap_nil, List.nil_append] at this
  rw [this, both_some_left]

theorem top_into (en : String) (h : DeclSyntax rc ts decl) (hd : ∀ d ∈ decl, DefOK d) (b : Bool) :
    exp rc crateMacros false b (call "__taggable_into_box" .paren (rust% "self, «en», __tagged_box_enum_counter, «ttsOf ts»")) =
      some (intoEnd (rust% "self") (decl.flatMap fun d => (intoArmOf d).rust en)) := by
  rw [exp_callExpr, runMac_into, into_start, Option.bind_some, dropSemi_call]
  have := exp_into (rust% "self") en h [] hd false
  simp only [List.flatMap_nil, List.nil_append] at this
  rw [this]
  simp [intoEnd, mkExpr_expr]

theorem top_into_err (en : String) (h : DeclSyntax rc ts decl) (hd : ¬ ∀ d ∈ decl, DefOK d) (b : Bool) :
    exp rc crateMacros false b (call "__taggable_into_box" .paren (rust% "self, «en», __tagged_box_enum_counter, «ttsOf ts»")) = none := by
  rw [exp_callExpr, runMac_into, into_start, Option.bind_some, dropSemi_call, exp_into_err _ _ h _ hd]
  rfl

theorem top_derive (sn en : String) (h : DeclSyntax rc ts decl) (hne : decl ≠ []) (hd : ∀ d ∈ decl, DefOK d) (s : Bool) (rest : List TT) :
    exp rc crateMacros s true (call "__derive_from" .brace (rust% "«sn», «en», «ttsOf ts»") ++ rest) =
      (exp rc crateMacros s true rest).map ((decl.filterMap fromImplOf).flatMap (FromImpl.rust sn en) ++ ·) := by
  obtain ⟨x, us, hx⟩ := decl_first h hne
  rw [call, List.cons_append, List.cons_append, List.cons_append, List.cons_append, List.cons_append, List.nil_append,
    exp_stmts (by simp [isStmt]), runMac_derive, derive_start sn en x ⟨ttsOf us, by rw [hx]; rfl⟩, Option.bind_some,
    exp_derive sn en h hd, both_some_left]

theorem top_enum (v : List TT) (en : String) (metas : List (List TT)) (h : DeclSyntax rc ts decl) (s : Bool) (rest : List TT) :
    exp rc crateMacros s true (call "__make_enum" .brace (rust% "«TT.frag .vis v», «en» [«metas.map metaTT»] «ttsOf ts»") ++ rest) =
      (exp rc crateMacros s true rest).map
        (rust% "«attrs metas» «TT.frag .vis v» enum «en» { «decl.flatMap VariantDef.rust» }" ++ ·) := by
  have := exp_enum v en metas h []
  simp only [List.flatMap_nil, List.nil_append] at this
  have h2 := makeEnum_start (rc := rc) v en metas (ttsOf ts)
  rw [call, List.cons_append, List.cons_append, List.cons_append, List.cons_append, List.cons_append, List.nil_append,
    exp_stmts (by simp [isStmt]), runMac_enum]
  simp only [ToTT.toTT, List.cons_append, List.nil_append] at h2 ⊢
  rw [h2, Option.bind_some, this, both_some_left]
  simp [ToTT.toTT]

theorem top_enum_err (v : List TT) (en : String) (metas : List (List TT)) (h : ∀ decl, ¬ DeclSyntax rc ts decl) (s : Bool) (rest : List TT) :
    exp rc crateMacros s true (call "__make_enum" .brace (rust% "«TT.frag .vis v», «en» [«metas.map metaTT»] «ttsOf ts»") ++ rest) =
      none := by
  have := exp_enum_err (rc := rc) v en metas _ ts (Nat.le_refl _) h []
  have h2 := makeEnum_start (rc := rc) v en metas (ttsOf ts)
  rw [call, List.cons_append, List.cons_append, List.cons_append, List.cons_append, List.cons_append, List.nil_append,
    exp_stmts (by simp [isStmt]), runMac_enum]
  simp only [ToTT.toTT, List.cons_append, List.nil_append] at h2 ⊢
  rw [h2, Option.bind_some, this, both_none_left]

/-- The code `tagged_box!` results in, without any invocation of its own macros. -/
theorem top_ok (metas : List (List TT)) (svis : List TT) (sn : String) (evis : List TT) (en : String) (hasDrop : Bool)
    (h : DeclSyntax rc ts decl) (hne : decl ≠ []) (hd : ∀ d ∈ decl, DefOK d) :
    exp rc crateMacros true true (topBody metas svis sn evis en (ttsOf ts)) =
      some ((programOf sn en hasDrop decl).rust metas svis evis (decl.map (·.name))) := by
  have h1 := top_counter h hne
  have h2 := top_count h hne
  have h3 := top_inner en h hd
  have h4 := top_from en h hd
  have h5 := top_ref en h hd
  have h6 := top_into en h hd
  have h7 := top_derive sn en h hne hd
  have h8 := top_enum evis en metas h
  simp only [call, ToTT.toTT, List.cons_append, List.nil_append, List.append_nil] at h1 h2 h3 h4 h5 h6 h7 h8
  simp [topBody, topTail, mbx, NoCall.punct, h1, h2, h3, h4, h5, h6, h7, h8, Program.rust, programOf, innerEnd, intoEnd, fromEnd, refEnd, lastArm, msgCreated,
    msgReferenced, List.flatMap_map]

theorem tail_derive (sn en : String) (ts rest : List TT) (h : exp rc crateMacros true true rest = none) :
    exp rc crateMacros true true (call "__derive_from" .brace (rust% "«sn», «en», «ts»") ++ rest) = none := by
  rw [call, List.cons_append, List.cons_append, List.cons_append, List.cons_append, List.cons_append, List.nil_append,
    exp_stmts (by simp [isStmt]), h, both_none_right]

theorem tail_counter (ts rest : List TT) (h : exp rc crateMacros false true rest = none) :
    exp rc crateMacros false true (call "__counter_enum" .brace ts ++ rest) = none := by
  rw [call, List.cons_append, List.cons_append, List.cons_append, List.cons_append, List.cons_append, List.nil_append,
    exp_stmts (by simp [isStmt]), h, both_none_right]

theorem tail_syntax (metas : List (List TT)) (sn : String) (evis : List TT) (en : String) (h : ∀ decl, ¬ DeclSyntax rc ts decl) :
    exp rc crateMacros true true (topTail metas sn evis en (ttsOf ts)) = none := by
  have h8 := fun rest => tail_derive sn en (ttsOf ts) _ (top_enum_err (rc := rc) evis en metas h true rest)
  simp only [call, ToTT.toTT, List.cons_append, List.nil_append, List.append_nil] at h8
  simp [topTail, ToTT.toTT, h8]

theorem tail_arity (metas : List (List TT)) (sn : String) (evis : List TT) (en : String) (h : DeclSyntax rc ts decl)
    (hd : ¬ ∀ d ∈ decl, DefOK d) :
    exp rc crateMacros true true (topTail metas sn evis en (ttsOf ts)) = none := by
  have h1 := tail_counter (ttsOf ts) _ (top_into_err en h hd true)
  have h7 := tail_derive (rc := rc) sn en (ttsOf ts)
  have h8 := top_enum evis en metas h
  simp only [call, ToTT.toTT, List.cons_append, List.nil_append, List.append_nil] at h1 h7 h8
  rw [topTail]
  simp only [ToTT.toTT, List.cons_append, List.nil_append, List.append_nil]
  apply h7
  simp [mbx, h1, h8]

theorem top_none (metas : List (List TT)) (svis : List TT) (sn : String) (evis : List TT) (en : String) (ts : List TT)
    (h : exp rc crateMacros true true (topTail metas sn evis en ts) = none) :
    exp rc crateMacros true true (topBody metas svis sn evis en ts) = none := by
  simp [topBody, mbx, NoCall.punct, h]

/-- The expansion exists exactly if the declaration is well-formed. -/
theorem top_iff (metas : List (List TT)) (svis : List TT) (sn : String) (evis : List TT) (en : String) (hasDrop : Bool) (hne : ts ≠ [])
    (out : List TT) :
    Expands rc crateMacros true true (topBody metas svis sn evis en (ttsOf ts)) out ↔
      ∃ decl, decl ≠ [] ∧ DeclSyntax rc ts decl ∧ ArityOK decl ∧
        out = (programOf sn en hasDrop decl).rust metas svis evis (decl.map (·.name)) := by
  rw [← exp_eq_some]
  rcases Classical.em (∃ decl, DeclSyntax rc ts decl) with ⟨decl, h⟩ | h
  · have hne' : decl ≠ [] := by
      rintro rfl
      cases h
      exact hne rfl
    by_cases hd : ∀ d ∈ decl, DefOK d
    · rw [top_ok metas svis sn evis en hasDrop h hne' hd, Option.some.injEq]
      constructor
      · rintro rfl
        exact ⟨decl, hne', h, hd, rfl⟩
      · rintro ⟨decl', _, h', _, rfl⟩
        rw [h.unique h']
    · rw [top_none _ _ _ _ _ _ (tail_arity metas sn evis en h hd)]
      constructor
      · intro h; cases h
      · rintro ⟨decl', _, h', hd', _⟩
        rw [← h.unique h'] at hd'
        exact absurd hd' hd
  · rw [top_none _ _ _ _ _ _ (tail_syntax metas sn evis en fun decl hd => h ⟨decl, hd⟩)]
    constructor
    · intro h; cases h
    · rintro ⟨decl', _, h', _⟩
      exact absurd ⟨decl', h'⟩ h

/-- `tagged_box!` as a whole. -/
theorem expandsTo_iff {metas : List (List TT)} {svis evis : List TT} (hm : ∀ m ∈ metas, IsMeta m) (hs : IsVis svis) (he : IsVis evis)
    (sn en : String) (ts : List Tok) (hasDrop : Bool) (out : List TT) :
    ExpandsTo rc (invocation metas svis sn evis en ts) out ↔
      ∃ decl, decl ≠ [] ∧ DeclSyntax rc ts decl ∧ ArityOK decl ∧
        out = (programOf sn en hasDrop decl).rust metas svis evis (decl.map (·.name)) := by
  have hr : crateMacros "tagged_box" = some taggedBoxRules := rfl
  unfold ExpandsTo
  rw [hr]
  by_cases hne : ts = []
  · subst hne
    constructor
    · rintro ⟨rules, body, e, h, _⟩
      cases e
      rw [taggedBox_empty hm hs he] at h
      cases h
    · rintro ⟨decl, hne, h, _⟩
      cases h with
      | nil => exact absurd rfl hne
      | cons hv _ =>
        obtain ⟨us, h⟩ := decl_head hv
        cases h
  · rw [← top_iff metas svis sn evis en hasDrop hne]
    constructor
    · rintro ⟨rules, body, e, h, h'⟩
      cases e
      rw [taggedBox_run hm hs he sn en hne] at h
      cases h
      exact h'
    · intro h
      exact ⟨_, _, rfl, taggedBox_run hm hs he sn en hne, h⟩

end

end TB.Source

import Verif.Props.Decl

/-!
# C75: names chosen by the user
-/

set_option autoImplicit false

namespace TB.Props

open Macro

/-- The declaration with its variants renamed. -/
def renamed (f : String → String) (decl : List VariantDef) : List VariantDef := decl.map (fun d => ⟨f d.name, d.fields⟩)

/-- The full claim: a declaration that compiles still compiles after its variants are renamed to any other names that are not keywords and
differ from each other, as is the case for plain enums. -/
def C75_Statement : Prop :=
  ∀ (rc : Rustc) (cfg : Config) (sn en : String) (hd : Bool) (ts ts' : List Tok) (decl : List VariantDef) (f : String → String),
    DeclSyntax rc ts decl → (∃ P, compile rc cfg sn en hd ts = .ok P) →
    DeclSyntax rc ts' (renamed f decl) → ((renamed f decl).map (·.name)).Nodup → (∀ d ∈ decl, rc.isKeyword (f d.name) = false) →
    ∃ P, compile rc cfg sn en hd ts' = .ok P

variable {rc : Rustc} {cfg : Config} {sn en : String} {hd : Bool} {ts ts' : List Tok} {decl : List VariantDef} {f : String → String}

/-- Exactly the following renamings are possible: new names are not reserved for the kind of variant, and if the variant is stored
through a structure, do not occur in the types of its fields. -/
theorem C75_exact (hD : DeclSyntax rc ts decl) (hc : ∃ P, compile rc cfg sn en hd ts = .ok P)
    (hD' : DeclSyntax rc ts' (renamed f decl)) (hn : ((renamed f decl).map (·.name)).Nodup)
    (hk : ∀ d ∈ decl, rc.isKeyword (f d.name) = false) :
    (∃ P, compile rc cfg sn en hd ts' = .ok P) ↔
      ∀ d ∈ decl, f d.name ∉ d.fields.reserved en ∧ (d.fields.multi = true → ∀ t ∈ d.fields.types, ¬ Occurs (f d.name) t) := by
  obtain ⟨P, hP⟩ := hc
  obtain ⟨decl0, hD0, hw, _⟩ := compile_ok.1 hP
  cases DeclSyntax.unique hD hD0
  have hm : ∀ {d : VariantDef}, d ∈ decl → (⟨f d.name, d.fields⟩ : VariantDef) ∈ renamed f decl :=
    fun h => List.mem_map.2 ⟨_, h, rfl⟩
  constructor
  · rintro ⟨P', hP'⟩ d hd'
    obtain ⟨decl', hD1, hw', _⟩ := compile_ok.1 hP'
    cases DeclSyntax.unique hD' hD1
    exact ⟨hw'.reserved _ (hm hd'), hw'.capture _ (hm hd')⟩
  · intro h
    refine ⟨_, compile_ok.2 ⟨_, hD', ?_, rfl⟩⟩
    have ex : ∀ {p : Fields → Prop}, (∃ d ∈ renamed f decl, p d.fields) → ∃ d ∈ decl, p d.fields := by
      rintro p ⟨d, hd', hp⟩
      obtain ⟨d, hq, rfl⟩ := List.mem_map.1 hd'
      exact ⟨d, hq, hp⟩
    have all : ∀ {p : Fields → Prop}, (∀ d ∈ decl, p d.fields) → ∀ d ∈ renamed f decl, p d.fields := by
      intro p hp d hd'
      obtain ⟨d, hq, rfl⟩ := List.mem_map.1 hd'
      exact hp d hq
    exact {
      nonempty := fun h0 => hw.nonempty (List.map_eq_nil_iff.1 h0)
      arity := all (p := fun fs => ∀ tys, fs = .tuple tys → tys.length ≤ 32) hw.arity
      names := hn
      members := all (p := fun fs => ∀ ms, fs = .record ms → (ms.map (·.1)).Nodup) hw.members
      froms := by
        have : (renamed f decl).filterMap (·.fields.fromTy) = decl.filterMap (·.fields.fromTy) := by
          rw [renamed, List.filterMap_map]; rfl
        rw [this]; exact hw.froms
      idents := ⟨hw.idents.1, hw.idents.2.1, fun d hd' => by
        obtain ⟨d, hq, rfl⟩ := List.mem_map.1 hd'
        exact ⟨hk d hq, (hw.idents.2.2 d hq).2⟩⟩
      prelude := hw.prelude
      core := fun h0 => hw.core (ex (p := (· ≠ .unit)) h0)
      enumOK := ⟨hw.enumOK.1, hw.enumOK.2.1, fun h0 => hw.enumOK.2.2 (ex (p := (·.fromTy ≠ none)) h0)⟩
      reserved := fun d hd' => by
        obtain ⟨d, hq, rfl⟩ := List.mem_map.1 hd'
        exact (h d hq).1
      capture := fun d hd' => by
        obtain ⟨d, hq, rfl⟩ := List.mem_map.1 hd'
        exact (h d hq).2
      hidden := all (p := fun fs => ∀ t ∈ fs.types,
        ¬ Occurs "Self" t ∧ ¬ Occurs "F" t ∧ ¬ Occurs "__tagged_box_enum_counter" t) hw.hidden
      u8 := hw.u8
      copy := fun h0 => all (p := fun fs => ∀ t ∈ fs.types, rc.isCopy t = true) (hw.copy h0) }

/-- A name in the usual style: it starts with a capital letter. -/
def Capital (s : String) : Prop := ∃ c cs, s.toList = c :: cs ∧ c.isUpper = true

/-- **C75**, the part that holds: with names in the usual style that are different from that of the enum and from the types used in the same
variant. -/
theorem C75_partial (hD : DeclSyntax rc ts decl) (hc : ∃ P, compile rc cfg sn en hd ts = .ok P)
    (hD' : DeclSyntax rc ts' (renamed f decl)) (hn : ((renamed f decl).map (·.name)).Nodup)
    (hk : ∀ d ∈ decl, rc.isKeyword (f d.name) = false)
    (hs : ∀ d ∈ decl, Capital (f d.name) ∧ f d.name ≠ en ∧ ∀ t ∈ d.fields.types, ¬ Occurs (f d.name) t) :
    ∃ P, compile rc cfg sn en hd ts' = .ok P := by
  refine (C75_exact hD hc hD' hn hk).2 fun d hd' => ⟨fun hm => ?_, fun _ => (hs d hd').2.2⟩
  obtain ⟨⟨c, cs, hc, hu⟩, hne, _⟩ := hs d hd'
  have hsub : ∀ (fs : Fields) x, x ∈ fs.reserved en →
      x = en ∨ x ∈ ["core", "__tagged_box_enum_counter", "u8", "tagged", "callback", "tuple", "variant"] ++ fieldVars := by
    intro fs x hx
    have ht : ∀ n, x ∈ fieldVars.take n → x ∈ fieldVars := fun n h => List.mem_of_mem_take h
    unfold Fields.reserved at hx
    split at hx <;> simp only [List.mem_append, List.mem_cons, List.not_mem_nil, or_false] at hx ⊢
    all_goals grind
  have hlow : ∀ x ∈ ["core", "__tagged_box_enum_counter", "u8", "tagged", "callback", "tuple", "variant"] ++ fieldVars,
      x.toList.head?.map Char.isUpper = some false := by decide
  rcases hsub _ _ hm with h | h
  · exact hne h
  · have := hlow _ h
    rw [hc] at this
    simp [hu] at this

/-- **C75 does not hold**: `Pair(u8, u32)` compiles, `tuple(u8, u32)` does not. -/
theorem C75_refuted : ¬ C75_Statement := by
  intro h
  have hD : ∀ v, DeclSyntax rcDemo [.ident v, .group .paren [.ident "u8", .comma, .ident "u32"], .comma]
      [⟨v, .tuple [.named "u8", .named "u32"]⟩] :=
    fun v => .cons (.tuple (.cons ⟨by simp, 0, rfl, rfl⟩ (.one ⟨by simp, 0, rfl, rfl⟩))) .nil
  obtain ⟨P, hP⟩ := h rcDemo (env60 true).cfg "Container" "Item" false _ _ _ (fun _ => "tuple") (hD "Pair") ⟨_, rfl⟩ (hD "tuple")
    (by simp [renamed]) (fun _ _ => rfl)
  obtain ⟨decl', hD', hw, _⟩ := compile_ok.1 hP
  cases DeclSyntax.unique (hD "tuple") hD'
  exact hw.reserved _ (List.mem_singleton.2 rfl) (by decide)

/-- Which names a variant with several fields cannot have, whatever else is declared and wherever. -/
theorem C75_reserved (hD : DeclSyntax rc ts decl) {d : VariantDef} (hd' : d ∈ decl) :
    (∀ t₁ t₂ tys, d.fields = .tuple (t₁ :: t₂ :: tys) →
      d.name ∈ ["core", "u8", "tagged", "callback", "tuple", "variant", "a", "b"] ∨ d.name = en → Rejects (compile rc cfg sn en hd ts)) ∧
    (∀ ms, d.fields = .record ms → d.name ∈ ["core", "u8"] ∨ d.name = en → Rejects (compile rc cfg sn en hd ts)) := by
  have key : d.name ∈ d.fields.reserved en → Rejects (compile rc cfg sn en hd ts) := fun hm => rejects_of fun P hP => by
    obtain ⟨decl', hD', hw, _⟩ := compile_ok.1 hP
    cases DeclSyntax.unique hD hD'
    exact hw.reserved d hd' hm
  refine ⟨fun t₁ t₂ tys hf hm => key ?_, fun ms hf hm => key ?_⟩
  · rw [hf]
    simp only [Fields.reserved, List.length_cons, fieldVars, List.take_succ_cons]
    rcases hm with hm | hm
    · simp only [List.mem_append, List.mem_cons, List.not_mem_nil, or_false] at hm ⊢
      grind
    · simp [hm]
  · rw [hf]
    simp only [Fields.reserved]
    rcases hm with hm | hm
    · simp only [List.mem_cons, List.not_mem_nil, or_false] at hm ⊢
      grind
    · simp [hm]

/-- Nor can a field have a type that is written `F`, or with an `F` in it. -/
theorem C75_payload (hD : DeclSyntax rc ts decl) {d : VariantDef} (hd' : d ∈ decl) {t : Ty} (ht : t ∈ d.fields.types)
    (hF : Occurs "F" t) : Rejects (compile rc cfg sn en hd ts) := rejects_of fun P hP => by
  obtain ⟨decl', hD', hw, _⟩ := compile_ok.1 hP
  cases DeclSyntax.unique hD hD'
  exact (hw.hidden d hd' t ht).2.1 hF

/-- Declarations next to the invocation matter: no invocation compiles where `From`, `FnOnce`, `u8` or `usize` means something else, or is the name given to
the container or the enum; and none with a variant that has fields where `core` does. -/
theorem C75_scope :
    (∀ x ∈ ["u8", "usize", "From", "FnOnce"], x ∈ rc.shadowed ∨ x = sn ∨ x = en → Rejects (compile rc cfg sn en hd ts)) ∧
    (DeclSyntax rc ts decl → (∃ d ∈ decl, d.fields ≠ .unit) → "core" ∈ rc.shadowed ∨ "core" = sn ∨ "core" = en →
      Rejects (compile rc cfg sn en hd ts)) := by
  constructor
  · intro x hx h
    refine rejects_of fun P hP => ?_
    obtain ⟨_, _, hw, _⟩ := compile_ok.1 hP
    obtain ⟨h1, h2, h3⟩ := hw.prelude x hx
    rcases h with h | h | h
    · exact h3 h
    · exact h1 h
    · exact h2 h
  · intro hD hx h
    refine rejects_of fun P hP => ?_
    obtain ⟨decl', hD', hw, _⟩ := compile_ok.1 hP
    cases DeclSyntax.unique hD hD'
    obtain ⟨h1, h2, h3⟩ := hw.core hx
    rcases h with h | h | h
    · exact h3 h
    · exact h1 h
    · exact h2 h

/-! ### Cases -/

/-- Three fields and a record: `First(u8, u32, u64), Second { x: u8 },` and the same with other names. -/
def namedToks (v w : String) : List Tok :=
  [.ident v, .group .paren [.ident "u8", .comma, .ident "u32", .comma, .ident "u64"], .comma,
   .ident w, .group .brace [.ident "x", .colon, .ident "u8"], .comma]

/-- Non-vacuity of `C75_partial` and `C75_exact`: renamed; renamed to a name that is only reserved for more fields, or for tuple variants; renamed
to a reserved one. -/
example :
    (∃ P, compile rcDemo (env60 true).cfg "Container" "Item" false (namedToks "First" "Second") = .ok P) ∧
    (∃ P, compile rcDemo (env60 true).cfg "Container" "Item" false (namedToks "Third" "Fourth") = .ok P) ∧
    (∃ P, compile rcDemo (env60 true).cfg "Container" "Item" false (namedToks "d" "tuple") = .ok P) ∧
    compile rcDemo (env60 true).cfg "Container" "Item" false (namedToks "c" "tuple") = .error .scopeError ∧
    compile rcDemo (env60 true).cfg "Container" "Item" false (namedToks "d" "core") = .error .scopeError ∧
    compile rcDemo (env60 true).cfg "Container" "Item" false (namedToks "d" "Item") = .error .scopeError ∧
    Capital "Third" :=
  ⟨⟨_, rfl⟩, ⟨_, rfl⟩, ⟨_, rfl⟩, rfl, rfl, rfl, 'T', "hird".toList, rfl, rfl⟩

/-- A compiler that knows keywords, in a scope with a `mod core`. -/
def rcScope : Rustc := { rcDemo with isKeyword := fun s => ["type", "match", "Self"].contains s, shadowed := ["core"] }

/-- Keywords; a payload of a type `F`; an enum called `From`; `mod core` matters only if a variant has fields. -/
example :
    compile rcScope (env60 true).cfg "Container" "Item" false [.ident "match", .comma] = .error .keyword ∧
    compile rcDemo (env60 true).cfg "Container" "Item" false [.ident "A", .group .paren [.ident "F"], .comma] = .error .scopeError ∧
    compile rcDemo (env60 true).cfg "Container" "From" false [.ident "A", .comma] = .error .scopeError ∧
    compile rcScope (env60 true).cfg "Container" "Item" false [.ident "A", .group .paren [.ident "u8"], .comma] = .error .scopeError ∧
    ∃ P, compile rcScope (env60 true).cfg "Container" "Item" false [.ident "A", .comma] = .ok P :=
  ⟨rfl, rfl, rfl, rfl, _, rfl⟩

end TB.Props

import Verif.Source.FromCheck
import Verif.Spec.FromCheck
import Verif.Props.UserRun

/-!
# Which arguments `Container::from` accepts (C96)
-/

set_option autoImplicit false

namespace TB.Props

open TB TB.Macro TB.Mbe TB.Rust TB.Rust.Gen TB.Rust.Code TB.Spec TB.Source

section
variable {β : Type} {env : Env} {rc : Rustc} {user : User (Host β)} {sn en : String} {hd : Bool} {ts : List Tok} {decl : List VariantDef} {metas : List (List TT)} {svis evis : List TT}
  {cb : EVal → M β} {g : GCrate β}

/-- A list without repetitions. -/
theorem nodup_index : ∀ {l : List Nat}, l.Nodup → ∀ {i j : Nat} (hi : i < l.length) (hj : j < l.length), l[i] = l[j] → i = j
  | a :: l, hn, 0, 0, _, _, _ => rfl
  | a :: l, hn, 0, j + 1, _, hj, e => absurd (show a ∈ l from (show a = l[j]'(Nat.lt_of_succ_lt_succ hj) from e) ▸ List.getElem_mem _) (List.nodup_cons.1 hn).1
  | a :: l, hn, i + 1, 0, hi, _, e => absurd (show a ∈ l from (show l[i]'(Nat.lt_of_succ_lt_succ hi) = a from e) ▸ List.getElem_mem _) (List.nodup_cons.1 hn).1
  | a :: l, hn, i + 1, j + 1, hi, hj, e => congrArg (· + 1) (nodup_index (List.nodup_cons.1 hn).2 (Nat.lt_of_succ_lt_succ hi) (Nat.lt_of_succ_lt_succ hj) e)

/-- Two variants with the same payload are the same. -/
theorem payload_unique (rc : Rustc) : ∀ {ds : List VariantDef}, ((ds.filterMap (·.fields.fromTy)).map rc.typeId).Nodup → ∀ d ∈ ds, ∀ d' ∈ ds, ∀ t t', d.fields.fromTy = some t →
    d'.fields.fromTy = some t' → rc.typeId t' = rc.typeId t → d' = d
  | d0 :: ds, hn, d, hd, d', hd', t, t', ht, ht', e => by
    have hin : ∀ x ∈ ds, ∀ u, x.fields.fromTy = some u → rc.typeId u ∈ (ds.filterMap (·.fields.fromTy)).map rc.typeId := fun x hx u hu =>
      List.mem_map_of_mem (List.mem_filterMap.2 ⟨x, hx, hu⟩)
    rcases List.mem_cons.1 hd with rfl | hm <;> rcases List.mem_cons.1 hd' with rfl | hm'
    · rfl
    · simp only [List.filterMap_cons, ht, List.map_cons, List.nodup_cons] at hn
      exact absurd (by rw [← e]; exact hin d' hm' t' ht') hn.1
    · simp only [List.filterMap_cons, ht', List.map_cons, List.nodup_cons] at hn
      exact absurd (by rw [e]; exact hin d hm t ht) hn.1
    · refine payload_unique rc ?_ d hm d' hm' t t' ht ht' e
      cases h0 : d0.fields.fromTy with
      | none => simpa only [List.filterMap_cons, h0] using hn
      | some u => simp only [List.filterMap_cons, h0, List.map_cons, List.nodup_cons] at hn; exact hn.2

/-- The functions of the payloads. -/
theorem payload_args (rc : Rustc) (sn en : String) : ∀ ds : List VariantDef,
    ((ds.flatMap (payloadFn sn en)).filter fun f => f.trait = "From" ∧ f.self = sn ∧ f.fn.name = "from").map (fun f => f.arg.map rc.typeId) =
      (ds.filterMap (·.fields.fromTy)).map fun t => some (rc.typeId t)
  | [] => rfl
  | d :: ds => by
    rw [List.flatMap_cons, List.filter_append, List.map_append, payload_args rc sn en ds]
    cases hf : fromFn en d with
    | none => simp [payloadFn, hf, fromFn_none hf]
    | some p =>
      obtain ⟨t, f⟩ := p
      obtain ⟨ha, hn⟩ := fromFn_arg hf
      have hs : ∃ u, d.fields.fromTy = some u := by
        cases hu : d.fields.fromTy with
        | some u => exact ⟨u, rfl⟩
        | none =>
          obtain ⟨v, fs⟩ := d
          match fs, hu with
          | .unit, _ => simp [fromFn] at hf
          | .record _, _ => simp [fromFn] at hf
          | .tuple [], hu => cases hu
          | .tuple [_], hu => cases hu
          | .tuple (_ :: _ :: _), hu => cases hu
      obtain ⟨u, hu⟩ := hs
      simp [payloadFn, hf, ha, hn, hu]

section
variable (h : Declared env rc sn en hd ts decl) (hm : ∀ m ∈ metas, IsMeta m) (hs : IsVis svis) (he : IsVis evis)
  (hg : IsProgram env rc user metas svis sn evis en hd ts cb g)
include h hm hs he hg

theorem fromArgs_eq : fromArgs g = (rc.typeId (.named sn) :: rc.typeId (.named en) :: (decl.filterMap (·.fields.fromTy)).map rc.typeId).map some := by
  obtain ⟨_, rfl⟩ := h.eq hm hs he hg
  simp only [fromArgs, genFns, List.filter_cons, List.filter_append, List.map_cons, List.map_map]
  have := payload_args rc sn en decl
  simp [fromEnumFn] at this ⊢
  exact this

/-- **C96.** Whatever the user declares: `Container::from(e)`, for an argument `e` whose type is one of those in `p` as far as can be told from `e` alone, compiles exactly if one and only one of the
types in `p` is the container, the enum, or what a tuple variant holds. -/
theorem C96 (p : Nat → Prop) : OneImpl g p ↔ OnlyOne fun k => Convertible rc sn en decl k ∧ p k := by
  have hargs := fromArgs_eq h hm hs he hg
  have hnd := h.accepted.froms
  have hmem : ∀ k, k ∈ rc.typeId (.named sn) :: rc.typeId (.named en) :: (decl.filterMap (·.fields.fromTy)).map rc.typeId ↔ Convertible rc sn en decl k := by
    intro k
    simp only [List.mem_cons, List.mem_map, List.mem_filterMap, Convertible]
    refine or_congr_right (or_congr_right ⟨?_, ?_⟩)
    · rintro ⟨t, ⟨d, hd, ht⟩, rfl⟩
      exact ⟨d, hd, t, ht, rfl⟩
    · rintro ⟨d, hd, t, ht, rfl⟩
      exact ⟨t, ⟨d, hd, ht⟩, rfl⟩
  generalize hL : rc.typeId (.named sn) :: rc.typeId (.named en) :: (decl.filterMap (·.fields.fromTy)).map rc.typeId = L at hargs hnd hmem
  have hget : ∀ i k : Nat, (fromArgs g)[i]? = some (some k) ↔ L[i]? = some k := by
    intro i k
    rw [hargs, List.getElem?_map]
    cases L[i]? <;> simp
  unfold OneImpl
  simp only [hget]
  constructor
  · rintro ⟨i, k, hk, hp, hu⟩
    refine ⟨k, ⟨(hmem k).1 (List.mem_of_getElem? hk), hp⟩, ?_⟩
    rintro k' ⟨hc, hp'⟩
    obtain ⟨j, hj⟩ := List.mem_iff_getElem?.1 ((hmem k').2 hc)
    have := hu j k' hj hp'
    subst this
    rw [hk] at hj
    exact (Option.some.inj hj).symm
  · rintro ⟨k, ⟨hc, hp⟩, hu⟩
    obtain ⟨i, hi⟩ := List.mem_iff_getElem?.1 ((hmem k).2 hc)
    refine ⟨i, k, hi, hp, fun j k' hj hp' => ?_⟩
    have e := hu k' ⟨(hmem k').1 (List.mem_of_getElem? hj), hp'⟩
    subst e
    obtain ⟨h1, h2⟩ := List.getElem?_eq_some_iff.1 hi
    obtain ⟨h3, h4⟩ := List.getElem?_eq_some_iff.1 hj
    exact nodup_index hnd h3 h1 (h4.trans h2.symm)

/-- **C96**, known types. `Container::from(e)`, for an argument of a known type, compiles exactly if that type is the container, the enum, or what a tuple variant holds. -/
theorem C96_typed (k : Nat) : OneImpl g (· = k) ↔ Convertible rc sn en decl k := by
  rw [C96 h hm hs he hg]
  constructor
  · rintro ⟨_, ⟨hc, rfl⟩, _⟩
    exact hc
  · exact fun hc => ⟨k, ⟨hc, rfl⟩, fun _ h => h.2⟩

/-- **C96**, inference. `Container::from(T::new())` compiles exactly if one and only one of the types `T::new()` can have is the container, the enum, or what a tuple variant holds: with the type
`Vec`, exactly one variant must hold a vector. -/
theorem C96_new (newTy : String → Nat → Prop) (t : String) :
    FromCompiles g newTy (.semi (.call (.path [(sn, []), ("from", [])]) [newExpr t])) ↔ OnlyOne fun k => Convertible rc sn en decl k ∧ newTy t k := by
  have hsn : g.sn = sn := by
    obtain ⟨_, rfl⟩ := h.eq hm hs he hg
    rfl
  rw [← C96 h hm hs he hg]
  exact ⟨fun hx => hx.2.2, fun hx => ⟨hsn.symm, rfl, hx⟩⟩

/-- **C96**, the function. If it compiles, for a payload, then what is called is the generated function of the only variant that holds a value of this type, which stores that variant; it
never gets stuck. -/
theorem C96_variant {k : Nat} (hk : OneImpl g (· = k)) (h1 : k ≠ rc.typeId (.named sn)) (h2 : k ≠ rc.typeId (.named en)) :
    ∃ (i : Nat) (v : String) (tys : List Ty) (t : Ty), decl[i]? = some ⟨v, .tuple tys⟩ ∧ (Fields.tuple tys).fromTy = some t ∧ rc.typeId t = k ∧
      (∀ d ∈ decl, ∀ t', d.fields.fromTy = some t' → rc.typeId t' = k → d.name = v) ∧
      ∀ vs s, HasTypes rc tys vs → g.call "From" sn (some t) "from" none [payloadV env rc tys vs] s = g.call "From" sn (some (.named en)) "from" none [enumV ⟨v, .tuple vs⟩] s ∧
        g.call "From" sn (some t) "from" none [payloadV env rc tys vs] s ≠ .stuck := by
  rcases (C96_typed h hm hs he hg k).1 hk with rfl | rfl | ⟨d, hd, t, ht, rfl⟩
  · exact absurd rfl h1
  · exact absurd rfl h2
  · obtain ⟨i, hi⟩ := List.mem_iff_getElem?.1 hd
    obtain ⟨v, fs⟩ := d
    match fs, ht with
    | .tuple tys, ht =>
      refine ⟨i, v, tys, t, hi, ht, rfl, ?_, fun vs s hty => C82_payload h hm hs he hg hi hty ht s⟩
      intro d' hd' t' ht' e
      have hn := h.accepted.froms
      simp only [List.nodup_cons] at hn
      rw [payload_unique rc hn.2.2 _ hd _ hd' _ _ ht ht' e]

end
end

/-- **C96**, the example marked `compile_fail` in the documentation of the macro (`src/tagged_box_macro/mod.rs:684-700`), from the text: it is the only one, and consists of an invocation and three
statements. The first two compile, the third does not; provided `Vec<..>` is none of the types `i32`, `bool`, `String`, `Container` and `Item`, and `String::new()` is a `String`. -/
theorem C96_example : ∃ metas toks decl s1 s2 s3,
    (failBlocks modText none).filterMap userExample = [(invocation metas [] "Container" [] "Item" toks, [s1, s2, s3])] ∧
    ∀ {β : Type} (env : Env) (rc : Rustc) (user : User (Host β)) (cb : EVal → M β) (g : GCrate β) (newTy : String → Nat → Prop),
      Declared env rc "Container" "Item" false toks decl → IsProgram env rc user metas [] "Container" [] "Item" false toks cb g →
      (∀ k, newTy "String" k ↔ k = rc.typeId (.named "String")) → (∀ x ∈ ["i32", "bool", "String", "Container", "Item"], ¬ newTy "Vec" (rc.typeId (.named x))) →
      FromCompiles g newTy s1 ∧ FromCompiles g newTy s2 ∧ ¬ FromCompiles g newTy s3 := by
  refine ⟨secondMetas, secondToks, secondDecl, _, _, _, fail_source, ?_⟩
  intro β env rc user cb g newTy h hg hS hV
  have hsn : g.sn = "Container" ∧ g.rc = rc := by
    obtain ⟨_, rfl⟩ := h.eq second_metas (.inl rfl) (.inl rfl) hg
    exact ⟨rfl, rfl⟩
  have hn : numLit "10i32" = some (10, some "i32") := by decide
  have ht := C96_typed h second_metas (.inl rfl) (.inl rfl) hg
  have hc := C96 h second_metas (.inl rfl) (.inl rfl) hg
  refine ⟨⟨hsn.1.symm, rfl, ?_⟩, ⟨hsn.1.symm, rfl, ?_⟩, ?_⟩
  · simp only [argTypes, hn]
    rw [hsn.2, ht]
    exact .inr (.inr ⟨_, .head _, _, rfl, rfl⟩)
  · show OneImpl g (newTy "String")
    rw [show newTy "String" = (· = rc.typeId (.named "String")) from funext fun k => propext (hS k), ht]
    exact .inr (.inr ⟨_, .tail _ (.tail _ (.head _)), _, rfl, rfl⟩)
  · rintro ⟨_, _, h3⟩
    have h3 : OneImpl g (newTy "Vec") := h3
    obtain ⟨k, ⟨hk, hp⟩, _⟩ := (hc _).1 h3
    rcases hk with rfl | rfl | ⟨d, hd, t, ht, rfl⟩
    · exact hV _ (by simp) hp
    · exact hV _ (by simp) hp
    · simp only [secondDecl, List.mem_cons, List.not_mem_nil, or_false] at hd
      rcases hd with rfl | rfl | rfl <;> cases ht
      · exact hV _ (by simp) hp
      · exact hV _ (by simp) hp
      · exact hV _ (by simp) hp

/-- The declaration of the example is accepted. -/
theorem second_declared (b : Bool) : Declared (env60 b) rcUser "Container" "Item" false secondToks secondDecl where
  target := env60_ok b
  rustc := rcUser_ok
  keywords := fun x hx => List.contains_iff_mem.2 hx
  tokens := .cons (.tuple (.one ⟨by simp, 0, rfl, rfl⟩)) (.cons (.tuple (.one ⟨by simp, 0, rfl, rfl⟩)) (.cons (.tuple (.one ⟨by simp, 0, rfl, rfl⟩)) .nil))
  accepted := by
    have hx : Compiled rcUser (env60 b).cfg "Container" "Item" false secondToks secondDecl (programOf "Container" "Item" false secondDecl) :=
      ⟨.cons (.tuple (.one ⟨by simp, 0, rfl, rfl⟩)) (.cons (.tuple (.one ⟨by simp, 0, rfl, rfl⟩)) (.cons (.tuple (.one ⟨by simp, 0, rfl, rfl⟩)) .nil)), by rfl⟩
    exact hx.wf.1
  sizes := by
    intro d hd sh hs
    simp only [secondDecl, List.mem_cons, List.not_mem_nil, or_false] at hd
    rcases hd with rfl | rfl | rfl <;> cases hs <;> decide

/-- The types of `T::new()`. -/
def newTypes : String → Nat → Prop
  | "String", k => k = rcUser.typeId (.named "String")
  | "Vec", k => ∃ t, k = rcUser.typeId (.app "Vec" [t])
  | _, _ => False

/-- All hypotheses of `C96_example` can be met. -/
example (b : Bool) : ∃ g, Declared (env60 b) rcUser "Container" "Item" false secondToks secondDecl ∧
    IsProgram (env60 b) rcUser (usersUser secondDecl Unit) secondMetas [] "Container" [] "Item" false secondToks (fun _ => pure ()) g ∧
    (∀ k, newTypes "String" k ↔ k = rcUser.typeId (.named "String")) ∧ (∀ x ∈ ["i32", "bool", "String", "Container", "Item"], ¬ newTypes "Vec" (rcUser.typeId (.named x))) := by
  obtain ⟨g, hg, _⟩ := C82_program (second_declared b) second_metas (.inl rfl) (.inl rfl) (fun _ => pure ()) (usersUser secondDecl Unit) rfl
  refine ⟨g, second_declared b, hg, fun _ => Iff.rfl, ?_⟩
  intro x _ hx
  obtain ⟨t, ht⟩ := hx
  simp only [rcUser, rcWords, rcDemo, tyCode] at ht
  omega

/-- `Vec::new()` can be given to `Outer::from`, with the declaration of the test `storage`: of its ten variants, one holds a vector. -/
example (b : Bool) (g : GCrate Unit) (hg : IsProgram (env60 b) rcUser (usersUser storageDecl Unit) storageMetas [] "Outer" [] "Inner" false storageToks (fun _ => pure ()) g) :
    FromCompiles g newTypes (.semi (.call (.path [("Outer", []), ("from", [])]) [newExpr "Vec"])) := by
  have hno : ∀ x t, rcUser.typeId (.named x) ≠ rcUser.typeId (.app "Vec" [t]) := by
    intro x t e
    simp only [rcUser, rcWords, rcDemo, tyCode] at e
    omega
  rw [C96_new (storage_declared b) storage_metas (.inl rfl) (.inl rfl) hg]
  refine ⟨rcUser.typeId (.app "Vec" [.named "u8"]), ⟨.inr (.inr ⟨⟨"Vector", .tuple [.app "Vec" [.named "u8"]]⟩, by simp [storageDecl], _, rfl, rfl⟩), _, rfl⟩, ?_⟩
  rintro k ⟨hk, t, rfl⟩
  rcases hk with e | e | ⟨d, hd, u, hu, e⟩
  · exact absurd e.symm (hno _ _)
  · exact absurd e.symm (hno _ _)
  · simp only [storageDecl, List.mem_cons, List.not_mem_nil, or_false] at hd
    rcases hd with rfl | rfl | rfl | rfl | rfl | rfl | rfl | rfl | rfl | rfl <;> cases hu
    all_goals first
      | exact absurd e.symm (hno _ _)
      | exact e

/-- **C96**, named fields. The documentation of the macro says that `From` is implemented for "any value that would be allowed to be inside of the `Item` enum". It is not for variants with named fields:
the test `storage` declares `OrphanStructTrailingComma { int: i32, trailing_comma: f32 }`, but a pair of `i32` and `f32` is not accepted by `Outer::from`, and neither is `()` for its unit variant. -/
theorem C96_named (b : Bool) (g : GCrate Unit) (hg : IsProgram (env60 b) rcUser (usersUser storageDecl Unit) storageMetas [] "Outer" [] "Inner" false storageToks (fun _ => pure ()) g) :
    ¬ OneImpl g (· = rcUser.typeId (.tuple [.named "i32", .named "f32"])) ∧ ¬ OneImpl g (· = rcUser.typeId (.tuple [])) := by
  have hno : ∀ ts, ¬ Convertible rcUser "Outer" "Inner" storageDecl (rcUser.typeId (.tuple ts)) := by
    rintro ts (e | e | ⟨d, hd, u, hu, e⟩)
    · simp only [rcUser, rcWords, rcDemo, tyCode] at e
      omega
    · simp only [rcUser, rcWords, rcDemo, tyCode] at e
      omega
    · simp only [storageDecl, List.mem_cons, List.not_mem_nil, or_false] at hd
      rcases hd with rfl | rfl | rfl | rfl | rfl | rfl | rfl | rfl | rfl | rfl <;> cases hu <;> simp only [rcUser, rcWords, rcDemo, tyCode] at e <;> omega
  have ht := C96_typed (storage_declared b) storage_metas (.inl rfl) (.inl rfl) hg
  exact ⟨fun hx => hno _ ((ht _).1 hx), fun hx => hno _ ((ht _).1 hx)⟩

/-- The program of `C96_named` exists. -/
example (b : Bool) : ∃ g, IsProgram (env60 b) rcUser (usersUser storageDecl Unit) storageMetas [] "Outer" [] "Inner" false storageToks (fun _ => pure ()) g := by
  obtain ⟨g, hg, _⟩ := C82_program (storage_declared b) storage_metas (.inl rfl) (.inl rfl) (fun _ => pure ()) (usersUser storageDecl Unit) rfl
  exact ⟨g, hg⟩

end TB.Props

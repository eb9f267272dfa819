import Verif.DemoMacro
import Verif.Lemmas.Depth

/-!
# Properties of the size of expansions
-/

set_option autoImplicit false

namespace TB.Props

open TB.Macro

/-! ## C54 -/

/-- `recursion_limit` of a crate that does not set it. -/
def defaultLimit : Nat := 128

/-- Tuple variants other than those with exactly one field. -/
def manyFieldTuples (decl : List VariantDef) : Nat :=
  (decl.filter fun d => match d.fields with
    | .unit => false
    | .record _ => false
    | .tuple tys => tys.length != 1).length

theorem manyFieldTuples_eq (decl : List VariantDef) : manyFieldTuples decl = decl.countP VariantDef.viaTuple := by
  rw [manyFieldTuples, List.countP_eq_length_filter]
  congr 2
  funext d
  obtain ⟨v, fl⟩ := d
  match fl with
  | .unit | .tuple [] | .tuple [_] | .tuple (_ :: _ :: _) | .record _ => rfl

/-- The claim, for a width: every well-formed declaration whose variants fit the discriminant is accepted in a crate with the default
settings. -/
def C54_Statement (cfg : Config) : Prop :=
  ∀ (std : StdDepth) (rc : Rustc) (sn en : String) (hd : Bool) (ts : List Tok) (decl : List VariantDef),
    DeclSyntax rc ts decl → WellFormed rc cfg sn en hd decl → decl.length ≤ 2 ^ cfg.freeBits →
    std.panic ≤ 93 → std.attrs ≤ 93 → ∃ P, compileWithin defaultLimit std rc cfg sn en hd ts = .ok P

/-- **C54**, exactly what is accepted, for every recursion limit: well-formed declarations for which the number of variants, plus the
largest of one, the number of tuple variants with other than one field and the depths of `panic!` and of the attributes, is within the
limit less three; the generated code is that of the unlimited compiler. -/
theorem C54_exact {limit : Nat} {std : StdDepth} {rc : Rustc} {cfg : Config} {sn en : String} {hd : Bool} {ts : List Tok}
    {P : Program} :
    compileWithin limit std rc cfg sn en hd ts = .ok P ↔
      compile rc cfg sn en hd ts = .ok P ∧
      ∀ decl, DeclSyntax rc ts decl →
        decl.length + 3 + max (max 1 (manyFieldTuples decl)) (max std.panic std.attrs) ≤ limit := by
  have key : ∀ decl, DeclSyntax rc ts decl → WellFormed rc cfg sn en hd decl → expansionDepth rc std ts =
      .ok (decl.length + 3 + max (max 1 (manyFieldTuples decl)) (max std.panic std.attrs)) := fun decl h1 h2 => by
    rw [manyFieldTuples_eq]; exact expansionDepth_eq h1 h2.nonempty
  constructor
  · intro h
    unfold compileWithin at h
    split at h
    · cases h
    · rename_i k hk
      split at h
      · cases h
      · rename_i hl
        refine ⟨h, fun decl hd' => ?_⟩
        obtain ⟨decl', h1, h2, _⟩ := compile_ok.1 h
        rw [hd'.unique h1]
        rw [key _ h1 h2] at hk
        cases hk
        omega
  · rintro ⟨h, hl⟩
    obtain ⟨decl, h1, h2, _⟩ := compile_ok.1 h
    have := hl decl h1
    unfold compileWithin
    rw [key decl h1 h2]
    simp only
    rw [if_neg (by omega)]
    exact h

/-- **C54**, the part that holds: with 59 or more reserved bits the claim is true. -/
theorem C54_partial {cfg : Config} (_h : cfg ∈ table) (hw : 59 ≤ cfg.ptrWidth) : C54_Statement cfg := by
  intro std rc sn en hd ts decl h1 h2 hn hp ha
  have hf : cfg.freeBits ≤ 5 := by
    have : ∀ c ∈ table, 59 ≤ c.ptrWidth → c.freeBits ≤ 5 := by decide
    exact this cfg _h hw
  have h32 : decl.length ≤ 32 := Nat.le_trans hn (by
    calc 2 ^ cfg.freeBits ≤ 2 ^ 5 := Nat.pow_le_pow_right (by decide) hf
      _ = 32 := rfl)
  obtain ⟨P, hP⟩ : ∃ P, compile rc cfg sn en hd ts = .ok P := ⟨_, compile_ok.2 ⟨decl, h1, h2, rfl⟩⟩
  refine ⟨P, C54_exact.2 ⟨hP, fun decl' h' => ?_⟩⟩
  rw [h'.unique h1]
  have : manyFieldTuples decl ≤ decl.length := List.length_filter_le _ _
  simp only [defaultLimit]
  omega

/-! ### A declaration as large as one likes -/

/-- `X`, `XX`, `XXX`, ..; likewise with other letters. -/
def longName (c : Char) (i : Nat) : String := String.ofList (List.replicate (i + 1) c)

theorem longName_toList (c : Char) (i : Nat) : (longName c i).toList = List.replicate (i + 1) c := by simp [longName]

theorem longName_inj {c : Char} {i j : Nat} (h : longName c i = longName c j) : i = j := by
  have := congrArg (fun s => s.toList.length) h
  simpa [longName_toList] using this

/-- A compiler for which every identifier is a type; those of different length are different types. -/
def rcMany : Rustc where
  parseTy
    | .ident s :: _ => .ok (.named s) 0
    | _ => .noStart
  leaf _ := u8L
  typeId
    | .named s => 2 * s.toList.length
    | .tuple (.named s :: _) => 2 * s.toList.length + 1
    | _ => 1
  isCopy _ := true

theorem rcMany_ok : rcMany.OK := ⟨fun _ => u8L_wf, fun _ _ => rfl⟩

/-- `i`-th variant: `XX..X(YY..Y, u8),` -/
def manyToks (i : Nat) : List Tok :=
  [.ident (longName 'X' i), .group .paren [.ident (longName 'Y' i), .comma, .ident "u8"], .comma]

def manyDef (i : Nat) : VariantDef := ⟨longName 'X' i, .tuple [.named (longName 'Y' i), .named "u8"]⟩

theorem many_syntax (is : List Nat) : DeclSyntax rcMany (is.flatMap manyToks) (is.map manyDef) := by
  induction is with
  | nil => exact .nil
  | cons i is ih =>
    exact .cons (.tuple (.cons ⟨by simp, 0, rfl, rfl⟩ (.one ⟨by simp, 0, rfl, rfl⟩))) ih

theorem longName_ne {c c' : Char} (h : c ≠ c') (i j : Nat) : longName c i ≠ longName c' j := by
  intro he
  have := congrArg String.toList he
  rw [longName_toList, longName_toList, List.replicate_succ, List.replicate_succ] at this
  exact h (List.cons.inj this).1

theorem longName_ne_of {c : Char} {s : String} (h : ∀ x xs, s.toList = x :: xs → x ≠ c) (i : Nat) : longName c i ≠ s := by
  intro he
  have := congrArg String.toList he
  rw [longName_toList, List.replicate_succ] at this
  exact h _ _ this.symm rfl

theorem many_wf {cfg : Config} (h8 : cfg.discrBits = 8) (n : Nat) (hn : n ≠ 0) :
    WellFormed rcMany cfg "Container" "Item" false ((List.range n).map manyDef) where
  nonempty := by cases n with
    | zero => exact absurd rfl hn
    | succ n => simp
  arity d hd tys ht := by
    obtain ⟨i, _, rfl⟩ := List.mem_map.1 hd
    cases ht
    simp
  names := by
    rw [List.map_map]
    exact List.Pairwise.map _ (fun a b hab he => hab (longName_inj he)) List.nodup_range
  members d hd ms hm := by
    obtain ⟨i, _, rfl⟩ := List.mem_map.1 hd
    cases hm
  froms := by
    have h1 : (((List.range n).map manyDef).filterMap (·.fields.fromTy)).map rcMany.typeId =
        (List.range n).map (fun i => 2 * (i + 1) + 1) := by
      generalize List.range n = l
      induction l with
      | nil => rfl
      | cons i l ih =>
        simp only [List.map_cons] at ih ⊢
        show rcMany.typeId (.tuple [.named (longName 'Y' i), .named "u8"]) :: List.map rcMany.typeId _ = _
        rw [ih]
        congr 1
        show 2 * (longName 'Y' i).toList.length + 1 = _
        rw [longName_toList, List.length_replicate]
    rw [h1]
    refine List.nodup_cons.2 ⟨?_, List.nodup_cons.2 ⟨?_, ?_⟩⟩
    · intro hm
      rcases List.mem_cons.1 hm with h | h
      · exact absurd h (by decide)
      · obtain ⟨i, _, hi⟩ := List.mem_map.1 h
        have : rcMany.typeId (.named "Container") = 18 := by decide
        omega
    · intro hm
      obtain ⟨i, _, hi⟩ := List.mem_map.1 hm
      have : rcMany.typeId (.named "Item") = 8 := by decide
      omega
    · exact List.Pairwise.map _ (fun a b hab he => hab (by omega)) List.nodup_range
  idents := ⟨rfl, rfl, fun _ _ => ⟨rfl, fun _ _ _ _ => rfl⟩⟩
  prelude := by unfold UsualName; decide
  core _ := by unfold UsualName; decide
  enumOK := ⟨by decide, by decide, fun _ => by decide⟩
  reserved d hd := by
    obtain ⟨i, _, rfl⟩ := List.mem_map.1 hd
    have h : ∀ s ∈ Fields.reserved "Item" (.tuple [.named (longName 'Y' i), .named "u8"]), s.toList.head? ≠ some 'X' := by
      show ∀ s ∈ ["Item", "core", "__tagged_box_enum_counter", "u8", "tagged", "callback", "tuple", "variant"] ++ fieldVars.take 2, _
      decide
    intro hm
    refine h _ hm ?_
    show (longName 'X' i).toList.head? = _
    rw [longName_toList, List.replicate_succ]
    rfl
  capture d hd _ t ht := by
    obtain ⟨i, _, rfl⟩ := List.mem_map.1 hd
    have hb : longName 'Y' i ≠ longName 'X' i := longName_ne (by decide) i i
    have hu : longName 'X' i ≠ "u8" := longName_ne_of (fun x xs hx => by
      have : x = 'u' := (List.cons.inj hx).1.symm
      subst this; decide) i
    rcases List.mem_cons.1 (show t ∈ [Ty.named (longName 'Y' i), Ty.named "u8"] from ht) with rfl | ht
    · rw [← mentions_iff, Bool.not_eq_true]
      simpa [Ty.mentions, manyDef] using hb
    · rw [List.mem_singleton.1 ht, ← mentions_iff, Bool.not_eq_true]
      simpa [Ty.mentions, manyDef] using (fun h => hu h.symm)
  hidden d hd t ht := by
    obtain ⟨i, _, rfl⟩ := List.mem_map.1 hd
    have h : ∀ s ∈ ["Self", "F", "__tagged_box_enum_counter"], ¬ Occurs s t := by
      intro s hs
      have hx : s.toList.head? ≠ some 'Y' ∧ s ≠ "u8" := by
        revert s; decide
      rcases List.mem_cons.1 (show t ∈ [Ty.named (longName 'Y' i), Ty.named "u8"] from ht) with rfl | ht
      · rw [← mentions_iff, Bool.not_eq_true]
        simp only [Ty.mentions, beq_eq_false_iff_ne]
        rintro h
        refine hx.1 ?_
        rw [← h, longName_toList, List.replicate_succ]
        rfl
      · rw [List.mem_singleton.1 ht, ← mentions_iff, Bool.not_eq_true]
        simp only [Ty.mentions, beq_eq_false_iff_ne]
        exact fun h => hx.2 h.symm
    exact ⟨h _ (by simp), h _ (by simp), h _ (by simp)⟩
  u8 := h8
  copy h := by cases h

/-- **C54 does not hold** with 56, 57 or 58 reserved bits: declarations with as many variants as there are discriminants are well-formed
(and compile under a large enough limit), but exceed the default limit, however shallow the other macros are. -/
theorem C54_refuted {cfg : Config} (h : cfg ∈ table) (hw : cfg.ptrWidth = 56 ∨ cfg.ptrWidth = 57 ∨ cfg.ptrWidth = 58)
    (std : StdDepth) :
    ∃ (rc : Rustc) (ts : List Tok) (decl : List VariantDef), rc.OK ∧ DeclSyntax rc ts decl ∧
      WellFormed rc cfg "Container" "Item" false decl ∧ decl.length = 2 ^ cfg.freeBits ∧
      (∃ P, compile rc cfg "Container" "Item" false ts = .ok P) ∧
      compileWithin defaultLimit std rc cfg "Container" "Item" false ts = .error .recursionLimit := by
  have hb : cfg.discrBits = 8 ∧ 6 ≤ cfg.freeBits := by
    have : ∀ c ∈ table, (c.ptrWidth = 56 ∨ c.ptrWidth = 57 ∨ c.ptrWidth = 58) → c.discrBits = 8 ∧ 6 ≤ c.freeBits := by decide
    exact this cfg h hw
  have h64 : 64 ≤ 2 ^ cfg.freeBits := Nat.pow_le_pow_right (n := 2) (by decide) hb.2
  have hs := many_syntax (List.range (2 ^ cfg.freeBits))
  have hwf := many_wf hb.1 (2 ^ cfg.freeBits) (by omega)
  refine ⟨rcMany, _, _, rcMany_ok, hs, hwf, by simp, ⟨_, compile_ok.2 ⟨_, hs, hwf, rfl⟩⟩, ?_⟩
  have hc : ∀ l : List Nat, (l.map manyDef).countP VariantDef.viaTuple = l.length := by
    intro l
    rw [List.countP_eq_length.2, List.length_map]
    intro d hd
    obtain ⟨i, _, rfl⟩ := List.mem_map.1 hd
    rfl
  unfold compileWithin
  rw [expansionDepth_eq hs hwf.nonempty, hc]
  simp only [List.length_map, List.length_range]
  rw [if_pos (by simp only [defaultLimit]; omega)]

/-- At the default width, the four-variant declaration of the demo needs depth 10 if `panic!` needs 2 and the attributes need 3. -/
example : compileWithin 10 ⟨2, 3⟩ rcDemo (env60 true).cfg "Container" "Item" false toksMix = .ok progMix ∧
    compileWithin 9 ⟨2, 3⟩ rcDemo (env60 true).cfg "Container" "Item" false toksMix = .error .recursionLimit :=
  ⟨rfl, rfl⟩

end TB.Props

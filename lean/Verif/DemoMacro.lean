import Verif.Demo
import Verif.Lemmas.MacroInto

/-!
# Concrete declarations

Used only to show that hypotheses can be met and as counterexamples.
-/

set_option autoImplicit false

namespace TB.Macro

/-- Code of a name. -/
def nameCode (s : String) : Nat := s.toList.foldl (fun n c => n * 2 ^ 21 + (c.toNat + 1)) 0

mutual
/-- Distinct numbers for the types used below. -/
def tyCode : Ty → Nat
  | .named s => 3 * nameCode s
  | .app h args => 3 * (nameCode h + tyCodes args) + 1
  | .tuple ts => 3 * tyCodes ts + 2
def tyCodes : List Ty → Nat
  | [] => 0
  | t :: ts => tyCodes ts * 2 ^ 256 + tyCode t + 1
end

/-- A compiler that knows some types by name; every identifier is a type, nothing else is. -/
def rcDemo : Rustc where
  parseTy
    | .ident s :: _ => .ok (.named s) 0
    | _ => .noStart
  leaf
    | .named "u8" => u8L
    | .named "u32" => u32L
    | .named "u64" => u64L
    | .named "i32" => u32L
    | .named "bool" => boolL
    | .named "Owned" => ownedL
    | .named "Guard" => guardL
    | _ => u8L
  typeId := tyCode
  isCopy
    | .named "Owned" => false
    | .named "Guard" => false
    | _ => true

theorem rcDemo_usual : (∀ x ∈ ["u8", "usize", "From", "FnOnce"], UsualName rcDemo "Container" "Item" x) ∧
    UsualName rcDemo "Container" "Item" "core" := by
  unfold UsualName; decide

theorem rcDemo_ok : rcDemo.OK where
  leaf_wf t := by
    simp only [rcDemo]
    split
    · exact u8L_wf
    · exact u32L_wf
    · exact u64L_wf
    · exact u32L_wf
    · exact boolL_wf
    · exact ownedL_wf
    · exact guardL_wf
    · exact u8L_wf
  copy_no_drop t h := by
    simp only [rcDemo] at h ⊢
    split at h
    · cases h
    · cases h
    · split <;> first | rfl | simp_all

/-- `Tag, Pair(u8, u32), Heap(Owned), Rec { x: u64, y: bool },` -/
def toksMix : List Tok :=
  [.ident "Tag", .comma,
   .ident "Pair", .group .paren [.ident "u8", .comma, .ident "u32"], .comma,
   .ident "Heap", .group .paren [.ident "Owned"], .comma,
   .ident "Rec", .group .brace [.ident "x", .colon, .ident "u64", .comma, .ident "y", .colon, .ident "bool"], .comma]

def declMix : List VariantDef :=
  [⟨"Tag", .unit⟩, ⟨"Pair", .tuple [.named "u8", .named "u32"]⟩, ⟨"Heap", .tuple [.named "Owned"]⟩,
   ⟨"Rec", .record [("x", .named "u64"), ("y", .named "bool")]⟩]

theorem declMix_syntax : DeclSyntax rcDemo toksMix declMix := by
  refine .cons .unit (.cons (.tuple ?_) (.cons (.tuple ?_) (.cons (.record ?_) .nil)))
  · exact .cons ⟨by simp, 0, rfl, rfl⟩ (.one ⟨by simp, 0, rfl, rfl⟩)
  · exact .one ⟨by simp, 0, rfl, rfl⟩
  · exact .cons ⟨_, rfl, by simp, 0, rfl, rfl⟩ (.one ⟨_, rfl, by simp, 0, rfl, rfl⟩)

def progMix : Program := programOf "Container" "Item" false declMix

theorem mix_compiled (b : Bool) : Compiled rcDemo (env60 b).cfg "Container" "Item" false toksMix declMix progMix :=
  ⟨declMix_syntax, by rfl⟩

/-! Enums with `n` unit variants, for any `n`. -/

/-- `v`, `vv`, `vvv`, .. -/
def unitName (i : Nat) : String := String.ofList (List.replicate (i + 1) 'v')

theorem unitName_inj {i j : Nat} (h : unitName i = unitName j) : i = j := by
  have := congrArg (fun s => s.toList.length) h
  simpa [unitName] using this

def declUnits (n : Nat) : List VariantDef := (List.range n).map (fun i => ⟨unitName i, .unit⟩)

def toksUnits (n : Nat) : List Tok := (List.range n).flatMap (fun i => [.ident (unitName i), .comma])

theorem declUnits_syntax (n : Nat) : DeclSyntax rcDemo (toksUnits n) (declUnits n) := by
  have key : ∀ l : List Nat, DeclSyntax rcDemo (l.flatMap (fun i => [.ident (unitName i), .comma]))
      (l.map (fun i => ⟨unitName i, .unit⟩)) := by
    intro l
    induction l with
    | nil => exact .nil
    | cons i l ih => exact .cons .unit ih
  exact key _

theorem declUnits_wf {cfg : Config} (h8 : cfg.discrBits = 8) (hd : Bool) {n : Nat} (hn : 0 < n) :
    WellFormed rcDemo cfg "Container" "Item" hd (declUnits n) := by
  have hu : ∀ d ∈ declUnits n, d.fields = .unit := by
    intro d hd
    obtain ⟨i, _, rfl⟩ := List.mem_map.1 hd
    rfl
  constructor
  · intro e
    have := congrArg List.length e
    simp [declUnits] at this
    omega
  · intro d hd tys e; rw [hu d hd] at e; cases e
  · show ((List.map _ (List.range n)).map _).Nodup
    rw [List.map_map]
    rw [List.Nodup, List.pairwise_map]
    exact List.nodup_range.imp (fun hne he => hne (unitName_inj he))
  · intro d hd ms e; rw [hu d hd] at e; cases e
  · have : (declUnits n).filterMap (·.fields.fromTy) = [] := by
      rw [List.filterMap_eq_nil_iff]
      intro d hd; rw [hu d hd]; rfl
    rw [this]
    decide
  · exact ⟨rfl, rfl, fun _ _ => ⟨rfl, fun _ _ _ _ => rfl⟩⟩
  · exact rcDemo_usual.1
  · exact fun _ => rcDemo_usual.2
  · exact ⟨by decide, by decide, fun _ => by decide⟩
  · intro d hd hm; rw [hu d hd] at hm; cases hm
  · intro d hd hm; rw [hu d hd] at hm; cases hm
  · intro d hd t ht; rw [hu d hd] at ht; cases ht
  · exact h8
  · intro _ d hd t ht; rw [hu d hd] at ht; cases ht

theorem units_compiled {cfg : Config} (h8 : cfg.discrBits = 8) (hd : Bool) {n : Nat} (hn : 0 < n) :
    Compiled rcDemo cfg "Container" "Item" hd (toksUnits n) (declUnits n) (programOf "Container" "Item" hd (declUnits n)) :=
  ⟨declUnits_syntax n, compile_ok.2 ⟨_, declUnits_syntax n, declUnits_wf h8 hd hn, rfl⟩⟩

theorem units_value {n i : Nat} (h : i < n) : IsValue rcDemo (declUnits n) i ⟨unitName i, .unit⟩ :=
  ⟨⟨unitName i, .unit⟩, by simp [declUnits, h], rfl, trivial⟩

/-- One payload variant `Num(u64)` followed by `n` unit variants. -/
def declNum (n : Nat) : List VariantDef := ⟨"Num", .tuple [.named "u64"]⟩ :: declUnits n

def toksNum (n : Nat) : List Tok := .ident "Num" :: .group .paren [.ident "u64"] :: .comma :: toksUnits n

theorem num_compiled {cfg : Config} (h8 : cfg.discrBits = 8) (n : Nat) (hn : 0 < n) :
    Compiled rcDemo cfg "Container" "Item" false (toksNum n) (declNum n) (programOf "Container" "Item" false (declNum n)) := by
  have hs : DeclSyntax rcDemo (toksNum n) (declNum n) :=
    .cons (.tuple (.one ⟨by simp, 0, rfl, rfl⟩)) (declUnits_syntax n)
  have hu : ∀ d ∈ declUnits n, d.fields = .unit := by
    intro d hd
    obtain ⟨i, _, rfl⟩ := List.mem_map.1 hd
    rfl
  have hw := declUnits_wf (cfg := cfg) h8 false hn
  refine ⟨hs, compile_ok.2 ⟨_, hs, ?_, rfl⟩⟩
  constructor
  · simp [declNum]
  · intro d hd tys e
    rcases List.mem_cons.1 hd with rfl | hd
    · cases e; simp
    · exact hw.arity d hd tys e
  · show ("Num" :: (declUnits n).map (·.name)).Nodup
    rw [List.nodup_cons]
    refine ⟨fun hm => ?_, hw.names⟩
    obtain ⟨d, hd, e⟩ := List.mem_map.1 hm
    obtain ⟨i, _, rfl⟩ := List.mem_map.1 hd
    have h2 : 'N' ∈ (unitName i).toList := by
      have e' : unitName i = "Num" := e
      rw [e']; decide
    simp [unitName] at h2
  · intro d hd ms e
    rcases List.mem_cons.1 hd with rfl | hd
    · cases e
    · exact hw.members d hd ms e
  · have : (declNum n).filterMap (·.fields.fromTy) = [.named "u64"] := by
      have h0 : (declUnits n).filterMap (·.fields.fromTy) = [] := by
        rw [List.filterMap_eq_nil_iff]
        intro d hd; rw [hu d hd]; rfl
      show Ty.named "u64" :: (declUnits n).filterMap (·.fields.fromTy) = _
      rw [h0]
    rw [this]
    decide
  · exact ⟨rfl, rfl, fun _ _ => ⟨rfl, fun _ _ _ _ => rfl⟩⟩
  · exact rcDemo_usual.1
  · exact fun _ => rcDemo_usual.2
  · exact ⟨by decide, by decide, fun _ => by decide⟩
  · intro d hd hm
    rcases List.mem_cons.1 hd with rfl | hd
    · cases hm
    · exact hw.reserved d hd hm
  · intro d hd hm
    rcases List.mem_cons.1 hd with rfl | hd
    · cases hm
    · exact hw.capture d hd hm
  · intro d hd t ht
    rcases List.mem_cons.1 hd with rfl | hd
    · rw [List.mem_singleton.1 ht, ← mentions_iff, ← mentions_iff, ← mentions_iff]; decide
    · exact hw.hidden d hd t ht
  · exact h8
  · intro h; cases h

end TB.Macro

import Verif.Spec.UserRun
import Verif.Source.UserCode

/-! # The tests and examples with plain values -/

set_option autoImplicit false
set_option linter.unusedSimpArgs false

namespace TB.Rust.User

open TB TB.Macro TB.Mbe TB.Rust TB.Rust.Code TB.Spec TB.Source

variable {L : Lits} (readable : EVal → Bool)

@[simp] theorem p_pure {α : Type} (a : α) : (pure a : Except Fault α) = .ok a := rfl
@[simp] theorem p_ok {α β : Type} (a : α) (f : α → Except Fault β) : (Except.ok a >>= f) = f a := rfl

set_option maxRecDepth 8000 in
theorem nums : numLit "100" = some (100, none) ∧ numLit "200" = some (200, none) ∧ numLit "300" = some (300, none) ∧ numLit "100usize" = some (100, some "usize") ∧
    numLit "200usize" = some (200, some "usize") ∧ numLit "300usize" = some (300, some "usize") ∧ numLit "10" = some (10, none) ∧ numLit "12_200" = some (12200, none) ∧
    numLit "23_300" = some (23300, none) ∧ numLit "34_400" = some (34400, none) ∧ numLit "10_000" = some (10000, none) ∧ numLit "1200" = some (1200, none) ∧
    numLit "233" = some (233, none) ∧ numLit "34" = some (34, none) ∧ numLit "0" = some (0, none) ∧ numLit "10i32" = some (10, some "i32") ∧
    numLit "\"Hello from tagged-box!\"" = none := by
  refine ⟨?_, ?_, ?_, ?_, ?_, ?_, ?_, ?_, ?_, ?_, ?_, ?_, ?_, ?_, ?_, ?_, ?_⟩ <;> rfl


/-- The literals of the tests. -/
theorem reps (hU : Usual L) : ∃ (u : Nat → Bytes), ∀ n, n ≤ 65535 ∨ n = L.max "usize" → L.enc (.named "usize") (.num none n) = some (u n) ∧
    L.enc (.named "usize") (.num (some "usize") n) = some (u n) ∧ L.eq (.named "usize") (u n) (u n) = true ∧
    ∀ k ≤ 65535, L.eq (.named "usize") (u n) (u k) = (n == k) ∧ L.cmp (.named "usize") (u n) (u k) = some (compare n k) := by
  obtain ⟨⟨⟨u, hu⟩, hm⟩, _⟩ := hU
  refine ⟨u, fun n hn => ?_⟩
  have hn : n ≤ L.max "usize" := by omega
  obtain ⟨h1, h2, h3⟩ := hu n hn
  exact ⟨h1, h2, by simpa using (h3 n hn).1, fun k hk => h3 k (by omega)⟩

local macro "run_user" f:ident ls:Lean.Parser.Tactic.simpLemma,* : tactic =>
  `(tactic| simp [runUser, $f:ident, ustmts, uev, uevs, callUV, methodUV, structUV, eqUV, binUV, cmpUV, litUV, nameUV, prims, orStuck, tupleItem, recordItem, unitItem, pickPrims,
    findFrom, encAll, testsDecl, quickDecl, secondDecl, storageDecl, plainIface, eqItem, eqFields, cmpItem, cmpFields, position, lookupDef, lookup, $ls,*])

section
variable (hU : Usual L)
include hU

theorem run1 : runUser L testsDecl (plainIface readable fun _ => true) "Container" "Item" user_container_into_inner.body = .ok () := by
  obtain ⟨u, hu⟩ := reps hU
  obtain ⟨f, hf⟩ := hU.f32
  obtain ⟨n1, n2, n3, n4, n5, n6, n7, n8, n9, n10, n11, n12, n13, n14, n15, n16, n17⟩ := nums
  run_user user_container_into_inner hu, hf, n1, n2, n3, n4, n5, n6

theorem run2 : runUser L testsDecl (plainIface readable fun _ => true) "Container" "Item" user_inner_into_tagged_box.body = .ok () := by
  obtain ⟨u, hu⟩ := reps hU
  obtain ⟨f, hf⟩ := hU.f32
  obtain ⟨w, hw⟩ := hU.u32
  obtain ⟨b, hb⟩ := hU.bool
  have w1 := hw 10 (by decide)
  have w2 := (w1.2.2 10 (by decide)).1
  obtain ⟨n1, n2, n3, n4, n5, n6, n7, n8, n9, n10, n11, n12, n13, n14, n15, n16, n17⟩ := nums
  run_user user_inner_into_tagged_box hu, hf, hb, w1, w2, n1, n2, n3, n7

theorem run3 (hr : ∀ e, readable e = true) : runUser L testsDecl (plainIface readable fun _ => true) "Container" "Item" user_inner_from_tagged_box.body = .ok () := by
  obtain ⟨u, hu⟩ := reps hU
  obtain ⟨f, hf⟩ := hU.f32
  obtain ⟨w, hw⟩ := hU.u32
  obtain ⟨b, hb⟩ := hU.bool
  have w1 := hw 10000 (by decide)
  have w2 := (w1.2.2 10000 (by decide)).1
  obtain ⟨n1, n2, n3, n4, n5, n6, n7, n8, n9, n10, n11, n12, n13, n14, n15, n16, n17⟩ := nums
  run_user user_inner_from_tagged_box hr, hu, hf, hb, w1, w2, n8, n9, n10, n11

theorem run4 : runUser L testsDecl (plainIface readable fun _ => true) "Container" "Item" user_inner_ref_from_tagged_box.body = .ok () := by
  obtain ⟨u, hu⟩ := reps hU
  obtain ⟨f, hf⟩ := hU.f32
  obtain ⟨w, hw⟩ := hU.u32
  obtain ⟨b, hb⟩ := hU.bool
  have w1 := hw 0 (by decide)
  have w2 := (w1.2.2 0 (by decide)).1
  obtain ⟨n1, n2, n3, n4, n5, n6, n7, n8, n9, n10, n11, n12, n13, n14, n15, n16, n17⟩ := nums
  run_user user_inner_ref_from_tagged_box hu, hf, hb, w1, w2, n12, n13, n14, n15

theorem run5 (hr : ∀ e, e.variant ≠ "ManyTuple" → readable e = true) : runUser L testsDecl (plainIface readable fun _ => true) "Container" "Item" user_wrapped_refs_from_tagged_box.body = .ok () := by
  obtain ⟨u, hu⟩ := reps hU
  obtain ⟨n1, n2, n3, n4, n5, n6, n7, n8, n9, n10, n11, n12, n13, n14, n15, n16, n17⟩ := nums
  have c1 : compare (10000 : Nat) 100 = .gt := by decide
  have c2 : compare (100 : Nat) 10000 = .lt := by decide
  run_user user_wrapped_refs_from_tagged_box hr, hu, c1, c2, n11, n1

theorem run6 : runUser L quickDecl (plainIface readable fun _ => true) "Container" "Item" quickCode = .ok () := by
  obtain ⟨f, hf⟩ := hU.f32
  obtain ⟨w, hw⟩ := hU.i32
  obtain ⟨t, ht⟩ := hU.string
  have w1 := hw 10 (by decide)
  have w2 := (w1.2.2 10 (by decide)).1
  obtain ⟨n1, n2, n3, n4, n5, n6, n7, n8, n9, n10, n11, n12, n13, n14, n15, n16, n17⟩ := nums
  run_user quickCode hf, w1, w2, ht, n16, n17

theorem run7 : runUser L secondDecl (plainIface readable fun _ => true) "Container" "Item" secondCode = .ok () := by
  obtain ⟨t, ht⟩ := hU.string
  have hty := hU.typed
  obtain ⟨n1, n2, n3, n4, n5, n6, n7, n8, n9, n10, n11, n12, n13, n14, n15, n16, n17⟩ := nums
  run_user secondCode ht, hty, n17

/-- The two last variants of the test `storage` are not used. -/
def usedInStorage (e : EVal) : Bool := e.variant != "OrphanStructTrailingComma" && e.variant != "OrphanStructNoTrailingComma"

omit hU in
set_option maxRecDepth 8000 in
theorem storageNums : numLit "100i32" = some (100, some "i32") ∧ numLit "10u8" = some (10, some "u8") ∧ numLit "100_000" = some (100000, none) := by
  refine ⟨?_, ?_, ?_⟩ <;> rfl

theorem run8 (hS : UsualStorage L) : runUser L storageDecl (plainIface readable usedInStorage) "Outer" "Inner" storageCode = .ok () := by
  obtain ⟨f, hf⟩ := hU.f32
  obtain ⟨w, hw⟩ := hU.i32
  obtain ⟨b, hb⟩ := hU.bool
  obtain ⟨y, hy⟩ := hS.u8
  obtain ⟨a, ha⟩ := hS.array
  obtain ⟨v, hv⟩ := hS.vector
  obtain ⟨c, hc⟩ := hS.custom
  have w1 := hw 100 (by decide)
  have w2 := (w1.2.2 100 (by decide)).1
  have y1 := hy 10 (by decide)
  have y2 := (y1.2.2 10 (by decide)).1
  have a1 := ha [100, 100, 100, 100, 100, 100, 100, 100] rfl (by decide)
  have v1 := hv [100, 100, 100, 100, 100, 100, 100, 100, 100, 100] (by decide)
  have c1 := hc 100000 hS.usize false
  simp only [List.map_cons, List.map_nil] at a1 v1
  have s1 := hS.suffix "10" "0" (by decide)
  have s2 : "0" ++ "f32" = "0f32" := rfl
  rw [s2, (hf "10" "0").1, (hf "10" "0f32").1, Option.some.injEq] at s1
  have no : ∀ {t : Ty} {p : Prim} {Q : Prop}, (∀ b, L.enc t p = some b → Q) → ¬ Q → L.enc t p = none := by
    intro t p Q h hq
    cases he : L.enc t p with
    | none => rfl
    | some b => exact absurd (h b he) hq
  have f1 : ∀ t n, L.enc (.named "f32") (.num t n) = none := fun t n => no (hS.onlyF32 _) (by simp)
  have f2 : ∀ b, L.enc (.named "f32") (.bool b) = none := fun b => no (hS.onlyF32 _) (by simp)
  have f3 : ∀ b ps, L.enc (.named "f32") (.list b ps) = none := fun b ps => no (hS.onlyF32 _) (by simp)
  have f4 : ∀ x fs, L.enc (.named "f32") (.record x fs) = none := fun x fs => no (hS.onlyF32 _) (by simp)
  have i1 : ∀ n, L.enc (.named "i32") (.num (some "u8") n) = none := fun n => no (hS.onlyI32 _) (by simp)
  have i2 : ∀ b, L.enc (.named "i32") (.bool b) = none := fun b => no (hS.onlyI32 _) (by simp)
  have i3 : ∀ b ps, L.enc (.named "i32") (.list b ps) = none := fun b ps => no (hS.onlyI32 _) (by simp)
  have i4 : ∀ x fs, L.enc (.named "i32") (.record x fs) = none := fun x fs => no (hS.onlyI32 _) (by simp)
  have u2 : ∀ b, L.enc (.named "u8") (.bool b) = none := fun b => no (hS.onlyU8 _) (by simp)
  have u3 : ∀ b ps, L.enc (.named "u8") (.list b ps) = none := fun b ps => no (hS.onlyU8 _) (by simp)
  have u4 : ∀ x fs, L.enc (.named "u8") (.record x fs) = none := fun x fs => no (hS.onlyU8 _) (by simp)
  have b3 : ∀ b ps, L.enc (.named "bool") (.list b ps) = none := fun b ps => no (hS.onlyBool _) (by simp)
  have b4 : ∀ x fs, L.enc (.named "bool") (.record x fs) = none := fun x fs => no (hS.onlyBool _) (by simp)
  have a3 : ∀ ps, L.enc (.named "[u8; 8]") (.list true ps) = none := fun ps => no (hS.onlyArray _) (by simp)
  have a4 : ∀ x fs, L.enc (.named "[u8; 8]") (.record x fs) = none := fun x fs => no (hS.onlyArray _) (by simp)
  have v4 : ∀ x fs, L.enc (.app "Vec" [.named "u8"]) (.record x fs) = none := fun x fs => no (hS.onlyVector _) (by simp)
  obtain ⟨n1, n2, n3, n4, n5, n6, n7, n8, n9, n10, n11, n12, n13, n14, n15, n16, n17⟩ := nums
  obtain ⟨m1, m2, m3⟩ := storageNums
  run_user storageCode hf, hb, w1, w2, y1, y2, a1, v1, c1, s1, f1, f2, f3, f4, i1, i2, i3, i4, u2, u3, u4, b3, b4, a3, a4, v4, n1, n7, m1, m2, m3, usedInStorage

end

end TB.Rust.User

import Verif.Spec.MoveRun
import Verif.Source.MoveCode
import Verif.Lemmas.UserTests

/-! # The test `clone` with plain values -/

set_option autoImplicit false
set_option linter.unusedSimpArgs false

namespace TB.Rust.Move

open TB TB.Macro TB.Mbe TB.Rust TB.Rust.Code TB.Rust.User TB.Spec TB.Source

variable {L : Lits} {O : Ops}

set_option maxRecDepth 8000 in
theorem texts : numLit "\"Hello\"" = none ∧ numLit "\", World!\"" = none ∧ numLit "\"Hello, World!\"" = none ∧ literalText "\"Hello\"" = "Hello".toList ∧
    literalText "\", World!\"" = ", World!".toList ∧ literalText "\"Hello, World!\"" = "Hello, World!".toList := by
  refine ⟨?_, ?_, ?_, ?_, ?_, ?_⟩ <;> rfl

theorem run_clone (hU : Usual L) (hM : Multiplies L O) {S : List Char → Prop} (hS : Strings L O S) (hs1 : S "Hello".toList)
    (hs2 : S "Hello, World!".toList) :
    mstmts L cloneDecl (plainMoves (fun _ => true) (fun _ => true) cloneDecl O) "Container" "Enum" [] cloneCode = .ok () := by
  obtain ⟨u, hu⟩ := reps hU
  obtain ⟨n1, n2, n3, n4, -⟩ := nums
  obtain ⟨t1, t2, t3, q1, q2, q3⟩ := texts
  have h100 := hu 100 (.inl (by decide))
  have h10000 := hu 10000 (.inl (by decide))
  obtain ⟨c1, c2⟩ := hM 100 _ h100.1
  have c3 := c2 100 _ h10000.1
  have e1 := (h100.2.2.2 10000 (by decide)).1
  have e2 := h100.2.2.1
  have e3 := h10000.2.2.1
  obtain ⟨text, hs, ht⟩ := hS
  obtain ⟨s1, g1⟩ := hs "\"Hello\""
  obtain ⟨x, s2, s3⟩ := g1 (by rw [q1]; exact hs1)
  obtain ⟨s4, g2⟩ := hs "\"Hello, World!\""
  obtain ⟨z, s5, s6⟩ := g2 (by rw [q3]; exact hs2)
  obtain ⟨s7, s8, s9⟩ := ht _ _ s3
  obtain ⟨r1, r2, r3⟩ := ht _ _ s7
  obtain ⟨y, r4, r5⟩ := r2 "\", World!\"" (by
    rw [q1, q2, show "Hello".toList ++ ", World!".toList = "Hello, World!".toList from by decide]
    exact hs2)
  obtain ⟨-, -, r6⟩ := ht _ _ r5
  obtain ⟨-, -, r7⟩ := ht _ _ s6
  have f1 := s9 _ _ r5
  have f2 := r7 _ _ r5
  have f3 := s9 _ _ s3
  simp only [q1, q2] at f1
  simp only [q1, q2, q3] at f2
  have f1' : L.eq (.named "String") x y = false := f1.trans (by decide)
  have f2' : L.eq (.named "String") z y = true := f2.trans (by decide)
  have f3' : L.eq (.named "String") x x = true := by rw [f3]; simp
  simp [cloneCode, mstmts, updateOf, mev, mcall, orStuck, litUV, n1, n4, t1, t2, t3, takeVar, setVar, afterUse, mulUV, borrowItem, borrowCont, borrowBox, litPrim, methodUV, eqUV, findFrom, encAll,
    tupleItem, cloneDecl, plainMoves, plainIface, cloneItem, cloneFields, eqItem, eqFields, lookupDef, lookup, sameName, h100, h10000, c1, c3, e1, e2, e3, s1, s2, s4, s5, r4, f1', f2', f3']

theorem changed_source : cloneCode.take 5 = changed "100usize" "100" := rfl

theorem run_changed (hU : Usual L) (hM : Multiplies L O) {a b c : String} {n k m : Nat} (ha : numLit a = some (n, some "usize")) (hb : numLit b = some (k, none))
    (hc : numLit c = some (m, none)) (hn : n ≤ L.max "usize") (hk : n * k ≤ L.max "usize") (hm : m ≤ L.max "usize") (eq orig : Bool) :
    mstmts L cloneDecl (plainMoves (fun _ => true) (fun _ => true) cloneDecl O) "Container" "Enum" [] (changed a b ++ [checked (if eq then "assert_eq" else "assert_ne") c
      (if orig then "original_usize" else "cloned_usize")]) = if eq = decide (m = if orig then n else n * k) then .ok () else .error .failed := by
  obtain ⟨⟨u, hu⟩, _⟩ := hU.usize
  obtain ⟨h1, h1', h1q⟩ := hu n hn
  obtain ⟨h2, _, h2q⟩ := hu _ hk
  obtain ⟨h3, _, h3q⟩ := hu m hm
  obtain ⟨c1, c2⟩ := hM n _ h1
  have c3 := c2 k _ h2
  have e1 := (h3q n hn).1
  have e2 := (h3q _ hk).1
  cases eq <;> cases orig <;>
    simp [changed, checked, mstmts, updateOf, mev, mcall, orStuck, litUV, ha, hb, hc, takeVar, setVar, afterUse, borrowItem, borrowCont, borrowBox, litPrim, methodUV, eqUV, findFrom, encAll,
      tupleItem, cloneDecl, plainMoves, plainIface, cloneItem, cloneFields, eqItem, eqFields, lookupDef, lookup, sameName, h1, h1', h2, h3, c1, c3, e1, e2]

theorem run_clonedOnly {a c : String} {n m : Nat} (ha : numLit a = some (n, some "usize")) (hc : numLit c = some (m, none)) {x y : Bytes}
    (hx : L.enc (.named "usize") (.num (some "usize") n) = some x) (hy : L.enc (.named "usize") (.num none m) = some y) :
    mstmts L cloneDecl (plainMoves (fun _ => true) (fun _ => true) cloneDecl O) "Container" "Enum" [] (clonedOnly a ++ [checked "assert_eq" c "cloned_usize"]) =
      if L.eq (.named "usize") y (O.clone (.named "usize") x) then .ok () else .error .failed := by
  simp [clonedOnly, checked, mstmts, updateOf, mev, mcall, orStuck, litUV, ha, hc, takeVar, setVar, afterUse, borrowItem, borrowCont, borrowBox, litPrim, methodUV, eqUV, findFrom, encAll,
    tupleItem, cloneDecl, plainMoves, plainIface, cloneItem, cloneFields, eqItem, eqFields, lookupDef, lookup, sameName, hx, hy]

end TB.Rust.Move

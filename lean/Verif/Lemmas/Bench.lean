import Verif.Spec.Bench
import Verif.Source.Bench
import Verif.Props.UserRun

/-! # The benchmarks (no property theorems here) -/

set_option autoImplicit false
set_option linter.unusedSimpArgs false

namespace TB.Props

open TB TB.Macro TB.Mbe TB.Rust TB.Rust.User TB.Spec TB.Source TB.Rust.Code

/-- What a box for these fields occupies. -/
def footOf (rc : Rustc) (f : Fields) : List (Nat × Nat) := match f.shape rc with
  | some sh => if sh.size = 0 then [] else [(sh.size, sh.align)]
  | none => []

theorem Kept.refl (s : State) : Kept s s [] := ⟨[], rfl, rfl⟩

theorem Kept.trans {s s' s'' : State} {l l' : List (Nat × Nat)} (h : Kept s s' l) (h' : Kept s' s'' l') : Kept s s'' (l' ++ l) := by
  obtain ⟨bs, h1, h2⟩ := h
  obtain ⟨bs', h3, h4⟩ := h'
  exact ⟨bs' ++ bs, by rw [h3, h1, List.append_assoc], by rw [List.map_append, h2, h4]⟩

section

variable {env : Env} {rc : Rustc} {sn en : String} {ts : List Tok} {decl : List VariantDef} {metas : List (List TT)} {svis evis : List TT}
  {users : ∀ β : Type, User (Host β)} {G : Programs} (h : Declared env rc sn en false ts decl) (hm : ∀ m ∈ metas, IsMeta m) (hs : IsVis svis) (he : IsVis evis)
  (hG : AreProgram env rc metas svis sn evis en false ts users G)
include h hm hs he hG

/-- One value stored. -/
theorem into_once {i : Nat} {e : EVal} {d : VariantDef} (hdi : decl[i]? = some d) (hn : e.variant = d.name) (hf : HasFields rc d.fields e.payload)
    (hlt : i < 2 ^ env.cfg.freeBits) (ho : env.InRange) {s : State} (hi : HeapInv env s) :
    (∃ b s', (crateIface env rc G sn en).into e s = .ret b s' ∧ HeapInv env s' ∧ Extends s s' ∧ Kept s s' (footOf rc d.fields)) ∨
    ∃ s', (crateIface env rc G sn en).into e s = .panic .nullAlloc s' ∧ NullBetween s s' := by
  have hv : IsValue rc decl i e := ⟨d, hdi, hn, hf⟩
  have hinto : (crateIface env rc G sn en).into e = intoTaggedBox env rc (programOf sn en false decl) e := linked_into h hm hs he hG ⟨i, hv⟩
  obtain ⟨hw, -⟩ := h.compiled.wf
  have heq := intoTaggedBox_eq (env := env) (sn := sn) (en := en) (hd := false) hw.names hw.members hw.arity hdi hn hf
  rw [hinto, heq]
  rcases storeOf_spec h.target h.rustc hi hf (numOf env i) with ⟨b, s', e1, i1, i2, _, i3⟩ | ⟨sh, h1, h2, h3, e1⟩ | ⟨sh, h1, h2, h3, h4, k, e1, h5⟩
  · left
    refine ⟨b, _, cleanup_ret e1, i1.log _, i2.trans (Extends.log _ _), ?_⟩
    rcases i3 with ⟨i3, rfl⟩ | ⟨sh, i3, ⟨i4, rfl⟩ | ⟨i4, _, rfl⟩⟩
    · exact ⟨[], rfl, by simp [footOf, i3]⟩
    · exact ⟨[], rfl, by simp [footOf, i3, i4]⟩
    · exact ⟨[_], rfl, by simp [footOf, i3, Nat.pos_iff_ne_zero.1 i4]⟩
  · right
    refine ⟨_, cleanup_panic e1, sh.size, sh.align, ?_⟩
    simp [State.log]
  · exfalso
    rcases h5 with ⟨_, h5⟩ | ⟨rfl, _, h5⟩
    · exact absurd (numOf_ok h.target hw.u8 hlt) h5
    · exact h5 (ho s _ _)

/-- A value stored again and again. -/
theorem into_often {i : Nat} {e : EVal} {d : VariantDef} (hdi : decl[i]? = some d) (hn : e.variant = d.name) (hf : HasFields rc d.fields e.payload)
    (hlt : i < 2 ^ env.cfg.freeBits) (ho : env.InRange) (n : Nat) {s : State} (hi : HeapInv env s) :
    (∃ s', iterations ((crateIface env rc G sn en).into e >>= fun _ => pure ()) n s = .ret () s' ∧ HeapInv env s' ∧ Extends s s' ∧
      Kept s s' (List.replicate n (footOf rc d.fields)).flatten) ∨
    ∃ s', iterations ((crateIface env rc G sn en).into e >>= fun _ => pure ()) n s = .panic .nullAlloc s' ∧ NullBetween s s' := by
  induction n generalizing s with
  | zero => exact .inl ⟨s, rfl, hi, Extends.refl _, Kept.refl _⟩
  | succ n ih =>
    rcases into_once h hm hs he hG hdi hn hf hlt ho hi with ⟨b, s1, e1, i1, x1, k1⟩ | ⟨s1, e1, n1⟩
    · have e2 : iterations ((crateIface env rc G sn en).into e >>= fun _ => pure ()) (n + 1) s =
          iterations ((crateIface env rc G sn en).into e >>= fun _ => pure ()) n s1 := by
        show M.bind (M.bind _ _) _ s = _
        simp only [M.bind, e1]
        rfl
      rw [e2]
      rcases ih i1 with ⟨s2, e3, i2, x2, k2⟩ | ⟨s2, e3, n2⟩
      · refine .inl ⟨s2, e3, i2, x1.trans x2, ?_⟩
        have := Kept.trans k1 k2
        rwa [show (List.replicate n (footOf rc d.fields)).flatten ++ footOf rc d.fields = (List.replicate (n + 1) (footOf rc d.fields)).flatten by
          rw [List.replicate_succ']; simp] at this
      · exact .inr ⟨s2, e3, null_mono x1 n2⟩
    · refine .inr ⟨s1, ?_, n1⟩
      show M.bind (M.bind _ _) _ s = _
      simp only [M.bind, e1]

end

/-! ## The code of the benchmarks -/

theorem mpb {α β : Type} (a : α) (f : α → M β) : ((pure a : M α) >>= f) = f a := rfl

theorem mba {α β γ : Type} (m : M α) (f : α → M β) (g : β → M γ) : (m >>= f >>= g) = m >>= fun x => f x >>= g := by
  funext s
  show M.bind (M.bind m f) g s = M.bind m (fun x => M.bind (f x) g) s
  unfold M.bind
  cases m s <;> rfl

section
variable {L : Lits} (hU : Usual L) (A : Iface M TBox)
include hU

theorem bench_unit : runUser L testsDecl A "Container" "Item" (boxIt benchUnit) = A.into ⟨"Unit", .unit⟩ >>= fun _ => pure () := by
  simp [runUser, boxIt, benchUnit, ustmts, uev, methodUV, orStuck, unitItem, testsDecl, lookupDef, mpb, mba]

theorem bench_single : ∃ v, L.enc (.named "usize") (.num (some "usize") (L.max "usize")) = some v ∧
    runUser L testsDecl A "Container" "Item" (boxIt benchSingle) = A.into ⟨"SingleTuple", .tuple [v]⟩ >>= fun _ => pure () := by
  obtain ⟨u, hu⟩ := reps hU
  refine ⟨_, (hu _ (.inr rfl)).2.1, ?_⟩
  simp [runUser, boxIt, benchSingle, ustmts, uev, uevs, callUV, prims, methodUV, orStuck, tupleItem, encAll, testsDecl, lookupDef, mpb, mba, hu]

theorem bench_many : ∃ x y z w, L.enc (.named "usize") (.num none 100) = some x ∧ L.enc (.named "usize") (.num none 200) = some y ∧
    L.enc (.named "f32") (.float "50" "100005") = some z ∧ L.enc (.named "usize") (.num none 300) = some w ∧
    runUser L testsDecl A "Container" "Item" (boxIt benchMany) = A.into ⟨"ManyTuple", .tuple [x, y, z, w]⟩ >>= fun _ => pure () := by
  obtain ⟨u, hu⟩ := reps hU
  obtain ⟨f, hf⟩ := hU.f32
  obtain ⟨n1, n2, n3, n4, n5, n6, n7, n8, n9, n10, n11, n12, n13, n14, n15, n16, n17⟩ := nums
  refine ⟨_, _, _, _, (hu _ (.inl (by decide))).1, (hu _ (.inl (by decide))).1, (hf _ _).1, (hu _ (.inl (by decide))).1, ?_⟩
  simp [runUser, boxIt, benchMany, ustmts, uev, uevs, callUV, litUV, prims, methodUV, orStuck, tupleItem, encAll, testsDecl, lookupDef, mpb, mba, hu, hf, n1, n2, n3]

theorem bench_orphan : ∃ x y, L.enc (.named "u32") (.num none 10) = some x ∧ L.enc (.named "bool") (.bool false) = some y ∧
    runUser L testsDecl A "Container" "Item" (boxIt benchOrphan) = A.into ⟨"Orphan", .record [("int", x), ("boolean", y)]⟩ >>= fun _ => pure () := by
  obtain ⟨w, hw⟩ := hU.u32
  obtain ⟨b, hb⟩ := hU.bool
  obtain ⟨n1, n2, n3, n4, n5, n6, n7, n8, n9, n10, n11, n12, n13, n14, n15, n16, n17⟩ := nums
  have w1 := hw 10 (by decide)
  refine ⟨_, _, w1.1, (hb _).1, ?_⟩
  simp [runUser, boxIt, benchOrphan, ustmts, uev, uevs, structUV, litUV, nameUV, prims, methodUV, orStuck, recordItem, pickPrims, lookup, encAll, testsDecl, lookupDef, mpb, mba, w1, hb, n7]

end

end TB.Props

import Verif.Spec.Input
import Verif.Props.Source

/-! # What `tagged_box!` accepts (helper lemmas; no property theorems here) -/

set_option autoImplicit false

namespace TB.Source

open TB.Mbe TB.Macro

theorem pathRest_append : ∀ ts : List TT, (pathRest ts).1 ++ (pathRest ts).2 = ts
  | .atom (.punct s) :: .atom (.ident x) :: r => by
    rw [pathRest]
    split
    · rename_i h
      subst h
      simp [pathRest_append r]
    · rfl
  | [] => by simp [pathRest]
  | [t] => by
    cases t with
    | atom a => cases a <;> simp [pathRest]
    | _ => simp [pathRest]
  | .atom (.ident _) :: _ :: _ => by simp [pathRest]
  | .atom (.lit _) :: _ :: _ => by simp [pathRest]
  | .atom (.punct _) :: .atom (.punct _) :: _ => by simp [pathRest]
  | .atom (.punct _) :: .atom (.lit _) :: _ => by simp [pathRest]
  | .atom (.punct _) :: .crate :: _ => by simp [pathRest]
  | .atom (.punct _) :: .group _ _ :: _ => by simp [pathRest]
  | .atom (.punct _) :: .frag _ _ :: _ => by simp [pathRest]
  | .atom (.punct _) :: .ty _ :: _ => by simp [pathRest]
  | .atom (.punct _) :: .other _ :: _ => by simp [pathRest]
  | .crate :: _ :: _ => by simp [pathRest]
  | .group _ _ :: _ :: _ => by simp [pathRest]
  | .frag _ _ :: _ :: _ => by simp [pathRest]
  | .ty _ :: _ :: _ => by simp [pathRest]
  | .other _ :: _ :: _ => by simp [pathRest]

theorem metaRest_append (ts : List TT) : (metaRest ts).1 ++ (metaRest ts).2 = ts := by
  unfold metaRest
  split
  · rfl
  · split
    · rename_i h
      subst h
      rfl
    · rfl
  · rfl

theorem metaFrag_inv {m : List TT} {t : TT} (h : metaFrag m = .yes (t, [])) (hw : ∀ u ∈ m, TT.written u = true) : IsMeta m := by
  unfold IsMeta
  match m with
  | [] => cases h
  | .frag k v :: r => have := hw _ (List.mem_cons_self ..); cases this
  | .atom (.ident x) :: r =>
    simp only [metaFrag, MR.yes.injEq, Prod.mk.injEq] at h ⊢
    refine ⟨?_, h.2⟩
    have h1 := metaRest_append (pathRest r).2
    rw [h.2, List.append_nil] at h1
    rw [h1, List.cons_append, pathRest_append]
  | .crate :: r =>
    simp only [metaFrag, MR.yes.injEq, Prod.mk.injEq] at h ⊢
    refine ⟨?_, h.2⟩
    have h1 := metaRest_append (pathRest r).2
    rw [h.2, List.append_nil] at h1
    rw [h1, List.cons_append, pathRest_append]
  | .atom (.punct s) :: r => simp only [metaFrag] at h; split at h <;> cases h
  | .atom (.lit s) :: r => simp [metaFrag] at h
  | .group _ _ :: r => simp [metaFrag] at h
  | .ty _ :: r => simp [metaFrag] at h
  | .other _ :: r => simp [metaFrag] at h

theorem visFrag_inv {ts r : List TT} {t : TT} (h : visFrag ts = .yes (t, r)) (hw : ∀ u ∈ ts, TT.written u = true) : ∃ v, IsVis v ∧ ts = v ++ r := by
  match ts with
  | [] => cases h
  | .frag k v :: r => have := hw _ (List.mem_cons_self ..); cases this
  | .atom (.ident s) :: r' =>
    simp only [visFrag] at h
    split at h
    · rename_i hs
      subst hs
      match r', h with
      | [], h => cases h; exact ⟨_, .inr (.inl rfl), rfl⟩
      | g :: r'', h =>
        simp only at h
        split at h
        · rename_i hg
          cases h
          exact ⟨_, .inr (.inr ⟨g, hg, rfl⟩), rfl⟩
        · cases h
          exact ⟨_, .inr (.inl rfl), rfl⟩
    · cases h
      exact ⟨[], .inl rfl, rfl⟩
  | .atom (.punct s) :: r' =>
    simp only [visFrag] at h
    split at h
    · cases h; exact ⟨[], .inl rfl, rfl⟩
    · cases h
  | .atom (.lit s) :: r' =>
    simp only [visFrag] at h
    split at h
    · cases h; exact ⟨[], .inl rfl, rfl⟩
    · cases h
  | .group _ _ :: r' =>
    simp only [visFrag] at h
    split at h
    · cases h; exact ⟨[], .inl rfl, rfl⟩
    · cases h
  | .crate :: r' =>
    simp only [visFrag] at h
    split at h
    · cases h; exact ⟨[], .inl rfl, rfl⟩
    · cases h
  | .ty _ :: r' =>
    simp only [visFrag] at h
    split at h
    · cases h; exact ⟨[], .inl rfl, rfl⟩
    · cases h
  | .other _ :: r' =>
    simp only [visFrag] at h
    split at h
    · cases h; exact ⟨[], .inl rfl, rfl⟩
    · cases h

theorem headIs_inv {a : Atom} {ts : List TT} (h : headIs a ts = true) : ts = .atom a :: ts.tail := by
  match ts with
  | [] => cases h
  | .atom b :: r => simp only [headIs, decide_eq_true_eq] at h; subst h; rfl
  | .crate :: r => cases h
  | .group _ _ :: r => cases h
  | .frag _ _ :: r => cases h
  | .ty _ :: r => cases h
  | .other _ :: r => cases h

theorem map_yes {α γ : Type} {f : α → γ} {x : MR α} {b : γ} (h : x.map f = .yes b) : ∃ a, x = .yes a ∧ f a = b := by
  cases x with
  | no => cases h
  | fatal => cases h
  | yes a => exact ⟨a, rfl, by cases h; rfl⟩

variable {rc : Rustc} {fol : List TT → Bool}

theorem match_tok {a : Atom} {ps : List MP} {ts r : List TT} {e : Mbe.Env} (h : matchL rc fol (.tok a :: ps) ts = .yes (e, r)) :
    ∃ ts', ts = .atom a :: ts' ∧ matchL rc fol ps ts' = .yes (e, r) := by
  rw [matchL] at h
  split at h
  · rename_i hh
    exact ⟨_, headIs_inv hh, h⟩
  · cases h

theorem match_var {x : String} {k : Kind} {ps : List MP} {ts r : List TT} {e : Mbe.Env} (h : matchL rc fol (.var x k :: ps) ts = .yes (e, r)) :
    ∃ t ts' e', parseFrag rc k ts = .yes (t, ts') ∧ matchL rc fol ps ts' = .yes (e', r) := by
  rw [matchL] at h
  split at h
  · cases h
  · cases h
  · rename_i t ts' hp
    obtain ⟨⟨e', r'⟩, h1, h2⟩ := map_yes h
    cases h2
    exact ⟨t, ts', e', hp, h1⟩

theorem match_group {d : Delim} {qs ps : List MP} {ts r : List TT} {e : Mbe.Env} (h : matchL rc fol (.group d qs :: ps) ts = .yes (e, r)) :
    ∃ us ts' e₁ e₂, ts = .group d us :: ts' ∧ matchL rc List.isEmpty qs us = .yes (e₁, []) ∧ matchL rc fol ps ts' = .yes (e₂, r) := by
  match ts with
  | [] => simp [matchL] at h
  | .group d' us :: ts' =>
    simp only [matchL] at h
    split at h
    · rename_i hd
      subst hd
      split at h
      · cases h
      · cases h
      · rename_i e₁ hm
        obtain ⟨⟨e', r'⟩, h1, h2⟩ := map_yes h
        cases h2
        exact ⟨us, ts', e₁, e', rfl, hm, h1⟩
      · cases h
    · cases h
  | .atom _ :: r => simp [matchL] at h
  | .crate :: r => simp [matchL] at h
  | .frag _ _ :: r => simp [matchL] at h
  | .ty _ :: r => simp [matchL] at h
  | .other _ :: r => simp [matchL] at h

theorem match_rep {qs ps : List MP} {sep : Option Atom} {op : Rep} {ts r : List TT} {e : Mbe.Env} (h : matchL rc fol (.rep qs sep op :: ps) ts = .yes (e, r)) :
    ∃ fol' sB sF es ts' e', repMatch (matchL rc fol' qs) sB sF sep op ts = .yes (es, ts') ∧ matchL rc fol ps ts' = .yes (e', r) := by
  rw [matchL] at h
  split at h
  · cases h
  · cases h
  · rename_i es ts' hr
    obtain ⟨⟨e', r'⟩, h1, h2⟩ := map_yes h
    cases h2
    exact ⟨_, _, _, es, ts', e', hr, h1⟩

theorem match_nil {ts r : List TT} {e : Mbe.Env} (h : matchL rc fol [] ts = .yes (e, r)) : ts = r := by
  rw [matchL] at h
  cases h
  rfl

/-- Repetitions of `# [meta]`. -/
theorem rep_metas {one : List TT → MR (Mbe.Env × List TT)} {sB sF : List TT → Bool}
    (hone : ∀ ts e ts', Written ts → one ts = .yes (e, ts') → ∃ m, IsMeta m ∧ ts = .atom (.punct "#") :: .group .bracket m :: ts') :
    ∀ n ts es ts', Written ts → repItems one sB sF none n ts = .yes (es, ts') →
      ∃ metas : List (List TT), (∀ m ∈ metas, IsMeta m) ∧ ts = (metas.flatMap fun m => [.atom (.punct "#"), .group .bracket m]) ++ ts'
  | 0, _, _, _, _, h => by cases h
  | n + 1, ts, es, ts', hw, h => by
    rw [repItems] at h
    split at h
    · cases h
    · cases h
    · rename_i e ts₁ h1
      obtain ⟨m, hm, rfl⟩ := hone ts e ts₁ hw h1
      have hw' : Written ts₁ := fun t ht => hw t (List.mem_cons_of_mem _ (List.mem_cons_of_mem _ ht))
      simp only at h
      split at h
      · split at h
        · cases h
        · obtain ⟨⟨es', r'⟩, h2, h3⟩ := map_yes h
          cases h3
          obtain ⟨metas, h4, h5⟩ := rep_metas hone n ts₁ es' r' hw' h2
          refine ⟨m :: metas, fun x hx => ?_, ?_⟩
          · rcases List.mem_cons.1 hx with rfl | hx
            · exact hm
            · exact h4 x hx
          · rw [h5]
            simp
      · split at h
        · cases h
          refine ⟨[m], fun x hx => ?_, by simp⟩
          rw [List.mem_singleton.1 hx]
          exact hm
        · cases h

/-- One `# [meta]`. -/
theorem one_meta {ts ts' : List TT} {e : Mbe.Env} (hw : Written ts)
    (h : matchL rc fol [.tok (.punct "#"), .group .bracket [.var "meta" .metaItem]] ts = .yes (e, ts')) :
    ∃ m, IsMeta m ∧ ts = .atom (.punct "#") :: .group .bracket m :: ts' := by
  obtain ⟨ts₁, rfl, h1⟩ := match_tok h
  obtain ⟨us, ts₂, e₁, e₂, rfl, h2, h3⟩ := match_group h1
  have := match_nil h3
  subst this
  obtain ⟨t, r, e', h4, h5⟩ := match_var h2
  have := match_nil h5
  subst this
  exact ⟨us, metaFrag_inv h4 ((hw _ (List.mem_cons_of_mem _ (List.mem_cons_self ..))).2 us rfl), rfl⟩

theorem ident_inv {ts r : List TT} {t : TT} (h : parseFrag rc .ident ts = .yes (t, r)) : ∃ x, ts = .atom (.ident x) :: r := by
  match ts with
  | [] => cases h
  | .atom (.ident x) :: r' => cases h; exact ⟨x, rfl⟩
  | .atom (.punct x) :: r' => cases h
  | .atom (.lit x) :: r' => cases h
  | .crate :: r => cases h
  | .group _ _ :: r => cases h
  | .frag _ _ :: r => cases h
  | .ty _ :: r => cases h
  | .other _ :: r => cases h

/-- The input of `tagged_box!`, if its rule matches. -/
theorem header_inv {input : List TT} {body : List TT} (hw : Written input) (h : applyRules rc taggedBoxRules input = some body) :
    ∃ (metas : List (List TT)) (svis : List TT) (sn : String) (evis : List TT) (en : String) (us : List TT), (∀ m ∈ metas, IsMeta m) ∧ IsVis svis ∧ IsVis evis ∧ us ≠ [] ∧
      input = header metas svis sn evis en us := by
  unfold taggedBoxRules at h
  rw [applyRules] at h
  split at h
  · rename_i e hm
    clear h
    unfold matchAll at hm
    split at hm
    · cases hm
    · cases hm
    · rename_i e' h
      clear hm
      obtain ⟨fol', sB, sF, es, ts₁, e₁, h0, k1⟩ := match_rep h
      have hmetas : ∃ metas : List (List TT), (∀ m ∈ metas, IsMeta m) ∧ input = (metas.flatMap fun m => [.atom (.punct "#"), .group .bracket m]) ++ ts₁ := by
        unfold repMatch at h0
        split at h0
        · split at h0
          · cases h0
          · exact rep_metas (fun ts e ts' hw h => one_meta hw h) _ _ _ _ hw h0
        · split at h0
          · cases h0
            exact ⟨[], by simp, rfl⟩
          · cases h0
      obtain ⟨metas, hm, rfl⟩ := hmetas
      have hw1 : ∀ t ∈ ts₁, TT.written t = true := fun t ht => (hw t (List.mem_append_right _ ht)).1
      obtain ⟨t, ts₂, e₂, hv, k2⟩ := match_var k1
      obtain ⟨svis, hsv, rfl⟩ := visFrag_inv hv hw1
      obtain ⟨ts₃, rfl, k3⟩ := match_tok k2
      obtain ⟨t', ts₄, e₃, hi, k4⟩ := match_var k3
      obtain ⟨sn, rfl⟩ := ident_inv hi
      obtain ⟨ts₅, rfl, k5⟩ := match_tok k4
      obtain ⟨t₂, ts₆, e₄, hv2, k6⟩ := match_var k5
      obtain ⟨evis, hev, rfl⟩ := visFrag_inv hv2 (fun t ht => hw1 t (by simp [ht]))
      obtain ⟨ts₇, rfl, k7⟩ := match_tok k6
      obtain ⟨t₃, ts₈, e₅, hi2, k8⟩ := match_var k7
      obtain ⟨en, rfl⟩ := ident_inv hi2
      obtain ⟨us, ts₉, e₆, e₇, rfl, hb, k9⟩ := match_group k8
      have := match_nil k9
      subst this
      refine ⟨metas, svis, sn, evis, en, us, hm, hsv, hev, ?_, by simp [header]⟩
      rintro rfl
      simp [matchL, repMatch, MP.startsL, MP.starts, parseFrag, MR.isNo] at hb
    · cases hm
  · cases h
  · cases h

end TB.Source

import Verif.Lemmas.MbeRun

/-! # The head of an invocation, and lists of names (no property theorems here) -/

set_option autoImplicit false

namespace TB.Mbe

open TB.Macro

variable {rc : Rustc}

/-! ## Names -/

theorem repItems_names (x : String) (fol : List TT → Bool) (n : Nat) (v : String) (vs : List String) (hn : vs.length < n) :
    repItems (matchL rc fol [.var x .ident, .tok (.punct ",")])
      (fun us => MP.startsL rc (fun _ => false) us [.var x .ident, .tok (.punct ",")]) (fun us => MP.startsL rc List.isEmpty us []) none n
        (variantList (v :: vs)) =
      .yes ((v :: vs).map fun v => [(x, .one (.atom (.ident v)))], []) := by
  induction n generalizing v vs with
  | zero => omega
  | succ n ih =>
    cases vs with
    | nil => simp [variantList, ToTT.toTT, repItems, matchL, parseFrag, headIs, MR.map, MP.startsL, MP.starts, MR.isNo]
    | cons u us =>
      have := ih u us (by simp at hn; omega)
      simp [variantList, ToTT.toTT, repItems, matchL, parseFrag, headIs, MR.map, MP.startsL, MP.starts, MR.isNo] at this ⊢
      rw [this]

theorem variantList_length (vs : List String) : vs.length ≤ (variantList vs).length := by
  induction vs with
  | nil => simp
  | cons v vs ih => simp [variantList, ToTT.toTT] at ih ⊢; omega

/-- `$( $x:ident, )*` -/
theorem matchL_names (x : String) (vs : List String) :
    matchL rc List.isEmpty [.rep [.var x .ident, .tok (.punct ",")] none .star] (variantList vs) =
      .yes ([(x, .list (vs.map fun v => .atom (.ident v)))], []) := by
  cases vs with
  | nil => simp [variantList, Bind.list, matchL, repMatch, MP.startsL, MP.starts, parseFrag, MR.isNo, MR.map, collect, MP.varsL, MP.vars]
  | cons t ts =>
    have := fun fol => repItems_names (rc := rc) x fol ((variantList (t :: ts)).length + 1) t ts (by
      have := variantList_length (t :: ts); simp only [List.length_cons] at this; omega)
    rw [matchL]
    simp only [repMatch, this]
    simp [variantList, ToTT.toTT, Bind.list, MP.startsL, MP.starts, parseFrag, MR.isNo, MR.map, matchL, collect, MP.varsL, MP.vars, Env.find, Function.comp_def]

/-! ## Attributes -/

/-- `#[m]`, as the user writes it -/
def attrToks (ms : List (List TT)) : List TT := ms.flatMap fun m => [.atom (.punct "#"), .group .bracket m]

theorem repItems_attrs (x : String) (ps : List MP) (fol fol' : List TT → Bool) (tail : List TT) (h1 : headIs (.punct "#") tail = false)
    (h2 : (visFrag tail).isNo = false) (n : Nat) (m : List TT) (ms : List (List TT))
    (hm : ∀ u ∈ m :: ms, metaFrag u = .yes (metaTT u, [])) (hn : ms.length < n) :
    repItems (matchL rc fol [.tok (.punct "#"), .group .bracket [.var "meta" .metaItem]])
      (fun us => MP.startsL rc (fun _ => false) us [.tok (.punct "#"), .group .bracket [.var "meta" .metaItem]])
      (fun us => MP.startsL rc fol' us (.var x .vis :: ps)) none n (attrToks (m :: ms) ++ tail) =
      .yes ((m :: ms).map fun m => [("meta", .one (metaTT m))], tail) := by
  induction n generalizing m ms with
  | zero => omega
  | succ n ih =>
    have hm0 := hm m (by simp)
    cases ms with
    | nil =>
      simp [attrToks, repItems, matchL, parseFrag, headIs, headOpen, MR.map, MP.startsL, MP.starts, hm0, h2]
      exact h1
    | cons u us =>
      have := ih u us (fun w hw => hm w (by simp at hw ⊢; exact .inr hw)) (by simp at hn; omega)
      simp [attrToks, repItems, matchL, parseFrag, headIs, headOpen, MR.map, MP.startsL, MP.starts, MR.isNo, hm0, visFrag, visStart] at this ⊢
      rw [this]

theorem attrToks_length (ms : List (List TT)) : ms.length ≤ (attrToks ms).length := by
  induction ms with
  | nil => simp
  | cons v vs ih => simp [attrToks] at ih ⊢; omega

/-- `$( #[$meta:meta] )* $x:vis ..` -/
theorem matchL_attrs (x : String) (ps : List MP) (fol : List TT → Bool) (tail : List TT) (h1 : headIs (.punct "#") tail = false)
    (h2 : (visFrag tail).isNo = false) (ms : List (List TT)) (hm : ∀ u ∈ ms, metaFrag u = .yes (metaTT u, [])) :
    matchL rc fol (.rep [.tok (.punct "#"), .group .bracket [.var "meta" .metaItem]] none .star :: .var x .vis :: ps)
        (attrToks ms ++ tail) =
      (matchL rc fol (.var x .vis :: ps) tail).map fun y => (("meta", .list (ms.map metaTT)) :: y.1, y.2) := by
  conv => lhs; rw [matchL]
  cases ms with
  | nil =>
    simp only [attrToks, List.flatMap_nil, List.nil_append, repMatch, MP.startsL, MP.starts, h1, parseFrag, h2]
    simp [collect, MP.varsL, MP.vars, Bind.list]
  | cons t ts =>
    have := fun fol fol' => repItems_attrs (rc := rc) x ps fol fol' tail h1 h2 ((attrToks (t :: ts) ++ tail).length + 1) t ts hm (by
      have := attrToks_length (t :: ts); simp only [List.length_cons, List.length_append] at this ⊢; omega)
    simp only [repMatch, this]
    simp [attrToks, Bind.list, MP.startsL, MP.starts, parseFrag, headIs, MR.isNo, visFrag, visStart, collect, MP.varsL, MP.vars, Env.find, Function.comp_def]

end TB.Mbe

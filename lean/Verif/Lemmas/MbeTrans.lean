import Verif.Lemmas.MbeMatch

/-! # Transcription of the repetitions in the crate's macros (no property theorems here) -/

set_option autoImplicit false

namespace TB.Mbe

open TB.Macro

theorem Env.find_at (e : Env) (i : Nat) (x : String) :
    (e.at i).find x = (e.find x).map fun b => match b with
      | .one t => .one t
      | .many bs => (bs[i]?).getD (.many bs) := by
  induction e with
  | nil => rfl
  | cons p e ih =>
    obtain ⟨y, b⟩ := p
    by_cases h : y = x
    · cases b <;> simp [Env.at, Env.find, h]
    · simpa [Env.at, Env.find, h] using ih

/-- Is the metavariable bound under one repetition? -/
def isList : Option Bind → Prop
  | some b => ∃ l, b = .list l
  | none => False

/-- What it is bound to. -/
def listOf : Option Bind → List TT
  | some (.many bs) => bs.filterMap fun b => match b with
    | .one t => some t
    | .many _ => none
  | _ => []

theorem isList_list (l : List TT) : isList (some (.list l)) = True := by
  simp only [isList, eq_iff_iff, iff_true]; exact ⟨l, rfl⟩

theorem listOf_list (l : List TT) : listOf (some (.list l)) = l := by
  simp only [listOf, Bind.list]
  induction l with
  | nil => rfl
  | cons t l ih => simpa using ih

theorem find_of_isList {e : Env} {x : String} (h : isList (e.find x)) : e.find x = some (.list (listOf (e.find x))) := by
  cases hb : e.find x with
  | none => rw [hb] at h; exact h.elim
  | some b =>
    rw [hb] at h
    obtain ⟨l, rfl⟩ := h
    rw [listOf_list]

theorem allSome_map_some {α : Type} (l : List α) : allSome (l.map some) = some l := by
  induction l with
  | nil => rfl
  | cons a l ih => simp [allSome, ih]

theorem range_map_getD (l : List TT) (g : TT → List TT) :
    ((List.range l.length).map fun i => g ((l[i]?).getD .crate)) = l.map g := by
  apply List.ext_getElem
  · simp
  · intro i h1 h2
    simp only [List.length_map, List.length_range] at h1
    simp [List.getElem?_eq_getElem h1]

theorem transL_rep {e : Env} {cs bs : List MB} {sep : Option Atom} {n : Nat} {f : Nat → List TT}
    (h1 : e.iters (MB.varsL cs) = some n) (h2 : ∀ i < n, transL (e.at i) cs = some (f i)) :
    transL e (.rep cs sep :: bs) = (transL e bs).map (joinSep sep ((List.range n).map f) ++ ·) := by
  have h3 : ((List.range n).map fun i => transL (e.at i) cs) = ((List.range n).map f).map some := by
    rw [List.map_map]
    apply List.map_congr_left
    intro i hi
    exact h2 i (List.mem_range.1 hi)
  simp only [transL, h1, h3, allSome_map_some]
  cases transL e bs <;> rfl

/-- A repetition with one metavariable. -/
theorem transL_rep1 {e : Env} {x : String} {cs bs : List MB} {sep : Option Atom} (g : TT → List TT) (h : isList (e.find x))
    (hv : MB.varsL cs = [x]) (hg : ∀ e' t, Env.find x e' = some (.one t) → transL e' cs = some (g t)) :
    transL e (.rep cs sep :: bs) = (transL e bs).map (joinSep sep ((listOf (e.find x)).map g) ++ ·) := by
  have hf := find_of_isList h
  generalize listOf (e.find x) = l at hf
  have hl : listOf (some (Bind.list l)) = l := listOf_list l
  rw [transL_rep (n := l.length) (f := fun i => g ((l[i]?).getD .crate)), range_map_getD]
  · rw [hv]; simp [Env.iters, Env.lens, hf, Bind.list]
  · intro i hi
    refine hg _ _ ?_
    rw [Env.find_at, hf]
    simp [Bind.list, List.getElem?_eq_getElem hi]

variable {e : Env} {bs : List MB} {sep : Option Atom}

theorem joinSep_none (ls : List (List TT)) : joinSep none ls = ls.flatten := by
  match ls with
  | [] => rfl
  | [x] => simp [joinSep]
  | x :: y :: r => simp [joinSep, joinSep_none (y :: r)]

/-- `$( $x )*` -/
theorem transL_repVar {x : String} (h : isList (e.find x)) :
    transL e (.rep [.var x] none :: bs) = (transL e bs).map (listOf (e.find x) ++ ·) := by
  rw [transL_rep1 (x := x) (fun t => [t]) h (by rfl) (by intro e' t h; simp [transL, h])]
  rw [joinSep_none]
  congr 1
  simp [List.flatten_eq_flatMap, List.flatMap_map]

theorem joinSep_comma_singles (l : List TT) : joinSep (some (.punct ",")) (l.map fun t => [t]) = commaTTs l := by
  match l with
  | [] => rfl
  | [x] => rfl
  | x :: y :: r =>
    have := joinSep_comma_singles (y :: r)
    simp only [List.map_cons] at this
    simp [joinSep, commaTTs, this]

/-- `$( $x ),*` -/
theorem transL_repComma {x : String} (h : isList (e.find x)) :
    transL e (.rep [.var x] (some (.punct ",")) :: bs) = (transL e bs).map (commaTTs (listOf (e.find x)) ++ ·) := by
  rw [transL_rep1 (x := x) (fun t => [t]) h (by rfl) (by intro e' t h; simp [transL, h]), joinSep_comma_singles]

/-- `$( $x, )*` -/
theorem transL_repTrailing {x : String} (h : isList (e.find x)) :
    transL e (.rep [.var x, .tok (.punct ",")] none :: bs) =
      (transL e bs).map ((listOf (e.find x)).flatMap (fun t => [t, .atom (.punct ",")]) ++ ·) := by
  rw [transL_rep1 (x := x) (fun t => [t, .atom (.punct ",")]) h (by rfl) (by intro e' t h; simp [transL, h]), joinSep_none]
  rw [List.flatMap_def]

/-- `$( #[$x] )*` -/
theorem transL_repAttr {x : String} (h : isList (e.find x)) :
    transL e (.rep [.tok (.punct "#"), .group .bracket [.var x]] none :: bs) =
      (transL e bs).map ((listOf (e.find x)).flatMap (fun t => [.atom (.punct "#"), .group .bracket [t]]) ++ ·) := by
  rw [transL_rep1 (x := x) (fun t => [.atom (.punct "#"), .group .bracket [t]]) h (by rfl)
    (by intro e' t h; simp [transL, h]), joinSep_none]
  rw [List.flatMap_def]

/-- `$( stringify!($x) ),*` -/
theorem transL_repStringify {x : String} (h : isList (e.find x)) :
    transL e (.rep [.tok (.ident "stringify"), .tok (.punct "!"), .group .paren [.var x]] (some (.punct ",")) :: bs) =
      (transL e bs).map (joinSep (some (.punct ","))
        ((listOf (e.find x)).map fun t => [.atom (.ident "stringify"), .atom (.punct "!"), .group .paren [t]]) ++ ·) := by
  rw [transL_rep1 (x := x) (fun t => [.atom (.ident "stringify"), .atom (.punct "!"), .group .paren [t]]) h (by rfl)
    (by intro e' t h; simp [transL, h])]

theorem zip_range {l1 l2 : List TT} (h : l1.length = l2.length) (g : TT → TT → List TT) :
    ((List.range l1.length).map fun i => g ((l1[i]?).getD .crate) ((l2[i]?).getD .crate)) = (l1.zip l2).map fun p => g p.1 p.2 := by
  apply List.ext_getElem
  · simp [h]
  · intro i h1 h2
    simp only [List.length_map, List.length_range] at h1
    have h3 : i < l2.length := by omega
    simp [List.getElem?_eq_getElem h1, List.getElem?_eq_getElem h3]

/-- `$( $x: $y ),*` -/
theorem transL_repMembers {x y : String} (hx : isList (e.find x)) (hy : isList (e.find y))
    (hl : (listOf (e.find x)).length = (listOf (e.find y)).length) :
    transL e (.rep [.var x, .tok (.punct ":"), .var y] sep :: bs) =
      (transL e bs).map (joinSep sep (((listOf (e.find x)).zip (listOf (e.find y))).map fun p => [p.1, .atom (.punct ":"), p.2]) ++ ·) := by
  have hfx := find_of_isList hx
  have hfy := find_of_isList hy
  generalize listOf (e.find x) = l1 at *
  generalize listOf (e.find y) = l2 at *
  rw [transL_rep (n := l1.length) (f := fun i => [(l1[i]?).getD .crate, .atom (.punct ":"), (l2[i]?).getD .crate]),
    zip_range hl (fun a b => [a, .atom (.punct ":"), b])]
  · simp [MB.varsL, MB.vars, Env.iters, Env.lens, hfx, hfy, Bind.list, hl]
  · intro i hi
    have hi' : i < l2.length := by omega
    simp [transL, Env.find_at, hfx, hfy, Bind.list, List.getElem?_eq_getElem hi, List.getElem?_eq_getElem hi']

end TB.Mbe

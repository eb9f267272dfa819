import Verif.Lemmas.GsAttr
import Verif.Lemmas.RsBox
import Verif.Lemmas.MacroRun
import Verif.Rust.GenEval
import Verif.Rust.GenCode

/-! # Running generated code: expressions, variables and fields (helper lemmas; no property theorems here) -/

set_option autoImplicit false
set_option linter.unusedSectionVars false
set_option linter.unusedSimpArgs false

namespace TB.Rust

open TB TB.Macro TB.Mbe TB.Rust.Gen

variable {β : Type}

/-! ## Names -/

theorem lookup_append_of_not_mem {α : Type} (x : String) : ∀ (l l' : List (String × α)), x ∉ l.map (·.1) → lookup x (l ++ l') = lookup x l'
  | [], _, _ => rfl
  | (y, a) :: l, l', h => by
    simp only [List.map_cons, List.mem_cons, not_or] at h
    rw [List.cons_append, lookup, if_neg h.1, lookup_append_of_not_mem x l l' h.2]

theorem lookup_head {α : Type} (x : String) (a : α) (l : List (String × α)) : lookup x ((x, a) :: l) = some a := by simp [lookup]

theorem setLocal_append_of_not_mem {E : Type} (x : String) (v : Option (V E)) : ∀ (l l' : Locals E), x ∉ l.map (·.1) →
    setLocal x v (l ++ l') = l ++ setLocal x v l'
  | [], _, _ => rfl
  | (y, a) :: l, l', h => by
    simp only [List.map_cons, List.mem_cons, not_or] at h
    rw [List.cons_append, setLocal, if_neg h.1, setLocal_append_of_not_mem x v l l' h.2, List.cons_append]

theorem lookup_eq_lookupVar {α : Type} (x : String) : ∀ l : List (String × α), lookup x l = lookupVar x l
  | [] => rfl
  | (y, a) :: l => by
    rw [lookup, lookupVar, lookup_eq_lookupVar x l]
    by_cases h : x = y
    · simp [h]
    · simp [h, Ne.symm h]

/-! ## Variables -/

/-- Variables that have been declared in this order. -/
def bound (xs : List (String × GV β)) (l : Locals (Host β)) : Locals (Host β) := (xs.map fun x => (x.1, some x.2)).reverse ++ l
/-- All of them moved. -/
def moved (xs : List (String × GV β)) (l : Locals (Host β)) : Locals (Host β) := (xs.map fun x => (x.1, none)).reverse ++ l

theorem bound_cons (x : String × GV β) (xs : List (String × GV β)) (l : Locals (Host β)) : bound (x :: xs) l = bound xs ((x.1, some x.2) :: l) := by
  simp [bound]
theorem moved_cons (x : String × GV β) (xs : List (String × GV β)) (l : Locals (Host β)) : moved (x :: xs) l = moved xs ((x.1, none) :: l) := by
  simp [moved]

@[gs] theorem bound_nil (l : Locals (Host β)) : bound [] l = l := rfl
@[gs] theorem moved_nil (l : Locals (Host β)) : moved [] l = l := rfl

@[gs] theorem bound_length (xs : List (String × GV β)) (l : Locals (Host β)) : (bound xs l).length = xs.length + l.length := by simp [bound]
@[gs] theorem moved_length (xs : List (String × GV β)) (l : Locals (Host β)) : (moved xs l).length = xs.length + l.length := by simp [moved]

@[gs] theorem declareList_eq : ∀ (xs : List (String × GV β)) (l : Locals (Host β)) (s : State), declareList xs l s = .ret () (bound xs l) s
  | [], _, _ => rfl
  | (x, v) :: xs, l, s => by
    show declareList xs ((x, some v) :: l) s = _
    rw [declareList_eq xs, bound_cons]

theorem lookup_bound_of_not_mem (x : String) (xs : List (String × GV β)) (l : Locals (Host β)) (h : x ∉ xs.map (·.1)) :
    lookup x (bound xs l) = lookup x l := by
  rw [bound, lookup_append_of_not_mem]
  simpa using h

theorem lookup_moved_of_not_mem (x : String) (xs : List (String × GV β)) (l : Locals (Host β)) (h : x ∉ xs.map (·.1)) :
    lookup x (moved xs l) = lookup x l := by
  rw [moved, lookup_append_of_not_mem]
  simpa using h

theorem setLocal_bound_of_not_mem (x : String) (v : Option (GV β)) (xs : List (String × GV β)) (l : Locals (Host β)) (h : x ∉ xs.map (·.1)) :
    setLocal x v (bound xs l) = bound xs (setLocal x v l) := by
  rw [bound, setLocal_append_of_not_mem, bound]
  simpa using h

@[gs] theorem dropLocals_moved (cr : Crate (Host β)) (xs : List (String × GV β)) (l : Locals (Host β)) (s : State) (k : Nat) :
    dropLocals cr (xs.length + k) (moved xs l) s = dropLocals cr k l s := by
  rw [moved]
  have : ∀ (ys : List (String × Option (GV β))) (hy : ∀ y ∈ ys, y.2 = none), dropLocals cr (ys.length + k) (ys ++ l) s = dropLocals cr k l s := by
    intro ys
    induction ys with
    | nil => intro _; simp
    | cons y ys ih =>
      intro hy
      obtain ⟨x, v⟩ := y
      have : v = none := hy (x, v) (by simp)
      subst this
      rw [List.length_cons, show ys.length + 1 + k = (ys.length + k) + 1 by omega, List.cons_append, dropLocals_none]
      exact ih fun y h => hy y (by simp [h])
  have h := this (xs.map fun x => (x.1, (none : Option (GV β)))).reverse (by
    intro y hy
    simp only [List.mem_reverse, List.mem_map] at hy
    obtain ⟨x, _, rfl⟩ := hy
    rfl)
  simpa using h

/-! ## Single steps -/

section
variable (g : GCrate β) (n : Nat) (sc : Sc) (l : Locals (Host β)) (s : State)

@[gs] theorem gev_lit (x : String) : gev g (n + 1) sc (.lit x) l s = .ret (litVal x) l s := rfl
@[gs] theorem gev_var (x : String) : gev g (n + 1) sc (.path [(x, [])]) l s = match lookup x l with
    | some _ => useVar x l s
    | none => match lookup x sc.consts with
      | some e => inFn g.lib (gev g n sc e) l s
      | none => .stuck := rfl
@[gs] theorem gev_path2 (t v : String) : gev g (n + 1) sc (.path [(t, []), (v, [])]) l s = (match lookup t sc.types with
    | some (.enum vs) => if v ∈ vs then pure (.lit (vs.idxOf v)) else X.stuck
    | some (.struct _ _ _) => X.stuck
    | none => if t = g.en then match lookupDef g.defs v with
        | some .unit => pure (.user (.inl ⟨v, .unit⟩))
        | _ => X.stuck
      else X.stuck : GX β (GV β)) l s := rfl
@[gs] theorem gev_ref (m : Bool) (e : Expr) : gev g (n + 1) sc (.ref m e) l s = (do
    let v ← gplace (gev g n sc) e
    pure (.refv v) : GX β (GV β)) l s := rfl
@[gs] theorem gev_eq (a b : Expr) : gev g (n + 1) sc (.bin .eq a b) l s = (do
    let a ← gev g n sc a
    let b ← gev g n sc b
    binOpV g.lib .eq a.peel b.peel : GX β (GV β)) l s := rfl
@[gs] theorem gev_cast (e : Expr) (t : RTy) : gev g (n + 1) sc (.cast e t) l s = (do
    let v ← gev g n sc e
    castV g.lib (gty g sc t) v : GX β (GV β)) l s := rfl
@[gs] theorem gev_call (p : RPath) (args : List Expr) : gev g (n + 1) sc (.call (.path p) args) l s = (do
    let vs ← seqE (gev g n sc) args
    callPath g sc p vs : GX β (GV β)) l s := rfl
@[gs] theorem gev_len (es : List Expr) : gev g (n + 1) sc (.method (.array es) "len" [] []) l s = (do
    let vs ← seqE (gev g n sc) es
    pure (.int .usize (BitVec.ofNat 64 vs.length)) : GX β (GV β)) l s := rfl

/-- A method call. -/
def methodCall (e : Expr) (m : String) (targs : List RTy) (args : List Expr) : GX β (GV β) := do
  let recv ← gplace (gev g n sc) e
  let vs ← seqE (gev g n sc) args
  match findFn recv.peel.tyName m g.lib.fns with
  | some fn => callFn g.lib evFuel fn recv.peel.tyName (targs.map (gty g sc)) (some recv.peel) vs .unknown
  | none => match recv with
    | .user _ => match findImpl g "TaggableInner" g.en none m g.fns with
      | some fn => do
        let recv ← match asVar e with
          | some x => useVar x
          | none => pure recv
        runFn g (gev g n) fn (some recv) vs
      | none => X.stuck
    | recv => libMethod g.lib recv m vs

attribute [gs] methodCall

@[gs] theorem gev_method_path (p : RPath) (m : String) (targs : List RTy) (args : List Expr) :
    gev g (n + 1) sc (.method (.path p) m targs args) l s = methodCall g n sc (.path p) m targs args l s := rfl
@[gs] theorem gev_method_call (p : Expr) (as : List Expr) (m : String) (targs : List RTy) (args : List Expr) :
    gev g (n + 1) sc (.method (.call p as) m targs args) l s = methodCall g n sc (.call p as) m targs args l s := rfl
@[gs] theorem gev_method_method (e : Expr) (f : String) (ts : List RTy) (as : List Expr) (m : String) (targs : List RTy) (args : List Expr) :
    gev g (n + 1) sc (.method (.method e f ts as) m targs args) l s = methodCall g n sc (.method e f ts as) m targs args l s := rfl
@[gs] theorem gev_method_field (e : Expr) (f : String) (m : String) (targs : List RTy) (args : List Expr) :
    gev g (n + 1) sc (.method (.field e f) m targs args) l s = methodCall g n sc (.field e f) m targs args l s := rfl

@[gs] theorem gev_field (x y : String) : gev g (n + 1) sc (.field (.path [(x, [])]) y) l s = moveField x y l s := rfl
@[gs] theorem gev_struct (x : String) (fs : List (String × Expr)) : gev g (n + 1) sc (.struct [(x, [])] fs) l s =
    (if x = "Self" then do
        let vs ← seqF (gev g n sc) fs
        pure (.struct containerName vs)
      else match lookup x sc.types with
        | some (.struct _ attrs ts) => do
          let vs ← seqF (gev g n sc) fs
          structRecord g attrs ts vs
        | _ => X.stuck : GX β (GV β)) l s := rfl
@[gs] theorem gev_struct2 (t v : String) (fs : List (String × Expr)) : gev g (n + 1) sc (.struct [(t, []), (v, [])] fs) l s =
    (match lookup t sc.types with
      | some _ => X.stuck
      | none => if t = g.en then do
          let vs ← seqF (gev g n sc) fs
          enumRecord g v vs
        else X.stuck : GX β (GV β)) l s := rfl
@[gs] theorem gev_stringify (x : String) : gev g (n + 1) sc (.mac "stringify" [.path [(x, [])]]) l s = .ret (.str x) l s := rfl
@[gs] theorem gev_panic (msg : String) (args : List Expr) : gev g (n + 1) sc (.mac "panic" (.lit msg :: args)) l s = (do
    let vs ← seqE (gev g n sc) args
    X.panic (.text msg vs) : GX β (GV β)) l s := by
  cases args <;> rfl
@[gs] theorem gev_block (ss : List Stmt) : gev g (n + 1) sc (.block ss) l s =
    scope g.lib (runStmts g (gev g n (sc.enter ss)) (sc.enter ss) ss) l s := rfl
@[gs] theorem gev_match (e : Expr) (arms : List (Pat × Option Expr × Expr)) : gev g (n + 1) sc (.mtch e arms) l s = (do
    let v ← gplace (gev g n sc) e
    runArms g (gev g n sc) (asVar e) v arms : GX β (GV β)) l s := rfl

variable (f : Expr → GX β (GV β))

@[gs] theorem gplace_var (x : String) : gplace f (.path [(x, [])]) l s = readVar x l s := by simp only [gplace]
@[gs] theorem gplace_field (x y : String) : gplace f (.field (.path [(x, [])]) y) l s = (do
    let v ← readVar x
    X.some? (fieldOf y v) : GX β (GV β)) l s := by simp only [gplace]
@[gs] theorem gplace_deref (e : Expr) : gplace f (.un .deref e) l s = (do
    let v ← gplace f e
    pure v.peel : GX β (GV β)) l s := by simp only [gplace]
@[gs] theorem gplace_call (p : Expr) (as : List Expr) : gplace f (.call p as) = f (.call p as) := by simp only [gplace]
@[gs] theorem gplace_method (e : Expr) (m : String) (ts : List RTy) (as : List Expr) : gplace f (.method e m ts as) = f (.method e m ts as) := by
  simp only [gplace]

@[gs] theorem seqE_nil : seqE f [] l s = .ret [] l s := rfl
@[gs] theorem seqE_cons (e : Expr) (es : List Expr) : seqE f (e :: es) l s = (do
    let v ← f e
    let vs ← seqE f es
    pure (v :: vs) : GX β _) l s := rfl
@[gs] theorem seqF_nil : seqF f [] l s = .ret [] l s := rfl
@[gs] theorem seqF_cons (x : String) (e : Expr) (es : List (String × Expr)) : seqF f ((x, e) :: es) l s = (do
    let v ← f e
    let vs ← seqF f es
    pure ((x, v) :: vs) : GX β _) l s := rfl

variable (ss : List Stmt)

@[gs] theorem runStmts_nil : runStmts g f sc [] l s = .ret .unit l s := rfl
@[gs] theorem runStmts_let (x : String) (t : Option RTy) (e : Expr) : runStmts g f sc (.letS (.bind x) t e :: ss) l s = (do
    let v ← f e
    X.declare x v
    runStmts g f sc ss : GX β (GV β)) l s := rfl
@[gs] theorem runStmts_letStruct (x : String) (ps : List (String × Pat)) (t : Option RTy) (e : Expr) :
    runStmts g f sc (.letS (.struct [(x, [])] ps) t e :: ss) l s = (do
    let v ← f e
    match lookup x sc.types with
      | some (.struct _ _ ts) => letStruct ts ps v
      | _ => X.stuck
    runStmts g f sc ss : GX β (GV β)) l s := rfl
@[gs] theorem runStmts_semi (e : Expr) : runStmts g f sc (.semi e :: ss) l s = (do
    let v ← f e
    dropV g.lib v
    runStmts g f sc ss : GX β (GV β)) l s := rfl
@[gs] theorem runStmts_tail (e : Expr) : runStmts g f sc [.tail e] l s = f e l s := rfl
@[gs] theorem runStmts_const (x : String) (t : RTy) (e : Expr) : runStmts g f sc (.constS x t e :: ss) l s = runStmts g f sc ss l s := rfl
@[gs] theorem runStmts_enum (as : List (List TT)) (x : String) (vs : List String) : runStmts g f sc (.enumS as x vs :: ss) l s = runStmts g f sc ss l s := rfl
@[gs] theorem runStmts_struct (b : Bool) (as : List (List TT)) (x : String) (fs : List (String × RTy)) : runStmts g f sc (.structS b as x fs :: ss) l s = runStmts g f sc ss l s := rfl
@[gs] theorem runStmts_use : runStmts g f sc (.useS :: ss) l s = runStmts g f sc ss l s := rfl

end

attribute [gs] typeItems constItems Sc.enter callPath containerName partsName asVar one two varE varT bindAll fieldOf

/-! ## Variables as operands -/

/-- A list of variables, by value. -/
theorem seqE_vars (g : GCrate β) (n : Nat) (sc : Sc) (s : State) : ∀ (xs pre : List (String × GV β)) (l : Locals (Host β)),
    (xs.map (·.1)).Nodup → (∀ x ∈ xs, x.2.copies = false) →
    seqE (gev g (n + 1) sc) (xs.map fun x => varE x.1) (bound xs (moved pre l)) s = .ret (xs.map (·.2)) (moved (pre ++ xs) l) s
  | [], pre, l, _, _ => by simp [gs]
  | (x, v) :: xs, pre, l, hn, hc => by
    rw [List.map_cons, List.nodup_cons] at hn
    have h1 : lookup x (bound ((x, v) :: xs) (moved pre l)) = some (some v) := by
      rw [bound_cons, lookup_bound_of_not_mem _ _ _ hn.1, lookup_head]
    have h2 : setLocal x none (bound ((x, v) :: xs) (moved pre l)) = bound xs (moved (pre ++ [(x, v)]) l) := by
      rw [bound_cons, setLocal_bound_of_not_mem _ _ _ _ hn.1]
      simp [setLocal, moved]
    have hv : v.copies = false := hc (x, v) (by simp)
    have ih := seqE_vars g n sc s xs (pre ++ [(x, v)]) l hn.2 (fun y hy => hc y (by simp [hy]))
    simp only [List.map_cons, seqE_cons, x_bind, varE, one, gev_var, h1, useVar_apply, hv, Bool.false_eq_true, if_false, h2]
    simp only [varE, one] at ih
    simp [ih, rs]

theorem seqF_vars (g : GCrate β) (n : Nat) (sc : Sc) (s : State) : ∀ (xs pre : List (String × GV β)) (l : Locals (Host β)),
    (xs.map (·.1)).Nodup → (∀ x ∈ xs, x.2.copies = false) →
    seqF (gev g (n + 1) sc) (xs.map fun x => (x.1, varE x.1)) (bound xs (moved pre l)) s = .ret xs (moved (pre ++ xs) l) s
  | [], pre, l, _, _ => by simp [gs]
  | (x, v) :: xs, pre, l, hn, hc => by
    rw [List.map_cons, List.nodup_cons] at hn
    have h1 : lookup x (bound ((x, v) :: xs) (moved pre l)) = some (some v) := by
      rw [bound_cons, lookup_bound_of_not_mem _ _ _ hn.1, lookup_head]
    have h2 : setLocal x none (bound ((x, v) :: xs) (moved pre l)) = bound xs (moved (pre ++ [(x, v)]) l) := by
      rw [bound_cons, setLocal_bound_of_not_mem _ _ _ _ hn.1]
      simp [setLocal, moved]
    have hv : v.copies = false := hc (x, v) (by simp)
    have ih := seqF_vars g n sc s xs (pre ++ [(x, v)]) l hn.2 (fun y hy => hc y (by simp [hy]))
    simp only [List.map_cons, seqF_cons, x_bind, varE, one, gev_var, h1, useVar_apply, hv, Bool.false_eq_true, if_false, h2]
    simp only [varE, one] at ih
    simp [ih, rs]

/-! ## Fields as operands -/

theorem digits_nodup : ((List.range 33).map (toString : Nat → String)).Nodup := by decide

theorem toString_ne {i j : Nat} (hi : i < 33) (hj : j < 33) (h : i ≠ j) : toString i ≠ toString j := by
  intro he
  have hl : ∀ k, k < 33 → ((List.range 33).map (toString : Nat → String))[k]? = some (toString k) := by
    intro k hk
    simp [hk]
  exact h ((idxOf_get digits_nodup (hl i hi)).symm.trans (he ▸ idxOf_get digits_nodup (hl j hj)))

/-- The names of the first `k` fields, moved. -/
def gone (k m : Nat) : List (String × GV β) := (List.range' k m).map fun i => (toString i, .unit)

theorem setField_append_of_not_mem (x : String) (v : GV β) : ∀ (l l' : List (String × GV β)), x ∉ l.map (·.1) →
    setField x v (l ++ l') = l ++ setField x v l'
  | [], _, _ => rfl
  | (y, a) :: l, l', h => by
    simp only [List.map_cons, List.mem_cons, not_or] at h
    rw [List.cons_append, setField, if_neg h.1, setField_append_of_not_mem x v l l' h.2, List.cons_append]

theorem not_mem_gone {k m : Nat} (h : k + m < 33) : toString (k + m) ∉ (gone k m : List (String × GV β)).map (·.1) := by
  simp only [gone, List.map_map, List.mem_map, List.mem_range', Function.comp_def, not_exists, not_and]
  intro i hi
  obtain ⟨j, hj, rfl⟩ := hi
  exact toString_ne (by omega) h (by omega)

theorem gone_succ (k m : Nat) : (gone k (m + 1) : List (String × GV β)) = gone k m ++ [(toString (k + m), .unit)] := by
  simp [gone, List.range'_concat]

/-- The values of fields. -/
def fieldVs (fs : List (Nat × Leaf)) (xs : TB.Val) : List (GV β) := List.zipWith (fun f x => .obj f.2.shape [x]) fs xs

theorem seqE_parts (g : GCrate β) (n : Nat) (sc : Sc) (x nm : String) (s : State) : ∀ (fs : List (Nat × Leaf)) (xs : TB.Val) (k : Nat) (l : Locals (Host β)),
    fs.length = xs.length → k + xs.length ≤ 32 →
    seqE (gev g (n + 1) sc) ((List.range' k xs.length).map fun i => .field (varE x) (toString i)) ((x, some (.struct nm (gone 0 k ++ parts k fs xs))) :: l) s =
      .ret (fieldVs fs xs) ((x, some (.struct nm (gone 0 (k + xs.length)))) :: l) s
  | [], [], k, l, _, _ => by simp [gs, parts, fieldVs]
  | [], _ :: _, _, _, h, _ => by simp at h
  | _ :: _, [], _, _, h, _ => by simp at h
  | f :: fs, y :: ys, k, l, h, hk => by
    have hk' : k + (ys.length + 1) ≤ 32 := by simpa using hk
    have hm : toString k ∉ (gone 0 k : List (String × GV β)).map (·.1) := by
      have := not_mem_gone (β := β) (k := 0) (m := k) (by omega)
      simpa using this
    have h1 : lookup (toString k) (gone 0 k ++ parts k (f :: fs) (y :: ys) : List (String × GV β)) = some (.obj f.2.shape [y]) := by
      rw [lookup_append_of_not_mem _ _ _ hm, parts, lookup_head]
    have h2 : setField (toString k) .unit (gone 0 k ++ parts k (f :: fs) (y :: ys) : List (String × GV β)) = gone 0 (k + 1) ++ parts (k + 1) fs ys := by
      rw [setField_append_of_not_mem _ _ _ _ hm, gone_succ]
      simp [parts, setField]
    have ih := seqE_parts g n sc x nm s fs ys (k + 1) l (by simpa using h) (by omega)
    simp only [List.length_cons, List.range'_succ, List.map_cons, seqE_cons, x_bind, varE, one, gev_field, moveField, lookup_head, h1, setLocal, if_true, h2]
    simp only [varE, one] at ih
    simp only [ih, x_bind, x_pure, show k + 1 + ys.length = k + (ys.length + 1) by omega]
    rfl

/-- `x.0, x.1, ..` by value: all fields of a structure with at least one. -/
theorem seqE_fields (g : GCrate β) (n : Nat) (sc : Sc) (x : String) (s : State) (sh : Shape) (vs : TB.Val) (l : Locals (Host β))
    (h : sh.fields.length = vs.length) (h0 : vs.length ≠ 0) (hk : vs.length ≤ 32) :
    seqE (gev g (n + 1) sc) ((List.range vs.length).map fun i => .field (varE x) (toString i)) ((x, some (.obj sh vs)) :: l) s =
      .ret (fieldVs sh.fields vs) ((x, some (.struct partsName (gone 0 vs.length))) :: l) s := by
  have key := seqE_parts g n sc x partsName s sh.fields vs 0 l h (by omega)
  rw [Nat.zero_add, ← List.range_eq_range'] at key
  rw [← key]
  cases vs with
  | nil => simp at h0
  | cons y ys =>
    cases hf : sh.fields with
    | nil => simp [hf] at h
    | cons f fs =>
      simp only [List.length_cons, List.range_succ_eq_map, List.map_cons, seqE_cons, x_bind, varE, one, gev_field, moveField, lookup_head, hf, parts, gone,
        List.range'_zero, List.map_nil, List.nil_append, setLocal, if_true]

theorem dropFields_gone (cr : Crate (Host β)) (l : Locals (Host β)) (s : State) : ∀ (m k : Nat), dropFields cr (gone k m) l s = .ret () l s
  | 0, k => by simp [gone, rs]
  | m + 1, k => by
    have := dropFields_gone cr l s m (k + 1)
    simp only [gone] at this
    simp only [gone, List.range'_succ, List.map_cons, dropFields_cons, x_bind, dropV_unit, this]

theorem dropV_gone (env : Env) (user : User (Host β)) (l : Locals (Host β)) (s : State) (m k : Nat) :
    dropV (src env user) (.struct partsName (gone k m)) l s = .ret () l s := by
  have h : dropImpl (src env user) partsName = false := rfl
  rw [dropV_struct, if_neg (by decide), h]
  exact dropFields_gone _ l s m k

/-! ## Building values -/

@[gs] theorem toBytesList_fieldVs : ∀ (fs : List (Nat × Leaf)) (xs : TB.Val), fs.length = xs.length → toBytesList (fieldVs fs xs : List (GV β)) = some xs
  | [], [], _ => rfl
  | [], _ :: _, h => by simp at h
  | _ :: _, [], h => by simp at h
  | f :: fs, x :: xs, h => by
    have ih := toBytesList_fieldVs fs xs (by simpa using h)
    simp only [fieldVs] at ih
    simp [fieldVs, toBytesList, toBytes, ih]

end TB.Rust

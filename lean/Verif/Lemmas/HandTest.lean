import Verif.Rust.HandCode
import Verif.Rust.HandWritten
import Verif.Spec.HandWritten
import Verif.Lemmas.GuideRun

/-! # Running the statements of the test `tagged_box` (helper lemmas; no property theorems here) -/

set_option autoImplicit false
set_option linter.unusedSimpArgs false

namespace TB.Rust.Hand

open TB TB.Macro TB.Mbe TB.Rust TB.Rust.Gen TB.Spec

section
variable {L : Lits} {A : HandOps} {r rb : Bytes} (hr : L.enc (.named "i32") (.num none 110) = some r) (hr' : L.enc (.named "i32") (.num (some "i32") 110) = some r)
  (he : L.eq (.named "i32") r r = true) (hb : L.enc (.named "bool") (.bool true) = some rb) (heb : L.eq (.named "bool") rb rb = true)

theorem n110 : numLit "110" = some (110, none) := by decide
theorem n110i : numLit "110i32" = some (110, some "i32") := by decide
theorem n0 : numLit "0" = some (0, none) := by decide
theorem n1 : numLit "1" = some (1, none) := by decide

variable {s s1 s2 s3 s4 : State} {b1 b2 b3 b4 : TBox} {k : PanicKind}

local notation "run" => hstmts L valueDecl A "Container" "tagged" "Value" []

include hr in
theorem new1 (l : List (String × HV)) : hev L valueDecl A "Container" "tagged" "Value" l 20 (newE "i32" (.lit "110") "0") = (do
    let b ← A.new (.named "i32") r 0
    pure (.cont b)) := by
  funext s
  simp only [newE, hev, one, varT, if_true, and_self, argOf, orHStuck, m_bind, m_pure, n110, n0, hnew, hr]
  cases A.new (.named "i32") r 0 s <;> simp [hstruct, m_pure]

include hb in
theorem new2 (l : List (String × HV)) : hev L valueDecl A "Container" "tagged" "Value" l 20 (newE "bool" (varE "true") "1") = (do
    let b ← A.new (.named "bool") rb 1
    pure (.cont b)) := by
  funext s
  simp only [newE, varE, hev, one, varT, if_true, and_self, argOf, orHStuck, m_bind, m_pure, n1, hname, hnew, hb]
  cases A.new (.named "bool") rb 1 s <;> simp [hstruct, m_pure]

/-- The variables of the test. -/
def vars (b1 b2 : TBox) : List (String × HV) := [("bool_container", .cont b2), ("int_container", .cont b1)]

theorem var1 (b1 b2 : TBox) : hname (vars b1 b2) "int_container" = some (.cont b1) := by
  simp [hname, vars, lookup]

theorem var2 (b1 b2 : TBox) : hname (vars b1 b2) "bool_container" = some (.cont b2) := by
  simp [hname, vars, lookup]

theorem lets (hn1 : hev L valueDecl A "Container" "tagged" "Value" [] 20 (newE "i32" (.lit "110") "0") s = .ret (.cont b1) s1)
    (hn2 : hev L valueDecl A "Container" "tagged" "Value" [("int_container", .cont b1)] 20 (newE "bool" (varE "true") "1") s1 = .ret (.cont b2) s2) :
    run stmts s = hstmts L valueDecl A "Container" "tagged" "Value" (vars b1 b2) (stmts.drop 2) s2 := by
  simp only [stmts, hstmts, m_bind, hn1, hn2]
  rfl

/-- An assertion that holds. -/
theorem assert_step {l : List (String × HV)} {x y : Expr} {u w : HV} {t t1 t2 : State} (ss : List Stmt)
    (hx : hev L valueDecl A "Container" "tagged" "Value" l 20 x t = .ret u t1) (hy : hev L valueDecl A "Container" "tagged" "Value" l 20 y t1 = .ret w t2)
    (hq : heq L valueDecl u w t2 = .ret true t2) :
    hstmts L valueDecl A "Container" "tagged" "Value" l (assertE x y :: ss) t = hstmts L valueDecl A "Container" "tagged" "Value" l ss t2 := by
  simp only [assertE, hstmts, if_true, m_bind, hx, hy, hq]

theorem assert_panic {l : List (String × HV)} {x y : Expr} {t t1 : State} (ss : List Stmt)
    (hx : hev L valueDecl A "Container" "tagged" "Value" l 20 x t = .panic k t1) :
    hstmts L valueDecl A "Container" "tagged" "Value" l (assertE x y :: ss) t = .panic k t1 := by
  simp only [assertE, hstmts, if_true, m_bind, hx]

variable {t t1 : State}

theorem ev_var {n : Nat} {l : List (String × HV)} {x : String} {v : HV} (h : hname l x = some v) : hev L valueDecl A "Container" "tagged" "Value" l (n + 1) (varE x) t = .ret v t := by
  simp only [varE, one, hev, h, orHStuck, m_pure]

theorem ev_tagged {n : Nat} {l : List (String × HV)} {x : String} {b : TBox} (h : hname l x = some (.cont b)) :
    hev L valueDecl A "Container" "tagged" "Value" l (n + 2) (taggedE x) t = .ret (.box b) t := by
  rw [taggedE, hev]
  simp only [m_bind, ev_var h, hfield, if_true, m_pure]

theorem ev_discr {n : Nat} {l : List (String × HV)} {x : String} {b : TBox} {d : Nat} (h : hname l x = some (.cont b)) (hd : A.discr b t = .ret d t1) :
    hev L valueDecl A "Container" "tagged" "Value" l (n + 3) (.method (taggedE x) "discriminant" [] []) t = .ret (.discr d) t1 := by
  rw [hev]
  simp only [m_bind, ev_tagged h, hmethod, if_true, hd, m_pure]

theorem ev_look {n : Nat} {l : List (String × HV)} {x ty : String} {b : TBox} {v : Bytes} (h : hname l x = some (.cont b)) (hd : A.look (.named ty) b t = .ret v t1) :
    hev L valueDecl A "Container" "tagged" "Value" l (n + 4) (.block [.tail (.method (taggedE x) "as_ref" [varT ty] [])]) t = .ret (.val (.named ty) v) t1 := by
  rw [hev, hev]
  simp only [m_bind, ev_tagged h, hmethod, varT, one, argOf, orHStuck, if_true, hd, m_pure]

theorem ev_inner {n : Nat} {l : List (String × HV)} {x : String} {b : TBox} {e : EVal} (h : hname l x = some (.cont b)) (hd : A.inner b t = .ret e t1) :
    hev L valueDecl A "Container" "tagged" "Value" l (n + 2) (.method (varE x) "into_inner" [] []) t = .ret (.item e) t1 := by
  rw [hev]
  simp [m_bind, ev_var h, hmethod, hd, m_pure]

theorem ev_clone {n : Nat} {l : List (String × HV)} {x : String} {b b' : TBox} {e : EVal} {t2 : State} (h : hname l x = some (.cont b)) (hc : A.clone b t = .ret b' t1)
    (hd : A.inner b' t1 = .ret e t2) :
    hev L valueDecl A "Container" "tagged" "Value" l (n + 3) (.method (.method (varE x) "clone" [] []) "into_inner" [] []) t = .ret (.item e) t2 := by
  rw [hev, hev]
  simp [m_bind, ev_var h, hmethod, hc, hd, m_pure]

theorem ev_clone_panic {n : Nat} {l : List (String × HV)} {x : String} {b : TBox} (h : hname l x = some (.cont b)) (hc : A.clone b t = .panic k t1) :
    hev L valueDecl A "Container" "tagged" "Value" l (n + 3) (.method (.method (varE x) "clone" [] []) "into_inner" [] []) t = .panic k t1 := by
  rw [hev, hev]
  simp [m_bind, ev_var h, hmethod, hc, m_pure]

theorem ev_lit {n j : Nat} {l : List (String × HV)} {x : String} {o : Option String} (h : numLit x = some (j, o)) :
    hev L valueDecl A "Container" "tagged" "Value" l (n + 1) (.lit x) t = .ret (.prim (.num o j)) t := by
  simp only [hev, h, m_pure]

theorem ev_ref {n : Nat} {l : List (String × HV)} {x : Expr} {v : HV} (h : hev L valueDecl A "Container" "tagged" "Value" l n x t = .ret v t) :
    hev L valueDecl A "Container" "tagged" "Value" l (n + 1) (.ref false x) t = .ret v t := by
  rw [hev]; exact h

theorem ev_true {n : Nat} {l : List (String × HV)} : hev L valueDecl A "Container" "tagged" "Value" l (n + 1) (varE "true") t = .ret (.prim (.bool true)) t :=
  ev_var (by simp [hname])

/-- The two values of the test. -/
def int110 (r : Bytes) : EVal := ⟨"I32", .tuple [r]⟩
def boolTrue (rb : Bytes) : EVal := ⟨"Bool", .tuple [rb]⟩

include hr in
theorem ev_int {n : Nat} {l : List (String × HV)} :
    hev L valueDecl A "Container" "tagged" "Value" l (n + 2) (.call (.path (two "Value" "I32")) [.lit "110"]) t = .ret (.item (int110 r)) t := by
  have ht : tupleItem L valueDecl "I32" [.num none 110] = some (int110 r) := by
    simp [tupleItem, lookupDef, valueDecl, encAll, hr, int110]
  simp only [two]
  rw [hev]
  simp only [m_bind, ev_lit n110, hvariant, if_true, ht, orHStuck, m_pure]

include hb in
theorem ev_bool {n : Nat} {l : List (String × HV)} :
    hev L valueDecl A "Container" "tagged" "Value" l (n + 2) (.call (.path (two "Value" "Bool")) [varE "true"]) t = .ret (.item (boolTrue rb)) t := by
  have ht : tupleItem L valueDecl "Bool" [.bool true] = some (boolTrue rb) := by
    simp [tupleItem, lookupDef, valueDecl, encAll, hb, boolTrue]
  simp only [two]
  rw [hev]
  simp only [m_bind, ev_true, hvariant, if_true, ht, orHStuck, m_pure]

include he in
theorem eq_int : heq L valueDecl (.item (int110 r)) (.item (int110 r)) t = .ret true t := by
  simp [heq, eqItem, int110, lookupDef, valueDecl, eqFields, he, m_pure]

include heb in
theorem eq_bool : heq L valueDecl (.item (boolTrue rb)) (.item (boolTrue rb)) t = .ret true t := by
  simp [heq, eqItem, boolTrue, lookupDef, valueDecl, eqFields, heb, m_pure]

include hr hr' he hb heb

/-- Up to the clones. -/
theorem run_looks (e1 : A.new (.named "i32") r 0 s = .ret b1 s1) (e2 : A.new (.named "bool") rb 1 s1 = .ret b2 s2)
    (d1 : A.discr b1 s2 = .ret 0 s2) (d2 : A.discr b2 s2 = .ret 1 s2) (l1 : A.look (.named "i32") b1 s2 = .ret r s2) (l2 : A.look (.named "bool") b2 s2 = .ret rb s2) :
    run stmts s = hstmts L valueDecl A "Container" "tagged" "Value" (vars b1 b2) (stmts.drop 6) s2 := by
  have v1 := var1 b1 b2
  have v2 := var2 b1 b2
  refine (lets (b1 := b1) (b2 := b2) (s1 := s1) (s2 := s2) (by rw [new1 hr, m_bind, e1]; rfl) (by rw [new2 hb, m_bind, e2]; rfl)).trans ?_
  refine (assert_step _ (ev_discr v1 d1) (ev_lit n0) (by simp [heq, m_pure])).trans ?_
  refine (assert_step _ (ev_discr v2 d2) (ev_lit n1) (by simp [heq, m_pure])).trans ?_
  refine (assert_step _ (ev_look v1 l1) (ev_ref (ev_lit n110i)) (by simp [heq, m_bind, m_pure, hr', orHStuck, he])).trans ?_
  exact assert_step _ (ev_look v2 l2) (ev_ref ev_true) (by simp [heq, m_bind, m_pure, hb, orHStuck, heb])

omit hr' he hb heb in
theorem test_fail1 (e1 : A.new (.named "i32") r 0 s = .panic k s1) : run stmts s = .panic k s1 := by
  simp only [stmts, hstmts, new1 hr, m_bind, e1]

omit hr' he heb in
theorem test_fail2 (e1 : A.new (.named "i32") r 0 s = .ret b1 s1) (e2 : A.new (.named "bool") rb 1 s1 = .panic k s2) : run stmts s = .panic k s2 := by
  simp only [stmts, hstmts, new1 hr, new2 hb, m_bind, e1, e2, m_pure]

/-- The first clone fails. -/
theorem test_fail3 (e1 : A.new (.named "i32") r 0 s = .ret b1 s1) (e2 : A.new (.named "bool") rb 1 s1 = .ret b2 s2)
    (d1 : A.discr b1 s2 = .ret 0 s2) (d2 : A.discr b2 s2 = .ret 1 s2) (l1 : A.look (.named "i32") b1 s2 = .ret r s2) (l2 : A.look (.named "bool") b2 s2 = .ret rb s2)
    (c1 : A.clone b1 s2 = .panic k s3) : run stmts s = .panic k s3 :=
  (run_looks hr hr' he hb heb e1 e2 d1 d2 l1 l2).trans (assert_panic _ (ev_clone_panic (var1 b1 b2) c1))

/-- The second clone fails. -/
theorem test_fail4 (e1 : A.new (.named "i32") r 0 s = .ret b1 s1) (e2 : A.new (.named "bool") rb 1 s1 = .ret b2 s2)
    (d1 : A.discr b1 s2 = .ret 0 s2) (d2 : A.discr b2 s2 = .ret 1 s2) (l1 : A.look (.named "i32") b1 s2 = .ret r s2) (l2 : A.look (.named "bool") b2 s2 = .ret rb s2)
    (c1 : A.clone b1 s2 = .ret b3 s3) (i3 : A.inner b3 s3 = .ret (int110 r) s3) (c2 : A.clone b2 s3 = .panic k s4) : run stmts s = .panic k s4 := by
  refine (run_looks hr hr' he hb heb e1 e2 d1 d2 l1 l2).trans ?_
  refine (assert_step _ (ev_clone (var1 b1 b2) c1 i3) (ev_int hr) (eq_int he)).trans ?_
  exact assert_panic _ (ev_clone_panic (var2 b1 b2) c2)

/-- Nothing fails. -/
theorem test_run (e1 : A.new (.named "i32") r 0 s = .ret b1 s1) (e2 : A.new (.named "bool") rb 1 s1 = .ret b2 s2)
    (d1 : A.discr b1 s2 = .ret 0 s2) (d2 : A.discr b2 s2 = .ret 1 s2) (l1 : A.look (.named "i32") b1 s2 = .ret r s2) (l2 : A.look (.named "bool") b2 s2 = .ret rb s2)
    (c1 : A.clone b1 s2 = .ret b3 s3) (i3 : A.inner b3 s3 = .ret (int110 r) s3) (c2 : A.clone b2 s3 = .ret b4 s4) (i4 : A.inner b4 s4 = .ret (boolTrue rb) s4)
    (i1 : A.inner b1 s4 = .ret (int110 r) s4) (i2 : A.inner b2 s4 = .ret (boolTrue rb) s4) : run stmts s = .ret () s4 := by
  have v1 := var1 b1 b2
  have v2 := var2 b1 b2
  refine (run_looks hr hr' he hb heb e1 e2 d1 d2 l1 l2).trans ?_
  refine (assert_step _ (ev_clone v1 c1 i3) (ev_int hr) (eq_int he)).trans ?_
  refine (assert_step _ (ev_clone v2 c2 i4) (ev_bool hb) (eq_bool heb)).trans ?_
  refine (assert_step _ (ev_inner v1 i1) (ev_int hr) (eq_int he)).trans ?_
  exact (assert_step _ (ev_inner v2 i2) (ev_bool hb) (eq_bool heb)).trans rfl

end

/-! ## Assertions in general -/

section
variable {L : Lits} {A : HandOps} {a c : String} {n m : Nat} {s s1 s2 : State} {b : TBox} {k : PanicKind}

/-- `let c = Container { tagged: TaggedBox::new::<i32>(a, 0) };` and an assertion. -/
def checkE (a : String) (x y : Expr) : List Stmt := [.letS (.bind "c") none (newE "i32" (.lit a) "0"), assertE x y]

theorem newN {r : Bytes} (ha : numLit a = some (n, none)) (hr : L.enc (.named "i32") (.num none n) = some r) (l : List (String × HV)) :
    hev L valueDecl A "Container" "tagged" "Value" l 20 (newE "i32" (.lit a) "0") = (do
    let b ← A.new (.named "i32") r 0
    pure (.cont b)) := by
  funext s
  simp only [newE, hev, one, varT, if_true, and_self, argOf, orHStuck, m_bind, m_pure, ha, n0, hnew, hr]
  cases A.new (.named "i32") r 0 s <;> simp [hstruct, m_pure]

theorem check_panic {r : Bytes} {x y : Expr} (ha : numLit a = some (n, none)) (hr : L.enc (.named "i32") (.num none n) = some r)
    (e : A.new (.named "i32") r 0 s = .panic k s1) : hstmts L valueDecl A "Container" "tagged" "Value" [] (checkE a x y) s = .panic k s1 := by
  simp only [checkE, hstmts, newN ha hr, m_bind, e]

theorem check_run {r : Bytes} {x y : Expr} {u w : HV} {q : Bool} (ha : numLit a = some (n, none)) (hr : L.enc (.named "i32") (.num none n) = some r)
    (e : A.new (.named "i32") r 0 s = .ret b s1) (hx : hev L valueDecl A "Container" "tagged" "Value" [("c", .cont b)] 20 x s1 = .ret u s1)
    (hy : hev L valueDecl A "Container" "tagged" "Value" [("c", .cont b)] 20 y s1 = .ret w s1) (hq : heq L valueDecl u w s1 = .ret q s1) :
    hstmts L valueDecl A "Container" "tagged" "Value" [] (checkE a x y) s = if q then .ret () s1 else .panic (.user 0) s1 := by
  simp only [checkE, assertE, hstmts, newN ha hr, m_bind, e, m_pure, if_true, hx, hy, hq]
  cases q <;> simp [m_pure, m_panic]

theorem var_c (b : TBox) : hname [("c", .cont b)] "c" = some (.cont b) := by
  simp [hname, lookup]

theorem ev_intN {r : Bytes} {n' : Nat} {l : List (String × HV)} (hc : numLit c = some (m, none)) (hr : L.enc (.named "i32") (.num none m) = some r) :
    hev L valueDecl A "Container" "tagged" "Value" l (n' + 2) (.call (.path (two "Value" "I32")) [.lit c]) s = .ret (.item (int110 r)) s := by
  have ht : tupleItem L valueDecl "I32" [.num none m] = some (int110 r) := by
    simp [tupleItem, lookupDef, valueDecl, encAll, hr, int110]
  simp only [two]
  rw [hev]
  simp only [m_bind, ev_lit hc, hvariant, if_true, ht, orHStuck, m_pure]

theorem eq_intN {x y : Bytes} : heq L valueDecl (.item (int110 x)) (.item (int110 y)) s = .ret (L.eq (.named "i32") x y) s := by
  simp [heq, eqItem, int110, lookupDef, valueDecl, eqFields, m_pure]

end

end TB.Rust.Hand

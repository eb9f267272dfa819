import Verif.Source.BoxTests
import Verif.Lemmas.ExampleTests

/-!
# Running the tests of `TaggedBox` that use boxes directly
-/

set_option autoImplicit false

namespace TB.Rust

open TB TB.Macro TB.Rust.Code TB.Source

section
variable {E : Type} {env : Env} [InTable env] {user : User E} {std : Std} {addr : String → Nat}

@[rs] theorem num_hex_usize : numLit "0xF00D_BEEF_usize" = some (0xF00DBEEF, some "usize") := by decide
@[rs] theorem num_4 : numLit "4" = some (4, none) := by decide
@[rs] theorem num_3 : numLit "3" = some (3, none) := by decide
@[rs] theorem num_5 : numLit "5" = some (5, none) := by decide
@[rs] theorem num_6 : numLit "6" = some (6, none) := by decide
@[rs] theorem num_1i32 : numLit "1i32" = some (1, some "i32") := by decide
theorem num_32 : numLit "32" = some (32, none) := by decide
theorem num_10000 : numLit "10000" = some (10000, none) := by decide

/-- `Custom { a: 10000, b: false, c: [0xFFFFFFFF; 10] }` -/
def customLit : Lit := .record [("a", .num 10000), ("b", .flag false), ("c", .nums (List.replicate 10 0xFFFFFFFF))]

theorem half_eq : constNum 64 halfMax = some 0xFFFFFFFF := by
  simp [halfMax, constNum, num_32]

theorem tev_custom (hp : env.ptrBits = 64) (n : Nat) (exp : RT) (l : Locals E) (s : State) :
    tev (src env user) std addr (n + 1) exp customE l s = .ret (.obj (std.shape "Custom") (std.enc (std.shape "Custom") customLit)) l s := by
  have e : (src env user).env.ptrBits = 64 := hp
  simp [tev, customE, constFields, constLit, constNums, constNum, num_10000, e, hp, half_eq, customLit, rs]

theorem operand_custom (hp : env.ptrBits = 64) (n : Nat) (exp : RT) (l : Locals E) (s : State) :
    operand (src env user) std addr (n + 2) exp customE l s = .ret (.obj (std.shape "Custom") (std.enc (std.shape "Custom") customLit), true) l s := by
  have h : operand (src env user) std addr (n + 2) exp customE = (do
      let v ← tev (src env user) std addr (n + 1) exp customE
      pure (v, true)) := by
    simp only [customE, operand]
  rw [h, x_bind, tev_custom hp]
  rfl

theorem div_d' (m : env.cfg.Discr) (k : Nat) (hk : k < 256) (l : Locals E) (s : State) :
    divV (dV m) (.lit k) l s = .ret (dV (m / BitVec.ofNat env.cfg.discrBits k)) l s := by
  simp only [dV, divV, x_pure]
  congr 2
  have hb : env.cfg.discrBits = 8 ∨ env.cfg.discrBits = 16 := by rows <;> first | exact .inl rfl | exact .inr rfl
  have h1 : m.toNat < 2 ^ env.cfg.discrBits := m.isLt
  apply BitVec.eq_of_toNat_eq
  rw [BitVec.toNat_udiv, BitVec.toNat_setWidth, BitVec.toNat_setWidth, BitVec.toNat_udiv, BitVec.toNat_ofNat, BitVec.toNat_ofNat]
  have h2 : (2:Nat) ^ env.cfg.discrBits = 256 ∨ (2:Nat) ^ env.cfg.discrBits = 65536 := by rcases hb with h | h <;> rw [h] <;> simp
  have h3 : m.toNat < 65536 := by omega
  have h4 : k % 2 ^ env.cfg.discrBits = k := by rcases h2 with h | h <;> rw [h] <;> omega
  have h5 : m.toNat / k < 2 ^ 64 := Nat.lt_of_le_of_lt (Nat.div_le_self _ _) (by omega)
  rw [h4, Nat.mod_eq_of_lt (show m.toNat < 2 ^ 64 by omega), Nat.mod_eq_of_lt (show k < 2 ^ 64 by omega), Nat.mod_eq_of_lt h5]

variable (env std) in
/-- Make a box of a literal. -/
def mk (ty : String) (x : Lit) (d : env.cfg.Discr) : M TBox := TBox.new env (std.shape ty) (std.enc (std.shape ty) x) d

variable (env std) in
/-- The boxes of the test `new`. -/
def mk1 : M TBox := mk env std "usize" (.num 0xF00DBEEF) (env.cfg.MAX_DISCRIMINANT / BitVec.ofNat env.cfg.discrBits 2)
variable (env std) in
def mk2 : M TBox := mk env std "Custom" customLit (env.cfg.MAX_DISCRIMINANT / BitVec.ofNat env.cfg.discrBits 4)
variable (env std) in
def mk3 : M TBox := mk env std "String" (.text "\"Hello world!\"") (BitVec.ofNat env.cfg.discrBits 0)
variable (env std) in
def mk4 : M TBox := mk env std "Vec<i32>" (.nums [1, 2, 3, 4, 5, 6]) (BitVec.ofNat env.cfg.discrBits 10)

variable (env std) in
/-- The box gives the literal back, whatever is logged. -/
def Gives (b : TBox) (ty : String) (x : Lit) (s : State) : Prop :=
  ∀ es, b.intoInner env (std.shape ty) (s.log es) = .ret (std.enc (std.shape ty) x) (s.log es)

theorem log_log (s : State) (a b : List Event) : (s.log a).log b = s.log (a ++ b) := by
  simp [State.log]

theorem let_step {n : Nat} {exp : RT} {x : String} {t : RTy} {e : Expr} {ss : List Stmt} {l l' : Locals E} {s s' : State} {v : V E}
    (h : tev (src env user) std addr n (tty std t) e l s = .ret v l' s') :
    tStmts (src env user) std addr (n + 1) exp (.letS (.bind x) (some t) e :: ss) l s = tStmts (src env user) std addr n exp ss ((x, some v) :: l') s' := by
  simp only [tStmts, x_bind, h]
  rfl

theorem let_panic {n : Nat} {exp : RT} {x : String} {t : RTy} {e : Expr} {ss : List Stmt} {l l' : Locals E} {s s' : State} {m : Msg E}
    (h : tev (src env user) std addr n (tty std t) e l s = .panic m l' s') :
    tStmts (src env user) std addr (n + 1) exp (.letS (.bind x) (some t) e :: ss) l s = .panic m l' s' := by
  simp only [tStmts, x_bind, h]

/-- `TaggedBox::new(a, d)` -/
theorem new_step {n : Nat} {exp : RT} {a e : Expr} {l : Locals E} {s : State} {sh : Shape} {v : TB.Val} {d : env.cfg.Discr} (hs : sh.size < 2 ^ 64)
    (ha : tev (src env user) std addr (n + 2) .unknown a l s = .ret (.obj sh v) l s)
    (he : tev (src env user) std addr (n + 1) (.int (discrTy env.cfg)) e l s = .ret (dV d) l s) :
    tev (src env user) std addr (n + 4) exp (.call (.path [("TaggedBox", []), ("new", [])]) [a, e]) l s = XOut.of boxV (panicMsg d) l (TBox.new env sh v d s) := by
  have hd : coerce env.ptrBits (.int (discrTy env.cfg)) (dV d : V E) = dV d := by simp [rs]
  have h : tArgs (src env user) std addr (n + 3) (box_new.params.map fun q => paramTy (src env user) box_new "TaggedBox" q.2) [a, e] l s =
      .ret [.obj sh v, dV d] l s := by
    rw [ps_new]
    simp only [tArgs, Option.getD, x_bind, ha, he, x_pure, defaultTy, src_env, hd]
  simp only [tev, List.reverse_cons, List.reverse_nil, List.nil_append, List.cons_append, find_box_new, x_bind, h, List.map_nil]
  exact tc_new env user sh hs v d exp l s

/-- A call of `TaggedBox::into_inner` with a variable. -/
def intoE (targs : List RTy) (x : String) : Expr := .call (.path [("TaggedBox", []), ("into_inner", targs)]) [.path [(x, [])]]

/-- `assert_eq!(a, TaggedBox::into_inner(x))` -/
theorem assert_step {n : Nat} {targs : List RTy} {x : String} {a : Expr} {l l' : Locals E} {s : State} {sh : Shape} {v : TB.Val} {b : TBox}
    (ht : targs.map (tty std) = [] ∨ targs.map (tty std) = [.opaque sh])
    (ha : operand (src env user) std addr (n + 4) (secondTy std (intoE targs x)) a l s = .ret (.obj sh v, true) l s)
    (hx : useVar x l s = .ret (boxV b) l' s) (hb : b.intoInner env sh s = .ret v s) :
    tev (src env user) std addr (n + 5) .unknown (.mac "assert_eq" [a, intoE targs x]) l s =
      .ret .unit l' (s.log (dropEvents sh v ++ dropEvents sh v)) := by
  have hc : tcall (src env user) "TaggedBox" "into_inner" (targs.map (tty std)) none [boxV b] (.opaque sh) l' s = .ret (.obj sh v) l' s := by
    rcases ht with e | e <;> rw [e]
    · rw [tc_intoInner', hb]; rfl
    · rw [tc_intoInner, hb]; rfl
  have hi : operand (src env user) std addr (n + 4) (.opaque sh) (intoE targs x) l s = .ret (.obj sh v, true) l' s := by
    simp only [intoE, operand, tev, List.reverse_cons, List.reverse_nil, List.nil_append, List.cons_append, find_box_into_inner, ps_into_inner, tArgs, Option.getD,
      x_bind, hx, x_pure, hc]
  simp only [tev, x_bind, ha, look_obj, other_obj, hi, same_obj, beq_self_eq_true, if_true, tdrop_obj, x_pure, X.mem, dropVal, M.log, log_log]

theorem semi_step {n : Nat} {exp : RT} {e : Expr} {ss : List Stmt} {l l' : Locals E} {s s' : State}
    (h : tev (src env user) std addr n .unknown e l s = .ret .unit l' s') :
    tStmts (src env user) std addr (n + 1) exp (.semi e :: ss) l s = tStmts (src env user) std addr n exp ss l' s' := by
  simp only [tStmts, x_bind, h, tdrop_unit]

theorem tev_half (k : Nat) (hk : k < 256) (t : String) (ht : numLit t = some (k, none)) (n : Nat) (exp : RT) (l : Locals E) (s : State) :
    tev (src env user) std addr (n + 2) exp (.bin .div (.path [("crate", []), ("discriminant", []), ("MAX_DISCRIMINANT", [])]) (.lit t)) l s =
      .ret (dV (env.cfg.MAX_DISCRIMINANT / BitVec.ofNat env.cfg.discrBits k)) l s := by
  simp [rs, div_d' _ k hk, ht]

/-- The first operands. -/
theorem operand_usize (n : Nat) (exp : RT) (l : Locals E) (s : State) :
    operand (src env user) std addr (n + 2) exp (.lit "0xF00D_BEEF_usize") l s = .ret (.obj (std.shape "usize") (std.enc (std.shape "usize") (.num 0xF00DBEEF)), true) l s := by
  simp [rs]

theorem operand_string (n : Nat) (exp : RT) (l : Locals E) (s : State) :
    operand (src env user) std addr (n + 2) exp (.call (.path [("String", []), ("from", [])]) [(.lit "\"Hello world!\"")]) l s =
      .ret (.obj (std.shape "String") (std.enc (std.shape "String") (.text "\"Hello world!\"")), true) l s := by
  simp [rs]

theorem operand_vec (n : Nat) (l : Locals E) (s : State) :
    operand (src env user) std addr (n + 2) (.opaque (std.shape "Vec<i32>")) (.mac "vec" [(.lit "1"), (.lit "2"), (.lit "3"), (.lit "4"), (.lit "5"), (.lit "6")]) l s =
      .ret (.obj (std.shape "Vec<i32>") (std.enc (std.shape "Vec<i32>") (.nums [1, 2, 3, 4, 5, 6])), true) l s := by
  simp [rs]

/-- The arguments. -/
theorem arg_vec (n : Nat) (exp : RT) (l : Locals E) (s : State) :
    tev (src env user) std addr (n + 2) exp (.mac "vec" [(.lit "1i32"), (.lit "2"), (.lit "3"), (.lit "4"), (.lit "5"), (.lit "6")]) l s =
      .ret (.obj (std.shape "Vec<i32>") (std.enc (std.shape "Vec<i32>") (.nums [1, 2, 3, 4, 5, 6]))) l s := by
  simp [rs]

theorem arg_string (n : Nat) (exp : RT) (l : Locals E) (s : State) :
    tev (src env user) std addr (n + 1) exp (.call (.path [("String", []), ("from", [])]) [(.lit "\"Hello world!\"")]) l s =
      .ret (.obj (std.shape "String") (std.enc (std.shape "String") (.text "\"Hello world!\""))) l s := by
  simp [rs]

theorem arg_usize (n : Nat) (exp : RT) (l : Locals E) (s : State) :
    tev (src env user) std addr (n + 1) exp (.lit "0xF00D_BEEF_usize") l s = .ret (.obj (std.shape "usize") (std.enc (std.shape "usize") (.num 0xF00DBEEF))) l s := by
  simp [rs]

theorem arg_num (k : Nat) (t : String) (ht : numLit t = some (k, none)) (n : Nat) (l : Locals E) (s : State) :
    tev (src env user) std addr (n + 1) (.int (discrTy env.cfg)) (.lit t) l s = .ret (dV (BitVec.ofNat env.cfg.discrBits k : env.cfg.Discr)) l s := by
  simp [rs, ht]

/-- The four boxes, the newest first. -/
def vars4 (b1 b2 b3 b4 : TBox) : Locals E := [("vec", some (boxV b4)), ("string", some (boxV b3)), ("custom", some (boxV b2)), ("integer", some (boxV b1))]

/-- What the test `new` does once it has made its boxes. -/
theorem asserts_new (hp : env.ptrBits = 64) {s : State} {b1 b2 b3 b4 : TBox}
    (g1 : Gives env std b1 "usize" (.num 0xF00DBEEF) s) (g2 : Gives env std b2 "Custom" customLit s)
    (g3 : Gives env std b3 "String" (.text "\"Hello world!\"") s) (g4 : Gives env std b4 "Vec<i32>" (.nums [1, 2, 3, 4, 5, 6]) s) :
    ∃ s', tStmts (src env user) std addr 96 .unit (box_test_new.drop 4) (vars4 b1 b2 b3 b4) s =
      .ret .unit [("vec", none), ("string", none), ("custom", none), ("integer", none)] s' := by
  have g0 := g1 []
  simp only [State.log, List.append_nil] at g0
  have e : ∀ ss, tStmts (src env user) std addr 96 .unit [.tail (.block ss)] = tscope (src env user) (tStmts (src env user) std addr 94 .unit ss) := fun ss => by
    simp only [tStmts, tev]
  have h1 := fun es => (semi_step (user := user) (addr := addr) (n := 93) (exp := .unit) (assert_step (n := 88) (targs := []) (x := "integer") (.inl rfl) (operand_usize _ _ _ _)
      (show useVar "integer" (vars4 b1 b2 b3 b4) s = .ret (boxV b1) _ s from rfl) g0) (ss := es))
  have h2 := fun es k => (semi_step (user := user) (addr := addr) (n := 92) (exp := .unit) (assert_step (n := 87) (targs := []) (x := "custom") (.inl rfl) (operand_custom hp _ _ _ _)
      (show useVar "custom" [("vec", some (boxV b4)), ("string", some (boxV b3)), ("custom", some (boxV b2)), ("integer", none)] (s.log k) = .ret (boxV b2) _ _ from rfl) (g2 k)) (ss := es))
  have h3 := fun es k => (semi_step (user := user) (addr := addr) (n := 91) (exp := .unit) (assert_step (n := 86) (targs := [.path [("String", [])]]) (x := "string") (.inr rfl) (operand_string _ _ _ _)
      (show useVar "string" [("vec", some (boxV b4)), ("string", some (boxV b3)), ("custom", none), ("integer", none)] (s.log k) = .ret (boxV b3) _ _ from rfl) (g3 k)) (ss := es))
  have h4 := fun es k => (semi_step (user := user) (addr := addr) (n := 90) (exp := .unit) (assert_step (n := 85) (targs := [.path [("Vec", [.path [("i32", [])]])]]) (x := "vec") (.inr rfl) (operand_vec _ _ _)
      (show useVar "vec" [("vec", some (boxV b4)), ("string", none), ("custom", none), ("integer", none)] (s.log k) = .ret (boxV b4) _ _ from rfl) (g4 k)) (ss := es))
  have hh := (h1 _).trans ((h2 _ _).trans ((congrArg _ (log_log _ _ _)).trans ((h3 _ _).trans ((congrArg _ (log_log _ _ _)).trans (h4 [] _)))))
  rw [box_test_new, List.drop_succ_cons, List.drop_succ_cons, List.drop_succ_cons, List.drop_succ_cons, List.drop_zero, e]
  have key : tStmts (src env user) std addr 94 .unit _ (vars4 b1 b2 b3 b4) s = .ret .unit [("vec", none), ("string", none), ("custom", none), ("integer", none)] _ := hh
  simp only [tscope]
  erw [key]
  exact ⟨_, rfl⟩

section
variable (hp : env.ptrBits = 64) (hs : ∀ x, (std.shape x).size < 2 ^ 64) (l : Locals E) (s : State)
include hs
theorem ev1 (exp : RT) : tev (src env user) std addr 99 exp (.call (.path [("TaggedBox", []), ("new", [])]) [(.lit "0xF00D_BEEF_usize"),
    (.bin .div (.path [("crate", []), ("discriminant", []), ("MAX_DISCRIMINANT", [])]) (.lit "2"))]) l s =
    XOut.of boxV (panicMsg (env.cfg.MAX_DISCRIMINANT / BitVec.ofNat env.cfg.discrBits 2)) l (mk1 env std s) :=
  new_step (n := 95) (hs _) (arg_usize _ _ _ _) (tev_half 2 (by decide) "2" num_2 _ _ _ _)
include hp in
theorem ev2 (exp : RT) : tev (src env user) std addr 98 exp (.call (.path [("TaggedBox", []), ("new", [])]) [customE,
    (.bin .div (.path [("crate", []), ("discriminant", []), ("MAX_DISCRIMINANT", [])]) (.lit "4"))]) l s =
    XOut.of boxV (panicMsg (env.cfg.MAX_DISCRIMINANT / BitVec.ofNat env.cfg.discrBits 4)) l (mk2 env std s) :=
  new_step (n := 94) (hs _) (tev_custom hp _ _ _ _) (tev_half 4 (by decide) "4" num_4 _ _ _ _)
theorem ev3 (exp : RT) : tev (src env user) std addr 97 exp (.call (.path [("TaggedBox", []), ("new", [])]) [(.call (.path [("String", []), ("from", [])])
    [(.lit "\"Hello world!\"")]), (.lit "0")]) l s = XOut.of boxV (panicMsg (BitVec.ofNat env.cfg.discrBits 0 : env.cfg.Discr)) l (mk3 env std s) :=
  new_step (n := 93) (hs _) (arg_string _ _ _ _) (arg_num 0 "0" num_0 _ _ _)
theorem ev4 (exp : RT) : tev (src env user) std addr 96 exp (.call (.path [("TaggedBox", []), ("new", [])]) [(.mac "vec" [(.lit "1i32"), (.lit "2"), (.lit "3"), (.lit "4"),
    (.lit "5"), (.lit "6")]), (.lit "10")]) l s = XOut.of boxV (panicMsg (BitVec.ofNat env.cfg.discrBits 10 : env.cfg.Discr)) l (mk4 env std s) :=
  new_step (n := 92) (hs _) (arg_vec _ _ _ _) (arg_num 10 "10" num_10 _ _ _)
end

section
variable (hp : env.ptrBits = 64) (hs : ∀ x, (std.shape x).size < 2 ^ 64) {s s1 s2 s3 s4 : State} {b1 b2 b3 b4 : TBox} {k : PanicKind}
include hs

theorem new_fail1 (h1 : mk1 env std s = .panic k s1) : ∃ m, runBody (src env user) std addr box_test_new s = .panic m [] s1 := by
  have e := (ev1 (user := user) (addr := addr) hs [] s .unknown).trans (congrArg (XOut.of boxV _ []) h1)
  have r : tStmts (src env user) std addr 100 .unit box_test_new [] s = _ := let_panic (n := 99) e
  unfold runBody tscope
  rw [r]
  exact ⟨_, rfl⟩

include hp
theorem new_fail2 (h1 : mk1 env std s = .ret b1 s1) (h2 : mk2 env std s1 = .panic k s2) :
    ∃ m, runBody (src env user) std addr box_test_new s = .panic m [] s2 := by
  have e1 := (ev1 (user := user) (addr := addr) hs [] s .unknown).trans (congrArg (XOut.of boxV _ []) h1)
  have e2 := fun l => (ev2 (user := user) (addr := addr) hp hs l s1 .unknown).trans (congrArg (XOut.of boxV _ l) h2)
  have r : tStmts (src env user) std addr 100 .unit box_test_new [] s = _ := (let_step (n := 99) e1).trans (let_panic (n := 98) (e2 _))
  unfold runBody tscope
  rw [r]
  exact ⟨_, rfl⟩

theorem new_fail3 (h1 : mk1 env std s = .ret b1 s1) (h2 : mk2 env std s1 = .ret b2 s2) (h3 : mk3 env std s2 = .panic k s3) :
    ∃ m, runBody (src env user) std addr box_test_new s = .panic m [] s3 := by
  have e1 := (ev1 (user := user) (addr := addr) hs [] s .unknown).trans (congrArg (XOut.of boxV _ []) h1)
  have e2 := fun l => (ev2 (user := user) (addr := addr) hp hs l s1 .unknown).trans (congrArg (XOut.of boxV _ l) h2)
  have e3 := fun l => (ev3 (user := user) (addr := addr) hs l s2 .unknown).trans (congrArg (XOut.of boxV _ l) h3)
  have r : tStmts (src env user) std addr 100 .unit box_test_new [] s = _ := (let_step (n := 99) e1).trans ((let_step (n := 98) (e2 _)).trans (let_panic (n := 97) (e3 _)))
  unfold runBody tscope
  rw [r]
  exact ⟨_, rfl⟩

theorem new_fail4 (h1 : mk1 env std s = .ret b1 s1) (h2 : mk2 env std s1 = .ret b2 s2) (h3 : mk3 env std s2 = .ret b3 s3) (h4 : mk4 env std s3 = .panic k s4) :
    runBody (src env user) std addr box_test_new s = .panic (panicMsg (BitVec.ofNat env.cfg.discrBits 10 : env.cfg.Discr) k) [] s4 := by
  have e1 := (ev1 (user := user) (addr := addr) hs [] s .unknown).trans (congrArg (XOut.of boxV _ []) h1)
  have e2 := fun l => (ev2 (user := user) (addr := addr) hp hs l s1 .unknown).trans (congrArg (XOut.of boxV _ l) h2)
  have e3 := fun l => (ev3 (user := user) (addr := addr) hs l s2 .unknown).trans (congrArg (XOut.of boxV _ l) h3)
  have e4 := fun l => (ev4 (user := user) (addr := addr) hs l s3 .unknown).trans (congrArg (XOut.of boxV _ l) h4)
  have r : tStmts (src env user) std addr 100 .unit box_test_new [] s = _ :=
    (let_step (n := 99) e1).trans ((let_step (n := 98) (e2 _)).trans ((let_step (n := 97) (e3 _)).trans (let_panic (n := 96) (e4 _))))
  unfold runBody tscope
  rw [r]
  rfl

theorem run_new (h1 : mk1 env std s = .ret b1 s1) (h2 : mk2 env std s1 = .ret b2 s2) (h3 : mk3 env std s2 = .ret b3 s3) (h4 : mk4 env std s3 = .ret b4 s4)
    (g1 : Gives env std b1 "usize" (.num 0xF00DBEEF) s4) (g2 : Gives env std b2 "Custom" customLit s4)
    (g3 : Gives env std b3 "String" (.text "\"Hello world!\"") s4) (g4 : Gives env std b4 "Vec<i32>" (.nums [1, 2, 3, 4, 5, 6]) s4) :
    ∃ s', runBody (src env user) std addr box_test_new s = .ret .unit [] s' := by
  have e1 := (ev1 (user := user) (addr := addr) hs [] s .unknown).trans (congrArg (XOut.of boxV _ []) h1)
  have e2 := fun l => (ev2 (user := user) (addr := addr) hp hs l s1 .unknown).trans (congrArg (XOut.of boxV _ l) h2)
  have e3 := fun l => (ev3 (user := user) (addr := addr) hs l s2 .unknown).trans (congrArg (XOut.of boxV _ l) h3)
  have e4 := fun l => (ev4 (user := user) (addr := addr) hs l s3 .unknown).trans (congrArg (XOut.of boxV _ l) h4)
  obtain ⟨s', h5⟩ := asserts_new (user := user) (addr := addr) hp g1 g2 g3 g4
  have r : tStmts (src env user) std addr 100 .unit box_test_new [] s =
      tStmts (src env user) std addr 96 .unit (box_test_new.drop 4) (vars4 b1 b2 b3 b4) s4 :=
    (let_step (n := 99) e1).trans ((let_step (n := 98) (e2 _)).trans ((let_step (n := 97) (e3 _)).trans (let_step (n := 96) (e4 _))))
  refine ⟨s', ?_⟩
  unfold runBody tscope
  rw [r, h5]
  rfl

end

/-! ### `new_zst` -/

variable (env std) in
/-- Its boxes. -/
def mkUnit : M TBox := mk env std "()" (.record []) (BitVec.ofNat env.cfg.discrBits 0)
variable (env std) in
def mkZst : M TBox := mk env std "Zst" (.record []) env.cfg.MAX_DISCRIMINANT

theorem arg_unit (n : Nat) (exp : RT) (l : Locals E) (s : State) :
    tev (src env user) std addr (n + 1) exp (.tuple []) l s = .ret (.obj (std.shape "()") (std.enc (std.shape "()") (.record []))) l s := by
  simp [rs]

theorem arg_zst (n : Nat) (exp : RT) (l : Locals E) (s : State) :
    tev (src env user) std addr (n + 1) exp (.struct [("Zst", [])] []) l s = .ret (.obj (std.shape "Zst") (std.enc (std.shape "Zst") (.record []))) l s := by
  simp [rs, constFields]

theorem operand_unit (n : Nat) (exp : RT) (l : Locals E) (s : State) :
    operand (src env user) std addr (n + 2) exp (.tuple []) l s = .ret (.obj (std.shape "()") (std.enc (std.shape "()") (.record [])), true) l s := by
  simp [rs]

theorem operand_zst (n : Nat) (exp : RT) (l : Locals E) (s : State) :
    operand (src env user) std addr (n + 2) exp (.struct [("Zst", [])] []) l s = .ret (.obj (std.shape "Zst") (std.enc (std.shape "Zst") (.record [])), true) l s := by
  simp [rs, constFields]

theorem arg_max (n : Nat) (exp : RT) (l : Locals E) (s : State) :
    tev (src env user) std addr (n + 1) exp (.path [("crate", []), ("discriminant", []), ("MAX_DISCRIMINANT", [])]) l s = .ret (dV env.cfg.MAX_DISCRIMINANT) l s := by
  simp [rs]

section
variable (hs : ∀ x, (std.shape x).size < 2 ^ 64) {s s1 s2 : State} {b1 b2 : TBox} {k : PanicKind}
include hs

theorem evUnit (l : Locals E) (exp : RT) : tev (src env user) std addr 99 exp (.call (.path [("TaggedBox", []), ("new", [])]) [(.tuple []), (.lit "0")]) l s =
    XOut.of boxV (panicMsg (BitVec.ofNat env.cfg.discrBits 0 : env.cfg.Discr)) l (mkUnit env std s) :=
  new_step (n := 95) (hs _) (arg_unit _ _ _ _) (arg_num 0 "0" num_0 _ _ _)
theorem evZst (l : Locals E) (exp : RT) : tev (src env user) std addr 98 exp (.call (.path [("TaggedBox", []), ("new", [])]) [(.struct [("Zst", [])] []),
    (.path [("crate", []), ("discriminant", []), ("MAX_DISCRIMINANT", [])])]) l s = XOut.of boxV (panicMsg env.cfg.MAX_DISCRIMINANT) l (mkZst env std s) :=
  new_step (n := 94) (hs _) (arg_zst _ _ _ _) (arg_max _ _ _ _)

theorem run_zst (h1 : mkUnit env std s = .ret b1 s1) (h2 : mkZst env std s1 = .ret b2 s2) (g1 : Gives env std b1 "()" (.record []) s2)
    (g2 : Gives env std b2 "Zst" (.record []) s2) : ∃ s', runBody (src env user) std addr box_test_new_zst s = .ret .unit [] s' ∧ s'.blocks = s2.blocks := by
  have g0 := g1 []
  simp only [State.log, List.append_nil] at g0
  have e1 := (evUnit (user := user) (addr := addr) hs [] .unknown).trans (congrArg (XOut.of boxV _ []) h1)
  have e2 := fun l => (evZst (user := user) (addr := addr) hs l .unknown).trans (congrArg (XOut.of boxV _ l) h2)
  have a1 := fun es => (semi_step (user := user) (addr := addr) (n := 95) (exp := .unit) (assert_step (n := 90) (targs := []) (x := "unit") (.inl rfl) (operand_unit _ _ _ _)
      (show useVar "unit" [("zst", some (boxV b2)), ("unit", some (boxV b1))] s2 = .ret (boxV b1) _ s2 from rfl) g0) (ss := es))
  have a2 := fun es k => (semi_step (user := user) (addr := addr) (n := 94) (exp := .unit) (assert_step (n := 89) (targs := []) (x := "zst") (.inl rfl) (operand_zst _ _ _ _)
      (show useVar "zst" [("zst", some (boxV b2)), ("unit", none)] (s2.log k) = .ret (boxV b2) _ _ from rfl) (g2 k)) (ss := es))
  have r : tStmts (src env user) std addr 100 .unit box_test_new_zst [] s =
      tStmts (src env user) std addr 98 .unit (box_test_new_zst.drop 2) [("zst", some (boxV b2)), ("unit", some (boxV b1))] s2 :=
    (let_step (n := 99) e1).trans (let_step (n := 98) (e2 _))
  have e : ∀ ss, tStmts (src env user) std addr 98 .unit [.tail (.block ss)] = tscope (src env user) (tStmts (src env user) std addr 96 .unit ss) := fun ss => by
    simp only [tStmts, tev]
  have hh := (a1 _).trans (a2 [] _)
  have key : tStmts (src env user) std addr 96 .unit _ [("zst", some (boxV b2)), ("unit", some (boxV b1))] s2 = .ret .unit [("zst", none), ("unit", none)] _ := hh
  obtain ⟨s', e5, e6⟩ : ∃ s', tStmts (src env user) std addr 98 .unit (box_test_new_zst.drop 2) [("zst", some (boxV b2)), ("unit", some (boxV b1))] s2 =
      .ret .unit [("zst", none), ("unit", none)] s' ∧ s'.blocks = s2.blocks := by
    rw [box_test_new_zst, List.drop_succ_cons, List.drop_succ_cons, List.drop_zero, e]
    simp only [tscope]
    erw [key]
    exact ⟨_, rfl, rfl⟩
  unfold runBody tscope
  rw [r, e5]
  exact ⟨_, rfl, e6⟩

end

end

end TB.Rust

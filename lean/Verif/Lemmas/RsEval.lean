import Verif.Source.Code
import Verif.Lemmas.RsAttr

/-! # Running the crate's code (helper lemmas; no property theorems here) -/

set_option autoImplicit false

namespace TB.Rust

open TB TB.Rust.Code

variable {E : Type}

/-! ## Computations -/

@[rs] theorem x_pure {α : Type} (a : α) (l : Locals E) (s : State) : (pure a : X E α) l s = .ret a l s := rfl
@[rs] theorem x_bind {α β : Type} (m : X E α) (f : α → X E β) (l : Locals E) (s : State) : (m >>= f) l s =
    match m l s with
    | .ret a l s => f a l s
    | .panic m l s => .panic m l s
    | .ub k => .ub k
    | .stuck => .stuck := rfl
@[rs] theorem x_stuck {α : Type} (l : Locals E) (s : State) : (X.stuck : X E α) l s = .stuck := rfl
@[rs] theorem x_panic {α : Type} (m : Msg E) (l : Locals E) (s : State) : (X.panic m : X E α) l s = .panic m l s := rfl
@[rs] theorem x_declare (x : String) (v : V E) (l : Locals E) (s : State) : X.declare x v l s = .ret () ((x, some v) :: l) s := rfl
@[rs] theorem x_some {α : Type} (a : α) (l : Locals E) (s : State) : (X.some? (some a) : X E α) l s = .ret a l s := rfl
@[rs] theorem x_mem {α : Type} (m : M α) (l : Locals E) (s : State) : (X.mem m : X E α) l s = match m s with
    | .ret a s => .ret a l s
    | .panic k s => .panic (.kind k) l s
    | .ub k => .ub k := rfl

attribute [rs] lookup RT.name V.getField V.peel setLocal bindGenerics inferFrom firstSome isShift lastName

@[rs] theorem copies_unit  : (.unit : V E).copies = true := rfl
@[rs] theorem rt_unit  : (.unit : V E).rt = .unknown := rfl
@[rs] theorem tyName_unit  : (.unit : V E).tyName = "" := rfl
@[rs] theorem coerce_unit (pb : Nat) (ty : RT)  : coerce pb ty (.unit : V E) = .unit := by unfold coerce; split <;> simp_all
@[rs] theorem copies_bool (b : Bool) : (.bool b : V E).copies = true := rfl
@[rs] theorem rt_bool (b : Bool) : (.bool b : V E).rt = .unknown := rfl
@[rs] theorem tyName_bool (b : Bool) : (.bool b : V E).tyName = "" := rfl
@[rs] theorem coerce_bool (pb : Nat) (ty : RT) (b : Bool) : coerce pb ty (.bool b : V E) = (.bool b) := by unfold coerce; split <;> simp_all
@[rs] theorem copies_int (t : ITy) (v : BitVec 64) : (.int t v : V E).copies = true := rfl
@[rs] theorem rt_int (t : ITy) (v : BitVec 64) : (.int t v : V E).rt = .unknown := rfl
@[rs] theorem tyName_int (t : ITy) (v : BitVec 64) : (.int t v : V E).tyName = "" := rfl
@[rs] theorem coerce_int (pb : Nat) (ty : RT) (t : ITy) (v : BitVec 64) : coerce pb ty (.int t v : V E) = (.int t v) := by unfold coerce; split <;> simp_all
@[rs] theorem copies_lit (n : Nat) : (.lit n : V E).copies = true := rfl
@[rs] theorem rt_lit (n : Nat) : (.lit n : V E).rt = .unknown := rfl
@[rs] theorem tyName_lit (n : Nat) : (.lit n : V E).tyName = "" := rfl
@[rs] theorem copies_str (x : String) : (.str x : V E).copies = true := rfl
@[rs] theorem rt_str (x : String) : (.str x : V E).rt = .unknown := rfl
@[rs] theorem tyName_str (x : String) : (.str x : V E).tyName = "" := rfl
@[rs] theorem coerce_str (pb : Nat) (ty : RT) (x : String) : coerce pb ty (.str x : V E) = (.str x) := by unfold coerce; split <;> simp_all
@[rs] theorem copies_ptr (t : RT) (a : Nat) : (.ptr t a : V E).copies = true := rfl
@[rs] theorem rt_ptr (t : RT) (a : Nat) : (.ptr t a : V E).rt = .ptr t := rfl
@[rs] theorem tyName_ptr (t : RT) (a : Nat) : (.ptr t a : V E).tyName = "" := rfl
@[rs] theorem copies_ref (t : RT) (a : Nat) : (.ref t a : V E).copies = true := rfl
@[rs] theorem rt_ref (t : RT) (a : Nat) : (.ref t a : V E).rt = .unknown := rfl
@[rs] theorem tyName_ref (t : RT) (a : Nat) : (.ref t a : V E).tyName = "" := rfl
@[rs] theorem coerce_ref (pb : Nat) (ty : RT) (t : RT) (a : Nat) : coerce pb ty (.ref t a : V E) = (.ref t a) := by unfold coerce; split <;> simp_all
@[rs] theorem copies_refv (w : V E) : (.refv w : V E).copies = true := rfl
@[rs] theorem rt_refv (w : V E) : (.refv w : V E).rt = .unknown := rfl
@[rs] theorem tyName_refv (w : V E) : (.refv w : V E).tyName = "" := rfl
@[rs] theorem coerce_refv (pb : Nat) (ty : RT) (w : V E) : coerce pb ty (.refv w : V E) = (.refv w) := by unfold coerce; split <;> simp_all
@[rs] theorem copies_obj (sh : Shape) (o : TB.Val) : (.obj sh o : V E).copies = false := rfl
@[rs] theorem rt_obj (sh : Shape) (o : TB.Val) : (.obj sh o : V E).rt = .opaque sh := rfl
@[rs] theorem tyName_obj (sh : Shape) (o : TB.Val) : (.obj sh o : V E).tyName = "" := rfl
@[rs] theorem coerce_obj (pb : Nat) (ty : RT) (sh : Shape) (o : TB.Val) : coerce pb ty (.obj sh o : V E) = (.obj sh o) := by unfold coerce; split <;> simp_all
@[rs] theorem copies_user (e : E) : (.user e : V E).copies = false := rfl
@[rs] theorem rt_user (e : E) : (.user e : V E).rt = .user := rfl
@[rs] theorem tyName_user (e : E) : (.user e : V E).tyName = "" := rfl
@[rs] theorem coerce_user (pb : Nat) (ty : RT) (e : E) : coerce pb ty (.user e : V E) = (.user e) := by unfold coerce; split <;> simp_all
@[rs] theorem copies_ordering (o : Ordering) : (.ordering o : V E).copies = true := rfl
@[rs] theorem rt_ordering (o : Ordering) : (.ordering o : V E).rt = .unknown := rfl
@[rs] theorem tyName_ordering (o : Ordering) : (.ordering o : V E).tyName = "" := rfl
@[rs] theorem coerce_ordering (pb : Nat) (ty : RT) (o : Ordering) : coerce pb ty (.ordering o : V E) = (.ordering o) := by unfold coerce; split <;> simp_all
@[rs] theorem copies_struct (x : String) (fs : List (String × V E)) : (.struct x fs : V E).copies = false := rfl
@[rs] theorem rt_struct (x : String) (fs : List (String × V E)) : (.struct x fs : V E).rt = .unknown := rfl
@[rs] theorem tyName_struct (x : String) (fs : List (String × V E)) : (.struct x fs : V E).tyName = x := rfl
@[rs] theorem coerce_struct (pb : Nat) (ty : RT) (x : String) (fs : List (String × V E)) : coerce pb ty (.struct x fs : V E) = (.struct x fs) := by unfold coerce; split <;> simp_all
@[rs] theorem copies_layout (i j : Nat) : (.layout i j : V E).copies = true := rfl
@[rs] theorem rt_layout (i j : Nat) : (.layout i j : V E).rt = .unknown := rfl
@[rs] theorem tyName_layout (i j : Nat) : (.layout i j : V E).tyName = "" := rfl
@[rs] theorem coerce_layout (pb : Nat) (ty : RT) (i j : Nat) : coerce pb ty (.layout i j : V E) = (.layout i j) := by unfold coerce; split <;> simp_all
@[rs] theorem copies_fmtr (sp : FmtSpec) : (.fmtr sp : V E).copies = true := rfl
@[rs] theorem rt_fmtr (sp : FmtSpec) : (.fmtr sp : V E).rt = .unknown := rfl
@[rs] theorem tyName_fmtr (sp : FmtSpec) : (.fmtr sp : V E).tyName = "" := rfl
@[rs] theorem coerce_fmtr (pb : Nat) (ty : RT) (sp : FmtSpec) : coerce pb ty (.fmtr sp : V E) = .fmtr sp := by unfold coerce; split <;> simp_all
@[rs] theorem copies_text (x : List Char) : (.text x : V E).copies = true := rfl
@[rs] theorem rt_text (x : List Char) : (.text x : V E).rt = .unknown := rfl
@[rs] theorem tyName_text (x : List Char) : (.text x : V E).tyName = "" := rfl
@[rs] theorem coerce_text (pb : Nat) (ty : RT) (x : List Char) : coerce pb ty (.text x : V E) = .text x := by unfold coerce; split <;> simp_all
@[rs] theorem copies_dbg (sp : FmtSpec) (x : List Char) (fs : List (List Char × List Char)) : (.dbg sp x fs : V E).copies = true := rfl
@[rs] theorem rt_dbg (sp : FmtSpec) (x : List Char) (fs : List (List Char × List Char)) : (.dbg sp x fs : V E).rt = .unknown := rfl
@[rs] theorem tyName_dbg (sp : FmtSpec) (x : List Char) (fs : List (List Char × List Char)) : (.dbg sp x fs : V E).tyName = "" := rfl
@[rs] theorem coerce_dbg (pb : Nat) (ty : RT) (sp : FmtSpec) (x : List Char) (fs : List (List Char × List Char)) : coerce pb ty (.dbg sp x fs : V E) = .dbg sp x fs := by unfold coerce; split <;> simp_all
@[rs] theorem copies_boxed (t : RT) (a : Nat) : (.boxed t a : V E).copies = false := rfl
@[rs] theorem rt_boxed (t : RT) (a : Nat) : (.boxed t a : V E).rt = .unknown := rfl
@[rs] theorem tyName_boxed (t : RT) (a : Nat) : (.boxed t a : V E).tyName = "" := rfl
@[rs] theorem coerce_lit_int (pb : Nat) (t : ITy) (n : Nat) : coerce pb (.int t) (.lit n : V E) = .int t (wrap pb t (BitVec.ofNat 64 n)) := rfl
@[rs] theorem coerce_lit_unknown (pb : Nat) (n : Nat) : coerce pb .unknown (.lit n : V E) = .lit n := rfl
@[rs] theorem coerce_ptr_ptr (pb : Nat) (t u : RT) (a : Nat) : coerce pb (.ptr t) (.ptr u a : V E) = .ptr t a := rfl
@[rs] theorem coerce_ptr_unknown (pb : Nat) (u : RT) (a : Nat) : coerce pb .unknown (.ptr u a : V E) = .ptr u a := rfl
@[rs] theorem coerce_boxed (pb : Nat) (t u : RT) (a : Nat) : coerce pb (.named "Box" [t]) (.boxed u a : V E) = .boxed t a := rfl
@[rs] theorem coerce_boxed_unknown (pb : Nat) (u : RT) (a : Nat) : coerce pb .unknown (.boxed u a : V E) = .boxed u a := rfl
@[rs] theorem coerce_unknown (pb : Nat) (v : V E) : coerce pb .unknown v = v := by cases v <;> rfl

section
variable (cr : Crate E) (l : Locals E) (s : State)

@[rs] theorem dropV_obj (sh : Shape) (v : TB.Val) : dropV cr (.obj sh v) l s = X.mem (TB.dropVal sh v) l s := rfl
@[rs] theorem dropV_struct (n : String) (fs : List (String × V E)) : dropV cr (.struct n fs) l s =
    (if n = "ManuallyDrop" then pure () else if dropImpl cr n then X.stuck else dropFields cr fs) l s := by
  simp only [dropV]
@[rs] theorem dropV_unit  : dropV cr (V.unit) l s = .ret () l s := rfl
@[rs] theorem dropV_bool (b : Bool) : dropV cr (.bool b) l s = .ret () l s := rfl
@[rs] theorem dropV_lit (n : Nat) : dropV cr (.lit n) l s = .ret () l s := rfl
@[rs] theorem dropV_int (t : ITy) (v : BitVec 64) : dropV cr (.int t v) l s = .ret () l s := rfl
@[rs] theorem dropV_str (x : String) : dropV cr (.str x) l s = .ret () l s := rfl
@[rs] theorem dropV_ptr (t : RT) (a : Nat) : dropV cr (.ptr t a) l s = .ret () l s := rfl
@[rs] theorem dropV_ref (t : RT) (a : Nat) : dropV cr (.ref t a) l s = .ret () l s := rfl
@[rs] theorem dropV_refv (v : V E) : dropV cr (.refv v) l s = .ret () l s := rfl
@[rs] theorem dropV_ordering (o : Ordering) : dropV cr (.ordering o) l s = .ret () l s := rfl
@[rs] theorem dropV_layout (a b : Nat) : dropV cr (.layout a b) l s = .ret () l s := rfl
@[rs] theorem dropV_fmtr (sp : FmtSpec) : dropV cr (.fmtr sp) l s = .ret () l s := rfl
@[rs] theorem dropV_text (x : List Char) : dropV cr (.text x) l s = .ret () l s := rfl
@[rs] theorem dropV_dbg (sp : FmtSpec) (x : List Char) (fs : List (List Char × List Char)) : dropV cr (.dbg sp x fs) l s = .ret () l s := rfl
@[rs] theorem dropFields_nil : dropFields cr [] l s = .ret () l s := rfl
@[rs] theorem dropFields_cons (x : String) (v : V E) (r : List (String × V E)) : dropFields cr ((x, v) :: r) l s = (do
    dropV cr v
    dropFields cr r : X E _) l s := by simp only [dropFields]
@[rs] theorem dropLocals_zero : dropLocals cr 0 l s = .ret () l s := rfl
@[rs] theorem dropLocals_none (k : Nat) (x : String) : dropLocals cr (k + 1) ((x, none) :: l) s = dropLocals cr k l s := rfl
@[rs] theorem dropLocals_some (k : Nat) (x : String) (v : V E) : dropLocals cr (k + 1) ((x, some v) :: l) s = (do
    dropV cr v
    dropLocals cr k : X E _) l s := rfl
@[rs] theorem scope_apply {α : Type} (m : X E α) : scope cr m l s = match m l s with
    | .ret a l' s' => (do
      dropLocals cr (l'.length - l.length)
      pure a : X E _) l' s'
    | .panic msg l' s' => (do
      dropLocals cr (l'.length - l.length)
      X.panic msg : X E _) l' s'
    | .ub k => .ub k
    | .stuck => .stuck := rfl
@[rs] theorem inFn_apply {α : Type} (m : X E α) : inFn cr m l s = match scope cr m [] s with
    | .ret a _ s' => .ret a l s'
    | .panic msg _ s' => .panic msg l s'
    | .ub k => .ub k
    | .stuck => .stuck := rfl
@[rs] theorem readVar_apply (x : String) : readVar x l s = match lookup x l with
    | some (some v) => .ret v l s
    | _ => .stuck := rfl
@[rs] theorem useVar_apply (x : String) : useVar x l s = match lookup x l with
    | some (some v) => .ret v (if v.copies then l else setLocal x none l) s
    | _ => .stuck := rfl
@[rs] theorem assignVar_apply (x : String) (v : V E) : assignVar cr x v l s = match lookup x l with
    | some (some old) => (match dropV cr old l s with
      | .ret _ l s => .ret () (setLocal x (some v) l) s
      | .panic m l s => .panic m l s
      | .ub k => .ub k
      | .stuck => .stuck)
    | some none => .ret () (setLocal x (some v) l) s
    | none => .stuck := rfl
@[rs] theorem declareAll_nil : declareAll [] [] l s = (.ret () l s : XOut E _) := rfl
@[rs] theorem declareAll_cons (x : String) (xs : List String) (v : V E) (vs : List (V E)) : declareAll (x :: xs) (v :: vs) l s =
    declareAll xs vs ((x, some v) :: l) s := rfl
@[rs] theorem cast_int_int (t t' : ITy) (v : BitVec 64) : castV cr (.int t') (.int t v) l s = .ret (.int t' (wrap cr.env.ptrBits t' v)) l s := rfl
@[rs] theorem cast_int_ptr (t : ITy) (t' : RT) (v : BitVec 64) : castV cr (.ptr t') (.int t v) l s =
    .ret (.ptr t' (v.setWidth cr.env.ptrBits).toNat) l s := rfl
@[rs] theorem cast_ptr_int (t : RT) (t' : ITy) (a : Nat) : castV cr (.int t') (.ptr t a) l s =
    .ret (.int t' (wrap cr.env.ptrBits t' (BitVec.ofNat 64 a))) l s := rfl
@[rs] theorem cast_ptr_ptr (t t' : RT) (a : Nat) : castV cr (.ptr t') (.ptr t a) l s = .ret (.ptr t' a) l s := rfl

end

/-! ## Types -/

section
variable (cr : Crate E) (n : Nat) (fr : Frame)

@[rs] theorem rty_ref (m : Bool) (t : RTy) : rty cr (n + 1) fr (.ref m t) = .ref (rty cr n fr t) := by simp only [rty]
@[rs] theorem rty_ptr (m : Bool) (t : RTy) : rty cr (n + 1) fr (.ptr m t) = .ptr (rty cr n fr t) := by simp only [rty]
@[rs] theorem rty_unit : rty cr (n + 1) fr (.tuple []) = .unit := by simp only [rty]
@[rs] theorem rty_self : rty cr (n + 1) fr (.path [("Self", [])]) = fr.self := by simp [rty]
@[rs] theorem rty_u8 : rty cr (n + 1) fr (.path [("u8", [])]) = (lookup "u8" fr.generics).getD (.int .u8) := by
  simp [rty, primTy]; cases lookup _ fr.generics <;> rfl
@[rs] theorem rty_u16 : rty cr (n + 1) fr (.path [("u16", [])]) = (lookup "u16" fr.generics).getD (.int .u16) := by
  simp [rty, primTy]; cases lookup _ fr.generics <;> rfl
@[rs] theorem rty_u64 : rty cr (n + 1) fr (.path [("u64", [])]) = (lookup "u64" fr.generics).getD (.int .u64) := by
  simp [rty, primTy]; cases lookup _ fr.generics <;> rfl
@[rs] theorem rty_usize : rty cr (n + 1) fr (.path [("usize", [])]) = (lookup "usize" fr.generics).getD (.int .usize) := by
  simp [rty, primTy]; cases lookup _ fr.generics <;> rfl
@[rs] theorem rty_bool : rty cr (n + 1) fr (.path [("bool", [])]) = (lookup "bool" fr.generics).getD (.bool) := by
  simp [rty, primTy]; cases lookup _ fr.generics <;> rfl

end

@[rs] theorem litVal_0 : (litVal "0" : V E) = .lit 0 := rfl
@[rs] theorem litVal_1 : (litVal "1" : V E) = .lit 1 := rfl
@[rs] theorem litVal_2 : (litVal "2" : V E) = .lit 2 := rfl
@[rs] theorem litVal_TaggedPointer : (litVal "\"TaggedPointer\"" : V E) = .str "\"TaggedPointer\"" := rfl
@[rs] theorem unquote_TaggedPointer : unquote "\"TaggedPointer\"" = "TaggedPointer".toList := rfl
@[rs] theorem litVal_raw : (litVal "\"raw\"" : V E) = .str "\"raw\"" := rfl
@[rs] theorem unquote_raw : unquote "\"raw\"" = "raw".toList := rfl
@[rs] theorem litVal_ptr : (litVal "\"ptr\"" : V E) = .str "\"ptr\"" := rfl
@[rs] theorem unquote_ptr : unquote "\"ptr\"" = "ptr".toList := rfl
@[rs] theorem litVal_discriminant : (litVal "\"discriminant\"" : V E) = .str "\"discriminant\"" := rfl
@[rs] theorem unquote_discriminant : unquote "\"discriminant\"" = "discriminant".toList := rfl
@[rs] theorem litVal_expect : (litVal "\"The inner value could not be fetched\"" : V E) = .str "\"The inner value could not be fetched\"" := rfl

/-! ## Expressions -/

section
variable (cr : Crate E) (n : Nat) (fr : Frame) (exp : RT) (l : Locals E) (s : State)

@[rs] theorem ev_lit (x : String) : ev cr (n + 1) fr exp (.lit x) l s = .ret (coerce cr.env.ptrBits exp (litVal x)) l s := rfl
@[rs] theorem ev_var (x : String) : ev cr (n + 1) fr exp (.path [(x, [])]) l s = match lookup x l with
    | some _ => useVar x l s
    | none => evConst cr n x l s := rfl
@[rs] theorem ev_path2 (a b : String × List RTy) (p : RPath) : ev cr (n + 1) fr exp (.path (a :: b :: p)) l s =
    match lastName (a :: b :: p) with
    | "Equal" => .ret (.ordering .eq) l s
    | _ => .stuck := by
  rcases a with ⟨_, _ | _⟩ <;> rfl
@[rs] theorem ev_deref (e : Expr) : ev cr (n + 1) fr exp (.un .deref e) l s = (do
    let v ← place cr n fr e
    pure v.peel : X E _) l s := rfl
@[rs] theorem ev_not (e : Expr) : ev cr (n + 1) fr exp (.un .not e) l s = (do
    let v ← ev cr n fr .bool e
    match v with
    | .bool b => pure (.bool (!b))
    | _ => X.stuck : X E _) l s := rfl
@[rs] theorem ev_refDeref (m : Bool) (e : Expr) : ev cr (n + 1) fr exp (.ref m (.un .deref e)) l s = (do
    let v ← ev cr n fr .unknown e
    match v with
    | .ptr (.opaque sh) a => do
      let _ ← X.mem (TB.ptrRead sh a)
      pure (.ref (.opaque sh) a)
    | _ => X.stuck : X E _) l s := rfl
@[rs] theorem ev_refVar (m : Bool) (x : RPath) : ev cr (n + 1) fr exp (.ref m (.path x)) l s = (do
    let v ← place cr n fr (.path x)
    pure (.refv v) : X E _) l s := rfl
@[rs] theorem ev_refMethod (m : Bool) (e : Expr) (f : String) (ts : List RTy) (as : List Expr) :
    ev cr (n + 1) fr exp (.ref m (.method e f ts as)) l s = (do
    let v ← place cr n fr (.method e f ts as)
    pure (.refv v) : X E _) l s := rfl
@[rs] theorem ev_refCast (m : Bool) (e : Expr) (t : RTy) :
    ev cr (n + 1) fr exp (.ref m (.cast e t)) l s = (do
    let v ← place cr n fr (.cast e t)
    pure (.refv v) : X E _) l s := rfl
@[rs] theorem ev_assign (x : String) (e : Expr) : ev cr (n + 1) fr exp (.bin .assign (.path [(x, [])]) e) l s = (do
    let v ← ev cr n fr .unknown e
    assignVar cr x v
    pure V.unit : X E _) l s := rfl
@[rs] theorem ev_and (a b : Expr) : ev cr (n + 1) fr exp (.bin .and a b) l s = (do
    let a ← ev cr n fr .unknown a
    let b ← ev cr n fr .unknown b
    binOpV cr .and a.peel b.peel : X E _) l s := rfl
@[rs] theorem ev_or (a b : Expr) : ev cr (n + 1) fr exp (.bin .or a b) l s = (do
    let a ← ev cr n fr .unknown a
    let b ← ev cr n fr .unknown b
    binOpV cr .or a.peel b.peel : X E _) l s := rfl
@[rs] theorem ev_xor (a b : Expr) : ev cr (n + 1) fr exp (.bin .xor a b) l s = (do
    let a ← ev cr n fr .unknown a
    let b ← ev cr n fr .unknown b
    binOpV cr .xor a.peel b.peel : X E _) l s := rfl
@[rs] theorem ev_shl (a b : Expr) : ev cr (n + 1) fr exp (.bin .shl a b) l s = (do
    let a ← ev cr n fr .unknown a
    let b ← ev cr n fr .unknown b
    binOpV cr .shl a.peel b.peel : X E _) l s := rfl
@[rs] theorem ev_shr (a b : Expr) : ev cr (n + 1) fr exp (.bin .shr a b) l s = (do
    let a ← ev cr n fr .unknown a
    let b ← ev cr n fr .unknown b
    binOpV cr .shr a.peel b.peel : X E _) l s := rfl
@[rs] theorem ev_eq (a b : Expr) : ev cr (n + 1) fr exp (.bin .eq a b) l s = (do
    let a ← ev cr n fr .unknown a
    let b ← ev cr n fr .unknown b
    binOpV cr .eq a.peel b.peel : X E _) l s := rfl
@[rs] theorem ev_ne (a b : Expr) : ev cr (n + 1) fr exp (.bin .ne a b) l s = (do
    let a ← ev cr n fr .unknown a
    let b ← ev cr n fr .unknown b
    binOpV cr .ne a.peel b.peel : X E _) l s := rfl
@[rs] theorem ev_le (a b : Expr) : ev cr (n + 1) fr exp (.bin .le a b) l s = (do
    let a ← ev cr n fr .unknown a
    let b ← ev cr n fr .unknown b
    binOpV cr .le a.peel b.peel : X E _) l s := rfl
@[rs] theorem ev_lt (a b : Expr) : ev cr (n + 1) fr exp (.bin .lt a b) l s = (do
    let a ← ev cr n fr .unknown a
    let b ← ev cr n fr .unknown b
    binOpV cr .lt a.peel b.peel : X E _) l s := rfl
@[rs] theorem ev_gt (a b : Expr) : ev cr (n + 1) fr exp (.bin .gt a b) l s = (do
    let a ← ev cr n fr .unknown a
    let b ← ev cr n fr .unknown b
    binOpV cr .gt a.peel b.peel : X E _) l s := rfl
@[rs] theorem ev_ge (a b : Expr) : ev cr (n + 1) fr exp (.bin .ge a b) l s = (do
    let a ← ev cr n fr .unknown a
    let b ← ev cr n fr .unknown b
    binOpV cr .ge a.peel b.peel : X E _) l s := rfl
@[rs] theorem ev_add (a b : Expr) : ev cr (n + 1) fr exp (.bin .add a b) l s = (do
    let a ← ev cr n fr .unknown a
    let b ← ev cr n fr .unknown b
    binOpV cr .add a.peel b.peel : X E _) l s := rfl
@[rs] theorem ev_sub (a b : Expr) : ev cr (n + 1) fr exp (.bin .sub a b) l s = (do
    let a ← ev cr n fr .unknown a
    let b ← ev cr n fr .unknown b
    binOpV cr .sub a.peel b.peel : X E _) l s := rfl
@[rs] theorem ev_mul (a b : Expr) : ev cr (n + 1) fr exp (.bin .mul a b) l s = (do
    let a ← ev cr n fr .unknown a
    let b ← ev cr n fr .unknown b
    binOpV cr .mul a.peel b.peel : X E _) l s := rfl
@[rs] theorem ev_cast (e : Expr) (t : RTy) : ev cr (n + 1) fr exp (.cast e t) l s = (do
    let v ← ev cr n fr .unknown e
    castV cr (rty cr n fr t) v : X E _) l s := rfl

/-- What a path call does when it is not a call with a closure. -/
def pathCall (p : RPath) (args : List Expr) : X E (V E) := match p.reverse with
  | [] => X.stuck
  | (f, targs) :: rest =>
    let ty := match rest with
      | (t, _) :: _ => (rty cr n fr (.path [(t, [])])).name
      | [] => ""
    match findFn ty f cr.fns with
    | some fn => do
      let args ← evArgs cr n fr (fn.params.map fun p => rty cr n fr p.2) args
      callFn cr n fn ty (targs.map (rty cr n fr)) none args exp
    | none => do
      let args ← evArgs cr n fr [] args
      match libFn cr (match rest with
        | (t, _) :: _ => t
        | [] => "", f) (targs.map (rty cr n fr)) args exp with
      | some m => m
      | none => X.stuck

attribute [rs] pathCall

@[rs] theorem ev_call0 (p : RPath) : ev cr (n + 1) fr exp (.call (.path p) []) l s = pathCall cr n fr exp p [] l s := by
  rcases p with _ | ⟨⟨_, _ | _⟩, _ | ⟨⟨_, _ | _⟩, _ | _⟩⟩ <;> rfl
@[rs] theorem ev_call1 (p : RPath) (a : Expr) : ev cr (n + 1) fr exp (.call (.path p) [a]) l s = pathCall cr n fr exp p [a] l s := by
  rcases p with _ | ⟨⟨_, _ | _⟩, _ | ⟨⟨_, _ | _⟩, _ | _⟩⟩ <;> rfl
@[rs] theorem ev_call2 (p : RPath) (a : Expr) (x : RPath) : ev cr (n + 1) fr exp (.call (.path p) [a, .path x]) l s = pathCall cr n fr exp p [a, .path x] l s := by
  rcases p with _ | ⟨⟨_, _ | _⟩, _ | ⟨⟨_, _ | _⟩, _ | _⟩⟩ <;> rfl
@[rs] theorem ev_callRef (t f x : String) (b body : Expr) :
    ev cr (n + 1) fr exp (.call (.path [(t, []), (f, [])]) [b, .closure [.bind x] body]) l s =
    (match lookup t fr.generics, f with
      | some .user, "ref_from_tagged_box" => do
        let b ← place cr n fr b
        match toBox b with
        | some b => callRef cr b x (do
            let _ ← scope cr (ev cr n fr .unit body)
            pure ())
        | none => X.stuck
      | _, _ => X.stuck : X E _) l s := rfl
@[rs] theorem ev_method (e : Expr) (f : String) (targs : List RTy) (args : List Expr) :
    ev cr (n + 1) fr exp (.method e f targs args) l s = (do
      let recv ← place cr n fr e
      match findFn recv.peel.tyName f cr.fns with
      | some fn => do
        let args ← evArgs cr n fr (fn.params.map fun p => rty cr n fr p.2) args
        callFn cr n fn recv.peel.tyName (targs.map (rty cr n fr)) (some recv.peel) args exp
      | none => do
        let args ← evArgs cr n fr [] args
        match e with
        | .path [(x, [])] => do
          let _ ← useVar x
          libMethod cr recv.peel f args
        | _ => libMethod cr recv.peel f args : X E _) l s := rfl
@[rs] theorem ev_field (e : Expr) (f : String) : ev cr (n + 1) fr exp (.field e f) l s = (do
    let v ← place cr n fr e
    X.some? (v.getField f) : X E _) l s := rfl
@[rs] theorem ev_struct (p : RPath) (fs : List (String × Expr)) : ev cr (n + 1) fr exp (.struct p fs) l s =
    (match lookup (rty cr n fr (.path p)).name cr.structs with
      | none => X.stuck
      | some ts => do
        let fs ← evFields cr n fr ts fs
        pure (.struct (rty cr n fr (.path p)).name fs) : X E (V E)) l s := rfl
@[rs] theorem ev_unit : ev cr (n + 1) fr exp (.tuple []) l s = .ret .unit l s := rfl
@[rs] theorem ev_mac (m : String) (args : List Expr) : ev cr (n + 1) fr exp (.mac m args) l s = evMac cr n fr m args l s := rfl
@[rs] theorem ev_block (ss : List Stmt) : ev cr (n + 1) fr exp (.block ss) l s = scope cr (evStmts cr n fr exp ss) l s := rfl
@[rs] theorem ev_ite (c t : Expr) (e : Option Expr) : ev cr (n + 1) fr exp (.ite c t e) l s = (do
    let c ← ev cr n fr .bool c
    match c, e with
    | .bool true, _ => ev cr n fr exp t
    | .bool false, some e => ev cr n fr exp e
    | .bool false, none => pure V.unit
    | _, _ => X.stuck : X E _) l s := rfl

@[rs] theorem place_var (x : String) : place cr (n + 1) fr (.path [(x, [])]) l s = readVar x l s := rfl
@[rs] theorem place_field (e : Expr) (f : String) : place cr (n + 1) fr (.field e f) l s = (do
    let v ← place cr n fr e
    X.some? (v.getField f) : X E _) l s := rfl
@[rs] theorem place_call (e : Expr) (as : List Expr) : place cr (n + 1) fr (.call e as) l s = ev cr n fr .unknown (.call e as) l s := rfl
@[rs] theorem place_method (e : Expr) (f : String) (ts : List RTy) (as : List Expr) :
    place cr (n + 1) fr (.method e f ts as) l s = ev cr n fr .unknown (.method e f ts as) l s := rfl
@[rs] theorem place_cast (e : Expr) (t : RTy) : place cr (n + 1) fr (.cast e t) l s = ev cr n fr .unknown (.cast e t) l s := rfl

@[rs] theorem evArgs_nil (ts : List RT) : evArgs cr (n + 1) fr ts [] l s = .ret [] l s := rfl
@[rs] theorem evArgs_cons (ts : List RT) (e : Expr) (es : List Expr) : evArgs cr (n + 1) fr ts (e :: es) l s = (do
    let v ← ev cr n fr (ts.head?.getD .unknown) e
    let vs ← evArgs cr n fr ts.tail es
    pure (coerce cr.env.ptrBits (ts.head?.getD .unknown) v :: vs) : X E _) l s := rfl
@[rs] theorem evFields_nil (ts : List (String × RTy)) : evFields cr (n + 1) fr ts [] l s = .ret [] l s := rfl
@[rs] theorem evFields_cons (ts : List (String × RTy)) (x : String) (e : Expr) (es : List (String × Expr)) :
    evFields cr (n + 1) fr ts ((x, e) :: es) l s = (match lookup x ts with
      | none => X.stuck
      | some t => do
        let v ← ev cr n fr (rty cr n fr t) e
        let vs ← evFields cr n fr ts es
        pure ((x, coerce cr.env.ptrBits (rty cr n fr t) v) :: vs)) l s := rfl

@[rs] theorem evMac_debug (args : List Expr) : evMac cr (n + 1) fr "debug_assert" args l s =
    (if cr.env.debug then evAssert cr n fr args else pure V.unit) l s := rfl
@[rs] theorem evMac_write (f e : Expr) (p : String) : evMac cr (n + 1) fr "write" [f, .lit p, e] l s = (do
    let f ← ev cr n fr .unknown f
    let v ← place cr n fr e
    match f, v.peel with
    | .fmtr _, .user e => do
      let r ← X.mem (if p = "\"{:?}\"" then cr.user.debug e {} else cr.user.display e {})
      fmtWrite r.1
      pure (resV r.2)
    | _, _ => X.stuck : X E _) l s := rfl
@[rs] theorem fmtWrite_apply (t : List Char) : fmtWrite t l s = match lookup outVar l with
    | some (some (.text t')) => .ret () (setLocal outVar (some (.text (t' ++ t))) l) s
    | _ => (.stuck : XOut E Unit) := rfl
@[rs] theorem evMac_assert (args : List Expr) : evMac cr (n + 1) fr "assert" args l s = evAssert cr n fr args l s := rfl
@[rs] theorem evAssert_eq (c : Expr) (msg : List Expr) : evAssert cr (n + 1) fr (c :: msg) l s = (do
    let v ← ev cr n fr .bool c
    match v with
    | .bool true => pure V.unit
    | .bool false => match msg with
      | [] => X.panic (.text "assertion failed" [])
      | .lit m :: as => do
        let vs ← evArgs cr n fr [] as
        X.panic (.text m vs)
      | _ => X.stuck
    | _ => X.stuck : X E _) l s := rfl

@[rs] theorem evStmts_nil : evStmts cr (n + 1) fr exp [] l s = .ret .unit l s := rfl
@[rs] theorem evStmts_let (x : String) (t : Option RTy) (e : Expr) (ss : List Stmt) :
    evStmts cr (n + 1) fr exp (.letS (.bind x) t e :: ss) l s = (do
      let t := match t with
        | some t => rty cr n fr t
        | none => .unknown
      let v ← ev cr n fr t e
      X.declare x (coerce cr.env.ptrBits t v)
      evStmts cr n fr exp ss : X E _) l s := rfl
@[rs] theorem evStmts_semi (e : Expr) (ss : List Stmt) : evStmts cr (n + 1) fr exp (.semi e :: ss) l s = (do
    let v ← ev cr n fr .unknown e
    dropV cr v
    evStmts cr n fr exp ss : X E _) l s := rfl
@[rs] theorem evStmts_tail (e : Expr) : evStmts cr (n + 1) fr exp [.tail e] l s = ev cr n fr exp e l s := rfl
@[rs] theorem evStmts_block (e : Expr) (t : Stmt) (ss : List Stmt) : evStmts cr (n + 1) fr exp (.tail e :: t :: ss) l s = (do
    let v ← ev cr n fr .unit e
    dropV cr v
    evStmts cr n fr exp (t :: ss) : X E _) l s := rfl
@[rs] theorem evStmts_use (ss : List Stmt) : evStmts cr (n + 1) fr exp (.useS :: ss) l s = evStmts cr n fr exp ss l s := rfl

theorem callFn_eq (f : Fn) (ty : String) (targs : List RT) (self : Option (V E)) (args : List (V E)) :
    callFn cr (n + 1) f ty targs self args exp l s =
    (let fr : Frame := ⟨bindGenerics f targs args exp ++ [("T", .user)], .named ty []⟩
    let ret := match f.ret with
      | some t => rty cr n fr t
      | none => .unit
    inFn cr (do
      match f.self, self with
      | some .value, some v => X.declare "self" v
      | some _, some v => X.declare "self" (.refv v)
      | none, none => pure ()
      | _, _ => X.stuck
      declareAll (f.params.map (·.1)) args
      let v ← scope cr (evStmts cr n fr ret f.body)
      pure (coerce cr.env.ptrBits ret v)) l s) := rfl

/-! ## Numbers -/

@[rs] theorem wrap_u64 (pb : Nat) (v : BitVec 64) : wrap pb .u64 v = v := by simp [wrap, ITy.bits]

@[rs] theorem binOp_or (t : ITy) (a b : BitVec 64) : binOpV cr .or (.int t a) (.int t b) l s = .ret (.int t (a ||| b)) l s := by
  simp [binOpV, isShift, arith, cmpOp, intOp, finishOp, rs]
@[rs] theorem binOp_and (t : ITy) (a b : BitVec 64) : binOpV cr .and (.int t a) (.int t b) l s = .ret (.int t (a &&& b)) l s := by
  simp [binOpV, isShift, arith, cmpOp, intOp, finishOp, rs]
@[rs] theorem binOp_le (t : ITy) (a b : BitVec 64) : binOpV cr .le (.int t a) (.int t b) l s = .ret (.bool (decide (a ≤ b))) l s := by
  simp [binOpV, isShift, arith, cmpOp, rs]
@[rs] theorem binOp_eqLit (t : ITy) (a : BitVec 64) (n : Nat) :
    binOpV cr .eq (.int t a) (.lit n) l s = .ret (.bool (decide (a = BitVec.ofNat 64 n))) l s := by
  simp [binOpV, arith, cmpOp, rs]
@[rs] theorem binOp_neLit (t : ITy) (a : BitVec 64) (n : Nat) :
    binOpV cr .ne (.int t a) (.lit n) l s = .ret (.bool (decide (a ≠ BitVec.ofNat 64 n))) l s := by
  simp [binOpV, arith, cmpOp, rs]
theorem binOp_shl (t : ITy) (a b : BitVec 64) (h : b.toNat < 64) :
    binOpV cr .shl (.int .u64 a) (.int t b) l s = .ret (.int .u64 (a <<< b.toNat)) l s := by
  simp [binOpV, isShift, intOp, ITy.bits, h, finishOp, rs]
theorem binOp_shr (t : ITy) (a b : BitVec 64) (h : b.toNat < 64) :
    binOpV cr .shr (.int .u64 a) (.int t b) l s = .ret (.int .u64 (a >>> b.toNat)) l s := by
  simp [binOpV, isShift, intOp, ITy.bits, h, finishOp, rs]
theorem binOp_addLit (a : BitVec 64) (n : Nat) (h : a.toNat + (BitVec.ofNat 64 n).toNat < 2 ^ 64) :
    binOpV cr .add (.int .u64 a) (.lit n) l s = .ret (.int .u64 (a + BitVec.ofNat 64 n)) l s := by
  simp only [binOpV, arith, cmpOp, intOp, ITy.bits, h, if_pos, finishOp, x_pure]

end

end TB.Rust

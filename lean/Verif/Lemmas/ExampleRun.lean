import Verif.Source.ExampleCode
import Verif.Lemmas.RsBox
import Verif.Props.Docs

/-! # Running the examples of the documentation and the tests (helper lemmas; no property theorems here) -/

set_option autoImplicit false
set_option linter.unusedSectionVars false
set_option linter.unusedSimpArgs false

namespace TB.Rust

open TB TB.Rust.Code

variable {E : Type}

section
variable (env : Env) (user : User E) [InTable env] (std : Std) (addr : String → Nat)

theorem discr_lit (n : Nat) : wrap env.ptrBits (discrTy env.cfg) (BitVec.ofNat 64 n) = (BitVec.ofNat env.cfg.discrBits n).setWidth 64 := by
  rw [wrap_discr]
  congr 1
  apply BitVec.eq_of_toNat_eq
  have : env.cfg.discrBits ≤ 64 := by
    have h : env.cfg.discrBits = 8 ∨ env.cfg.discrBits = 16 := by rows <;> first | exact .inl rfl | exact .inr rfl
    omega
  simp only [BitVec.toNat_setWidth, BitVec.toNat_ofNat]
  exact Nat.mod_mod_of_dvd _ (Nat.pow_dvd_pow 2 this)

theorem coerce_discr (n : Nat) : coerce env.ptrBits (.int (discrTy env.cfg)) (.lit n : V E) = dV (BitVec.ofNat env.cfg.discrBits n : env.cfg.Discr) := by
  simp only [coerce_lit_int, discr_lit env, dV]

/-! ### Calls of the crate -/

/-- The variables of the caller stay as they are. -/
def XOut.keep {α : Type} (l : Locals E) : XOut E α → XOut E α
  | .ret v _ s => .ret v l s
  | .panic m _ s => .panic m l s
  | .ub k => .ub k
  | .stuck => .stuck

theorem tcall_of {cr : Crate E} {ty f : String} {fn : Fn} {targs gs : List RT} {self : Option (V E)} {args : List (V E)} {exp : RT} {s : State} {o : XOut E (V E)}
    (l : Locals E) (hf : findFn ty f cr.fns = some fn) (hc : callFn cr 200 fn ty gs self args exp [] s = o)
    (hg : (bindGenerics fn targs args exp).map (·.2) = gs) : tcall cr ty f targs self args exp l s = o.keep l := by
  subst hg hc
  unfold tcall
  rw [hf]
  show (match Crate.call cr ty f _ self args exp s with
    | .ret v _ s => .ret v l s
    | .panic m _ s => .panic m l s
    | .ub k => .ub k
    | .stuck => .stuck : XOut E (V E)) = _
  rw [show Crate.call cr ty f ((bindGenerics fn targs args exp).map (·.2)) self args exp s =
    callFn cr 200 fn ty ((bindGenerics fn targs args exp).map (·.2)) self args exp [] s by simp only [Crate.call, hf]; rfl]
  cases callFn cr 200 fn ty ((bindGenerics fn targs args exp).map (·.2)) self args exp [] s <;> rfl

theorem tc_new (sh : Shape) (hs : sh.size < 2 ^ 64) (v : TB.Val) (d : env.cfg.Discr) (exp : RT) (l : Locals E) (s : State) :
    tcall (src env user) "TaggedBox" "new" [] none [.obj sh v, dV d] exp l s = XOut.of boxV (panicMsg d) l (TBox.new env sh v d s) := by
  exact (tcall_of l (find_box_new env user) (b_new env user 120 sh hs v d exp [] s) rfl).trans (by cases TBox.new env sh v d s <;> rfl)

theorem tc_intoInner (b : TBox) (sh : Shape) (exp : RT) (l : Locals E) (s : State) :
    tcall (src env user) "TaggedBox" "into_inner" [.opaque sh] none [boxV b] exp l s = XOut.of (fun v => .obj sh v) .kind l (b.intoInner env sh s) := by
  exact (tcall_of l (find_box_into_inner env user) (b_intoInner env user 120 b sh exp [] s) rfl).trans (by cases b.intoInner env sh s <;> rfl)

/-- The type is found from what is expected. -/
theorem tc_intoInner' (b : TBox) (sh : Shape) (l : Locals E) (s : State) :
    tcall (src env user) "TaggedBox" "into_inner" [] none [boxV b] (.opaque sh) l s = XOut.of (fun v => .obj sh v) .kind l (b.intoInner env sh s) := by
  exact (tcall_of l (find_box_into_inner env user) (b_intoInner env user 120 b sh (.opaque sh) [] s) rfl).trans (by cases b.intoInner env sh s <;> rfl)

theorem tc_intoRaw (b : TBox) (sh : Shape) (l : Locals E) (s : State) :
    tcall (src env user) "TaggedBox" "into_raw" [] none [boxV b] (.ptr (.opaque sh)) l s = .ret (.ptr (.opaque sh) (b.intoRaw env)) l s := by
  exact (tcall_of l (find_box_into_raw env user) (b_intoRaw env user 140 b sh (.ptr (.opaque sh)) [] s) rfl).trans (rfl)

theorem tc_intoBox (b : TBox) (sh : Shape) (l : Locals E) (s : State) :
    tcall (src env user) "TaggedBox" "into_box" [] none [boxV b] (.named "Box" [.opaque sh]) l s = .ret (.boxed (.opaque sh) (b.intoBox env).addr) l s := by
  exact (tcall_of l (find_box_into_box env user) (b_intoBox env user 120 b sh (.named "Box" [.opaque sh]) [] s) rfl).trans (rfl)

theorem tc_fromRaw (sh : Shape) (a : Nat) (d : env.cfg.Discr) (exp : RT) (l : Locals E) (s : State) :
    tcall (src env user) "TaggedBox" "from_raw" [] none [.ptr (.opaque sh) a, dV d] exp l s = XOut.of boxV (panicMsg d) l (TBox.fromRaw env a d s) := by
  exact (tcall_of l (find_box_from_raw env user) (b_fromRaw env user 120 sh a d exp [] s) rfl).trans (by cases TBox.fromRaw env a d s <;> rfl)

theorem tc_discriminant (b : TBox) (exp : RT) (l : Locals E) (s : State) :
    tcall (src env user) "TaggedBox" "discriminant" [] (some (boxV b)) [] exp l s = .ret (dV (b.discriminant env)) l s := by
  exact (tcall_of l (find_box_discriminant env user) (b_discriminant env user 140 b exp [] s) rfl).trans (rfl)

theorem tc_asPtr (b : TBox) (sh : Shape) (exp : RT) (l : Locals E) (s : State) :
    tcall (src env user) "TaggedBox" "as_ptr" [.opaque sh] (some (boxV b)) [] exp l s = .ret (.ptr (.opaque sh) (b.asPtr env)) l s := by
  exact (tcall_of l (find_box_as_ptr env user) (b_asPtr env user 140 b sh exp [] s) rfl).trans (rfl)

theorem tc_asMutPtr (b : TBox) (sh : Shape) (exp : RT) (l : Locals E) (s : State) :
    tcall (src env user) "TaggedBox" "as_mut_ptr" [.opaque sh] (some (boxV b)) [] exp l s = .ret (.ptr (.opaque sh) (b.asMutPtr env)) l s := by
  exact (tcall_of l (find_box_as_mut_ptr env user) (b_asMutPtr env user 140 b sh exp [] s) rfl).trans (rfl)

theorem tc_asRef (b : TBox) (sh : Shape) (exp : RT) (l : Locals E) (s : State) :
    tcall (src env user) "TaggedBox" "as_ref" [.opaque sh] (some (boxV b)) [] exp l s =
      XOut.of (fun _ => .ref (.opaque sh) (b.asPtr env)) .kind l (b.asRef env sh s) := by
  exact (tcall_of l (find_box_as_ref env user) (b_asRef env user 140 b sh exp [] s) rfl).trans (by cases b.asRef env sh s <;> rfl)

theorem tc_asMutRef (b : TBox) (sh : Shape) (exp : RT) (l : Locals E) (s : State) :
    tcall (src env user) "TaggedBox" "as_mut_ref" [.opaque sh] (some (boxV b)) [] exp l s =
      XOut.of (fun _ => .ref (.opaque sh) (b.asMutPtr env)) .kind l (ptrRead sh (b.asMutPtr env) s) := by
  exact (tcall_of l (find_box_as_mut_ref env user) (b_asMutRef env user 140 b sh exp [] s) rfl).trans (by cases ptrRead sh (b.asMutPtr env) s <;> rfl)

theorem tp_new (p : BitVec 64) (d : env.cfg.Discr) (exp : RT) (l : Locals E) (s : State) :
    tcall (src env user) "TaggedPointer" "new" [] none [.int .u64 p, dV d] exp l s =
      if env.debug = true ∧ ¬ d ≤ env.cfg.MAX_DISCRIMINANT then
        .panic (.text "\"Attempted to store a discriminant of {} while the max value is {}\"" [dV d, dV env.cfg.MAX_DISCRIMINANT]) l s
      else if env.debug = true ∧ ¬ p ≤ env.cfg.MAX_POINTER_VALUE then
        .panic (.text newPtrMsg [.int .u64 (BitVec.ofNat 64 env.cfg.ptrWidth), .int .u64 (BitVec.ofNat 64 (env.cfg.ptrWidth + 1))]) l s
      else .ret (ptrV ⟨TPtr.storeDiscriminant env.cfg p d⟩) l s := by
  exact (tcall_of l (find_ptr_new env user) (new env user 160 p d exp [] s) rfl).trans (by split; rfl; split <;> rfl)

@[rs] theorem tp_strip (p : BitVec 64) (exp : RT) (l : Locals E) (s : State) :
    tcall (src env user) "TaggedPointer" "strip_discriminant" [] none [.int .u64 p] exp l s = .ret (.int .u64 (TPtr.stripDiscriminant env.cfg p)) l s :=
  tcall_of l (find_ptr_strip_discriminant env user) (strip env user 180 p exp [] s) rfl

@[rs] theorem tp_fetch (p : BitVec 64) (exp : RT) (l : Locals E) (s : State) :
    tcall (src env user) "TaggedPointer" "fetch_discriminant" [] none [.int .u64 p] exp l s = .ret (dV (TPtr.fetchDiscriminant env.cfg p)) l s :=
  tcall_of l (find_ptr_fetch_discriminant env user) (fetch env user 180 p exp [] s) rfl

@[rs] theorem tp_store (p : BitVec 64) (d : env.cfg.Discr) (exp : RT) (l : Locals E) (s : State) :
    tcall (src env user) "TaggedPointer" "store_discriminant" [] none [.int .u64 p, dV d] exp l s = .ret (.int .u64 (TPtr.storeDiscriminant env.cfg p d)) l s :=
  tcall_of l (find_ptr_store_discriminant env user) (store env user 180 p d exp [] s) rfl

@[rs] theorem tp_discriminant (p : TPtr) (exp : RT) (l : Locals E) (s : State) :
    tcall (src env user) "TaggedPointer" "discriminant" [] (some (ptrV p)) [] exp l s = .ret (dV (p.discriminant env.cfg)) l s :=
  tcall_of l (find_ptr_discriminant env user) (Rust.discriminant env user 160 p exp [] s) rfl

@[rs] theorem tp_asU64 (p : TPtr) (exp : RT) (l : Locals E) (s : State) :
    tcall (src env user) "TaggedPointer" "as_u64" [] (some (ptrV p)) [] exp l s = .ret (.int .u64 (p.asU64 env.cfg)) l s :=
  tcall_of l (find_ptr_as_u64 env user) (asU64 env user 160 p exp [] s) rfl

@[rs] theorem tp_asRawU64 (p : TPtr) (exp : RT) (l : Locals E) (s : State) :
    tcall (src env user) "TaggedPointer" "as_raw_u64" [] (some (ptrV p)) [] exp l s = .ret (.int .u64 p.raw) l s :=
  tcall_of l (find_ptr_as_raw_u64 env user) (asRawU64 env user 160 p exp [] s) rfl

@[rs] theorem tp_asRef (p : TPtr) (sh : Shape) (v : TB.Val) (exp : RT) (l : Locals E) (s s' : State) (h : ptrRead sh (p.asPtr env.cfg env.ptrBits) s = .ret v s') :
    tcall (src env user) "TaggedPointer" "as_ref" [.opaque sh] (some (ptrV p)) [] exp l s = .ret (.ref (.opaque sh) (p.asPtr env.cfg env.ptrBits)) l s' := by
  exact (tcall_of l (find_ptr_as_ref env user) (asRef env user 160 p sh exp [] s) rfl).trans (by rw [h]; rfl)

/-! ### Parameters -/

theorem ps_new : box_new.params.map (fun q => paramTy (src env user) box_new "TaggedBox" q.2) = [none, some (.int (discrTy env.cfg))] := by
  simp [box_new, paramTy, rs]

theorem ps_fromRaw : box_from_raw.params.map (fun q => paramTy (src env user) box_from_raw "TaggedBox" q.2) =
    [some (.ptr (.named "U" [])), some (.int (discrTy env.cfg))] := by
  simp [box_from_raw, paramTy, rs]

@[rs] theorem ps_as_ref : box_as_ref.params.map (fun q => paramTy (src env user) box_as_ref "TaggedBox" q.2) = [] := rfl
@[rs] theorem ps_as_mut_ref : box_as_mut_ref.params.map (fun q => paramTy (src env user) box_as_mut_ref "TaggedBox" q.2) = [] := rfl
@[rs] theorem ps_as_ptr : box_as_ptr.params.map (fun q => paramTy (src env user) box_as_ptr "TaggedBox" q.2) = [] := rfl
@[rs] theorem ps_as_mut_ptr : box_as_mut_ptr.params.map (fun q => paramTy (src env user) box_as_mut_ptr "TaggedBox" q.2) = [] := rfl
@[rs] theorem ps_discriminant : box_discriminant.params.map (fun q => paramTy (src env user) box_discriminant "TaggedBox" q.2) = [] := rfl
@[rs] theorem ps_into_inner : box_into_inner.params.map (fun q => paramTy (src env user) box_into_inner "TaggedBox" q.2) = [some (.named "TaggedBox" [])] := rfl
@[rs] theorem ps_into_raw : box_into_raw.params.map (fun q => paramTy (src env user) box_into_raw "TaggedBox" q.2) = [some (.named "TaggedBox" [])] := rfl
@[rs] theorem ps_into_box : box_into_box.params.map (fun q => paramTy (src env user) box_into_box "TaggedBox" q.2) = [some (.named "TaggedBox" [])] := rfl

@[rs] theorem pp_new : ptr_new.params.map (fun q => paramTy (src env user) ptr_new "TaggedPointer" q.2) = [some (.int .u64), some (.int (discrTy env.cfg))] := by
  simp [ptr_new, paramTy, rs]
@[rs] theorem pp_strip_discriminant : ptr_strip_discriminant.params.map (fun q => paramTy (src env user) ptr_strip_discriminant "TaggedPointer" q.2) = [some (.int .u64)] := by
  simp [ptr_strip_discriminant, paramTy, rs]
@[rs] theorem pp_fetch_discriminant : ptr_fetch_discriminant.params.map (fun q => paramTy (src env user) ptr_fetch_discriminant "TaggedPointer" q.2) = [some (.int .u64)] := by
  simp [ptr_fetch_discriminant, paramTy, rs]
@[rs] theorem pp_store_discriminant : ptr_store_discriminant.params.map (fun q => paramTy (src env user) ptr_store_discriminant "TaggedPointer" q.2) = [some (.int .u64), some (.int (discrTy env.cfg))] := by
  simp [ptr_store_discriminant, paramTy, rs]
@[rs] theorem pp_discriminant : ptr_discriminant.params.map (fun q => paramTy (src env user) ptr_discriminant "TaggedPointer" q.2) = [] := by
  simp [ptr_discriminant, paramTy, rs]
@[rs] theorem pp_as_u64 : ptr_as_u64.params.map (fun q => paramTy (src env user) ptr_as_u64 "TaggedPointer" q.2) = [] := by
  simp [ptr_as_u64, paramTy, rs]
@[rs] theorem pp_as_raw_u64 : ptr_as_raw_u64.params.map (fun q => paramTy (src env user) ptr_as_raw_u64 "TaggedPointer" q.2) = [] := by
  simp [ptr_as_raw_u64, paramTy, rs]
@[rs] theorem pp_as_ref : ptr_as_ref.params.map (fun q => paramTy (src env user) ptr_as_ref "TaggedPointer" q.2) = [] := by
  simp [ptr_as_ref, paramTy, rs]

/-! ### Literals -/

@[rs] theorem num_0 : numLit "0" = some (0, none) := by decide
@[rs] theorem num_8 : numLit "8" = some (8, none) := by decide
@[rs] theorem num_10 : numLit "10" = some (10, none) := by decide
@[rs] theorem num_11 : numLit "11" = some (11, none) := by decide
@[rs] theorem num_100 : numLit "100" = some (100, none) := by decide
@[rs] theorem num_300 : numLit "300" = some (300, none) := by decide
@[rs] theorem num_200 : numLit "200" = some (200, none) := by decide
@[rs] theorem num_0x00 : numLit "0x00" = some (0, none) := by decide
@[rs] theorem num_100000 : numLit "100_000" = some (100000, none) := by decide
@[rs] theorem num_100usize : numLit "100_usize" = some (100, some "usize") := by decide
@[rs] theorem num_10u8 : numLit "10u8" = some (10, some "u8") := by decide
@[rs] theorem num_1 : numLit "1" = some (1, none) := by decide
@[rs] theorem num_2 : numLit "2" = some (2, none) := by decide
@[rs] theorem num_0xF00DBEEF : numLit "0xF00D_BEEF" = some (4027432687, none) := by decide
@[rs] theorem num_100i32 : numLit "100i32" = some (100, some "i32") := by decide
@[rs] theorem num_100usize' : numLit "100usize" = some (100, some "usize") := by decide
@[rs] theorem num_text : numLit "\"Foobar is a timeless classic\"" = none := by decide
@[rs] theorem find_String : findFn "String" "from" (src env user).fns = none := rfl
@[rs] theorem find_checked_add : findFn "" "checked_add" (src env user).fns = none := rfl

@[rs] theorem litE_discr (n : Nat) : litE (src env user) std (.int (discrTy env.cfg)) (.num n) = dV (BitVec.ofNat env.cfg.discrBits n : env.cfg.Discr) := by
  simp only [litE, dV]
  rw [show (src env user).env = env from rfl, discr_lit env]
@[rs] theorem litE_opaque (sh : Shape) (x : Lit) : litE (src env user) std (.opaque sh) x = .obj sh (std.enc sh x) := rfl
@[rs] theorem litE_unknown (n : Nat) : litE (src env user) std .unknown (.num n) = .lit n := rfl

@[rs] theorem of_ret {α : Type} (f : α → V E) (msg : PanicKind → Msg E) (l : Locals E) (a : α) (s : State) : XOut.of f msg l (.ret a s) = .ret (f a) l s := rfl
@[rs] theorem of_panic {α : Type} (f : α → V E) (msg : PanicKind → Msg E) (l : Locals E) (k : PanicKind) (s : State) :
    XOut.of f msg l (.panic k s) = .panic (msg k) l s := rfl

@[rs] theorem tdropLocals_zero (cr : Crate E) (l : Locals E) (s : State) : tdropLocals cr 0 l s = .ret () l s := rfl
@[rs] theorem tdropLocals_none (cr : Crate E) (k : Nat) (x : String) (l : Locals E) (s : State) : tdropLocals cr (k + 1) ((x, none) :: l) s = tdropLocals cr k l s := rfl
@[rs] theorem tdropLocals_some (cr : Crate E) (k : Nat) (x : String) (v : V E) (l : Locals E) (s : State) :
    tdropLocals cr (k + 1) ((x, some v) :: l) s = (do
      tdrop cr v
      tdropLocals cr k) l s := rfl
@[rs] theorem tdropLocals_one_none (cr : Crate E) (x : String) (l : Locals E) (s : State) : tdropLocals cr 1 ((x, none) :: l) s = .ret () l s := rfl
@[rs] theorem tdropLocals_one_some (cr : Crate E) (x : String) (v : V E) (l : Locals E) (s : State) :
    tdropLocals cr 1 ((x, some v) :: l) s = tdrop cr v l s := by
  rw [tdropLocals_some, x_bind]
  cases tdrop cr v l s <;> rfl

section
variable (cr : Crate E) (l : Locals E) (s : State)
@[rs] theorem tdrop_boxed (sh : Shape) (a : Nat) : tdrop cr (.boxed (.opaque sh) a) l s = X.mem ((⟨a⟩ : RBox).drop sh) l s := rfl
@[rs] theorem tdrop_obj (sh : Shape) (v : TB.Val) : tdrop cr (.obj sh v) l s = X.mem (TB.dropVal sh v) l s := rfl
@[rs] theorem tdrop_unit : tdrop cr V.unit l s = .ret () l s := rfl
@[rs] theorem tdrop_lit (n : Nat) : tdrop cr (.lit n) l s = .ret () l s := rfl
@[rs] theorem tdrop_int (t : ITy) (v : BitVec 64) : tdrop cr (.int t v) l s = .ret () l s := rfl
@[rs] theorem tdrop_ptr (t : RT) (a : Nat) : tdrop cr (.ptr t a) l s = .ret () l s := rfl
@[rs] theorem tdrop_ref (t : RT) (a : Nat) : tdrop cr (.ref t a) l s = .ret () l s := rfl
@[rs] theorem tdrop_refv (v : V E) : tdrop cr (.refv v) l s = .ret () l s := rfl
end
@[rs] theorem tdrop_boxV (b : TBox) (l : Locals E) (s : State) : tdrop (src env user) (boxV b) l s = .ret () l s := rfl
@[rs] theorem tdrop_ptrV (b : TPtr) (l : Locals E) (s : State) : tdrop (src env user) (ptrV b) l s = .ret () l s := rfl
@[rs] theorem tdrop_dV (d : env.cfg.Discr) (l : Locals E) (s : State) : tdrop (src env user) (dV d) l s = .ret () l s := rfl

section
variable (l : Locals E) (s : State)
@[rs] theorem look_obj (sh : Shape) (v : TB.Val) : look (.obj sh v : V E) l s = .ret (.obj sh v) l s := rfl
@[rs] theorem look_int (t : ITy) (v : BitVec 64) : look (.int t v : V E) l s = .ret (.int t v) l s := rfl
@[rs] theorem look_lit (n : Nat) : look (.lit n : V E) l s = .ret (.lit n) l s := rfl
@[rs] theorem look_refv (v : V E) : look (.refv v) l s = look v l s := by simp only [look]
@[rs] theorem look_ref (sh : Shape) (a : Nat) : look (.ref (.opaque sh) a : V E) l s = (do
    let v ← X.mem (ptrRead sh a)
    pure (.obj sh v) : X E (V E)) l s := rfl
@[rs] theorem other_obj (sh : Shape) (v : TB.Val) : (.obj sh v : V E).other = .opaque sh := rfl
@[rs] theorem other_int (t : ITy) (v : BitVec 64) : (.int t v : V E).other = .unknown := rfl
@[rs] theorem other_lit (n : Nat) : (.lit n : V E).other = .unknown := rfl
@[rs] theorem same_obj (sh sh' : Shape) (v v' : TB.Val) : sameV (.obj sh v : V E) (.obj sh' v') l s = .ret (v == v') l s := rfl
@[rs] theorem same_int (t : ITy) (v v' : BitVec 64) : sameV (.int t v : V E) (.int t v') l s = .ret (v == v') l s := by
  simp only [sameV, if_true]; rfl
@[rs] theorem same_int_lit (t : ITy) (v : BitVec 64) (n : Nat) : sameV (.int t v : V E) (.lit n) l s = .ret (v == BitVec.ofNat 64 n) l s := rfl
end

attribute [rs] tscope tStmts tev operand secondTy tArgs tty tyKey litV defaultTy listV numList
attribute [rs] ps_new ps_fromRaw tc_intoInner tc_intoInner' tc_intoRaw tc_intoBox tc_fromRaw tc_discriminant tc_asPtr tc_asMutPtr tc_asRef tc_asMutRef

@[rs] theorem key_array : "[u8; " ++ Nat.repr 10 ++ "]" = "[u8; 10]" := by decide

@[rs high] theorem look_dV (d : env.cfg.Discr) (l : Locals E) (s : State) : look (dV d) l s = .ret (dV d) l s := rfl
@[rs high] theorem other_dV (d : env.cfg.Discr) : (dV d : V E).other = .unknown := rfl

theorem dV_inj (d d' : env.cfg.Discr) : d.setWidth 64 = d'.setWidth 64 ↔ d = d' := by
  have h1 : d.toNat < 2 ^ env.cfg.discrBits := d.isLt
  have h2 : d'.toNat < 2 ^ env.cfg.discrBits := d'.isLt
  have hb : env.cfg.discrBits = 8 ∨ env.cfg.discrBits = 16 := by rows <;> first | exact .inl rfl | exact .inr rfl
  have hp : (2:Nat) ^ env.cfg.discrBits ≤ 65536 := by rcases hb with h | h <;> rw [h] <;> decide
  rw [← BitVec.toNat_inj, ← BitVec.toNat_inj, BitVec.toNat_setWidth, BitVec.toNat_setWidth, Nat.mod_eq_of_lt (by omega), Nat.mod_eq_of_lt (by omega)]

theorem discr_ofNat (n : Nat) (hn : n < 256) : (BitVec.ofNat env.cfg.discrBits n).setWidth 64 = BitVec.ofNat 64 n := by
  have hb : env.cfg.discrBits = 8 ∨ env.cfg.discrBits = 16 := by rows <;> first | exact .inl rfl | exact .inr rfl
  apply BitVec.eq_of_toNat_eq
  rw [BitVec.toNat_setWidth, BitVec.toNat_ofNat, BitVec.toNat_ofNat]
  rcases hb with h | h <;> rw [h] <;> omega

@[rs high] theorem same_dV (d d' : env.cfg.Discr) (l : Locals E) (s : State) : sameV (dV d) (dV d') l s = .ret (decide (d = d')) l s := by
  simp only [sameV, dV, if_true, x_pure]
  congr 1
  by_cases h : d = d' <;> simp [h, dV_inj env]

theorem same_lit (d : env.cfg.Discr) (n : Nat) (hn : n < 256) (l : Locals E) (s : State) :
    sameV (dV d) (.lit n) l s = .ret (decide (d = BitVec.ofNat env.cfg.discrBits n)) l s := by
  simp only [sameV, dV, x_pure, ← discr_ofNat env n hn]
  congr 1
  by_cases h : d = BitVec.ofNat env.cfg.discrBits n <;> simp [h, dV_inj env]

variable {env user std addr}

/-- `*p = v` -/
theorem assign {s : State} {b : TBox} {sh : Shape} {v : TB.Val} {d : env.cfg.Discr} (hb : Holds env s b sh v d) (v' : TB.Val) :
    (ptrRead sh (b.asMutPtr env) >>= fun old => dropVal sh old >>= fun _ => ptrWrite sh (b.asMutPtr env) v') s =
      .ret () (writtenState (s.log (dropEvents sh v)) (b.asPtr env) sh v') := by
  have h1 : ptrRead sh (b.asMutPtr env) s = .ret v s := hb.read
  have h2 : validPtr (s.log (dropEvents sh v)) (b.asMutPtr env) sh.size sh.align = true := hb.valid
  simp only [M.bind_def, h1, dropVal, M.log, ptrWrite_ret h2]
  rfl

/-- What the examples of the documentation need: the box can be made, or the allocator fails. -/
def Made (env : Env) (s : State) (sh : Shape) (v : TB.Val) (d : env.cfg.Discr) (b : TBox) (s1 : State) : Prop :=
  TBox.new env sh v d s = .ret b s1 ∧ HeapInv env s1 ∧ Holds env s1 b sh v d

theorem run0 {s s1 : State} {b : TBox} (hs : ∀ x, (std.shape x).size < 2 ^ 64)
    (h : Made env s (std.shape "String") (std.enc (std.shape "String") (.text "\"Foobar is a timeless classic\"")) (BitVec.ofNat env.cfg.discrBits 0) b s1) :
    ∃ s', runBody (src env user) std addr doc0 s = .ret .unit [] s' := by
  obtain ⟨h, hi, hb⟩ := h
  have hp : ptrRead _ (b.asPtr env) s1 = _ := hb.read
  have hr : ptrRead _ (b.intoRaw env) s1 = _ := hb.read
  simp [runBody, doc0, rs, tc_new, hs, h, hb.read, hp, hr, dropVal, M.log]

theorem run1 {s s1 : State} {b : TBox} (hs : ∀ x, (std.shape x).size < 2 ^ 64)
    (h : Made env s (std.shape "String") (std.enc (std.shape "String") (.text "\"Foobar is a timeless classic\"")) (BitVec.ofNat env.cfg.discrBits 0) b s1) :
    ∃ s', runBody (src env user) std addr doc1 s = .ret .unit [] s' := by
  obtain ⟨h, hi, hb⟩ := h
  have hp : ptrRead _ (b.asPtr env) s1 = _ := hb.read
  have hr : ptrRead _ (b.intoRaw env) s1 = _ := hb.read
  simp [runBody, doc1, rs, tc_new, hs, h, hb.read, hp, hr, show b.intoInner env _ s1 = _ from hb.read, dropVal, M.log]

theorem run4 {s s1 : State} {b : TBox} (hs : ∀ x, (std.shape x).size < 2 ^ 64)
    (h : Made env s (std.shape "usize") (std.enc (std.shape "usize") (.num 100)) (BitVec.ofNat env.cfg.discrBits 0) b s1) :
    ∃ s', runBody (src env user) std addr doc4 s = .ret .unit [] s' := by
  obtain ⟨h, hi, hb⟩ := h
  have hp : ptrRead _ (b.asPtr env) s1 = _ := hb.read
  have hr : ptrRead _ (b.intoRaw env) s1 = _ := hb.read
  simp [runBody, doc4, rs, tc_new, hs, h, hb.read, hp, hr, dropVal, M.log]

theorem run5 {s s1 : State} {b : TBox} (hw : ∀ x, (std.shape x).WF) (hv : ∀ x y, (std.shape x).Has (std.enc (std.shape x) y)) (hs : ∀ x, (std.shape x).size < 2 ^ 64)
    (h : Made env s (std.shape "usize") (std.enc (std.shape "usize") (.num 100)) (BitVec.ofNat env.cfg.discrBits 0) b s1) :
    ∃ s', runBody (src env user) std addr doc5 s = .ret .unit [] s' := by
  obtain ⟨h, hi, hb⟩ := h
  have hp : ptrRead _ (b.asPtr env) s1 = _ := hb.read
  have hm : ptrRead _ (b.asMutPtr env) s1 = _ := hb.read
  have ha := assign hb (std.enc (std.shape "usize") (.num 300))
  have H := (hb.log (hw "usize") (dropEvents (std.shape "usize") (std.enc (std.shape "usize") (.num 100)))).written (hw "usize") (hv "usize" (.num 300))
  have hr := H.read
  have hp' : ptrRead _ (b.asPtr env) _ = _ := H.read
  simp [runBody, doc5, rs, tc_new, hs, h, hb.read, hp, hm, ha, hr, hp', show b.intoInner env _ _ = _ from H.read]
  try simp [rs, dropVal, M.log]

theorem run6 {s s1 : State} {b : TBox} (hs : ∀ x, (std.shape x).size < 2 ^ 64)
    (h : Made env s (std.shape "usize") (std.enc (std.shape "usize") (.num 100)) (BitVec.ofNat env.cfg.discrBits 0) b s1) :
    ∃ s', runBody (src env user) std addr doc6 s = .ret .unit [] s' := by
  obtain ⟨h, hi, hb⟩ := h
  have hp : ptrRead _ (b.asPtr env) s1 = _ := hb.read
  have hr : ptrRead _ (b.intoRaw env) s1 = _ := hb.read
  simp [runBody, doc6, rs, tc_new, hs, h, hb.read, hp, hr, show b.intoInner env _ s1 = _ from hb.read, dropVal, M.log]

theorem run7 {s s1 : State} {b : TBox} (hs : ∀ x, (std.shape x).size < 2 ^ 64)
    (h : Made env s (std.shape "[u8; 10]") (std.enc (std.shape "[u8; 10]") (.nums [10, 10, 10, 10, 10, 10, 10, 10, 10, 10])) (BitVec.ofNat env.cfg.discrBits 8) b s1) :
    ∃ s', runBody (src env user) std addr doc7 s = .ret .unit [] s' := by
  obtain ⟨h, hi, hb⟩ := h
  have hp : ptrRead _ (b.asPtr env) s1 = _ := hb.read
  have hr : ptrRead _ (b.intoRaw env) s1 = _ := hb.read
  simp [runBody, doc7, rs, tc_new, hs, h, hb.read, hp, hr, dropVal, M.log]

theorem run8 {s s1 : State} {b : TBox} (hs : ∀ x, (std.shape x).size < 2 ^ 64)
    (h : Made env s (std.shape "[u8; 10]") (std.enc (std.shape "[u8; 10]") (.nums [10, 10, 10, 10, 10, 10, 10, 10, 10, 10])) (BitVec.ofNat env.cfg.discrBits 8) b s1) :
    ∃ s', runBody (src env user) std addr doc8 s = .ret .unit [] s' := by
  obtain ⟨h, hi, hb⟩ := h
  have hp : ptrRead _ (b.asPtr env) s1 = _ := hb.read
  have hr : ptrRead _ (b.intoRaw env) s1 = _ := hb.read
  simp [runBody, doc8, rs, tc_new, hs, h, hb.read, hp, hr, show (⟨(b.intoBox env).addr⟩ : RBox) = b.intoBox env from rfl, boxDrop_ret hb, dropVal, M.log]

theorem run9 {s s1 : State} {b : TBox} (hw : ∀ x, (std.shape x).WF) (ok : env.OK) (hd : BitVec.ofNat env.cfg.discrBits 10 ≤ env.cfg.MAX_DISCRIMINANT) (hs : ∀ x, (std.shape x).size < 2 ^ 64)
    (h : Made env s (std.shape "Vec<usize>") (std.enc (std.shape "Vec<usize>") (.nums [100, 200, 300])) (BitVec.ofNat env.cfg.discrBits 10) b s1) :
    ∃ s', runBody (src env user) std addr doc9 s = .ret .unit [] s' := by
  obtain ⟨h, hi, hb⟩ := h
  have hr : ptrRead _ (b.intoRaw env) s1 = _ := hb.read
  have H := hb.log (hw "Vec<usize>") (dropEvents (std.shape "Vec<usize>") (std.enc (std.shape "Vec<usize>") (.nums [100, 200, 300])))
  obtain ⟨b', e1, e2⟩ := Props.fromRaw_again ok hd H
  simp [runBody, doc9, rs, tc_new, hs, h, hr, e1, e2, dropVal, M.log]

theorem run10 {s s1 : State} {b : TBox} (hs : ∀ x, (std.shape x).size < 2 ^ 64)
    (h : Made env s (std.shape "i32") (std.enc (std.shape "i32") (.num 0)) (BitVec.ofNat env.cfg.discrBits 11) b s1) :
    ∃ s', runBody (src env user) std addr doc10 s = .ret .unit [] s' := by
  obtain ⟨h, hi, hb⟩ := h
  have hl := fun l => same_lit env (E := E) (BitVec.ofNat env.cfg.discrBits 11) 11 (by decide) l s1
  simp [runBody, doc10, rs, tc_new, hs, h, hl, hb.discr]

theorem run11 {s s1 : State} {b : TBox} (hs : ∀ x, (std.shape x).size < 2 ^ 64)
    (h : Made env s (std.shape "usize") (std.enc (std.shape "usize") (.num 100)) (BitVec.ofNat env.cfg.discrBits 0) b s1) :
    ∃ s', runBody (src env user) std addr doc11 s = .ret .unit [] s' := by
  obtain ⟨h, hi, hb⟩ := h
  have hp : ptrRead _ (b.asPtr env) s1 = _ := hb.read
  have hr : ptrRead _ (b.intoRaw env) s1 = _ := hb.read
  simp [runBody, doc11, rs, tc_new, hs, h, hb.read, hp, hr, dropVal, M.log]

theorem run12 {s s1 : State} {b : TBox} (hw : ∀ x, (std.shape x).WF) (hv : ∀ x y, (std.shape x).Has (std.enc (std.shape x) y)) (hs : ∀ x, (std.shape x).size < 2 ^ 64)
    (h : Made env s (std.shape "usize") (std.enc (std.shape "usize") (.num 100)) (BitVec.ofNat env.cfg.discrBits 0) b s1) :
    ∃ s', runBody (src env user) std addr doc12 s = .ret .unit [] s' := by
  obtain ⟨h, hi, hb⟩ := h
  have hp : ptrRead _ (b.asPtr env) s1 = _ := hb.read
  have hm : ptrRead _ (b.asMutPtr env) s1 = _ := hb.read
  have ha := assign hb (std.enc (std.shape "usize") (.num 100000))
  have H := (hb.log (hw "usize") (dropEvents (std.shape "usize") (std.enc (std.shape "usize") (.num 100)))).written (hw "usize") (hv "usize" (.num 100000))
  have hr := H.read
  have hp' : ptrRead _ (b.asPtr env) _ = _ := H.read
  simp [runBody, doc12, rs, tc_new, hs, h, hb.read, hp, hm, ha, hr, hp', show b.intoInner env _ _ = _ from H.read]
  try simp [rs, dropVal, M.log]

theorem fail0 {s s1 : State} {k : PanicKind} (hs : ∀ x, (std.shape x).size < 2 ^ 64)
    (h : TBox.new env (std.shape "String") (std.enc (std.shape "String") (.text "\"Foobar is a timeless classic\"")) (BitVec.ofNat env.cfg.discrBits 0) s = .panic k s1) :
    runBody (src env user) std addr doc0 s = .panic (panicMsg (BitVec.ofNat env.cfg.discrBits 0 : env.cfg.Discr) k) [] s1 := by
  simp [runBody, doc0, rs, tc_new, hs, h]

theorem fail1 {s s1 : State} {k : PanicKind} (hs : ∀ x, (std.shape x).size < 2 ^ 64)
    (h : TBox.new env (std.shape "String") (std.enc (std.shape "String") (.text "\"Foobar is a timeless classic\"")) (BitVec.ofNat env.cfg.discrBits 0) s = .panic k s1) :
    runBody (src env user) std addr doc1 s = .panic (panicMsg (BitVec.ofNat env.cfg.discrBits 0 : env.cfg.Discr) k) [] s1 := by
  simp [runBody, doc1, rs, tc_new, hs, h]

theorem fail4 {s s1 : State} {k : PanicKind} (hs : ∀ x, (std.shape x).size < 2 ^ 64)
    (h : TBox.new env (std.shape "usize") (std.enc (std.shape "usize") (.num 100)) (BitVec.ofNat env.cfg.discrBits 0) s = .panic k s1) :
    runBody (src env user) std addr doc4 s = .panic (panicMsg (BitVec.ofNat env.cfg.discrBits 0 : env.cfg.Discr) k) [] s1 := by
  simp [runBody, doc4, rs, tc_new, hs, h]

theorem fail5 {s s1 : State} {k : PanicKind} (hs : ∀ x, (std.shape x).size < 2 ^ 64)
    (h : TBox.new env (std.shape "usize") (std.enc (std.shape "usize") (.num 100)) (BitVec.ofNat env.cfg.discrBits 0) s = .panic k s1) :
    runBody (src env user) std addr doc5 s = .panic (panicMsg (BitVec.ofNat env.cfg.discrBits 0 : env.cfg.Discr) k) [] s1 := by
  simp [runBody, doc5, rs, tc_new, hs, h]

theorem fail6 {s s1 : State} {k : PanicKind} (hs : ∀ x, (std.shape x).size < 2 ^ 64)
    (h : TBox.new env (std.shape "usize") (std.enc (std.shape "usize") (.num 100)) (BitVec.ofNat env.cfg.discrBits 0) s = .panic k s1) :
    runBody (src env user) std addr doc6 s = .panic (panicMsg (BitVec.ofNat env.cfg.discrBits 0 : env.cfg.Discr) k) [] s1 := by
  simp [runBody, doc6, rs, tc_new, hs, h]

theorem fail7 {s s1 : State} {k : PanicKind} (hs : ∀ x, (std.shape x).size < 2 ^ 64)
    (h : TBox.new env (std.shape "[u8; 10]") (std.enc (std.shape "[u8; 10]") (.nums [10, 10, 10, 10, 10, 10, 10, 10, 10, 10])) (BitVec.ofNat env.cfg.discrBits 8) s = .panic k s1) :
    runBody (src env user) std addr doc7 s = .panic (panicMsg (BitVec.ofNat env.cfg.discrBits 8 : env.cfg.Discr) k) [] s1 := by
  simp [runBody, doc7, rs, tc_new, hs, h]

theorem fail8 {s s1 : State} {k : PanicKind} (hs : ∀ x, (std.shape x).size < 2 ^ 64)
    (h : TBox.new env (std.shape "[u8; 10]") (std.enc (std.shape "[u8; 10]") (.nums [10, 10, 10, 10, 10, 10, 10, 10, 10, 10])) (BitVec.ofNat env.cfg.discrBits 8) s = .panic k s1) :
    runBody (src env user) std addr doc8 s = .panic (panicMsg (BitVec.ofNat env.cfg.discrBits 8 : env.cfg.Discr) k) [] s1 := by
  simp [runBody, doc8, rs, tc_new, hs, h]

theorem fail9 {s s1 : State} {k : PanicKind} (hs : ∀ x, (std.shape x).size < 2 ^ 64)
    (h : TBox.new env (std.shape "Vec<usize>") (std.enc (std.shape "Vec<usize>") (.nums [100, 200, 300])) (BitVec.ofNat env.cfg.discrBits 10) s = .panic k s1) :
    runBody (src env user) std addr doc9 s = .panic (panicMsg (BitVec.ofNat env.cfg.discrBits 10 : env.cfg.Discr) k) [] s1 := by
  simp [runBody, doc9, rs, tc_new, hs, h]

theorem fail10 {s s1 : State} {k : PanicKind} (hs : ∀ x, (std.shape x).size < 2 ^ 64)
    (h : TBox.new env (std.shape "i32") (std.enc (std.shape "i32") (.num 0)) (BitVec.ofNat env.cfg.discrBits 11) s = .panic k s1) :
    runBody (src env user) std addr doc10 s = .panic (panicMsg (BitVec.ofNat env.cfg.discrBits 11 : env.cfg.Discr) k) [] s1 := by
  simp [runBody, doc10, rs, tc_new, hs, h]

theorem fail11 {s s1 : State} {k : PanicKind} (hs : ∀ x, (std.shape x).size < 2 ^ 64)
    (h : TBox.new env (std.shape "usize") (std.enc (std.shape "usize") (.num 100)) (BitVec.ofNat env.cfg.discrBits 0) s = .panic k s1) :
    runBody (src env user) std addr doc11 s = .panic (panicMsg (BitVec.ofNat env.cfg.discrBits 0 : env.cfg.Discr) k) [] s1 := by
  simp [runBody, doc11, rs, tc_new, hs, h]

theorem fail12 {s s1 : State} {k : PanicKind} (hs : ∀ x, (std.shape x).size < 2 ^ 64)
    (h : TBox.new env (std.shape "usize") (std.enc (std.shape "usize") (.num 100)) (BitVec.ofNat env.cfg.discrBits 0) s = .panic k s1) :
    runBody (src env user) std addr doc12 s = .panic (panicMsg (BitVec.ofNat env.cfg.discrBits 0 : env.cfg.Discr) k) [] s1 := by
  simp [runBody, doc12, rs, tc_new, hs, h]

/-- The discriminant is not 11. -/
theorem wrong10 {s s1 : State} {b : TBox} (hs : ∀ x, (std.shape x).size < 2 ^ 64)
    (h : TBox.new env (std.shape "i32") (std.enc (std.shape "i32") (.num 0)) (BitVec.ofNat env.cfg.discrBits 11) s = .ret b s1)
    (hd : b.discriminant env ≠ BitVec.ofNat env.cfg.discrBits 11) : runBody (src env user) std addr doc10 s = .panic notEqual [] s1 := by
  have hl := fun l => same_lit env (E := E) (b.discriminant env) 11 (by decide) l s1
  simp [runBody, doc10, rs, tc_new, hs, h, hl, hd]

/-! ### The tests -/

theorem parts_of {c : Config} (hc : c ∈ table) {p : BitVec 64} {d : c.Discr} (hp : p ≤ c.MAX_POINTER_VALUE) (hd : d ≤ c.MAX_DISCRIMINANT) :
    TPtr.stripDiscriminant c (TPtr.storeDiscriminant c p d) = p ∧ TPtr.fetchDiscriminant c (TPtr.storeDiscriminant c p d) = d := by
  obtain ⟨t, e, h1, h2, _⟩ := Props.C01_roundtrip c hc false p d hp hd
  simp [TPtr.new] at e
  subst e
  exact ⟨h2, h1⟩

theorem in_table : env.cfg ∈ table := InTable.mem

theorem div_d (m : env.cfg.Discr) (l : Locals E) (s : State) : divV (dV m) (.lit 2) l s = .ret (dV (m / BitVec.ofNat env.cfg.discrBits 2)) l s := by
  simp only [dV, divV, x_pure]
  congr 2
  have hb : env.cfg.discrBits = 8 ∨ env.cfg.discrBits = 16 := by rows <;> first | exact .inl rfl | exact .inr rfl
  have h1 : m.toNat < 2 ^ env.cfg.discrBits := m.isLt
  apply BitVec.eq_of_toNat_eq
  rw [BitVec.toNat_udiv, BitVec.toNat_setWidth, BitVec.toNat_setWidth, BitVec.toNat_udiv, BitVec.toNat_ofNat, BitVec.toNat_ofNat]
  have h2 : (2:Nat) ^ env.cfg.discrBits = 256 ∨ (2:Nat) ^ env.cfg.discrBits = 65536 := by rcases hb with h | h <;> rw [h] <;> simp
  have h3 : m.toNat < 65536 := by omega
  have h4 : 2 % 2 ^ env.cfg.discrBits = 2 := by rcases h2 with h | h <;> rw [h]
  have h5 : m.toNat / 2 < 2 ^ 64 := by omega
  rw [h4, Nat.mod_eq_of_lt (show m.toNat < 2 ^ 64 by omega), Nat.mod_eq_of_lt h5]

theorem key_ptr : ∀ c ∈ table, BitVec.ofNat 64 0xF00DBEEF ≤ c.MAX_POINTER_VALUE := by decide

variable (std addr) in
theorem test0 (s : State) : runBody (src env user) std addr test_utility_functions.body s = .ret .unit [] s := by
  have hp : (BitVec.ofNat 64 0xF00DBEEF) ≤ env.cfg.MAX_POINTER_VALUE := key_ptr _ in_table
  have hd : env.cfg.MAX_DISCRIMINANT / BitVec.ofNat env.cfg.discrBits 2 ≤ env.cfg.MAX_DISCRIMINANT := by
    rw [BitVec.le_def, BitVec.toNat_udiv]
    exact Nat.div_le_self _ _
  obtain ⟨h1, h2⟩ := parts_of (in_table (env := env)) hp hd
  have hn : ∀ l, tcall (src env user) "TaggedPointer" "new" [] none [.int .u64 (BitVec.ofNat 64 0xF00DBEEF), dV (env.cfg.MAX_DISCRIMINANT / BitVec.ofNat env.cfg.discrBits 2)] .unknown l s = _ :=
    fun l => (tp_new env user _ _ _ l s).trans (by rw [if_neg (fun h => h.2 hd), if_neg (fun h => h.2 hp)])
  simp [runBody, test_utility_functions, rs, div_d, hn, h1, h2]

end

end TB.Rust

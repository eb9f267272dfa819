import Verif.Rust.Values
import Verif.Lemmas.RsEval

/-! # Running `TaggedPointer`'s code (helper lemmas; no property theorems here) -/

set_option autoImplicit false

namespace TB.Rust

open TB TB.Rust.Code

variable {E : Type}

/-- The crate as its source text says. -/
abbrev src (env : Env) (user : User E) : Crate E := parts.crate env user

section
variable (env : Env) (user : User E)

@[rs] theorem find_ptr_new : findFn "TaggedPointer" "new" (src env user).fns = some ptr_new := rfl
@[rs] theorem find_ptr_dangling : findFn "TaggedPointer" "dangling" (src env user).fns = some ptr_dangling := rfl
@[rs] theorem find_ptr_discriminant : findFn "TaggedPointer" "discriminant" (src env user).fns = some ptr_discriminant := rfl
@[rs] theorem find_ptr_as_ref : findFn "TaggedPointer" "as_ref" (src env user).fns = some ptr_as_ref := rfl
@[rs] theorem find_ptr_as_mut_ref : findFn "TaggedPointer" "as_mut_ref" (src env user).fns = some ptr_as_mut_ref := rfl
@[rs] theorem find_ptr_as_u64 : findFn "TaggedPointer" "as_u64" (src env user).fns = some ptr_as_u64 := rfl
@[rs] theorem find_ptr_as_raw_u64 : findFn "TaggedPointer" "as_raw_u64" (src env user).fns = some ptr_as_raw_u64 := rfl
@[rs] theorem find_ptr_as_ptr : findFn "TaggedPointer" "as_ptr" (src env user).fns = some ptr_as_ptr := rfl
@[rs] theorem find_ptr_as_mut_ptr : findFn "TaggedPointer" "as_mut_ptr" (src env user).fns = some ptr_as_mut_ptr := rfl
@[rs] theorem find_ptr_store_discriminant : findFn "TaggedPointer" "store_discriminant" (src env user).fns = some ptr_store_discriminant := rfl
@[rs] theorem find_ptr_fetch_discriminant : findFn "TaggedPointer" "fetch_discriminant" (src env user).fns = some ptr_fetch_discriminant := rfl
@[rs] theorem find_ptr_strip_discriminant : findFn "TaggedPointer" "strip_discriminant" (src env user).fns = some ptr_strip_discriminant := rfl
@[rs] theorem find_box_new : findFn "TaggedBox" "new" (src env user).fns = some box_new := rfl
@[rs] theorem find_box_new_unchecked : findFn "TaggedBox" "new_unchecked" (src env user).fns = some box_new_unchecked := rfl
@[rs] theorem find_box_dangling : findFn "TaggedBox" "dangling" (src env user).fns = some box_dangling := rfl
@[rs] theorem find_box_as_ref : findFn "TaggedBox" "as_ref" (src env user).fns = some box_as_ref := rfl
@[rs] theorem find_box_as_mut_ref : findFn "TaggedBox" "as_mut_ref" (src env user).fns = some box_as_mut_ref := rfl
@[rs] theorem find_box_into_inner : findFn "TaggedBox" "into_inner" (src env user).fns = some box_into_inner := rfl
@[rs] theorem find_box_into_raw : findFn "TaggedBox" "into_raw" (src env user).fns = some box_into_raw := rfl
@[rs] theorem find_box_into_box : findFn "TaggedBox" "into_box" (src env user).fns = some box_into_box := rfl
@[rs] theorem find_box_from_raw : findFn "TaggedBox" "from_raw" (src env user).fns = some box_from_raw := rfl
@[rs] theorem find_box_discriminant : findFn "TaggedBox" "discriminant" (src env user).fns = some box_discriminant := rfl
@[rs] theorem find_box_as_ptr : findFn "TaggedBox" "as_ptr" (src env user).fns = some box_as_ptr := rfl
@[rs] theorem find_box_as_mut_ptr : findFn "TaggedBox" "as_mut_ptr" (src env user).fns = some box_as_mut_ptr := rfl
@[rs] theorem find_box_as_u64 : findFn "TaggedBox" "as_u64" (src env user).fns = some box_as_u64 := rfl
@[rs] theorem find_Layout_new : findFn "Layout" "new" (src env user).fns = none := rfl
@[rs] theorem find_mem_size_of : findFn "mem" "size_of" (src env user).fns = none := rfl
@[rs] theorem find_mem_align_of : findFn "mem" "align_of" (src env user).fns = none := rfl
@[rs] theorem find_alloc_alloc : findFn "alloc" "alloc" (src env user).fns = none := rfl
@[rs] theorem find_ManuallyDrop_new : findFn "ManuallyDrop" "new" (src env user).fns = none := rfl
@[rs] theorem find_Box_from_raw : findFn "Box" "from_raw" (src env user).fns = none := rfl
@[rs] theorem find__Some : findFn "" "Some" (src env user).fns = none := rfl
@[rs] theorem find__read : findFn "" "read" (src env user).fns = none := rfl
@[rs] theorem find__write : findFn "" "write" (src env user).fns = none := rfl
@[rs] theorem find_None_expect : findFn "None" "expect" (src env user).fns = none := rfl
@[rs] theorem find_Some_expect : findFn "Some" "expect" (src env user).fns = none := rfl
@[rs] theorem find__clone : findFn "" "clone" (src env user).fns = none := rfl
@[rs] theorem find__into_tagged_box : findFn "" "into_tagged_box" (src env user).fns = none := rfl
@[rs] theorem find__partial_cmp : findFn "" "partial_cmp" (src env user).fns = none := rfl
@[rs] theorem find__cmp : findFn "" "cmp" (src env user).fns = none := rfl
@[rs] theorem find_LowerHex_fmt : findFn "LowerHex" "fmt" (src env user).fns = none := rfl
@[rs] theorem find_UpperHex_fmt : findFn "UpperHex" "fmt" (src env user).fns = none := rfl
@[rs] theorem find_Octal_fmt : findFn "Octal" "fmt" (src env user).fns = none := rfl
@[rs] theorem find_Binary_fmt : findFn "Binary" "fmt" (src env user).fns = none := rfl
@[rs] theorem find_Pointer_fmt : findFn "Pointer" "fmt" (src env user).fns = none := rfl
@[rs] theorem find__Ok : findFn "" "Ok" (src env user).fns = none := rfl
@[rs] theorem find__debug_struct : findFn "" "debug_struct" (src env user).fns = none := rfl
@[rs] theorem find__field : findFn "" "field" (src env user).fns = none := rfl
@[rs] theorem find__finish : findFn "" "finish" (src env user).fns = none := rfl

@[rs] theorem structs_ptr : lookup "TaggedPointer" (src env user).structs = some [("tagged_ptr", .path [("u64", [])])] := rfl
@[rs] theorem structs_box : lookup "TaggedBox" (src env user).structs =
    some [("boxed", .path [("TaggedPointer", [])]), ("_type", .path [("PhantomData", [.path [("T", [])]])])] := rfl
@[rs] theorem src_env : (src env user).env = env := rfl
@[rs] theorem src_user : (src env user).user = user := rfl
@[rs] theorem drop_ptr : dropImpl (src env user) "TaggedPointer" = false := rfl
@[rs] theorem drop_box : dropImpl (src env user) "TaggedBox" = false := rfl
@[rs] theorem drop_phantom : dropImpl (src env user) "PhantomData" = false := rfl
@[rs] theorem drop_some : dropImpl (src env user) "Some" = false := rfl
@[rs] theorem drop_none : dropImpl (src env user) "None" = false := rfl

set_option linter.unusedSectionVars false
set_option linter.unusedSimpArgs false

/-- The setting is one of the table. -/
class InTable (env : Env) : Prop where
  mem : env.cfg ∈ table

set_option hygiene false in
/-- One case for each setting. -/
macro "rows" : tactic => `(tactic| (
  have h := InTable.mem (env := env)
  rcases env with ⟨cfg, _, _, _⟩
  simp only [table, List.mem_cons, List.not_mem_nil, or_false] at h
  rcases h with rfl | rfl | rfl | rfl | rfl | rfl | rfl | rfl | rfl | rfl | rfl | rfl | rfl | rfl | rfl | rfl))

variable [InTable env]

@[rs ↓] theorem const_width (n : Nat) (l : Locals E) (s : State) :
    evConst (src env user) (n + 5) "POINTER_WIDTH" l s = .ret (.int .u64 (BitVec.ofNat 64 env.cfg.ptrWidth)) l s := by
  rows <;> rfl
@[rs ↓] theorem const_mask (n : Nat) (l : Locals E) (s : State) :
    evConst (src env user) (n + 5) "DISCRIMINANT_MASK" l s = .ret (.int .u64 env.cfg.DISCRIMINANT_MASK) l s := by
  rows <;> rfl
@[rs ↓] theorem const_maxPtr (n : Nat) (l : Locals E) (s : State) :
    evConst (src env user) (n + 5) "MAX_POINTER_VALUE" l s = .ret (.int .u64 env.cfg.MAX_POINTER_VALUE) l s := by
  rows <;> rfl
@[rs ↓] theorem const_maxDiscr (n : Nat) (l : Locals E) (s : State) :
    evConst (src env user) (n + 5) "MAX_DISCRIMINANT" l s = .ret (dV env.cfg.MAX_DISCRIMINANT) l s := by
  rows <;> rfl
@[rs ↓] theorem const_bits (n : Nat) (l : Locals E) (s : State) :
    evConst (src env user) (n + 5) "DISCRIMINANT_BITS" l s = .ret (.int .u64 (BitVec.ofNat 64 env.cfg.freeBits)) l s := by
  rows <;> rfl
@[rs ↓] theorem const_PhantomData (n : Nat) (l : Locals E) (s : State) : evConst (src env user) (n + 1) "PhantomData" l s = .ret (.struct "PhantomData" []) l s := by
  rows <;> rfl
@[rs ↓] theorem const_None (n : Nat) (l : Locals E) (s : State) : evConst (src env user) (n + 1) "None" l s = .ret (noneV) l s := by
  rows <;> rfl
@[rs ↓] theorem const_false (n : Nat) (l : Locals E) (s : State) : evConst (src env user) (n + 1) "false" l s = .ret (.bool false) l s := by
  rows <;> rfl
@[rs ↓] theorem const_true (n : Nat) (l : Locals E) (s : State) : evConst (src env user) (n + 1) "true" l s = .ret (.bool true) l s := by
  rows <;> rfl

theorem types (x : String) : lookup x (src env user).types =
    if x = "Discriminant" then some (.user (.named (if env.cfg.discrBits = 8 then "u8" else "u16"))) else none := by
  rows <;> rfl

@[rs] theorem ty_discr (n : Nat) (fr : Frame) :
    rty (src env user) (n + 2) fr (.path [("Discriminant", [])]) = (lookup "Discriminant" fr.generics).getD (.int (discrTy env.cfg)) := by
  rw [rty]
  simp only [List.getLast?_singleton, types env user, primTy]
  unfold discrTy
  cases lookup "Discriminant" fr.generics <;> simp
  split <;> simp [rty, primTy]

theorem ty_named (x : String) (n : Nat) (fr : Frame) (as : List RTy) (hx : x ≠ "Self" ∧ primTy x = none ∧ x ≠ "Discriminant") :
    rty (src env user) (n + 1) fr (.path [(x, as)]) = (lookup x fr.generics).getD (.named x (as.map (rty (src env user) n fr))) := by
  simp [rty, hx.1, hx.2.1, types env user, hx.2.2]; cases lookup x fr.generics <;> rfl
theorem ty_named2 (x y : String) (n : Nat) (fr : Frame) (ys as : List RTy) (hx : x ≠ "Self" ∧ primTy x = none ∧ x ≠ "Discriminant") :
    rty (src env user) (n + 1) fr (.path [(y, ys), (x, as)]) = (lookup x fr.generics).getD (.named x (as.map (rty (src env user) n fr))) := by
  simp [rty, hx.1, hx.2.1, types env user, hx.2.2]; cases lookup x fr.generics <;> rfl
theorem ty_named3 (x y z : String) (n : Nat) (fr : Frame) (ys zs as : List RTy) (hx : x ≠ "Self" ∧ primTy x = none ∧ x ≠ "Discriminant") :
    rty (src env user) (n + 1) fr (.path [(y, ys), (z, zs), (x, as)]) = (lookup x fr.generics).getD (.named x (as.map (rty (src env user) n fr))) := by
  simp [rty, hx.1, hx.2.1, types env user, hx.2.2]; cases lookup x fr.generics <;> rfl
@[rs] theorem ty_TaggedPointer (n : Nat) (fr : Frame) (as : List RTy) :
    rty (src env user) (n + 1) fr (.path [("TaggedPointer", as)]) = (lookup "TaggedPointer" fr.generics).getD (.named "TaggedPointer" (as.map (rty (src env user) n fr))) := ty_named env user _ n fr as (by decide)
@[rs] theorem ty_TaggedBox (n : Nat) (fr : Frame) (as : List RTy) :
    rty (src env user) (n + 1) fr (.path [("TaggedBox", as)]) = (lookup "TaggedBox" fr.generics).getD (.named "TaggedBox" (as.map (rty (src env user) n fr))) := ty_named env user _ n fr as (by decide)
@[rs] theorem ty_PhantomData (n : Nat) (fr : Frame) (as : List RTy) :
    rty (src env user) (n + 1) fr (.path [("PhantomData", as)]) = (lookup "PhantomData" fr.generics).getD (.named "PhantomData" (as.map (rty (src env user) n fr))) := ty_named env user _ n fr as (by decide)
@[rs] theorem ty_Layout (n : Nat) (fr : Frame) (as : List RTy) :
    rty (src env user) (n + 1) fr (.path [("Layout", as)]) = (lookup "Layout" fr.generics).getD (.named "Layout" (as.map (rty (src env user) n fr))) := ty_named env user _ n fr as (by decide)
@[rs] theorem ty_Box (n : Nat) (fr : Frame) (as : List RTy) :
    rty (src env user) (n + 1) fr (.path [("Box", as)]) = (lookup "Box" fr.generics).getD (.named "Box" (as.map (rty (src env user) n fr))) := ty_named env user _ n fr as (by decide)
@[rs] theorem ty_ManuallyDrop (n : Nat) (fr : Frame) (as : List RTy) :
    rty (src env user) (n + 1) fr (.path [("ManuallyDrop", as)]) = (lookup "ManuallyDrop" fr.generics).getD (.named "ManuallyDrop" (as.map (rty (src env user) n fr))) := ty_named env user _ n fr as (by decide)
@[rs] theorem ty_mem (n : Nat) (fr : Frame) (as : List RTy) :
    rty (src env user) (n + 1) fr (.path [("mem", as)]) = (lookup "mem" fr.generics).getD (.named "mem" (as.map (rty (src env user) n fr))) := ty_named env user _ n fr as (by decide)
@[rs] theorem ty_alloc (n : Nat) (fr : Frame) (as : List RTy) :
    rty (src env user) (n + 1) fr (.path [("alloc", as)]) = (lookup "alloc" fr.generics).getD (.named "alloc" (as.map (rty (src env user) n fr))) := ty_named env user _ n fr as (by decide)
@[rs] theorem ty_T (n : Nat) (fr : Frame) (as : List RTy) :
    rty (src env user) (n + 1) fr (.path [("T", as)]) = (lookup "T" fr.generics).getD (.named "T" (as.map (rty (src env user) n fr))) := ty_named env user _ n fr as (by decide)
@[rs] theorem ty_U (n : Nat) (fr : Frame) (as : List RTy) :
    rty (src env user) (n + 1) fr (.path [("U", as)]) = (lookup "U" fr.generics).getD (.named "U" (as.map (rty (src env user) n fr))) := ty_named env user _ n fr as (by decide)
@[rs] theorem ty_Ordering (n : Nat) (fr : Frame) (as : List RTy) :
    rty (src env user) (n + 1) fr (.path [("Ordering", as)]) = (lookup "Ordering" fr.generics).getD (.named "Ordering" (as.map (rty (src env user) n fr))) := ty_named env user _ n fr as (by decide)
@[rs] theorem ty_Result (n : Nat) (fr : Frame) (as : List RTy) :
    rty (src env user) (n + 1) fr (.path [("Result", as)]) = (lookup "Result" fr.generics).getD (.named "Result" (as.map (rty (src env user) n fr))) := ty_named env user _ n fr as (by decide)
@[rs] theorem ty_LowerHex (n : Nat) (fr : Frame) (as : List RTy) :
    rty (src env user) (n + 1) fr (.path [("LowerHex", as)]) = (lookup "LowerHex" fr.generics).getD (.named "LowerHex" (as.map (rty (src env user) n fr))) :=
  ty_named env user _ n fr as (by decide)
@[rs] theorem ty_UpperHex (n : Nat) (fr : Frame) (as : List RTy) :
    rty (src env user) (n + 1) fr (.path [("UpperHex", as)]) = (lookup "UpperHex" fr.generics).getD (.named "UpperHex" (as.map (rty (src env user) n fr))) :=
  ty_named env user _ n fr as (by decide)
@[rs] theorem ty_Octal (n : Nat) (fr : Frame) (as : List RTy) :
    rty (src env user) (n + 1) fr (.path [("Octal", as)]) = (lookup "Octal" fr.generics).getD (.named "Octal" (as.map (rty (src env user) n fr))) :=
  ty_named env user _ n fr as (by decide)
@[rs] theorem ty_Binary (n : Nat) (fr : Frame) (as : List RTy) :
    rty (src env user) (n + 1) fr (.path [("Binary", as)]) = (lookup "Binary" fr.generics).getD (.named "Binary" (as.map (rty (src env user) n fr))) :=
  ty_named env user _ n fr as (by decide)
@[rs] theorem ty_Pointer (n : Nat) (fr : Frame) (as : List RTy) :
    rty (src env user) (n + 1) fr (.path [("Pointer", as)]) = (lookup "Pointer" fr.generics).getD (.named "Pointer" (as.map (rty (src env user) n fr))) :=
  ty_named env user _ n fr as (by decide)

@[rs] theorem ty_Box3 (n : Nat) (fr : Frame) (ys zs as : List RTy) :
    rty (src env user) (n + 1) fr (.path [("alloc", ys), ("boxed", zs), ("Box", as)]) =
      (lookup "Box" fr.generics).getD (.named "Box" (as.map (rty (src env user) n fr))) := ty_named3 env user _ _ _ n fr _ _ as (by decide)

theorem width_lt : (BitVec.ofNat 64 env.cfg.ptrWidth).toNat < 64 := by
  rows <;> simp
@[rs] theorem width_toNat : env.cfg.ptrWidth % 18446744073709551616 = env.cfg.ptrWidth := by
  rows <;> simp
@[rs high] theorem shl_width (a : BitVec 64) (l : Locals E) (s : State) :
    binOpV (src env user) .shl (.int .u64 a) (.int .u64 (BitVec.ofNat 64 env.cfg.ptrWidth)) l s = .ret (.int .u64 (a <<< env.cfg.ptrWidth)) l s := by
  rw [binOp_shl _ _ _ _ _ _ (width_lt env)]; simp [width_toNat env]
@[rs high] theorem shr_width (a : BitVec 64) (l : Locals E) (s : State) :
    binOpV (src env user) .shr (.int .u64 a) (.int .u64 (BitVec.ofNat 64 env.cfg.ptrWidth)) l s = .ret (.int .u64 (a >>> env.cfg.ptrWidth)) l s := by
  rw [binOp_shr _ _ _ _ _ _ (width_lt env)]; simp [width_toNat env]
@[rs high] theorem add_width (l : Locals E) (s : State) :
    binOpV (src env user) .add (.int .u64 (BitVec.ofNat 64 env.cfg.ptrWidth)) (.lit 1) l s =
      .ret (.int .u64 (BitVec.ofNat 64 (env.cfg.ptrWidth + 1))) l s := by
  rw [binOp_addLit]
  · rw [BitVec.ofNat_add]
  · have := width_lt env
    simp only [BitVec.toNat_ofNat] at *
    omega
@[rs] theorem wrap_discr (v : BitVec 64) :
    wrap env.ptrBits (discrTy env.cfg) v = (v.setWidth env.cfg.discrBits).setWidth 64 := by
  rows <;> rfl
theorem discr_le (a b : env.cfg.Discr) : (a.setWidth 64 : BitVec 64) ≤ b.setWidth 64 ↔ a ≤ b := by
  have : env.cfg.discrBits ≤ 64 := by rows <;> simp
  simp only [BitVec.le_def, BitVec.toNat_setWidth]
  rw [Nat.mod_eq_of_lt, Nat.mod_eq_of_lt]
  · exact Nat.lt_of_lt_of_le b.isLt (Nat.pow_le_pow_right (by decide) this)
  · exact Nat.lt_of_lt_of_le a.isLt (Nat.pow_le_pow_right (by decide) this)
@[rs high] theorem peel_d (d : env.cfg.Discr) : (dV d : V E).peel = dV d := rfl
@[rs high] theorem drop_d (d : env.cfg.Discr) (l : Locals E) (s : State) : dropV (src env user) (dV d : V E) l s = .ret () l s := rfl
@[rs high] theorem copies_d (d : env.cfg.Discr) : (dV d : V E).copies = true := rfl
@[rs high] theorem coerce_d (pb : Nat) (t : RT) (d : env.cfg.Discr) : coerce pb t (dV d : V E) = dV d := by
  cases t <;> simp only [coerce, dV]
@[rs high] theorem binOp_d (a b : env.cfg.Discr) (l : Locals E) (s : State) :
    binOpV (src env user) .le (dV a) (dV b) l s = .ret (.bool (decide (a ≤ b))) l s := by
  simp only [dV, binOp_le, discr_le]
@[rs high] theorem cast_d (d : env.cfg.Discr) (l : Locals E) (s : State) :
    castV (src env user) (.int .u64) (dV d) l s = .ret (.int .u64 (d.setWidth 64)) l s := by
  simp only [dV, cast_int_int, wrap_u64]
@[rs high] theorem cast_to_d (v : BitVec 64) (l : Locals E) (s : State) :
    castV (src env user) (.int (discrTy env.cfg)) (.int .u64 v) l s = .ret (dV (v.setWidth env.cfg.discrBits : env.cfg.Discr)) l s := by
  simp only [dV, cast_int_int, src_env, wrap_discr env]

@[rs ↓] theorem store (n : Nat) (p : BitVec 64) (d : env.cfg.Discr) (exp : RT) (l : Locals E) (s : State) :
    callFn (src env user) (n + 20) ptr_store_discriminant "TaggedPointer" [] none [.int .u64 p, dV d] exp l s =
      .ret (.int .u64 (TPtr.storeDiscriminant env.cfg p d)) l s := by
  simp [callFn_eq, ptr_store_discriminant, rs, TPtr.storeDiscriminant, Config.POINTER_WIDTH]

@[rs ↓] theorem fetch (n : Nat) (p : BitVec 64) (exp : RT) (l : Locals E) (s : State) :
    callFn (src env user) (n + 20) ptr_fetch_discriminant "TaggedPointer" [] none [.int .u64 p] exp l s =
      .ret (dV (TPtr.fetchDiscriminant env.cfg p)) l s := by
  simp [callFn_eq, ptr_fetch_discriminant, rs, TPtr.fetchDiscriminant, Config.POINTER_WIDTH]

@[rs ↓] theorem strip (n : Nat) (p : BitVec 64) (exp : RT) (l : Locals E) (s : State) :
    callFn (src env user) (n + 20) ptr_strip_discriminant "TaggedPointer" [] none [.int .u64 p] exp l s =
      .ret (.int .u64 (TPtr.stripDiscriminant env.cfg p)) l s := by
  simp [callFn_eq, ptr_strip_discriminant, rs, TPtr.stripDiscriminant]

@[rs ↓] theorem discriminant (n : Nat) (p : TPtr) (exp : RT) (l : Locals E) (s : State) :
    callFn (src env user) (n + 40) ptr_discriminant "TaggedPointer" [] (some (ptrV p)) [] exp l s = .ret (dV (p.discriminant env.cfg)) l s := by
  simp [callFn_eq, ptr_discriminant, rs, ptrV, TPtr.discriminant]

@[rs ↓] theorem asU64 (n : Nat) (p : TPtr) (exp : RT) (l : Locals E) (s : State) :
    callFn (src env user) (n + 40) ptr_as_u64 "TaggedPointer" [] (some (ptrV p)) [] exp l s = .ret (.int .u64 (p.asU64 env.cfg)) l s := by
  simp [callFn_eq, ptr_as_u64, rs, ptrV, TPtr.asU64]

@[rs ↓] theorem asRawU64 (n : Nat) (p : TPtr) (exp : RT) (l : Locals E) (s : State) :
    callFn (src env user) (n + 40) ptr_as_raw_u64 "TaggedPointer" [] (some (ptrV p)) [] exp l s = .ret (.int .u64 p.raw) l s := by
  simp [callFn_eq, ptr_as_raw_u64, rs, ptrV]

@[rs ↓] theorem asPtr (n : Nat) (p : TPtr) (t : RT) (exp : RT) (l : Locals E) (s : State) :
    callFn (src env user) (n + 40) ptr_as_ptr "TaggedPointer" [t] (some (ptrV p)) [] exp l s =
      .ret (.ptr t (p.asPtr env.cfg env.ptrBits)) l s := by
  simp [callFn_eq, ptr_as_ptr, rs, ptrV, TPtr.asPtr]

/-! ### `TaggedPointer`s as values -/

@[rs high] theorem peel_ptrV (p : TPtr) : (ptrV p : V E).peel = ptrV p := rfl
@[rs high] theorem tyName_ptrV (p : TPtr) : (ptrV p : V E).tyName = "TaggedPointer" := rfl
@[rs high] theorem copies_ptrV (p : TPtr) : (ptrV p : V E).copies = false := rfl
@[rs high] theorem drop_ptrV (p : TPtr) (l : Locals E) (s : State) : dropV (src env user) (ptrV p) l s = .ret () l s := rfl
@[rs high] theorem coerce_ptrV (pb : Nat) (t : RT) (p : TPtr) : coerce pb t (ptrV p : V E) = ptrV p := by
  simp only [ptrV, coerce_struct]

@[rs ↓] theorem asMutPtr (n : Nat) (p : TPtr) (t : RT) (exp : RT) (l : Locals E) (s : State) :
    callFn (src env user) (n + 40) ptr_as_mut_ptr "TaggedPointer" [t] (some (ptrV p)) [] exp l s =
      .ret (.ptr t (p.asMutPtr env.cfg env.ptrBits)) l s := by
  simp [callFn_eq, ptr_as_mut_ptr, rs, ptrV, TPtr.asMutPtr]

/-- Without generic arguments they are found from the type expected. -/
@[rs ↓] theorem asPtr' (n : Nat) (p : TPtr) (t : RT) (l : Locals E) (s : State) :
    callFn (src env user) (n + 40) ptr_as_ptr "TaggedPointer" [] (some (ptrV p)) [] (.ptr t) l s =
      .ret (.ptr t (p.asPtr env.cfg env.ptrBits)) l s := by
  cases t <;> simp [callFn_eq, ptr_as_ptr, rs, ptrV, TPtr.asPtr]
@[rs ↓] theorem asMutPtr' (n : Nat) (p : TPtr) (t : RT) (l : Locals E) (s : State) :
    callFn (src env user) (n + 40) ptr_as_mut_ptr "TaggedPointer" [] (some (ptrV p)) [] (.ptr t) l s =
      .ret (.ptr t (p.asMutPtr env.cfg env.ptrBits)) l s := by
  cases t <;> simp [callFn_eq, ptr_as_mut_ptr, rs, ptrV, TPtr.asMutPtr]
/-- If nothing is expected the type stays open. -/
@[rs ↓] theorem asPtr_open (n : Nat) (p : TPtr) (l : Locals E) (s : State) :
    callFn (src env user) (n + 40) ptr_as_ptr "TaggedPointer" [] (some (ptrV p)) [] .unknown l s =
      .ret (.ptr .unknown (p.asPtr env.cfg env.ptrBits)) l s := by
  simp [callFn_eq, ptr_as_ptr, rs, ptrV, TPtr.asPtr]
@[rs ↓] theorem asMutPtr_open (n : Nat) (p : TPtr) (l : Locals E) (s : State) :
    callFn (src env user) (n + 40) ptr_as_mut_ptr "TaggedPointer" [] (some (ptrV p)) [] .unknown l s =
      .ret (.ptr .unknown (p.asMutPtr env.cfg env.ptrBits)) l s := by
  simp [callFn_eq, ptr_as_mut_ptr, rs, ptrV, TPtr.asMutPtr]

@[rs ↓] theorem asRef (n : Nat) (p : TPtr) (sh : Shape) (exp : RT) (l : Locals E) (s : State) :
    callFn (src env user) (n + 40) ptr_as_ref "TaggedPointer" [.opaque sh] (some (ptrV p)) [] exp l s =
      match ptrRead sh (p.asPtr env.cfg env.ptrBits) s with
      | .ret _ s' => .ret (.ref (.opaque sh) (p.asPtr env.cfg env.ptrBits)) l s'
      | .panic k s' => .panic (.kind k) l s'
      | .ub k => .ub k := by
  simp only [TPtr.asPtr]
  cases h : ptrRead sh (BitVec.setWidth env.ptrBits (TPtr.stripDiscriminant env.cfg p.raw)).toNat s <;>
    simp [callFn_eq, ptr_as_ref, rs, ptrV, h, -BitVec.toNat_setWidth]

@[rs ↓] theorem asRef' (n : Nat) (p : TPtr) (sh : Shape) (l : Locals E) (s : State) :
    callFn (src env user) (n + 40) ptr_as_ref "TaggedPointer" [] (some (ptrV p)) [] (.ref (.opaque sh)) l s =
      match ptrRead sh (p.asPtr env.cfg env.ptrBits) s with
      | .ret _ s' => .ret (.ref (.opaque sh) (p.asPtr env.cfg env.ptrBits)) l s'
      | .panic k s' => .panic (.kind k) l s'
      | .ub k => .ub k := by
  simp only [TPtr.asPtr]
  cases h : ptrRead sh (BitVec.setWidth env.ptrBits (TPtr.stripDiscriminant env.cfg p.raw)).toNat s <;>
    simp [callFn_eq, ptr_as_ref, rs, ptrV, h, -BitVec.toNat_setWidth]

@[rs ↓] theorem asMutRef (n : Nat) (p : TPtr) (sh : Shape) (exp : RT) (l : Locals E) (s : State) :
    callFn (src env user) (n + 40) ptr_as_mut_ref "TaggedPointer" [.opaque sh] (some (ptrV p)) [] exp l s =
      match ptrRead sh (p.asMutPtr env.cfg env.ptrBits) s with
      | .ret _ s' => .ret (.ref (.opaque sh) (p.asMutPtr env.cfg env.ptrBits)) l s'
      | .panic k s' => .panic (.kind k) l s'
      | .ub k => .ub k := by
  simp only [TPtr.asMutPtr]
  cases h : ptrRead sh (BitVec.setWidth env.ptrBits (TPtr.stripDiscriminant env.cfg p.raw)).toNat s <;>
    simp [callFn_eq, ptr_as_mut_ref, rs, ptrV, h, -BitVec.toNat_setWidth]

@[rs ↓] theorem asMutRef' (n : Nat) (p : TPtr) (sh : Shape) (l : Locals E) (s : State) :
    callFn (src env user) (n + 40) ptr_as_mut_ref "TaggedPointer" [] (some (ptrV p)) [] (.ref (.opaque sh)) l s =
      match ptrRead sh (p.asMutPtr env.cfg env.ptrBits) s with
      | .ret _ s' => .ret (.ref (.opaque sh) (p.asMutPtr env.cfg env.ptrBits)) l s'
      | .panic k s' => .panic (.kind k) l s'
      | .ub k => .ub k := by
  simp only [TPtr.asMutPtr]
  cases h : ptrRead sh (BitVec.setWidth env.ptrBits (TPtr.stripDiscriminant env.cfg p.raw)).toNat s <;>
    simp [callFn_eq, ptr_as_mut_ref, rs, ptrV, h, -BitVec.toNat_setWidth]

@[rs ↓] theorem dangling (n : Nat) (sh : Shape) (d : env.cfg.Discr) (exp : RT) (l : Locals E) (s : State) :
    callFn (src env user) (n + 40) ptr_dangling "TaggedPointer" [.opaque sh] none [dV d] exp l s =
      .ret (ptrV (TPtr.dangling env.cfg sh.align d)) l s := by
  simp [callFn_eq, ptr_dangling, rs, ptrV, TPtr.dangling, libFn]

theorem new (n : Nat) (p : BitVec 64) (d : env.cfg.Discr) (exp : RT) (l : Locals E) (s : State) :
    callFn (src env user) (n + 40) ptr_new "TaggedPointer" [] none [.int .u64 p, dV d] exp l s =
      if env.debug = true ∧ ¬ d ≤ env.cfg.MAX_DISCRIMINANT then
        .panic (.text "\"Attempted to store a discriminant of {} while the max value is {}\"" [dV d, dV env.cfg.MAX_DISCRIMINANT]) l s
      else if env.debug = true ∧ ¬ p ≤ env.cfg.MAX_POINTER_VALUE then
        .panic (.text newPtrMsg [.int .u64 (BitVec.ofNat 64 env.cfg.ptrWidth), .int .u64 (BitVec.ofNat 64 (env.cfg.ptrWidth + 1))]) l s
      else .ret (ptrV ⟨TPtr.storeDiscriminant env.cfg p d⟩) l s := by
  by_cases hd : env.debug = true <;> by_cases h1 : d ≤ env.cfg.MAX_DISCRIMINANT <;>
    by_cases h2 : p ≤ env.cfg.MAX_POINTER_VALUE <;>
    simp [callFn_eq, ptr_new, rs, ptrV, hd, h1, h2, newPtrMsg]

end

end TB.Rust

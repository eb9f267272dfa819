import Verif.Rust.Crate

/-!
# The crate's functions as syntax trees

Written out (by `scripts/gen_code.py`) so that proofs can refer to them; `source_parts` checks, by computation in the kernel, that they are what the
lexer, the macro engine and the parser make of the text of the files.
-/

set_option autoImplicit false

namespace TB.Rust.Code

open TB.Mbe TB.Macro TB.Rust

/-- The modules `variables`. `src/discriminant.rs:31-88` -/
def rows : List (String × List (String × RTy) × List (String × RTy × Expr)) := [
  ("tagged_box_reserve_63bits", [("Discriminant", (.user (.named "u8")))],
    [("MAX_DISCRIMINANT", (.path [("Discriminant", [])]), (.lit "1")),
     ("MAX_POINTER_VALUE", (.path [("u64", [])]), (.bin .shr (.call (.path [("u64", []), ("max_value", [])]) []) (.lit "1"))),
     ("POINTER_WIDTH", (.path [("u64", [])]), (.lit "63")),
     ("DISCRIMINANT_MASK", (.path [("u64", [])]), (.bin .shr (.call (.path [("u64", []), ("max_value", [])]) []) (.lit "1"))),
     ("DISCRIMINANT_BITS", (.path [("u64", [])]), (.lit "1"))]),
  ("tagged_box_reserve_62bits", [("Discriminant", (.user (.named "u8")))],
    [("MAX_DISCRIMINANT", (.path [("Discriminant", [])]), (.lit "3")),
     ("MAX_POINTER_VALUE", (.path [("u64", [])]), (.bin .shr (.call (.path [("u64", []), ("max_value", [])]) []) (.lit "2"))),
     ("POINTER_WIDTH", (.path [("u64", [])]), (.lit "62")),
     ("DISCRIMINANT_MASK", (.path [("u64", [])]), (.bin .shr (.call (.path [("u64", []), ("max_value", [])]) []) (.lit "2"))),
     ("DISCRIMINANT_BITS", (.path [("u64", [])]), (.lit "2"))]),
  ("tagged_box_reserve_61bits", [("Discriminant", (.user (.named "u8")))],
    [("MAX_DISCRIMINANT", (.path [("Discriminant", [])]), (.lit "7")),
     ("MAX_POINTER_VALUE", (.path [("u64", [])]), (.bin .shr (.call (.path [("u64", []), ("max_value", [])]) []) (.lit "3"))),
     ("POINTER_WIDTH", (.path [("u64", [])]), (.lit "61")),
     ("DISCRIMINANT_MASK", (.path [("u64", [])]), (.bin .shr (.call (.path [("u64", []), ("max_value", [])]) []) (.lit "3"))),
     ("DISCRIMINANT_BITS", (.path [("u64", [])]), (.lit "3"))]),
  ("tagged_box_reserve_60bits", [("Discriminant", (.user (.named "u8")))],
    [("MAX_DISCRIMINANT", (.path [("Discriminant", [])]), (.lit "15")),
     ("MAX_POINTER_VALUE", (.path [("u64", [])]), (.bin .shr (.call (.path [("u64", []), ("max_value", [])]) []) (.lit "4"))),
     ("POINTER_WIDTH", (.path [("u64", [])]), (.lit "60")),
     ("DISCRIMINANT_MASK", (.path [("u64", [])]), (.bin .shr (.call (.path [("u64", []), ("max_value", [])]) []) (.lit "4"))),
     ("DISCRIMINANT_BITS", (.path [("u64", [])]), (.lit "4"))]),
  ("tagged_box_reserve_59bits", [("Discriminant", (.user (.named "u8")))],
    [("MAX_DISCRIMINANT", (.path [("Discriminant", [])]), (.lit "31")),
     ("MAX_POINTER_VALUE", (.path [("u64", [])]), (.bin .shr (.call (.path [("u64", []), ("max_value", [])]) []) (.lit "5"))),
     ("POINTER_WIDTH", (.path [("u64", [])]), (.lit "59")),
     ("DISCRIMINANT_MASK", (.path [("u64", [])]), (.bin .shr (.call (.path [("u64", []), ("max_value", [])]) []) (.lit "5"))),
     ("DISCRIMINANT_BITS", (.path [("u64", [])]), (.lit "5"))]),
  ("tagged_box_reserve_58bits", [("Discriminant", (.user (.named "u8")))],
    [("MAX_DISCRIMINANT", (.path [("Discriminant", [])]), (.lit "63")),
     ("MAX_POINTER_VALUE", (.path [("u64", [])]), (.bin .shr (.call (.path [("u64", []), ("max_value", [])]) []) (.lit "6"))),
     ("POINTER_WIDTH", (.path [("u64", [])]), (.lit "58")),
     ("DISCRIMINANT_MASK", (.path [("u64", [])]), (.bin .shr (.call (.path [("u64", []), ("max_value", [])]) []) (.lit "6"))),
     ("DISCRIMINANT_BITS", (.path [("u64", [])]), (.lit "6"))]),
  ("tagged_box_reserve_57bits", [("Discriminant", (.user (.named "u8")))],
    [("MAX_DISCRIMINANT", (.path [("Discriminant", [])]), (.lit "127")),
     ("MAX_POINTER_VALUE", (.path [("u64", [])]), (.bin .shr (.call (.path [("u64", []), ("max_value", [])]) []) (.lit "7"))),
     ("POINTER_WIDTH", (.path [("u64", [])]), (.lit "57")),
     ("DISCRIMINANT_MASK", (.path [("u64", [])]), (.bin .shr (.call (.path [("u64", []), ("max_value", [])]) []) (.lit "7"))),
     ("DISCRIMINANT_BITS", (.path [("u64", [])]), (.lit "7"))]),
  ("tagged_box_reserve_56bits", [("Discriminant", (.user (.named "u8")))],
    [("MAX_DISCRIMINANT", (.path [("Discriminant", [])]), (.lit "255")),
     ("MAX_POINTER_VALUE", (.path [("u64", [])]), (.bin .shr (.call (.path [("u64", []), ("max_value", [])]) []) (.lit "8"))),
     ("POINTER_WIDTH", (.path [("u64", [])]), (.lit "56")),
     ("DISCRIMINANT_MASK", (.path [("u64", [])]), (.bin .shr (.call (.path [("u64", []), ("max_value", [])]) []) (.lit "8"))),
     ("DISCRIMINANT_BITS", (.path [("u64", [])]), (.lit "8"))]),
  ("tagged_box_reserve_55bits", [("Discriminant", (.user (.named "u16")))],
    [("MAX_DISCRIMINANT", (.path [("Discriminant", [])]), (.lit "511")),
     ("MAX_POINTER_VALUE", (.path [("u64", [])]), (.bin .shr (.call (.path [("u64", []), ("max_value", [])]) []) (.lit "9"))),
     ("POINTER_WIDTH", (.path [("u64", [])]), (.lit "55")),
     ("DISCRIMINANT_MASK", (.path [("u64", [])]), (.bin .shr (.call (.path [("u64", []), ("max_value", [])]) []) (.lit "9"))),
     ("DISCRIMINANT_BITS", (.path [("u64", [])]), (.lit "9"))]),
  ("tagged_box_reserve_54bits", [("Discriminant", (.user (.named "u16")))],
    [("MAX_DISCRIMINANT", (.path [("Discriminant", [])]), (.lit "1023")),
     ("MAX_POINTER_VALUE", (.path [("u64", [])]), (.bin .shr (.call (.path [("u64", []), ("max_value", [])]) []) (.lit "10"))),
     ("POINTER_WIDTH", (.path [("u64", [])]), (.lit "54")),
     ("DISCRIMINANT_MASK", (.path [("u64", [])]), (.bin .shr (.call (.path [("u64", []), ("max_value", [])]) []) (.lit "10"))),
     ("DISCRIMINANT_BITS", (.path [("u64", [])]), (.lit "10"))]),
  ("tagged_box_reserve_53bits", [("Discriminant", (.user (.named "u16")))],
    [("MAX_DISCRIMINANT", (.path [("Discriminant", [])]), (.lit "2047")),
     ("MAX_POINTER_VALUE", (.path [("u64", [])]), (.bin .shr (.call (.path [("u64", []), ("max_value", [])]) []) (.lit "11"))),
     ("POINTER_WIDTH", (.path [("u64", [])]), (.lit "53")),
     ("DISCRIMINANT_MASK", (.path [("u64", [])]), (.bin .shr (.call (.path [("u64", []), ("max_value", [])]) []) (.lit "11"))),
     ("DISCRIMINANT_BITS", (.path [("u64", [])]), (.lit "11"))]),
  ("tagged_box_reserve_52bits", [("Discriminant", (.user (.named "u16")))],
    [("MAX_DISCRIMINANT", (.path [("Discriminant", [])]), (.lit "4068")),
     ("MAX_POINTER_VALUE", (.path [("u64", [])]), (.bin .shr (.call (.path [("u64", []), ("max_value", [])]) []) (.lit "12"))),
     ("POINTER_WIDTH", (.path [("u64", [])]), (.lit "52")),
     ("DISCRIMINANT_MASK", (.path [("u64", [])]), (.bin .shr (.call (.path [("u64", []), ("max_value", [])]) []) (.lit "12"))),
     ("DISCRIMINANT_BITS", (.path [("u64", [])]), (.lit "12"))]),
  ("tagged_box_reserve_51bits", [("Discriminant", (.user (.named "u16")))],
    [("MAX_DISCRIMINANT", (.path [("Discriminant", [])]), (.lit "8191")),
     ("MAX_POINTER_VALUE", (.path [("u64", [])]), (.bin .shr (.call (.path [("u64", []), ("max_value", [])]) []) (.lit "13"))),
     ("POINTER_WIDTH", (.path [("u64", [])]), (.lit "51")),
     ("DISCRIMINANT_MASK", (.path [("u64", [])]), (.bin .shr (.call (.path [("u64", []), ("max_value", [])]) []) (.lit "13"))),
     ("DISCRIMINANT_BITS", (.path [("u64", [])]), (.lit "13"))]),
  ("tagged_box_reserve_50bits", [("Discriminant", (.user (.named "u16")))],
    [("MAX_DISCRIMINANT", (.path [("Discriminant", [])]), (.lit "16383")),
     ("MAX_POINTER_VALUE", (.path [("u64", [])]), (.bin .shr (.call (.path [("u64", []), ("max_value", [])]) []) (.lit "14"))),
     ("POINTER_WIDTH", (.path [("u64", [])]), (.lit "50")),
     ("DISCRIMINANT_MASK", (.path [("u64", [])]), (.bin .shr (.call (.path [("u64", []), ("max_value", [])]) []) (.lit "14"))),
     ("DISCRIMINANT_BITS", (.path [("u64", [])]), (.lit "14"))]),
  ("tagged_box_reserve_49bits", [("Discriminant", (.user (.named "u16")))],
    [("MAX_DISCRIMINANT", (.path [("Discriminant", [])]), (.lit "32767")),
     ("MAX_POINTER_VALUE", (.path [("u64", [])]), (.bin .shr (.call (.path [("u64", []), ("max_value", [])]) []) (.lit "15"))),
     ("POINTER_WIDTH", (.path [("u64", [])]), (.lit "49")),
     ("DISCRIMINANT_MASK", (.path [("u64", [])]), (.bin .shr (.call (.path [("u64", []), ("max_value", [])]) []) (.lit "15"))),
     ("DISCRIMINANT_BITS", (.path [("u64", [])]), (.lit "15"))]),
  ("tagged_box_reserve_48bits", [("Discriminant", (.user (.named "u16")))],
    [("MAX_DISCRIMINANT", (.path [("Discriminant", [])]), (.lit "65535")),
     ("MAX_POINTER_VALUE", (.path [("u64", [])]), (.bin .shr (.call (.path [("u64", []), ("max_value", [])]) []) (.lit "16"))),
     ("POINTER_WIDTH", (.path [("u64", [])]), (.lit "48")),
     ("DISCRIMINANT_MASK", (.path [("u64", [])]), (.bin .shr (.call (.path [("u64", []), ("max_value", [])]) []) (.lit "16"))),
     ("DISCRIMINANT_BITS", (.path [("u64", [])]), (.lit "16"))])]

/-- The structs. `src/tagged_pointer.rs:12-15`, `src/tagged_box.rs:15-19` -/
def structs : List (String × List (String × RTy)) := [
  ("TaggedPointer", [("tagged_ptr", (.path [("u64", [])]))]),
  ("TaggedBox", [("boxed", (.path [("TaggedPointer", [])])), ("_type", (.path [("PhantomData", [(.path [("T", [])])])]))])]

/-- `TaggedPointer::new`. `src/tagged_pointer.rs:29-48` -/
def ptr_new : Fn :=
  ⟨[], "new", [], none, [("ptr", (.path [("u64", [])])), ("discriminant", (.path [("Discriminant", [])]))], (some (.path [("Self", [])])), [
  (.semi (.mac "debug_assert" [(.bin .le (.path [("discriminant", [])]) (.path [("MAX_DISCRIMINANT", [])])), (.lit "\"Attempted to store a discriminant of {} while the max value is {}\""), (.path [("discriminant", [])]), (.path [("MAX_DISCRIMINANT", [])])])),
  (.semi (.mac "debug_assert" [(.bin .le (.path [("ptr", [])]) (.path [("MAX_POINTER_VALUE", [])])), (.lit "\"If you are receiving this error, then your hardware uses more than {} bits of a pointer to store addresses. \\\n            It is recommended that you use a different feature for the `tagged-box` crate using `features = [\\\"{}bits\\\"]` or above.\n            \""), (.path [("POINTER_WIDTH", [])]), (.bin .add (.path [("POINTER_WIDTH", [])]) (.lit "1"))])),
  (.letS (.bind "tagged_ptr") none (.call (.path [("Self", []), ("store_discriminant", [])]) [(.path [("ptr", [])]), (.path [("discriminant", [])])])),
  (.tail (.struct [("Self", [])] [("tagged_ptr", (.path [("tagged_ptr", [])]))]))]⟩

/-- `TaggedPointer::dangling`. `src/tagged_pointer.rs:51-55` -/
def ptr_dangling : Fn :=
  ⟨[], "dangling", ["T"], none, [("discriminant", (.path [("Discriminant", [])]))], (some (.path [("Self", [])])), [
  (.tail (.struct [("Self", [])] [("tagged_ptr", (.call (.path [("Self", []), ("store_discriminant", [])]) [(.cast (.call (.path [("core", []), ("mem", []), ("align_of", [(.path [("T", [])])])]) []) (.path [("u64", [])])), (.path [("discriminant", [])])]))]))]⟩

/-- `TaggedPointer::discriminant`. `src/tagged_pointer.rs:61-63` -/
def ptr_discriminant : Fn :=
  ⟨[], "discriminant", [], (some .value), [], (some (.path [("Discriminant", [])])), [
  (.tail (.call (.path [("Self", []), ("fetch_discriminant", [])]) [(.field (.path [("self", [])]) "tagged_ptr")]))]⟩

/-- `TaggedPointer::as_ref`. `src/tagged_pointer.rs:74-76` -/
def ptr_as_ref : Fn :=
  ⟨[], "as_ref", ["T"], (some .ref), [], (some (.ref false (.path [("T", [])]))), [
  (.tail (.ref false (.un .deref (.cast (.call (.path [("Self", []), ("strip_discriminant", [])]) [(.field (.path [("self", [])]) "tagged_ptr")]) (.ptr false (.path [("T", [])]))))))]⟩

/-- `TaggedPointer::as_mut_ref`. `src/tagged_pointer.rs:86-88` -/
def ptr_as_mut_ref : Fn :=
  ⟨[], "as_mut_ref", ["T"], (some .refMut), [], (some (.ref true (.path [("T", [])]))), [
  (.tail (.ref true (.un .deref (.cast (.call (.path [("Self", []), ("strip_discriminant", [])]) [(.field (.path [("self", [])]) "tagged_ptr")]) (.ptr true (.path [("T", [])]))))))]⟩

/-- `TaggedPointer::as_u64`. `src/tagged_pointer.rs:92-94` -/
def ptr_as_u64 : Fn :=
  ⟨[], "as_u64", [], (some .value), [], (some (.path [("u64", [])])), [
  (.tail (.call (.path [("Self", []), ("strip_discriminant", [])]) [(.field (.path [("self", [])]) "tagged_ptr")]))]⟩

/-- `TaggedPointer::as_raw_u64`. `src/tagged_pointer.rs:103-105` -/
def ptr_as_raw_u64 : Fn :=
  ⟨[], "as_raw_u64", [], (some .value), [], (some (.path [("u64", [])])), [
  (.tail (.field (.path [("self", [])]) "tagged_ptr"))]⟩

/-- `TaggedPointer::as_ptr`. `src/tagged_pointer.rs:109-111` -/
def ptr_as_ptr : Fn :=
  ⟨[], "as_ptr", ["T"], (some .value), [], (some (.ptr false (.path [("T", [])]))), [
  (.tail (.cast (.call (.path [("Self", []), ("strip_discriminant", [])]) [(.field (.path [("self", [])]) "tagged_ptr")]) (.ptr false (.path [("T", [])]))))]⟩

/-- `TaggedPointer::as_mut_ptr`. `src/tagged_pointer.rs:115-117` -/
def ptr_as_mut_ptr : Fn :=
  ⟨[], "as_mut_ptr", ["T"], (some .value), [], (some (.ptr true (.path [("T", [])]))), [
  (.tail (.cast (.call (.path [("Self", []), ("strip_discriminant", [])]) [(.field (.path [("self", [])]) "tagged_ptr")]) (.ptr true (.path [("T", [])]))))]⟩

/-- `TaggedPointer::store_discriminant`. `src/tagged_pointer.rs:130-132` -/
def ptr_store_discriminant : Fn :=
  ⟨[], "store_discriminant", [], none, [("pointer", (.path [("u64", [])])), ("discriminant", (.path [("Discriminant", [])]))], (some (.path [("u64", [])])), [
  (.tail (.bin .or (.path [("pointer", [])]) (.bin .shl (.cast (.path [("discriminant", [])]) (.path [("u64", [])])) (.path [("POINTER_WIDTH", [])]))))]⟩

/-- `TaggedPointer::fetch_discriminant`. `src/tagged_pointer.rs:138-140` -/
def ptr_fetch_discriminant : Fn :=
  ⟨[], "fetch_discriminant", [], none, [("pointer", (.path [("u64", [])]))], (some (.path [("Discriminant", [])])), [
  (.tail (.cast (.bin .shr (.path [("pointer", [])]) (.path [("POINTER_WIDTH", [])])) (.path [("Discriminant", [])])))]⟩

/-- `TaggedPointer::strip_discriminant`. `src/tagged_pointer.rs:146-148` -/
def ptr_strip_discriminant : Fn :=
  ⟨[], "strip_discriminant", [], none, [("pointer", (.path [("u64", [])]))], (some (.path [("u64", [])])), [
  (.tail (.bin .and (.path [("pointer", [])]) (.path [("DISCRIMINANT_MASK", [])])))]⟩

/-- `TaggedBox::new`. `src/tagged_box.rs:82-104` -/
def box_new : Fn :=
  ⟨[], "new", ["U"], none, [("val", (.path [("U", [])])), ("discriminant", (.path [("Discriminant", [])]))], (some (.path [("Self", [])])), [
  (.tail (.ite (.bin .eq (.call (.path [("mem", []), ("size_of", [(.path [("U", [])])])]) []) (.lit "0")) (.block [(.tail (.call (.path [("Self", []), ("dangling", [(.path [("U", [])])])]) [(.path [("discriminant", [])])]))]) (some (.block [(.letS (.bind "layout") none (.call (.path [("Layout", []), ("new", [(.path [("U", [])])])]) [])), (.letS (.bind "ptr") none (.block [(.letS (.bind "ptr") none (.cast (.call (.path [("alloc", []), ("alloc", []), ("alloc", [])]) [(.path [("layout", [])])]) (.ptr true (.path [("U", [])])))), (.semi (.mac "assert" [(.bin .ne (.cast (.path [("ptr", [])]) (.path [("u64", [])])) (.lit "0"))])), (.semi (.method (.path [("ptr", [])]) "write" [] [(.path [("val", [])])])), (.tail (.path [("ptr", [])]))])), (.tail (.struct [("Self", [])] [("boxed", (.call (.path [("TaggedPointer", []), ("new", [])]) [(.cast (.path [("ptr", [])]) (.path [("u64", [])])), (.path [("discriminant", [])])])), ("_type", (.path [("PhantomData", [])]))]))]))))]⟩

/-- `TaggedBox::new_unchecked`. `src/tagged_box.rs:175-197` -/
def box_new_unchecked : Fn :=
  ⟨[], "new_unchecked", ["U"], none, [("val", (.path [("U", [])])), ("discriminant", (.path [("Discriminant", [])]))], (some (.path [("Self", [])])), [
  (.tail (.ite (.bin .eq (.call (.path [("mem", []), ("size_of", [(.path [("U", [])])])]) []) (.lit "0")) (.block [(.tail (.call (.path [("Self", []), ("dangling", [(.path [("U", [])])])]) [(.path [("discriminant", [])])]))]) (some (.block [(.letS (.bind "layout") none (.call (.path [("Layout", []), ("new", [(.path [("U", [])])])]) [])), (.letS (.bind "ptr") none (.block [(.letS (.bind "ptr") none (.cast (.call (.path [("alloc", []), ("alloc", []), ("alloc", [])]) [(.path [("layout", [])])]) (.ptr true (.path [("U", [])])))), (.semi (.mac "assert" [(.bin .ne (.cast (.path [("ptr", [])]) (.path [("u64", [])])) (.lit "0"))])), (.semi (.method (.path [("ptr", [])]) "write" [] [(.path [("val", [])])])), (.tail (.path [("ptr", [])]))])), (.tail (.struct [("Self", [])] [("boxed", (.call (.path [("TaggedPointer", []), ("new", [])]) [(.cast (.path [("ptr", [])]) (.path [("u64", [])])), (.path [("discriminant", [])])])), ("_type", (.path [("PhantomData", [])]))]))]))))]⟩

/-- `TaggedBox::dangling`. `src/tagged_box.rs:203-208` -/
def box_dangling : Fn :=
  ⟨[], "dangling", ["U"], none, [("discriminant", (.path [("Discriminant", [])]))], (some (.path [("Self", [])])), [
  (.tail (.struct [("Self", [])] [("boxed", (.call (.path [("TaggedPointer", []), ("dangling", [(.path [("U", [])])])]) [(.path [("discriminant", [])])])), ("_type", (.path [("PhantomData", [])]))]))]⟩

/-- `TaggedBox::as_ref`. `src/tagged_box.rs:235-237` -/
def box_as_ref : Fn :=
  ⟨[], "as_ref", ["U"], (some .ref), [], (some (.ref false (.path [("U", [])]))), [
  (.tail (.method (.field (.path [("self", [])]) "boxed") "as_ref" [] []))]⟩

/-- `TaggedBox::as_mut_ref`. `src/tagged_box.rs:267-269` -/
def box_as_mut_ref : Fn :=
  ⟨[], "as_mut_ref", ["U"], (some .refMut), [], (some (.ref true (.path [("U", [])]))), [
  (.tail (.method (.field (.path [("self", [])]) "boxed") "as_mut_ref" [] []))]⟩

/-- `TaggedBox::into_inner`. `src/tagged_box.rs:297-300` -/
def box_into_inner : Fn :=
  ⟨[], "into_inner", ["U"], none, [("tagged", (.path [("Self", [])]))], (some (.path [("U", [])])), [
  (.letS (.bind "tagged") none (.call (.path [("ManuallyDrop", []), ("new", [])]) [(.path [("tagged", [])])])),
  (.tail (.method (.method (.path [("tagged", [])]) "as_mut_ptr" [(.path [("U", [])])] []) "read" [] []))]⟩

/-- `TaggedBox::into_raw`. `src/tagged_box.rs:324-326` -/
def box_into_raw : Fn :=
  ⟨[], "into_raw", ["U"], none, [("tagged", (.path [("Self", [])]))], (some (.ptr true (.path [("U", [])]))), [
  (.tail (.method (.field (.call (.path [("ManuallyDrop", []), ("new", [])]) [(.path [("tagged", [])])]) "boxed") "as_mut_ptr" [] []))]⟩

/-- `TaggedBox::into_box`. `src/tagged_box.rs:354-359` -/
def box_into_box : Fn :=
  ⟨[], "into_box", ["U"], none, [("tagged", (.path [("Self", [])]))], (some (.path [("alloc", []), ("boxed", []), ("Box", [(.path [("U", [])])])])), [
  .useS,
  (.letS (.bind "raw") none (.call (.path [("Self", []), ("into_raw", [])]) [(.path [("tagged", [])])])),
  (.tail (.call (.path [("Box", []), ("from_raw", [])]) [(.path [("raw", [])])]))]⟩

/-- `TaggedBox::from_raw`. `src/tagged_box.rs:398-403` -/
def box_from_raw : Fn :=
  ⟨[], "from_raw", ["U"], none, [("raw", (.ptr true (.path [("U", [])]))), ("discriminant", (.path [("Discriminant", [])]))], (some (.path [("Self", [])])), [
  (.tail (.struct [("Self", [])] [("boxed", (.call (.path [("TaggedPointer", []), ("new", [])]) [(.cast (.path [("raw", [])]) (.path [("u64", [])])), (.path [("discriminant", [])])])), ("_type", (.path [("PhantomData", [])]))]))]⟩

/-- `TaggedBox::discriminant`. `src/tagged_box.rs:419-421` -/
def box_discriminant : Fn :=
  ⟨[], "discriminant", [], (some .ref), [], (some (.path [("Discriminant", [])])), [
  (.tail (.method (.field (.path [("self", [])]) "boxed") "discriminant" [] []))]⟩

/-- `TaggedBox::as_ptr`. `src/tagged_box.rs:443-445` -/
def box_as_ptr : Fn :=
  ⟨[], "as_ptr", ["U"], (some .ref), [], (some (.ptr false (.path [("U", [])]))), [
  (.tail (.cast (.method (.field (.path [("self", [])]) "boxed") "as_ptr" [] []) (.ptr false (.path [("U", [])]))))]⟩

/-- `TaggedBox::as_mut_ptr`. `src/tagged_box.rs:470-472` -/
def box_as_mut_ptr : Fn :=
  ⟨[], "as_mut_ptr", ["U"], (some .refMut), [], (some (.ptr true (.path [("U", [])]))), [
  (.tail (.cast (.method (.field (.path [("self", [])]) "boxed") "as_mut_ptr" [] []) (.ptr true (.path [("U", [])]))))]⟩

/-- `TaggedBox::as_u64`. `src/tagged_box.rs:478-480` -/
def box_as_u64 : Fn :=
  ⟨[], "as_u64", [], (some .ref), [], (some (.path [("u64", [])])), [
  (.tail (.method (.field (.path [("self", [])]) "boxed") "as_u64" [] []))]⟩

/-- `Debug::fmt` for `TaggedPointer`. `src/tagged_pointer.rs:152-158` -/
def ptr_Debug_fmt : Fn :=
  ⟨[], "fmt", [], (some .ref), [("f", (.ref true (.path [("fmt", []), ("Formatter", [])])))], (some (.path [("fmt", []), ("Result", [])])), [
  (.tail (.method (.method (.method (.method (.method (.path [("f", [])]) "debug_struct" [] [(.lit "\"TaggedPointer\"")]) "field" [] [(.lit "\"raw\""), (.ref false (.cast (.method (.path [("self", [])]) "as_raw_u64" [] []) (.ptr false (.tuple []))))]) "field" [] [(.lit "\"ptr\""), (.ref false (.method (.path [("self", [])]) "as_ptr" [(.tuple [])] []))]) "field" [] [(.lit "\"discriminant\""), (.ref false (.method (.path [("self", [])]) "discriminant" [] []))]) "finish" [] []))]⟩

/-- `Pointer::fmt` for `TaggedPointer`. `src/tagged_pointer.rs:162-164` -/
def ptr_Pointer_fmt : Fn :=
  ⟨[], "fmt", [], (some .ref), [("f", (.ref true (.path [("fmt", []), ("Formatter", [])])))], (some (.path [("fmt", []), ("Result", [])])), [
  (.tail (.call (.path [("fmt", []), ("Pointer", []), ("fmt", [])]) [(.ref false (.method (.path [("self", [])]) "as_ptr" [(.tuple [])] [])), (.path [("f", [])])]))]⟩

/-- `LowerHex::fmt` for `TaggedPointer`. ``impl_fmt!`, src/lib.rs` -/
def ptr_LowerHex_fmt : Fn :=
  ⟨[], "fmt", [], (some .ref), [("f", (.ref true (.path [("fmt", []), ("Formatter", [])])))], (some (.path [("fmt", []), ("Result", [])])), [
  (.tail (.call (.path [("fmt", []), ("LowerHex", []), ("fmt", [])]) [(.ref false (.method (.path [("self", [])]) "as_u64" [] [])), (.path [("f", [])])]))]⟩

/-- `UpperHex::fmt` for `TaggedPointer`. ``impl_fmt!`, src/lib.rs` -/
def ptr_UpperHex_fmt : Fn :=
  ⟨[], "fmt", [], (some .ref), [("f", (.ref true (.path [("fmt", []), ("Formatter", [])])))], (some (.path [("fmt", []), ("Result", [])])), [
  (.tail (.call (.path [("fmt", []), ("UpperHex", []), ("fmt", [])]) [(.ref false (.method (.path [("self", [])]) "as_u64" [] [])), (.path [("f", [])])]))]⟩

/-- `Binary::fmt` for `TaggedPointer`. ``impl_fmt!`, src/lib.rs` -/
def ptr_Binary_fmt : Fn :=
  ⟨[], "fmt", [], (some .ref), [("f", (.ref true (.path [("fmt", []), ("Formatter", [])])))], (some (.path [("fmt", []), ("Result", [])])), [
  (.tail (.call (.path [("fmt", []), ("Binary", []), ("fmt", [])]) [(.ref false (.method (.path [("self", [])]) "as_u64" [] [])), (.path [("f", [])])]))]⟩

/-- `Octal::fmt` for `TaggedPointer`. ``impl_fmt!`, src/lib.rs` -/
def ptr_Octal_fmt : Fn :=
  ⟨[], "fmt", [], (some .ref), [("f", (.ref true (.path [("fmt", []), ("Formatter", [])])))], (some (.path [("fmt", []), ("Result", [])])), [
  (.tail (.call (.path [("fmt", []), ("Octal", []), ("fmt", [])]) [(.ref false (.method (.path [("self", [])]) "as_u64" [] [])), (.path [("f", [])])]))]⟩

/-- `Debug::fmt` for `TaggedBox`. `src/tagged_box.rs:487-496` -/
def box_Debug_fmt : Fn :=
  ⟨[], "fmt", [], (some .ref), [("f", (.ref true (.path [("fmt", []), ("Formatter", [])])))], (some (.path [("fmt", []), ("Result", [])])), [
  (.letS (.bind "result") none (.call (.path [("Ok", [])]) [(.tuple [])])),
  (.tail (.block [(.semi (.call (.path [("T", []), ("ref_from_tagged_box", [])]) [(.path [("self", [])]), (.closure [(.bind "this")] (.block [(.semi (.bin .assign (.path [("result", [])]) (.mac "write" [(.path [("f", [])]), (.lit "\"{:?}\""), (.path [("this", [])])])))]))]))])),
  (.tail (.path [("result", [])]))]⟩

/-- `Display::fmt` for `TaggedBox`. `src/tagged_box.rs:503-512` -/
def box_Display_fmt : Fn :=
  ⟨[], "fmt", [], (some .ref), [("f", (.ref true (.path [("fmt", []), ("Formatter", [])])))], (some (.path [("fmt", []), ("Result", [])])), [
  (.letS (.bind "result") none (.call (.path [("Ok", [])]) [(.tuple [])])),
  (.tail (.block [(.semi (.call (.path [("T", []), ("ref_from_tagged_box", [])]) [(.path [("self", [])]), (.closure [(.bind "this")] (.block [(.semi (.bin .assign (.path [("result", [])]) (.mac "write" [(.path [("f", [])]), (.lit "\"{}\""), (.path [("this", [])])])))]))]))])),
  (.tail (.path [("result", [])]))]⟩

/-- `Clone::clone` for `TaggedBox`. `src/tagged_box.rs:519-530` -/
def box_Clone_clone : Fn :=
  ⟨[], "clone", [], (some .ref), [], (some (.path [("Self", [])])), [
  (.letS (.bind "output") none (.path [("None", [])])),
  (.tail (.block [(.semi (.call (.path [("T", []), ("ref_from_tagged_box", [])]) [(.path [("self", [])]), (.closure [(.bind "this")] (.block [(.semi (.bin .assign (.path [("output", [])]) (.call (.path [("Some", [])]) [(.method (.path [("this", [])]) "clone" [] [])])))]))]))])),
  (.tail (.method (.method (.path [("output", [])]) "expect" [] [(.lit "\"The inner value could not be fetched\"")]) "into_tagged_box" [] []))]⟩

/-- `PartialEq::eq` for `TaggedBox`. `src/tagged_box.rs:539-550` -/
def box_PartialEq_eq : Fn :=
  ⟨[], "eq", [], (some .ref), [("other", (.ref false (.path [("TaggedBox", [(.path [("T", [])])])])))], (some (.path [("bool", [])])), [
  (.letS (.bind "eq") none (.path [("false", [])])),
  (.tail (.block [(.semi (.call (.path [("T", []), ("ref_from_tagged_box", [])]) [(.path [("self", [])]), (.closure [(.bind "this")] (.block [(.semi (.call (.path [("T", []), ("ref_from_tagged_box", [])]) [(.path [("other", [])]), (.closure [(.bind "other")] (.block [(.semi (.bin .assign (.path [("eq", [])]) (.bin .eq (.path [("this", [])]) (.path [("other", [])]))))]))]))]))]))])),
  (.tail (.path [("eq", [])]))]⟩

/-- `PartialOrd::partial_cmp` for `TaggedBox`. `src/tagged_box.rs:559-570` -/
def box_PartialOrd_partial_cmp : Fn :=
  ⟨[], "partial_cmp", [], (some .ref), [("other", (.ref false (.path [("TaggedBox", [(.path [("T", [])])])])))], (some (.path [("Option", [(.path [("cmp", []), ("Ordering", [])])])])), [
  (.letS (.bind "cmp") none (.path [("None", [])])),
  (.tail (.block [(.semi (.call (.path [("T", []), ("ref_from_tagged_box", [])]) [(.path [("self", [])]), (.closure [(.bind "this")] (.block [(.semi (.call (.path [("T", []), ("ref_from_tagged_box", [])]) [(.path [("other", [])]), (.closure [(.bind "other")] (.block [(.semi (.bin .assign (.path [("cmp", [])]) (.method (.path [("this", [])]) "partial_cmp" [] [(.path [("other", [])])])))]))]))]))]))])),
  (.tail (.path [("cmp", [])]))]⟩

/-- `Ord::cmp` for `TaggedBox`. `src/tagged_box.rs:577-588` -/
def box_Ord_cmp : Fn :=
  ⟨[], "cmp", [], (some .ref), [("other", (.ref false (.path [("TaggedBox", [(.path [("T", [])])])])))], (some (.path [("cmp", []), ("Ordering", [])])), [
  (.letS (.bind "cmp") none (.path [("cmp", []), ("Ordering", []), ("Equal", [])])),
  (.tail (.block [(.semi (.call (.path [("T", []), ("ref_from_tagged_box", [])]) [(.path [("self", [])]), (.closure [(.bind "this")] (.block [(.semi (.call (.path [("T", []), ("ref_from_tagged_box", [])]) [(.path [("other", [])]), (.closure [(.bind "other")] (.block [(.semi (.bin .assign (.path [("cmp", [])]) (.method (.path [("this", [])]) "cmp" [] [(.path [("other", [])])])))]))]))]))]))])),
  (.tail (.path [("cmp", [])]))]⟩

/-- `LowerHex::fmt` for `TaggedBox`. ``impl_fmt!`, src/lib.rs` -/
def box_LowerHex_fmt : Fn :=
  ⟨[], "fmt", [], (some .ref), [("f", (.ref true (.path [("fmt", []), ("Formatter", [])])))], (some (.path [("fmt", []), ("Result", [])])), [
  (.tail (.call (.path [("fmt", []), ("LowerHex", []), ("fmt", [])]) [(.ref false (.method (.path [("self", [])]) "as_u64" [] [])), (.path [("f", [])])]))]⟩

/-- `UpperHex::fmt` for `TaggedBox`. ``impl_fmt!`, src/lib.rs` -/
def box_UpperHex_fmt : Fn :=
  ⟨[], "fmt", [], (some .ref), [("f", (.ref true (.path [("fmt", []), ("Formatter", [])])))], (some (.path [("fmt", []), ("Result", [])])), [
  (.tail (.call (.path [("fmt", []), ("UpperHex", []), ("fmt", [])]) [(.ref false (.method (.path [("self", [])]) "as_u64" [] [])), (.path [("f", [])])]))]⟩

/-- `Binary::fmt` for `TaggedBox`. ``impl_fmt!`, src/lib.rs` -/
def box_Binary_fmt : Fn :=
  ⟨[], "fmt", [], (some .ref), [("f", (.ref true (.path [("fmt", []), ("Formatter", [])])))], (some (.path [("fmt", []), ("Result", [])])), [
  (.tail (.call (.path [("fmt", []), ("Binary", []), ("fmt", [])]) [(.ref false (.method (.path [("self", [])]) "as_u64" [] [])), (.path [("f", [])])]))]⟩

/-- `Octal::fmt` for `TaggedBox`. ``impl_fmt!`, src/lib.rs` -/
def box_Octal_fmt : Fn :=
  ⟨[], "fmt", [], (some .ref), [("f", (.ref true (.path [("fmt", []), ("Formatter", [])])))], (some (.path [("fmt", []), ("Result", [])])), [
  (.tail (.call (.path [("fmt", []), ("Octal", []), ("fmt", [])]) [(.ref false (.method (.path [("self", [])]) "as_u64" [] [])), (.path [("f", [])])]))]⟩

/-- All of it. -/
def parts : Parts := ⟨rows, structs, [
  ("TaggedPointer", ptr_new),
  ("TaggedPointer", ptr_dangling),
  ("TaggedPointer", ptr_discriminant),
  ("TaggedPointer", ptr_as_ref),
  ("TaggedPointer", ptr_as_mut_ref),
  ("TaggedPointer", ptr_as_u64),
  ("TaggedPointer", ptr_as_raw_u64),
  ("TaggedPointer", ptr_as_ptr),
  ("TaggedPointer", ptr_as_mut_ptr),
  ("TaggedPointer", ptr_store_discriminant),
  ("TaggedPointer", ptr_fetch_discriminant),
  ("TaggedPointer", ptr_strip_discriminant),
  ("TaggedBox", box_new),
  ("TaggedBox", box_new_unchecked),
  ("TaggedBox", box_dangling),
  ("TaggedBox", box_as_ref),
  ("TaggedBox", box_as_mut_ref),
  ("TaggedBox", box_into_inner),
  ("TaggedBox", box_into_raw),
  ("TaggedBox", box_into_box),
  ("TaggedBox", box_from_raw),
  ("TaggedBox", box_discriminant),
  ("TaggedBox", box_as_ptr),
  ("TaggedBox", box_as_mut_ptr),
  ("TaggedBox", box_as_u64)], [
  ("Debug", "TaggedPointer", ptr_Debug_fmt),
  ("Pointer", "TaggedPointer", ptr_Pointer_fmt),
  ("LowerHex", "TaggedPointer", ptr_LowerHex_fmt),
  ("UpperHex", "TaggedPointer", ptr_UpperHex_fmt),
  ("Binary", "TaggedPointer", ptr_Binary_fmt),
  ("Octal", "TaggedPointer", ptr_Octal_fmt),
  ("Debug", "TaggedBox", box_Debug_fmt),
  ("Display", "TaggedBox", box_Display_fmt),
  ("Clone", "TaggedBox", box_Clone_clone),
  ("PartialEq", "TaggedBox", box_PartialEq_eq),
  ("PartialOrd", "TaggedBox", box_PartialOrd_partial_cmp),
  ("Ord", "TaggedBox", box_Ord_cmp),
  ("LowerHex", "TaggedBox", box_LowerHex_fmt),
  ("UpperHex", "TaggedBox", box_UpperHex_fmt),
  ("Binary", "TaggedBox", box_Binary_fmt),
  ("Octal", "TaggedBox", box_Octal_fmt)]⟩

set_option maxRecDepth 100000 in
theorem source_parts : sourceParts = some parts := by
  kernel_rfl

end TB.Rust.Code

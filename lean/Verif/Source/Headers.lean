import Verif.Rust.Headers
import Verif.Source.Code

/-!
# The structures and implementations in the text
-/

set_option autoImplicit false

namespace TB.Rust.Code

open TB.Mbe TB.Source

/-- `src/tagged_pointer.rs:10-15` -/
def ptrStruct : StructInfo := ⟨"TaggedPointer", [], [("tagged_ptr", .path [("u64", [])])], ["Copy", "Clone", "PartialEq", "Eq", "Hash", "PartialOrd", "Ord"], true⟩

/-- `src/tagged_box.rs:15-19` -/
def boxStruct : StructInfo :=
  ⟨"TaggedBox", ["T"], [("boxed", .path [("TaggedPointer", [])]), ("_type", .path [("PhantomData", [.path [("T", [])]])])], [], true⟩

/-- `src/tagged_pointer.rs:10`, `:151-167` -/
def ptrHeaders : List Header := ["Copy", "Clone", "PartialEq", "Eq", "Hash", "PartialOrd", "Ord", "Debug", "Pointer", "LowerHex", "UpperHex", "Binary", "Octal"].map (⟨·, "TaggedPointer", []⟩)

/-- `src/tagged_box.rs:483-591` -/
def boxHeaders : List Header := [⟨"Debug", "TaggedBox", ["TaggableInner", "Debug", "Clone"]⟩, ⟨"Display", "TaggedBox", ["TaggableInner", "Display", "Clone"]⟩,
  ⟨"Clone", "TaggedBox", ["TaggableInner", "Clone"]⟩, ⟨"Copy", "TaggedBox", ["TaggableInner", "Copy"]⟩, ⟨"PartialEq", "TaggedBox", ["TaggableInner", "PartialEq"]⟩,
  ⟨"Eq", "TaggedBox", ["TaggableInner", "Eq"]⟩, ⟨"PartialOrd", "TaggedBox", ["TaggableInner", "PartialOrd"]⟩, ⟨"Ord", "TaggedBox", ["TaggableInner", "Ord"]⟩,
  ⟨"LowerHex", "TaggedBox", ["TaggableInner"]⟩, ⟨"UpperHex", "TaggedBox", ["TaggableInner"]⟩, ⟨"Binary", "TaggedBox", ["TaggableInner"]⟩, ⟨"Octal", "TaggedBox", ["TaggableInner"]⟩]

set_option maxRecDepth 100000 in
theorem crate_impls : crateImpls = some ([ptrStruct, boxStruct], ptrHeaders ++ boxHeaders) := by
  kernel_rfl

end TB.Rust.Code

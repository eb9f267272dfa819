import Verif.Rust.Parse
import Verif.Rust.Crate
import Verif.Source.BuildText

/-!
# The build script as a syntax tree

`build_items` checks, by computation in the kernel, that it is what the lexer and the parser make of the text of `build.rs`.
-/

set_option autoImplicit false

namespace TB.Rust

open TB.Mbe TB.Source

/-- The items of `build.rs`, read from its text. -/
noncomputable def buildItems : Option (List Item) := match parseText buildText with
  | some ts => pItems 300 ts
  | none => none

namespace Code

/-- `build.rs:1-28` -/
def buildFn : Fn := ⟨[], "main", [], none, [], none, [
  (.tail (.iflet (.call [("Ok", [])] [(.bind "var")]) (.mac "dbg" [(.call (.path [("std", []), ("env", []), ("var", [])]) [(.lit "\"TAGGED_BOX_RESERVED_WIDTH\"")])]) (.block [(.tail (.mtch (.ref false (.un .deref (.path [("var", [])]))) [
      ((.lit "\"63bits\""), none, (.mac "println" [(.lit "\"cargo:rustc-cfg=tagged_box_reserve_63bits\"")])),
      ((.lit "\"62bits\""), none, (.mac "println" [(.lit "\"cargo:rustc-cfg=tagged_box_reserve_62bits\"")])),
      ((.lit "\"61bits\""), none, (.mac "println" [(.lit "\"cargo:rustc-cfg=tagged_box_reserve_61bits\"")])),
      ((.lit "\"60bits\""), none, (.mac "println" [(.lit "\"cargo:rustc-cfg=tagged_box_reserve_60bits\"")])),
      ((.lit "\"59bits\""), none, (.mac "println" [(.lit "\"cargo:rustc-cfg=tagged_box_reserve_59bits\"")])),
      ((.lit "\"58bits\""), none, (.mac "println" [(.lit "\"cargo:rustc-cfg=tagged_box_reserve_58bits\"")])),
      ((.lit "\"57bits\""), none, (.mac "println" [(.lit "\"cargo:rustc-cfg=tagged_box_reserve_57bits\"")])),
      ((.lit "\"56bits\""), none, (.mac "println" [(.lit "\"cargo:rustc-cfg=tagged_box_reserve_56bits\"")])),
      ((.lit "\"55bits\""), none, (.mac "println" [(.lit "\"cargo:rustc-cfg=tagged_box_reserve_55bits\"")])),
      ((.lit "\"54bits\""), none, (.mac "println" [(.lit "\"cargo:rustc-cfg=tagged_box_reserve_54bits\"")])),
      ((.lit "\"53bits\""), none, (.mac "println" [(.lit "\"cargo:rustc-cfg=tagged_box_reserve_53bits\"")])),
      ((.lit "\"52bits\""), none, (.mac "println" [(.lit "\"cargo:rustc-cfg=tagged_box_reserve_52bits\"")])),
      ((.lit "\"51bits\""), none, (.mac "println" [(.lit "\"cargo:rustc-cfg=tagged_box_reserve_51bits\"")])),
      ((.lit "\"50bits\""), none, (.mac "println" [(.lit "\"cargo:rustc-cfg=tagged_box_reserve_50bits\"")])),
      ((.lit "\"49bits\""), none, (.mac "println" [(.lit "\"cargo:rustc-cfg=tagged_box_reserve_49bits\"")])),
      ((.lit "\"48bits\""), none, (.mac "println" [(.lit "\"cargo:rustc-cfg=tagged_box_reserve_48bits\"")])),
      ((.bind "reserved"), none, (.block [(.semi (.mac "println" [(.lit "\"cargo:warning={} is an invalid reserved pointer width for `TAGGED_BOX_RESERVED_WIDTH`\""), (.path [("reserved", [])])])), (.tail (.mac "println" [(.lit "\"cargo:rustc-cfg=tagged_box_reserve_60bits\"")]))]))]))]) (some (.block [(.semi (.mac "println" [(.lit "\"cargo:rustc-cfg=tagged_box_reserve_60bits\"")]))]))))]⟩

set_option maxRecDepth 100000 in
theorem build_items : buildItems = some [.fn buildFn] := by
  kernel_rfl

end Code

end TB.Rust

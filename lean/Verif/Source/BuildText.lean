import Verif.Mbe.Lex

/-!
# The text of `build.rs`

The whole file, verbatim, one entry per line (written by `scripts/gen_sources.py` from the file).
-/

set_option autoImplicit false
set_option maxRecDepth 100000

namespace TB.Source

/-- `build.rs:1-28` -/
noncomputable def buildText : List (List Char) := [
  src% "fn main() {",
  src% "    if let Ok(var) = dbg!(std::env::var(\"TAGGED_BOX_RESERVED_WIDTH\")) {",
  src% "        match &*var {",
  src% "            \"63bits\" => println!(\"cargo:rustc-cfg=tagged_box_reserve_63bits\"),",
  src% "            \"62bits\" => println!(\"cargo:rustc-cfg=tagged_box_reserve_62bits\"),",
  src% "            \"61bits\" => println!(\"cargo:rustc-cfg=tagged_box_reserve_61bits\"),",
  src% "            \"60bits\" => println!(\"cargo:rustc-cfg=tagged_box_reserve_60bits\"),",
  src% "            \"59bits\" => println!(\"cargo:rustc-cfg=tagged_box_reserve_59bits\"),",
  src% "            \"58bits\" => println!(\"cargo:rustc-cfg=tagged_box_reserve_58bits\"),",
  src% "            \"57bits\" => println!(\"cargo:rustc-cfg=tagged_box_reserve_57bits\"),",
  src% "            \"56bits\" => println!(\"cargo:rustc-cfg=tagged_box_reserve_56bits\"),",
  src% "            \"55bits\" => println!(\"cargo:rustc-cfg=tagged_box_reserve_55bits\"),",
  src% "            \"54bits\" => println!(\"cargo:rustc-cfg=tagged_box_reserve_54bits\"),",
  src% "            \"53bits\" => println!(\"cargo:rustc-cfg=tagged_box_reserve_53bits\"),",
  src% "            \"52bits\" => println!(\"cargo:rustc-cfg=tagged_box_reserve_52bits\"),",
  src% "            \"51bits\" => println!(\"cargo:rustc-cfg=tagged_box_reserve_51bits\"),",
  src% "            \"50bits\" => println!(\"cargo:rustc-cfg=tagged_box_reserve_50bits\"),",
  src% "            \"49bits\" => println!(\"cargo:rustc-cfg=tagged_box_reserve_49bits\"),",
  src% "            \"48bits\" => println!(\"cargo:rustc-cfg=tagged_box_reserve_48bits\"),",
  src% "            reserved => {",
  src% "                println!(\"cargo:warning={} is an invalid reserved pointer width for `TAGGED_BOX_RESERVED_WIDTH`\", reserved);",
  src% "                println!(\"cargo:rustc-cfg=tagged_box_reserve_60bits\")",
  src% "            }",
  src% "        }",
  src% "    } else {",
  src% "        println!(\"cargo:rustc-cfg=tagged_box_reserve_60bits\");",
  src% "    }",
  src% "}"]

end TB.Source

import Verif.Cargo

/-!
# Width settings and build script

Models `src/discriminant.rs` and `build.rs`.
-/

set_option autoImplicit false

namespace TB

/-- One row of the settings table.
`src/discriminant.rs:31-32` (the macro parameters `[feature, discrim, max, ptr_width, free_bits]`).
The Rust type `u8`/`u16` of a discriminant is represented by its width in bits. -/
structure Config where
  feature   : String
  discrBits : Nat
  maxDiscr  : Nat
  ptrWidth  : Nat
  freeBits  : Nat
deriving DecidableEq, Repr

/-- The table, row by row. `src/discriminant.rs:71-88` (`generate_discriminants!` invocation). -/
def table : List Config :=
  [ ⟨"tagged_box_reserve_63bits", 8,  1,     63, 1 ⟩,
    ⟨"tagged_box_reserve_62bits", 8,  3,     62, 2 ⟩,
    ⟨"tagged_box_reserve_61bits", 8,  7,     61, 3 ⟩,
    ⟨"tagged_box_reserve_60bits", 8,  15,    60, 4 ⟩,
    ⟨"tagged_box_reserve_59bits", 8,  31,    59, 5 ⟩,
    ⟨"tagged_box_reserve_58bits", 8,  63,    58, 6 ⟩,
    ⟨"tagged_box_reserve_57bits", 8,  127,   57, 7 ⟩,
    ⟨"tagged_box_reserve_56bits", 8,  255,   56, 8 ⟩,
    ⟨"tagged_box_reserve_55bits", 16, 511,   55, 9 ⟩,
    ⟨"tagged_box_reserve_54bits", 16, 1023,  54, 10⟩,
    ⟨"tagged_box_reserve_53bits", 16, 2047,  53, 11⟩,
    ⟨"tagged_box_reserve_52bits", 16, 4068,  52, 12⟩,
    ⟨"tagged_box_reserve_51bits", 16, 8191,  51, 13⟩,
    ⟨"tagged_box_reserve_50bits", 16, 16383, 50, 14⟩,
    ⟨"tagged_box_reserve_49bits", 16, 32767, 49, 15⟩,
    ⟨"tagged_box_reserve_48bits", 16, 65535, 48, 16⟩ ]

namespace Config

/-- The Rust type `Discriminant` (`u8` or `u16`). `src/discriminant.rs:38` -/
abbrev Discr (c : Config) : Type := BitVec c.discrBits

/-- `MAX_DISCRIMINANT`. `src/discriminant.rs:43` -/
def MAX_DISCRIMINANT (c : Config) : c.Discr := BitVec.ofNat c.discrBits c.maxDiscr

/-- `MAX_POINTER_VALUE = u64::max_value() >> $free_bits`. `src/discriminant.rs:48` -/
def MAX_POINTER_VALUE (c : Config) : BitVec 64 := BitVec.allOnes 64 >>> c.freeBits

/-- `POINTER_WIDTH`. `src/discriminant.rs:53` -/
def POINTER_WIDTH (c : Config) : Nat := c.ptrWidth

/-- `DISCRIMINANT_MASK = u64::max_value() >> $free_bits`. `src/discriminant.rs:59` -/
def DISCRIMINANT_MASK (c : Config) : BitVec 64 := BitVec.allOnes 64 >>> c.freeBits

/-- `DISCRIMINANT_BITS`. `src/discriminant.rs:64` -/
def DISCRIMINANT_BITS (c : Config) : Nat := c.freeBits

end Config

/-- What `std::env::var("TAGGED_BOX_RESERVED_WIDTH")` can return: `Err(NotPresent)`,
`Err(NotUnicode)`, or `Ok(s)`. `build.rs:2` -/
inductive EnvVar where
  | notPresent
  | notUnicode
  | ok (s : String)
deriving DecidableEq

/-- `build.rs:1-28` `main`: what it gives to `println!`. The `dbg!` print to stderr is not modelled. -/
def buildMain : EnvVar → List (List Char)
  | .ok var =>
    match var with
    | "63bits" => ["cargo:rustc-cfg=tagged_box_reserve_63bits".toList]
    | "62bits" => ["cargo:rustc-cfg=tagged_box_reserve_62bits".toList]
    | "61bits" => ["cargo:rustc-cfg=tagged_box_reserve_61bits".toList]
    | "60bits" => ["cargo:rustc-cfg=tagged_box_reserve_60bits".toList]
    | "59bits" => ["cargo:rustc-cfg=tagged_box_reserve_59bits".toList]
    | "58bits" => ["cargo:rustc-cfg=tagged_box_reserve_58bits".toList]
    | "57bits" => ["cargo:rustc-cfg=tagged_box_reserve_57bits".toList]
    | "56bits" => ["cargo:rustc-cfg=tagged_box_reserve_56bits".toList]
    | "55bits" => ["cargo:rustc-cfg=tagged_box_reserve_55bits".toList]
    | "54bits" => ["cargo:rustc-cfg=tagged_box_reserve_54bits".toList]
    | "53bits" => ["cargo:rustc-cfg=tagged_box_reserve_53bits".toList]
    | "52bits" => ["cargo:rustc-cfg=tagged_box_reserve_52bits".toList]
    | "51bits" => ["cargo:rustc-cfg=tagged_box_reserve_51bits".toList]
    | "50bits" => ["cargo:rustc-cfg=tagged_box_reserve_50bits".toList]
    | "49bits" => ["cargo:rustc-cfg=tagged_box_reserve_49bits".toList]
    | "48bits" => ["cargo:rustc-cfg=tagged_box_reserve_48bits".toList]
    | reserved => ["cargo:warning=".toList ++ reserved.toList ++ " is an invalid reserved pointer width for `TAGGED_BOX_RESERVED_WIDTH`".toList,
      "cargo:rustc-cfg=tagged_box_reserve_60bits".toList]
  | _ => ["cargo:rustc-cfg=tagged_box_reserve_60bits".toList]

/-- What cargo gets to read. -/
def buildLines (v : EnvVar) : List BuildLine := cargoReads (printlns (buildMain v))

/-- The rows whose `#[cfg($feature)] mod variables` is compiled in.
`src/discriminant.rs:33-34`. The crate only compiles if there is exactly one
(zero: `pub use variables::*` unresolved; two: duplicate module). -/
def activeRows (lines : List BuildLine) : List Config :=
  table.filter (fun c => decide (BuildLine.cfg c.feature ∈ lines))

end TB

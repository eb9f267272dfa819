import Verif.Mbe.Lex

/-!
# The text of `src/discriminant.rs`

The whole file, verbatim, one entry per line (written by `scripts/gen_sources.py` from the file).
-/

set_option autoImplicit false
set_option maxRecDepth 100000

namespace TB.Source

/-- `src/discriminant.rs:1-88` -/
noncomputable def discriminantText : List (List Char) := [
  src% "//! Stores variables that change upon different reserved pointer widths, as set by features",
  src% "",
  src% "pub use variables::*;",
  src% "",
  src% "/// Macro to help generate documentation  ",
  src% "/// Note: Any actual expressions that cannot be coerced into an `ident` should be wrapped",
  src% "/// in a combination of `stringify!` and `concat!`",
  src% "macro_rules! doc {",
  src% "    ($($expr:expr),*; $($tt:tt)*) => {",
  src% "        doc!(@add_doc",
  src% "            concat!($( doc!(@match $expr) ),*);",
  src% "            $( $tt )*",
  src% "        );",
  src% "    };",
  src% "",
  src% "    (@match $lit:literal) => {",
  src% "        $lit",
  src% "    };",
  src% "    (@match $expr:expr) => {",
  src% "        concat!($expr)",
  src% "    };",
  src% "",
  src% "    (@add_doc $s:expr; $($tt:tt)*) => {",
  src% "        #[doc = $s]",
  src% "        $( $tt )*",
  src% "    };",
  src% "}",
  src% "",
  src% "/// Macro to help generate the discriminant variables for every reserved pointer width",
  src% "macro_rules! generate_discriminants {",
  src% "    ($([ $feature:ident, $discrim:ty, $max:expr, $ptr_width:expr, $free_bits:expr ]),*) => {",
  src% "        $(",
  src% "            #[cfg($feature)]",
  src% "            mod variables {",
  src% "                doc! {",
  src% "                    \"A discriminant stored in a [`TaggedPointer`], represented by a `\", stringify!($discrim),",
  src% "                    \"` for the `\", stringify!($feature), \"` feature\\n\\n[`TaggedPointer`]: crate::TaggedPointer\";",
  src% "                    pub type Discriminant = $discrim;",
  src% "                }",
  src% "",
  src% "                doc! {",
  src% "                    \"The maximum allowed value of a discriminant, which for the `\", stringify!($feature), \"` feature is \", $max;",
  src% "                    pub const MAX_DISCRIMINANT: Discriminant = $max;",
  src% "                }",
  src% "",
  src% "                doc! {",
  src% "                    \"The maximum allowed value of a pointer, which for the `\", stringify!($feature), \"` feature is `2 ^ \", $ptr_width, \"`\";",
  src% "                    pub const MAX_POINTER_VALUE: u64 = u64::max_value() >> $free_bits;",
  src% "                }",
  src% "",
  src% "                doc! {",
  src% "                    \"The reserved width of a pointer, which for the `\", stringify!($feature), \"` feature is \", $ptr_width, \" bits\";",
  src% "                    pub const POINTER_WIDTH: u64 = $ptr_width;",
  src% "                }",
  src% "",
  src% "                doc! {",
  src% "                    \"A mask to remove the upper free bits of a tagged pointer, which for the `\", stringify!($feature),",
  src% "                    \"` feature is `usize::MAX >> \", $free_bits, \"`\";",
  src% "                    pub const DISCRIMINANT_MASK: u64 = u64::max_value() >> $free_bits;",
  src% "                }",
  src% "",
  src% "                doc! {",
  src% "                    \"The total number of bits reserved for a discriminant, which for the `\", stringify!($feature), \"`feature is `\", $free_bits, \"`\";",
  src% "                    pub const DISCRIMINANT_BITS: u64 = $free_bits;",
  src% "                }",
  src% "            }",
  src% "        )*",
  src% "    };",
  src% "}",
  src% "",
  src% "generate_discriminants! {",
  src% "    [tagged_box_reserve_63bits, u8,  1,     63, 1 ],",
  src% "    [tagged_box_reserve_62bits, u8,  3,     62, 2 ],",
  src% "    [tagged_box_reserve_61bits, u8,  7,     61, 3 ],",
  src% "    [tagged_box_reserve_60bits, u8,  15,    60, 4 ],",
  src% "    [tagged_box_reserve_59bits, u8,  31,    59, 5 ],",
  src% "    [tagged_box_reserve_58bits, u8,  63,    58, 6 ],",
  src% "    [tagged_box_reserve_57bits, u8,  127,   57, 7 ],",
  src% "    [tagged_box_reserve_56bits, u8,  255,   56, 8 ],",
  src% "    [tagged_box_reserve_55bits, u16, 511,   55, 9 ],",
  src% "    [tagged_box_reserve_54bits, u16, 1023,  54, 10],",
  src% "    [tagged_box_reserve_53bits, u16, 2047,  53, 11],",
  src% "    [tagged_box_reserve_52bits, u16, 4068,  52, 12],",
  src% "    [tagged_box_reserve_51bits, u16, 8191,  51, 13],",
  src% "    [tagged_box_reserve_50bits, u16, 16383, 50, 14],",
  src% "    [tagged_box_reserve_49bits, u16, 32767, 49, 15],",
  src% "    [tagged_box_reserve_48bits, u16, 65535, 48, 16]",
  src% "}"]

end TB.Source

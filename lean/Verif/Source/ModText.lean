import Verif.Mbe.Lex

/-!
# The text of `src/tagged_box_macro/mod.rs`

The whole file, verbatim, one entry per line (written by `scripts/gen_sources.py` from the file).
-/

set_option autoImplicit false
set_option maxRecDepth 100000

namespace TB.Source

/-- `src/tagged_box_macro/mod.rs:1-852` -/
noncomputable def modText : List (List Char) := [
  src% "mod meta_macros;",
  src% "",
  src% "#[doc(hidden)]",
  src% "#[macro_export]",
  src% "macro_rules! __make_enum {",
  src% "    ($vis:vis, $enum:ident [$($meta:meta)*] $($rest:tt)*) => {",
  src% "        $crate::__make_enum! { @inner $vis, $enum, $( $meta ),* [] $( $rest )* }",
  src% "    };",
  src% "",
  src% "    (@inner $vis:vis, $enum:ident, $($meta:meta),* [$($finished:tt)*] $variant:ident($($ty:ty),*), $($rest:tt)*) => {",
  src% "        $crate::__make_enum! { @inner $vis, $enum, $( $meta ),* [$( $finished )* $variant($( $ty ),*),] $( $rest )* }",
  src% "    };",
  src% "",
  src% "    (@inner $vis:vis, $enum:ident, $($meta:meta),* [$($finished:tt)*] $variant:ident { $($member:ident: $ty:ty),* }, $($rest:tt)*) => {",
  src% "        $crate::__make_enum! { @inner $vis, $enum, $( $meta ),* [$( $finished )* $variant { $( $member: $ty ),* },] $( $rest )* }",
  src% "    };",
  src% "    (@inner $vis:vis, $enum:ident, $($meta:meta),* [$($finished:tt)*] $variant:ident { $($member:ident: $ty:ty,)* }, $($rest:tt)*) => {",
  src% "        $crate::__make_enum! { @inner $vis, $enum, $( $meta ),* [$( $finished )* $variant { $( $member: $ty ),* },] $( $rest )* }",
  src% "    };",
  src% "",
  src% "    (@inner $vis:vis, $enum:ident, $($meta:meta),* [$($finished:tt)*] $variant:ident, $($rest:tt)*) => {",
  src% "        $crate::__make_enum! { @inner $vis, $enum, $( $meta ),* [$( $finished )* $variant,] $( $rest )* }",
  src% "    };",
  src% "",
  src% "    (@inner $vis:vis, $enum:ident, $($meta:meta),* [$($finished:tt)*]) => {",
  src% "        $( #[$meta] )*",
  src% "        $vis enum $enum {",
  src% "            $( $finished )*",
  src% "        }",
  src% "    };",
  src% "}",
  src% "",
  src% "#[doc(hidden)]",
  src% "#[macro_export]",
  src% "macro_rules! __taggable_into_box {",
  src% "    ($tagged:expr, $enum:ident, $counter:ident, $($rest:tt)*) => {",
  src% "        $crate::__taggable_into_box!(@inner $tagged, $enum, $counter [] $( $rest )*)",
  src% "    };",
  src% "",
  src% "    (@inner $tagged:expr, $enum:ident, $counter:ident [$($finished:tt)*] $variant:ident($ty:ty), $($rest:tt)* ) => {",
  src% "        $crate::__taggable_into_box!(@inner $tagged, $enum, $counter",
  src% "            [",
  src% "                $( $finished )*",
  src% "                $enum::$variant(var) => {",
  src% "                    $crate::TaggedBox::<$enum>::new::<$ty>(var, $counter::$variant as u8)",
  src% "                },",
  src% "            ]",
  src% "            $( $rest )*",
  src% "        )",
  src% "    };",
  src% "",
  src% "    (@inner $tagged:expr, $enum:ident, $counter:ident [$($finished:tt)*] $variant:ident($($ty:ty),*), $($rest:tt)* ) => {",
  src% "        $crate::__expand_tuple_arm!($tagged, $enum, $counter, $variant, $( $ty ),* [$( $finished )*] [$( $rest )*] $( $ty ),*)",
  src% "    };",
  src% "",
  src% "    (@inner $tagged:expr, $enum:ident, $counter:ident [$($tt:tt)*] $variant:ident { $($member:ident: $ty:ty),* }, $($rest:tt)* ) => {",
  src% "        $crate::__taggable_into_box!(@inner $tagged, $enum, $counter",
  src% "            [",
  src% "                $( $tt )*",
  src% "                $enum::$variant { $( $member ),* } => {",
  src% "                    #[repr(C)]",
  src% "                    struct $variant {",
  src% "                        $( $member: $ty ),*",
  src% "                    }",
  src% "                    $crate::TaggedBox::<$enum>::new::<$variant>($variant { $( $member ),* }, $counter::$variant as u8)",
  src% "                }",
  src% "            ]",
  src% "            $( $rest )*",
  src% "        )",
  src% "    };",
  src% "    (@inner $tagged:expr, $enum:ident, $counter:ident [$($tt:tt)*] $variant:ident { $($member:ident: $ty:ty,)* }, $($rest:tt)* ) => {",
  src% "        $crate::__taggable_into_box!(@inner $tagged, $enum, $counter",
  src% "            [",
  src% "                $( $tt )*",
  src% "                $enum::$variant { $( $member ),* } => {",
  src% "                    #[repr(C)]",
  src% "                    struct $variant {",
  src% "                        $( $member: $ty ),*",
  src% "                    }",
  src% "                    $crate::TaggedBox::<$enum>::new::<$variant>($variant { $( $member ),* }, $counter::$variant as u8)",
  src% "                }",
  src% "            ]",
  src% "            $( $rest )*",
  src% "        )",
  src% "    };",
  src% "",
  src% "    (@inner $tagged:expr, $enum:ident, $counter:ident [$($finished:tt)*] $variant:ident, $($rest:tt)* ) => {",
  src% "        $crate::__taggable_into_box!(@inner $tagged, $enum, $counter",
  src% "            [",
  src% "                $( $finished )*",
  src% "                $enum::$variant => $crate::TaggedBox::<$enum>::dangling::<$enum>($counter::$variant as u8),",
  src% "            ]",
  src% "            $( $rest )*",
  src% "        )",
  src% "    };",
  src% "",
  src% "    (@inner $tagged:expr, $enum:ident, $counter:ident [$($finished:tt)*]) => {",
  src% "        match $tagged {",
  src% "            $( $finished )*",
  src% "        }",
  src% "    };",
  src% "}",
  src% "",
  src% "#[doc(hidden)]",
  src% "#[macro_export]",
  src% "macro_rules! __derive_from {",
  src% "    (@inner $struct:ident, $enum:ident, $variant:ident($ty:ty), $($rest:tt)*) => {",
  src% "        impl From<$ty> for $struct {",
  src% "            #[inline]",
  src% "            fn from(val: $ty) -> Self {",
  src% "                #[allow(unused_imports)]",
  src% "                use $crate::TaggableInner;",
  src% "",
  src% "                Self {",
  src% "                    value: $enum::$variant(val).into_tagged_box(),",
  src% "                }",
  src% "            }",
  src% "        }",
  src% "",
  src% "        $crate::__derive_from! { @inner $struct, $enum, $( $rest )* }",
  src% "    };",
  src% "",
  src% "    (@inner $struct:ident, $enum:ident, $variant:ident($($ty:ty),*), $($rest:tt)*) => {",
  src% "        impl From<($( $ty, )*)> for $struct {",
  src% "            #[inline]",
  src% "            fn from(tuple: ($( $ty, )*)) -> Self {",
  src% "                #![allow(unused_imports, unused_variables)]",
  src% "                use $crate::TaggableInner;",
  src% "",
  src% "                let variant: $enum = $crate::__expand_tuple!($enum::$variant, tuple, $($ty),*);",
  src% "                Self {",
  src% "                    value: variant.into_tagged_box(),",
  src% "                }",
  src% "            }",
  src% "        }",
  src% "",
  src% "        $crate::__derive_from! { @inner $struct, $enum, $( $rest )* }",
  src% "    };",
  src% "",
  src% "    (@inner $struct:ident, $enum:ident, $variant:ident { $($ident:ident: $ty:ty),* }, $($rest:tt)*) => {",
  src% "        $crate::__derive_from! { @inner $struct, $enum, $( $rest )* }",
  src% "    };",
  src% "    (@inner $struct:ident, $enum:ident, $variant:ident { $($ident:ident: $ty:ty,)* }, $($rest:tt)*) => {",
  src% "        $crate::__derive_from! { @inner $struct, $enum, $( $rest )* }",
  src% "    };",
  src% "",
  src% "    (@inner $struct:ident, $enum:ident, $variant:ident, $($rest:tt)*) => {",
  src% "        $crate::__derive_from! { @inner $struct, $enum, $( $rest )* }",
  src% "    };",
  src% "",
  src% "    (@inner $struct:ident, $enum:ident,) => { };",
  src% "",
  src% "    ($struct:ident, $enum:ident, $($rest:tt)*) => {",
  src% "        $crate::__derive_from! { @inner $struct, $enum, $( $rest )* }",
  src% "    };",
  src% "}",
  src% "",
  src% "#[doc(hidden)]",
  src% "#[macro_export]",
  src% "macro_rules! __generate_const_sizes {",
  src% "    ($($ty:ty),*) => {{",
  src% "        $crate::__generate_const_sizes!(@inner [0] $( $ty, )*)",
  src% "    }};",
  src% "",
  src% "    (@inner [$($finished:tt)*] $ty:ty, $($rest:ty,)*) => {",
  src% "        $crate::__generate_const_sizes!(@inner",
  src% "            [",
  src% "            $( $finished )* + {",
  src% "                const __NUMBER_VAR_BITS: usize = core::mem::size_of::<$ty>() * 8;",
  src% "                __NUMBER_VAR_BITS",
  src% "            }]",
  src% "            $( $rest, )*",
  src% "        )",
  src% "    };",
  src% "",
  src% "    (@inner [$($finished:tt)*]) => {",
  src% "        $( $finished )*",
  src% "    };",
  src% "}",
  src% "",
  src% "#[doc(hidden)]",
  src% "#[macro_export]",
  src% "macro_rules! __boxed_into_inner {",
  src% "    (@inner $tagged:expr, $enum:ident, $counter:ident, [$($tt:tt)*] $variant:ident($ty:ty), $($rest:tt)*) => {",
  src% "        $crate::__boxed_into_inner!(@inner $tagged, $enum, $counter, [",
  src% "            $( $tt )*",
  src% "            discrim if discrim == $counter::$variant as u8 => {",
  src% "                // TODO: Inline variables",
  src% "                // if $crate::__generate_const_sizes!($ty) <= $crate::discriminant::DISCRIMINANT_BITS as usize {",
  src% "                //     todo!(\"Store small variables directly in the pointer\")",
  src% "                // } else {",
  src% "                //     $enum::$variant($crate::TaggedBox::<$enum>::into_inner::<$ty>($tagged))",
  src% "                // }",
  src% "                $enum::$variant($crate::TaggedBox::<$enum>::into_inner::<$ty>($tagged))",
  src% "            },",
  src% "        ] $( $rest )*);",
  src% "    };",
  src% "",
  src% "    (@inner $tagged:expr, $enum:ident, $counter:ident, [$($tt:tt)*] $variant:ident($($ty:ty),*), $($rest:tt)*) => {",
  src% "        $crate::__boxed_into_inner!(@inner $tagged, $enum, $counter, [",
  src% "            $( $tt )*",
  src% "            discrim if discrim == $counter::$variant as u8 => {",
  src% "                #[allow(dead_code)]",
  src% "                #[repr(C)]",
  src% "                struct $variant($( $ty ),*);",
  src% "",
  src% "                // TODO: Inline variables",
  src% "                // if $crate::__generate_const_sizes!($( $ty ),*) <= $crate::discriminant::DISCRIMINANT_BITS as usize {",
  src% "                //     todo!(\"Store small variables directly in the pointer\")",
  src% "                // } else {",
  src% "                //     $crate::__expand_tuple!($enum::$variant, $crate::TaggedBox::<$enum>::into_inner::<$variant>($tagged), $($ty),*)",
  src% "                // }",
  src% "                $crate::__expand_tuple!($enum::$variant, $crate::TaggedBox::<$enum>::into_inner::<$variant>($tagged), $($ty),*)",
  src% "            },",
  src% "        ] $( $rest )*);",
  src% "    };",
  src% "",
  src% "    (@inner $tagged:expr, $enum:ident, $counter:ident, [$($tt:tt)*] $variant:ident { $($ident:ident: $ty:ty),* }, $($rest:tt)*) => {",
  src% "        $crate::__boxed_into_inner!(@inner $tagged, $enum, $counter, [",
  src% "            $( $tt )*",
  src% "            discrim if discrim == $counter::$variant as u8 => {",
  src% "                // TODO: Miniscule pointer storage can be preformed here too",
  src% "                #[repr(C)]",
  src% "                struct $variant {",
  src% "                    $( $ident: $ty ),*",
  src% "                }",
  src% "                let $variant { $( $ident ),* } = $crate::TaggedBox::<$enum>::into_inner::<$variant>($tagged);",
  src% "                $enum::$variant { $( $ident ),* }",
  src% "            },",
  src% "        ] $( $rest )*);",
  src% "    };",
  src% "    (@inner $tagged:expr, $enum:ident, $counter:ident, [$($tt:tt)*] $variant:ident { $($ident:ident: $ty:ty,)* }, $($rest:tt)*) => {",
  src% "        $crate::__boxed_into_inner!(@inner $tagged, $enum, $counter, [",
  src% "            $( $tt )*",
  src% "            discrim if discrim == $counter::$variant as u8 => {",
  src% "                // TODO: Miniscule pointer storage can be preformed here too",
  src% "                #[repr(C)]",
  src% "                struct $variant {",
  src% "                    $( $ident: $ty ),*",
  src% "                }",
  src% "                let $variant { $( $ident ),* } = $crate::TaggedBox::<$enum>::into_inner::<$variant>($tagged);",
  src% "                $enum::$variant { $( $ident ),* }",
  src% "            },",
  src% "        ] $( $rest )*);",
  src% "    };",
  src% "",
  src% "    (@inner $tagged:expr, $enum:ident, $counter:ident, [$($tt:tt)*] $variant:ident, $($rest:tt)*) => {",
  src% "        $crate::__boxed_into_inner!(@inner $tagged, $enum, $counter, [",
  src% "            $( $tt )*",
  src% "            discrim if discrim == $counter::$variant as u8 => $enum::$variant,",
  src% "        ] $( $rest )*);",
  src% "    };",
  src% "",
  src% "    (@inner $tagged:expr, $enum:ident, $counter:ident, [$($tt:tt)*]) => {",
  src% "        #[allow(unused_parens)]",
  src% "        match $tagged.discriminant() {",
  src% "            $( $tt )*",
  src% "            _ => panic!(\"Attempted to create an enum variant from a discriminant that doesn't exist!\"),",
  src% "        }",
  src% "    };",
  src% "",
  src% "    ($tagged:expr, $enum:ident, $counter:ident, $($rest:tt)*) => {",
  src% "        $crate::__boxed_into_inner!(@inner $tagged, $enum, $counter, [] $( $rest )*)",
  src% "    };",
  src% "}",
  src% "",
  src% "#[doc(hidden)]",
  src% "#[macro_export]",
  src% "macro_rules! __from_tagged_box {",
  src% "    ($tagged:expr, $enum:ident, $counter:ident, $total_variants:expr, $($rest:tt)*) => {",
  src% "        $crate::__from_tagged_box!(@inner $tagged, $enum, $counter, $total_variants, [] $( $rest )*)",
  src% "    };",
  src% "",
  src% "    (@inner $tagged:expr, $enum:ident, $counter:ident, $total_variants:expr, [$($tt:tt)*] $variant:ident($ty:ty), $($rest:tt)*) => {",
  src% "        $crate::__from_tagged_box!(",
  src% "            @inner",
  src% "            $tagged,",
  src% "            $enum,",
  src% "            $counter,",
  src% "            $total_variants,",
  src% "            [",
  src% "                $($tt)*",
  src% "                discrim if discrim == $counter::$variant as u8 => {",
  src% "                    $enum::$variant($crate::TaggedBox::<$enum>::into_inner::<$ty>($tagged))",
  src% "                },",
  src% "            ] $($rest)*",
  src% "        )",
  src% "    };",
  src% "",
  src% "    (@inner $tagged:expr, $enum:ident, $counter:ident, $total_variants:expr, [$($tt:tt)*] $variant:ident($($ty:ty),*), $($rest:tt)*) => {",
  src% "        $crate::__from_tagged_box!(",
  src% "            @inner",
  src% "            $tagged,",
  src% "            $enum,",
  src% "            $counter,",
  src% "            $total_variants,",
  src% "            [",
  src% "                $($tt)*",
  src% "                discrim if discrim == $counter::$variant as u8 => {",
  src% "                    $crate::__expand_tuple!($enum::$variant, $crate::TaggedBox::<$enum>::into_inner::<($( $ty ),*)>($tagged), $( $ty ),*)",
  src% "                },",
  src% "            ] $($rest)*",
  src% "        )",
  src% "    };",
  src% "",
  src% "    (@inner $tagged:expr, $enum:ident, $counter:ident, $total_variants:expr, [$($tt:tt)*] $variant:ident { $($ident:ident: $ty:ty),* }, $($rest:tt)*) => {",
  src% "        $crate::__from_tagged_box!(",
  src% "            @inner",
  src% "            $tagged,",
  src% "            $enum,",
  src% "            $counter,",
  src% "            $total_variants,",
  src% "            [",
  src% "                $($tt)*",
  src% "                discrim if discrim == $counter::$variant as u8 => {",
  src% "                    #[repr(C)]",
  src% "                    struct $variant {",
  src% "                        $( $ident: $ty ),*",
  src% "                    }",
  src% "                    let $variant { $( $ident ),* } = $crate::TaggedBox::<$enum>::into_inner::<$variant>($tagged);",
  src% "                    $enum::$variant { $( $ident ),* }",
  src% "                },",
  src% "            ] $($rest)*",
  src% "        )",
  src% "    };",
  src% "    (@inner $tagged:expr, $enum:ident, $counter:ident, $total_variants:expr, [$($tt:tt)*] $variant:ident { $($ident:ident: $ty:ty,)* }, $($rest:tt)*) => {",
  src% "        $crate::__from_tagged_box!(",
  src% "            @inner",
  src% "            $tagged,",
  src% "            $enum,",
  src% "            $counter,",
  src% "            $total_variants,",
  src% "            [",
  src% "                $($tt)*",
  src% "                discrim if discrim == $counter::$variant as u8 => {",
  src% "                    #[repr(C)]",
  src% "                    struct $variant {",
  src% "                        $( $ident: $ty ),*",
  src% "                    }",
  src% "                    let $variant { $( $ident ),* } = $crate::TaggedBox::<$enum>::into_inner::<$variant>($tagged);",
  src% "                    $enum::$variant { $( $ident ),* }",
  src% "                },",
  src% "            ] $($rest)*",
  src% "        )",
  src% "    };",
  src% "",
  src% "    (@inner $tagged:expr, $enum:ident, $counter:ident, $total_variants:expr, [$($tt:tt)*] $variant:ident, $($rest:tt)*) => {",
  src% "        $crate::__from_tagged_box!(",
  src% "            @inner",
  src% "            $tagged,",
  src% "            $enum,",
  src% "            $counter,",
  src% "            $total_variants,",
  src% "            [",
  src% "                $($tt)*",
  src% "                discrim if discrim == $counter::$variant as u8 => $enum::$variant,",
  src% "            ] $($rest)*",
  src% "        )",
  src% "    };",
  src% "",
  src% "    (@inner $tagged:expr, $enum:ident, $counter:ident, $total_variants:expr, [$($tt:tt)*]) => {",
  src% "        #[allow(unused_parens)]",
  src% "        match $tagged.discriminant() {",
  src% "            $( $tt )*",
  src% "",
  src% "            discriminant => {",
  src% "                #[allow(non_upper_case_globals)]",
  src% "                panic!(",
  src% "                    \"The number of variants in `{}` is {}, but a variant by the discriminant of {} was attempted to be created\",",
  src% "                    stringify!($enum),",
  src% "                    $total_variants,",
  src% "                    discriminant",
  src% "                );",
  src% "            }",
  src% "        }",
  src% "    };",
  src% "}",
  src% "",
  src% "#[doc(hidden)]",
  src% "#[macro_export]",
  src% "macro_rules! __ref_from_tagged {",
  src% "    ($tagged:expr, $callback:expr, $enum:ident, $counter:ident, $total_variants:expr, $($rest:tt)*) => {",
  src% "        $crate::__ref_from_tagged!(@inner $tagged, $callback, $enum, $counter, $total_variants, [] $( $rest )*)",
  src% "    };",
  src% "",
  src% "    (@inner $tagged:expr, $callback:expr, $enum:ident, $counter:ident, $total_variants:expr, [$($tt:tt)*] $variant:ident($ty:ty), $($rest:tt)*) => {",
  src% "        $crate::__ref_from_tagged!(",
  src% "            @inner",
  src% "            $tagged,",
  src% "            $callback,",
  src% "            $enum,",
  src% "            $counter,",
  src% "            $total_variants,",
  src% "            [",
  src% "                $($tt)*",
  src% "                discrim if discrim == $counter::$variant as u8 => {",
  src% "                    let variant: core::mem::ManuallyDrop<$enum> = core::mem::ManuallyDrop::new($enum::$variant($tagged.as_ptr::<$ty>().read()));",
  src% "                    ($callback)(&variant);",
  src% "                }",
  src% "            ] $($rest)*",
  src% "        )",
  src% "    };",
  src% "",
  src% "    (@inner $tagged:expr, $callback:expr, $enum:ident, $counter:ident, $total_variants:expr, [$($tt:tt)*] $variant:ident($($ty:ty),*), $($rest:tt)*) => {",
  src% "        $crate::__ref_from_tagged!(",
  src% "            @inner",
  src% "            $tagged,",
  src% "            $callback,",
  src% "            $enum,",
  src% "            $counter,",
  src% "            $total_variants,",
  src% "            [",
  src% "                $( $tt )*",
  src% "                discrim if discrim == $counter::$variant as u8 => {",
  src% "                    #[repr(C)]",
  src% "                    struct $variant($( $ty ),*);",
  src% "",
  src% "                    #[allow(unused_variables)]",
  src% "                    let tuple: $variant = $crate::__expand_tuple!(",
  src% "                        $variant,",
  src% "                        $tagged.as_ptr::<$variant>().read(),",
  src% "                        $( $ty ),*",
  src% "                    );",
  src% "                    let variant: core::mem::ManuallyDrop<$enum> = core::mem::ManuallyDrop::<$enum>::new($crate::__expand_tuple!($enum::$variant, tuple, $($ty),*));",
  src% "",
  src% "                    ($callback)(&*variant);",
  src% "                }",
  src% "            ]",
  src% "            $( $rest )*",
  src% "        )",
  src% "    };",
  src% "",
  src% "    (@inner $tagged:expr, $callback:expr, $enum:ident, $counter:ident, $total_variants:expr, [$($tt:tt)*] $variant:ident { $($ident:ident: $ty:ty),* }, $($rest:tt)*) => {",
  src% "        $crate::__ref_from_tagged!(",
  src% "            @inner",
  src% "            $tagged,",
  src% "            $callback,",
  src% "            $enum,",
  src% "            $counter,",
  src% "            $total_variants,",
  src% "            [",
  src% "                $( $tt )*",
  src% "                discrim if discrim == $counter::$variant as u8 => {",
  src% "                    #[repr(C)]",
  src% "                    struct $variant {",
  src% "                        $( $ident: $ty ),*",
  src% "                    }",
  src% "                    let $variant { $( $ident ),* } = $tagged.as_ptr::<$variant>().read();",
  src% "                    let variant: core::mem::ManuallyDrop<$enum> = core::mem::ManuallyDrop::new($enum::$variant { $( $ident ),* });",
  src% "                    ($callback)(&*variant);",
  src% "                }",
  src% "            ]",
  src% "            $( $rest )*",
  src% "        )",
  src% "    };",
  src% "    (@inner $tagged:expr, $callback:expr, $enum:ident, $counter:ident, $total_variants:expr, [$($tt:tt)*] $variant:ident { $($ident:ident: $ty:ty,)* }, $($rest:tt)*) => {",
  src% "        $crate::__ref_from_tagged!(",
  src% "            @inner",
  src% "            $tagged,",
  src% "            $callback,",
  src% "            $enum,",
  src% "            $counter,",
  src% "            $total_variants,",
  src% "            [",
  src% "                $( $tt )*",
  src% "                discrim if discrim == $counter::$variant as u8 => {",
  src% "                    #[repr(C)]",
  src% "                    struct $variant {",
  src% "                        $( $ident: $ty ),*",
  src% "                    }",
  src% "                    let $variant { $( $ident ),* } = $tagged.as_ptr::<$variant>().read();",
  src% "                    let variant: core::mem::ManuallyDrop<$enum> = core::mem::ManuallyDrop::new($enum::$variant { $( $ident ),* });",
  src% "                    ($callback)(&*variant);",
  src% "                }",
  src% "            ]",
  src% "            $( $rest )*",
  src% "        )",
  src% "    };",
  src% "",
  src% "    (@inner $tagged:expr, $callback:expr, $enum:ident, $counter:ident, $total_variants:expr, [$($tt:tt)*] $variant:ident, $($rest:tt)*) => {",
  src% "        $crate::__ref_from_tagged!(",
  src% "            @inner",
  src% "            $tagged,",
  src% "            $callback,",
  src% "            $enum,",
  src% "            $counter,",
  src% "            $total_variants,",
  src% "            [",
  src% "                $( $tt )*",
  src% "                discrim if discrim == $counter::$variant as u8 => {",
  src% "                    let variant: $enum = $enum::$variant;",
  src% "                    ($callback)(&variant);",
  src% "                }",
  src% "            ]",
  src% "            $( $rest )*",
  src% "        )",
  src% "    };",
  src% "",
  src% "    (@inner $tagged:expr, $callback:expr, $enum:ident, $counter:ident, $total_variants:expr, [$($rest:tt)*]) => {",
  src% "        #[allow(unused_parens)]",
  src% "        match $tagged.discriminant() {",
  src% "            $( $rest )*",
  src% "",
  src% "            discriminant => {",
  src% "                #[allow(non_upper_case_globals)]",
  src% "                panic!(",
  src% "                    \"The number of variants in `{}` is {}, but a variant by the discriminant of {} was attempted to be referenced\",",
  src% "                    stringify!($enum),",
  src% "                    $total_variants,",
  src% "                    discriminant",
  src% "                );",
  src% "            }",
  src% "        }",
  src% "    };",
  src% "}",
  src% "",
  src% "#[doc(hidden)]",
  src% "#[macro_export]",
  src% "macro_rules! __counter_enum {",
  src% "    (@inner [$($finished:tt)*] $variant:ident($($ty:ty),*), $($rest:tt)*) => {",
  src% "        $crate::__counter_enum!(@inner [$( $finished )* $variant,] $( $rest )*)",
  src% "    };",
  src% "",
  src% "    (@inner [$($finished:tt)*] $variant:ident { $($member:ident: $ty:ty),* }, $($rest:tt)*) => {",
  src% "        $crate::__counter_enum!(@inner [$( $finished )* $variant,] $( $rest )*)",
  src% "    };",
  src% "    (@inner [$($finished:tt)*] $variant:ident { $($member:ident: $ty:ty,)* }, $($rest:tt)*) => {",
  src% "        $crate::__counter_enum!(@inner [$( $finished )* $variant,] $( $rest )*)",
  src% "    };",
  src% "",
  src% "    (@inner [$($finished:tt)*] $variant:ident, $($rest:tt)*) => {",
  src% "        $crate::__counter_enum!(@inner [$( $finished )* $variant,] $( $rest )*)",
  src% "    };",
  src% "",
  src% "    (@inner [$($finished:tt)*]) => {",
  src% "        #[doc(hidden)]",
  src% "        #[allow(non_camel_case_types)]",
  src% "        enum __tagged_box_enum_counter {",
  src% "            $( $finished )*",
  src% "        }",
  src% "    };",
  src% "",
  src% "    (@inner [$($finished:tt)*] $($tt:tt)*) => {",
  src% "        $crate::__counter_enum!(@error stringify!($( $tt )*))",
  src% "    };",
  src% "",
  src% "    (@error $code:literal) => {",
  src% "        compile_error!(\"Invalid enum definition: {}\", $literal);",
  src% "    };",
  src% "",
  src% "    ($($rest:tt)*) => {",
  src% "        $crate::__counter_enum!(@inner [] $( $rest )*)",
  src% "    };",
  src% "}",
  src% "",
  src% "#[doc(hidden)]",
  src% "#[macro_export]",
  src% "macro_rules! __count_variants {",
  src% "    (@inner [$($finished:tt)*] $variant:ident($($ty:ty),*), $($rest:tt)*) => {",
  src% "        $crate::__count_variants!(@inner [$( $finished )* $variant,] $( $rest )*)",
  src% "    };",
  src% "",
  src% "    (@inner [$($finished:tt)*] $variant:ident { $($member:ident: $ty:ty),* }, $($rest:tt)*) => {",
  src% "        $crate::__count_variants!(@inner [$( $finished )* $variant,] $( $rest )*)",
  src% "    };",
  src% "    (@inner [$($finished:tt)*] $variant:ident { $($member:ident: $ty:ty,)* }, $($rest:tt)*) => {",
  src% "        $crate::__count_variants!(@inner [$( $finished )* $variant,] $( $rest )*)",
  src% "    };",
  src% "",
  src% "    (@inner [$($finished:tt)*] $variant:ident, $($rest:tt)*) => {",
  src% "        $crate::__count_variants!(@inner [$( $finished )* $variant,] $( $rest )*)",
  src% "    };",
  src% "",
  src% "    (@inner [$($variant:ident,)*]) => {",
  src% "        [$( stringify!($variant) ),*].len()",
  src% "    };",
  src% "",
  src% "    ($($rest:tt)*) => {",
  src% "        $crate::__count_variants!(@inner [] $( $rest )*)",
  src% "    };",
  src% "}",
  src% "",
  src% "// TODO: Finish verifier macro",
  src% "#[doc(hidden)]",
  src% "#[macro_export]",
  src% "macro_rules! __verify_variants {",
  src% "    ($variant:ident($($ty:ty),*), $($rest:tt)*) => {",
  src% "        $crate::__verify_variants!($( $rest )*)",
  src% "    };",
  src% "    ($variant:ident($($ty:ty,)*), $($rest:tt)*) => {",
  src% "        $crate::__verify_variants!($( $rest )*)",
  src% "    };",
  src% "}",
  src% "",
  src% "/// Constructs a wrapper type and an associated enum to be stored as a [`TaggedBox`] that",
  src% "/// can be used safely.  ",
  src% "/// For more implementation details, see [manually implementing a tagged enum]",
  src% "///",
  src% "/// # Example Usage",
  src% "///",
  src% "/// ```rust",
  src% "/// # extern crate alloc;",
  src% "/// # use alloc::string::String;",
  src% "/// # use tagged_box::tagged_box;",
  src% "/// #",
  src% "/// tagged_box! {",
  src% "///     #[derive(Debug, Clone, PartialEq)] // This will be applied to both the inner enum and outer container",
  src% "///     struct Container, enum Item {",
  src% "///         Integer(i32),",
  src% "///         Numbers(usize, f32, u8),",
  src% "///         Unsigned {",
  src% "///             big: u128,",
  src% "///             large: u64,",
  src% "///             medium: u32,",
  src% "///             small: u16,",
  src% "///             tiny: u8,",
  src% "///         },",
  src% "///     }",
  src% "/// }",
  src% "/// ```",
  src% "///",
  src% "/// Note: The number of variants must be <= [`MAX_DISCRIMINANT`]",
  src% "///",
  src% "/// This will create a struct `Container` and an enum `Item`. Expanded, they will look like this:",
  src% "///",
  src% "/// ```rust",
  src% "/// # extern crate alloc;",
  src% "/// # use alloc::string::String;",
  src% "/// # use tagged_box::{TaggableInner, TaggedBox};",
  src% "/// # use core::mem::ManuallyDrop;",
  src% "/// #",
  src% "/// #[derive(Debug, Clone, PartialEq)]",
  src% "/// #[repr(transparent)] // repr(transparent) is automatically added to the generated structs",
  src% "/// struct Container {",
  src% "///     value: TaggedBox<Item>,",
  src% "/// }",
  src% "///",
  src% "/// #[derive(Debug, Clone, PartialEq)]",
  src% "/// enum Item {",
  src% "///     Integer(i32),",
  src% "///     Boolean(bool),",
  src% "///     String(String),",
  src% "/// }",
  src% "///",
  src% "/// // ..Omitted some generated code",
  src% "/// # // Have to implement this to avoid compile error",
  src% "/// # impl TaggableInner for Item {",
  src% "/// #     fn into_tagged_box(self) -> TaggedBox<Self> {",
  src% "/// #         match self {",
  src% "/// #             Self::Integer(int) => TaggedBox::new(int, 0),",
  src% "/// #             Self::Boolean(boolean) => TaggedBox::new(boolean, 1),",
  src% "/// #             Self::String(string) => TaggedBox::new(string, 2),",
  src% "/// #         }",
  src% "/// #     }",
  src% "/// #     fn from_tagged_box(tagged: TaggedBox<Self>) -> Self {",
  src% "/// #         unsafe {",
  src% "/// #             match tagged.discriminant() {",
  src% "/// #                 0 => Self::Integer(TaggedBox::into_inner(tagged)),",
  src% "/// #                 1 => Self::Boolean(TaggedBox::into_inner(tagged)),",
  src% "/// #                 2 => Self::String(TaggedBox::into_inner(tagged)),",
  src% "/// #                 _ => unreachable!(),",
  src% "/// #             }",
  src% "/// #         }",
  src% "/// #     }",
  src% "/// #     unsafe fn ref_from_tagged_box<F>(tagged: &TaggedBox<Self>, callback: F)",
  src% "/// #     where",
  src% "/// #         F: FnOnce(&Self),",
  src% "/// #     {",
  src% "/// #         let value = ManuallyDrop::new(match tagged.discriminant() {",
  src% "/// #             0 => Self::Integer(*tagged.as_ptr::<i32>()),",
  src% "/// #             1 => Self::Boolean(*tagged.as_ptr::<bool>()),",
  src% "/// #             2 => Self::String(tagged.as_ptr::<String>().read()),",
  src% "/// #             _ => unreachable!(),",
  src% "/// #         });",
  src% "/// #",
  src% "/// #         (callback)(&value);",
  src% "/// #     }",
  src% "/// # }",
  src% "/// ```",
  src% "///",
  src% "/// The omitted code will contain `From` implementations that allow you to get a `Container` from any value that would",
  src% "/// be allowed to be inside of the `Item` enum, e.g.",
  src% "///",
  src% "/// ```compile_fail",
  src% "/// # extern crate alloc;",
  src% "/// # use alloc::string::String;",
  src% "/// # use tagged_box::tagged_box;",
  src% "/// # tagged_box! {",
  src% "/// #     #[derive(Debug, Clone, PartialEq)]",
  src% "/// #     struct Container, enum Item {",
  src% "/// #         Integer(i32),",
  src% "/// #         Boolean(bool),",
  src% "/// #         String(String),",
  src% "/// #     }",
  src% "/// # }",
  src% "/// #",
  src% "/// Container::from(10i32);         // Works!",
  src% "/// Container::from(String::new()); // Works!",
  src% "/// Container::from(Vec::new());    // Doesn't work :(",
  src% "/// ```",
  src% "///",
  src% "/// With your freshly created container, you can now store an enum on the stack with only `usize` bytes of memory and",
  src% "/// safely retrieve it.",
  src% "///",
  src% "/// To get the value of a `Container` instance, simply use [`into_inner`] after importing the [`TaggableContainer`] trait",
  src% "///",
  src% "/// ```rust",
  src% "/// # extern crate alloc;",
  src% "/// # use alloc::string::String;",
  src% "/// # use tagged_box::tagged_box;",
  src% "/// # tagged_box! {",
  src% "/// #     #[derive(Debug, Clone, PartialEq)]",
  src% "/// #     struct Container, enum Item {",
  src% "/// #         Integer(i32),",
  src% "/// #         Boolean(bool),",
  src% "/// #         String(String),",
  src% "/// #     }",
  src% "/// # }",
  src% "/// #",
  src% "/// use tagged_box::TaggableContainer;",
  src% "///",
  src% "/// let container = Container::from(String::from(\"Hello from tagged-box!\"));",
  src% "/// assert_eq!(container.into_inner(), Item::String(String::from(\"Hello from tagged-box!\")));",
  src% "/// ```",
  src% "///",
  src% "/// [`TaggedBox`]: crate::TaggedBox",
  src% "/// [manually implementing a tagged enum]: crate::manually_impl_enum",
  src% "/// [`MAX_DISCRIMINANT`]: crate::discriminant::MAX_DISCRIMINANT",
  src% "/// [`into_inner`]: crate::TaggableContainer#into_inner",
  src% "/// [`TaggableContainer`]: crate::TaggableContainer",
  src% "#[macro_export]",
  src% "macro_rules! tagged_box {",
  src% "    (",
  src% "        $( #[$meta:meta] )*",
  src% "        $struct_vis:vis struct $struct:ident, $enum_vis:vis enum $enum:ident {",
  src% "            $($variants:tt)+",
  src% "        }",
  src% "    ) => {",
  src% "        $( #[$meta] )*",
  src% "        #[repr(transparent)]",
  src% "        $struct_vis struct $struct {",
  src% "            value: $crate::TaggedBox<$enum>,",
  src% "        }",
  src% "",
  src% "        impl $crate::TaggableContainer for $struct {",
  src% "            type Inner = $enum;",
  src% "",
  src% "            fn into_inner(self) -> $enum {",
  src% "                $crate::__counter_enum! {",
  src% "                    $( $variants )+",
  src% "                }",
  src% "",
  src% "                // Safety: The generated discriminants and their associated variants should be valid, as",
  src% "                // they are macro generated. As such, when calling `into_inner` the requested type should",
  src% "                // be valid for the tagged pointer",
  src% "                unsafe {",
  src% "                    $crate::__boxed_into_inner!(self.value, $enum, __tagged_box_enum_counter, $( $variants )*)",
  src% "                }",
  src% "            }",
  src% "        }",
  src% "",
  src% "        impl From<$enum> for $struct {",
  src% "            #[inline]",
  src% "            fn from(variant: $enum) -> Self {",
  src% "                use $crate::TaggableInner;",
  src% "",
  src% "                Self {",
  src% "                    value: variant.into_tagged_box(),",
  src% "                }",
  src% "            }",
  src% "        }",
  src% "",
  src% "        $crate::__derive_from! {",
  src% "            $struct, $enum, $( $variants )+",
  src% "        }",
  src% "",
  src% "        $crate::__make_enum! {",
  src% "            $enum_vis, $enum",
  src% "            [$( $meta )*]",
  src% "            $( $variants )+",
  src% "        }",
  src% "",
  src% "        impl $crate::TaggableInner for $enum {",
  src% "            fn into_tagged_box(self) -> $crate::TaggedBox<Self> {",
  src% "                $crate::__counter_enum! {",
  src% "                    $( $variants )+",
  src% "                }",
  src% "",
  src% "                $crate::__taggable_into_box!( self, $enum, __tagged_box_enum_counter, $( $variants )+)",
  src% "            }",
  src% "",
  src% "            fn from_tagged_box(tagged: $crate::TaggedBox<$enum>) -> Self {",
  src% "                // Safety: The discriminants and the enum variants should be synced, as they are all",
  src% "                // generated by a macro. Therefore, when `tagged`'s discriminant and the current discriminant",
  src% "                // are the same, the variant should be valid for the data stored at `tagged`",
  src% "                unsafe {",
  src% "                    $crate::__counter_enum! {",
  src% "                        $( $variants )+",
  src% "                    }",
  src% "",
  src% "                    const __TAGGED_BOX_TOTAL_VARIANTS: usize = $crate::__count_variants!($( $variants )+);",
  src% "                    $crate::__from_tagged_box!(",
  src% "                        tagged,",
  src% "                        $enum,",
  src% "                        __tagged_box_enum_counter,",
  src% "                        __TAGGED_BOX_TOTAL_VARIANTS,",
  src% "                        $( $variants )*",
  src% "                    )",
  src% "                }",
  src% "            }",
  src% "",
  src% "            unsafe fn ref_from_tagged_box<F>(tagged: &$crate::TaggedBox<$enum>, callback: F)",
  src% "            where",
  src% "                F: FnOnce(&$enum),",
  src% "            {",
  src% "                $crate::__counter_enum! {",
  src% "                    $( $variants )+",
  src% "                }",
  src% "",
  src% "                const __TAGGED_BOX_TOTAL_VARIANTS: usize = $crate::__count_variants!($( $variants )+);",
  src% "                $crate::__ref_from_tagged!(",
  src% "                    tagged,",
  src% "                    callback,",
  src% "                    $enum,",
  src% "                    __tagged_box_enum_counter,",
  src% "                    __TAGGED_BOX_TOTAL_VARIANTS,",
  src% "                    $( $variants )*",
  src% "                );",
  src% "            }",
  src% "        }",
  src% "    };",
  src% "}",
  src% "",
  src% "#[cfg(test)]",
  src% "mod tests {",
  src% "    #[test]",
  src% "    fn variants_compile() {",
  src% "        tagged_box! {",
  src% "            #[derive(Debug, Clone, PartialEq, Eq)]",
  src% "            struct Container, enum Item {",
  src% "                Unit,",
  src% "                Something(i32),",
  src% "                EmptyTuple(),",
  src% "                ManyThings(usize, bool, isize),",
  src% "                OrphanStruct {",
  src% "                    thing: usize,",
  src% "                    other_thing: bool",
  src% "                },",
  src% "            }",
  src% "        }",
  src% "    }",
  src% "}"]

end TB.Source

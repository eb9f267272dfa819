import Verif.Mbe.Lex

/-!
# The text of `src/tagged_box_macro/meta_macros.rs`

The whole file, verbatim, one entry per line (written by `scripts/gen_sources.py` from the file).
-/

set_option autoImplicit false
set_option maxRecDepth 100000

namespace TB.Source

/-- `src/tagged_box_macro/meta_macros.rs:1-915` -/
noncomputable def metaText : List (List Char) := [
  src% "// TODO: Currently broken from rust/#52234",
  src% "// https://github.com/rust-lang/rust/pull/52234",
  src% "#[allow(unused_macros)]",
  src% "macro_rules! generate_tuple_expansion {",
  src% "    (($dollar:tt, $others:ident) $(($field:tt, $ident:ident)),*) => {",
  src% "        generate_tuple_expansion! {",
  src% "            @inner ($dollar, $others, tuple)",
  src% "                [",
  src% "                // ($variant:path, $expr:expr) => {",
  src% "                //     $variant()",
  src% "                // };",
  src% "                ($dollar variant:path, $dollar expr:expr) => {",
  src% "                    $dollar variant()",
  src% "                };",
  src% "                // ($variant:path, $expr:expr,) => {",
  src% "                //     $variant()",
  src% "                // };",
  src% "                ($dollar variant:path, $dollar expr:expr,) => {",
  src% "                    $dollar variant()",
  src% "                };",
  src% "            ]",
  src% "                [] [] $( ($field, $ident) )*",
  src% "        }",
  src% "    };",
  src% "",
  src% "    (@inner ($dollar:tt, $others:ident, $tuple:ident) [$($finished:tt)*] [$($match:tt)*] [$($access:tt)*] ($field:tt, $ident:ident) $(($rest_fields:tt, $rest_idents:ident))*) => {",
  src% "        generate_tuple_expansion! {",
  src% "            @inner ($dollar, $others, $tuple)",
  src% "                [",
  src% "                    $( $finished )*",
  src% "                // ($variant:path, $expr:expr, <rest of accesses>, <next access = $N:ty>) => {{",
  src% "                //      let tuple = $expr;",
  src% "                //      $variant(<accesses = tuple.N>)",
  src% "                // }};",
  src% "                ($dollar variant:path, $dollar expr:expr, $( $match )* $dollar $ident:ty) => {{",
  src% "                    let $tuple = $dollar expr;",
  src% "                    $dollar variant($( $access )* $tuple . $field)",
  src% "                }};",
  src% "            ]",
  src% "                [ $( $match )* $dollar $ident:ty, ]",
  src% "                [ $( $access )* $tuple . $field, ]",
  src% "            $( ($rest_fields, $rest_idents) )*",
  src% "        }",
  src% "    };",
  src% "",
  src% "    (@inner ($dollar:tt, $others:ident, $tuple:ident) [$($finished:tt)*] [$($match:tt)*] [$($access:tt)*]) => {",
  src% "        generate_tuple_expansion! {",
  src% "            @finish",
  src% "                $( $finished )*",
  src% "            // ($variant:path, $expr:expr, $($others:ty),*) => {",
  src% "            //      compile_error!(\"Only enum tuple variants of up to 32 elements are supported\");",
  src% "            // };",
  src% "            ($dollar variant:path, $dollar expr:expr, $dollar ( $dollar $others:ty),*) => {",
  src% "                compile_error!(\"Only enum tuple variants of up to 32 elements are supported\");",
  src% "            };",
  src% "        }",
  src% "    };",
  src% "",
  src% "    (@finish $($finished:tt)*) => {",
  src% "        #[doc(hidden)]",
  src% "        #[macro_export]",
  src% "        macro_rules! __expand_tuple {",
  src% "                $( $finished )*",
  src% "        }",
  src% "    };",
  src% "}",
  src% "",
  src% "// Unexpanded Macro",
  src% "// generate_tuple_expansion! {",
  src% "//     ($, others)",
  src% "//     (0, a), (1, b), (2, c), (3, d),",
  src% "//     (4, e), (5, f), (6, g), (7, h),",
  src% "//     (8, i), (9, j), (10, k), (11, l),",
  src% "//     (12, m), (13, n), (14, o), (15, p),",
  src% "//     (16, q), (17, r), (18, s), (19, t),",
  src% "//     (20, u), (21, v), (22, w), (23, x),",
  src% "//     (24, y), (25, z), (26, aa), (27, bb),",
  src% "//     (28, cc), (29, dd), (30, ee), (31, ff)",
  src% "// }",
  src% "",
  src% "// Macro Expansion",
  src% "#[doc(hidden)]",
  src% "#[macro_export]",
  src% "macro_rules! __expand_tuple {",
  src% "    ($variant:path, $expr:expr) => {",
  src% "        $variant()",
  src% "    };",
  src% "    ($variant:path, $expr:expr,) => {",
  src% "        $variant()",
  src% "    };",
  src% "    ($variant:path, $expr:expr, $a:ty) => {{",
  src% "        let tuple = $expr;",
  src% "        $variant(tuple.0)",
  src% "    }};",
  src% "    ($variant:path, $expr:expr, $a:ty, $b:ty) => {{",
  src% "        let tuple = $expr;",
  src% "        $variant(tuple.0, tuple.1)",
  src% "    }};",
  src% "    ($variant:path, $expr:expr, $a:ty, $b:ty, $c:ty) => {{",
  src% "        let tuple = $expr;",
  src% "        $variant(tuple.0, tuple.1, tuple.2)",
  src% "    }};",
  src% "    ($variant:path, $expr:expr, $a:ty, $b:ty, $c:ty, $d:ty) => {{",
  src% "        let tuple = $expr;",
  src% "        $variant(tuple.0, tuple.1, tuple.2, tuple.3)",
  src% "    }};",
  src% "    ($variant:path, $expr:expr, $a:ty, $b:ty, $c:ty, $d:ty, $e:ty) => {{",
  src% "        let tuple = $expr;",
  src% "        $variant(tuple.0, tuple.1, tuple.2, tuple.3, tuple.4)",
  src% "    }};",
  src% "    ($variant:path, $expr:expr, $a:ty, $b:ty, $c:ty, $d:ty, $e:ty, $f:ty) => {{",
  src% "        let tuple = $expr;",
  src% "        $variant(tuple.0, tuple.1, tuple.2, tuple.3, tuple.4, tuple.5)",
  src% "    }};",
  src% "    ($variant:path, $expr:expr, $a:ty, $b:ty, $c:ty, $d:ty, $e:ty, $f:ty, $g:ty) => {{",
  src% "        let tuple = $expr;",
  src% "        $variant(",
  src% "            tuple.0, tuple.1, tuple.2, tuple.3, tuple.4, tuple.5, tuple.6,",
  src% "        )",
  src% "    }};",
  src% "    ($variant:path, $expr:expr, $a:ty, $b:ty, $c:ty, $d:ty, $e:ty, $f:ty, $g:ty, $h:ty) => {{",
  src% "        let tuple = $expr;",
  src% "        $variant(",
  src% "            tuple.0, tuple.1, tuple.2, tuple.3, tuple.4, tuple.5, tuple.6, tuple.7,",
  src% "        )",
  src% "    }};",
  src% "    ($variant:path, $expr:expr, $a:ty, $b:ty, $c:ty, $d:ty, $e:ty, $f:ty, $g:ty, $h:ty, $i:ty) => {{",
  src% "        let tuple = $expr;",
  src% "        $variant(",
  src% "            tuple.0, tuple.1, tuple.2, tuple.3, tuple.4, tuple.5, tuple.6, tuple.7, tuple.8,",
  src% "        )",
  src% "    }};",
  src% "    ($variant:path, $expr:expr, $a:ty, $b:ty, $c:ty, $d:ty, $e:ty, $f:ty, $g:ty, $h:ty, $i:ty, $j:ty) => {{",
  src% "        let tuple = $expr;",
  src% "        $variant(",
  src% "            tuple.0, tuple.1, tuple.2, tuple.3, tuple.4, tuple.5, tuple.6, tuple.7, tuple.8,",
  src% "            tuple.9,",
  src% "        )",
  src% "    }};",
  src% "    ($variant:path, $expr:expr, $a:ty, $b:ty, $c:ty, $d:ty, $e:ty, $f:ty, $g:ty, $h:ty, $i:ty, $j:ty, $k:ty) => {{",
  src% "        let tuple = $expr;",
  src% "        $variant(",
  src% "            tuple.0, tuple.1, tuple.2, tuple.3, tuple.4, tuple.5, tuple.6, tuple.7, tuple.8,",
  src% "            tuple.9, tuple.10,",
  src% "        )",
  src% "    }};",
  src% "    ($variant:path, $expr:expr, $a:ty, $b:ty, $c:ty, $d:ty, $e:ty, $f:ty, $g:ty, $h:ty, $i:ty, $j:ty, $k:ty, $l:ty) => {{",
  src% "        let tuple = $expr;",
  src% "        $variant(",
  src% "            tuple.0, tuple.1, tuple.2, tuple.3, tuple.4, tuple.5, tuple.6, tuple.7, tuple.8,",
  src% "            tuple.9, tuple.10, tuple.11,",
  src% "        )",
  src% "    }};",
  src% "    ($variant:path, $expr:expr, $a:ty, $b:ty, $c:ty, $d:ty, $e:ty, $f:ty, $g:ty, $h:ty, $i:ty, $j:ty, $k:ty, $l:ty, $m:ty) => {{",
  src% "        let tuple = $expr;",
  src% "        $variant(",
  src% "            tuple.0, tuple.1, tuple.2, tuple.3, tuple.4, tuple.5, tuple.6, tuple.7, tuple.8,",
  src% "            tuple.9, tuple.10, tuple.11, tuple.12,",
  src% "        )",
  src% "    }};",
  src% "    ($variant:path, $expr:expr, $a:ty, $b:ty, $c:ty, $d:ty, $e:ty, $f:ty, $g:ty, $h:ty, $i:ty, $j:ty, $k:ty, $l:ty, $m:ty, $n:ty) => {{",
  src% "        let tuple = $expr;",
  src% "        $variant(",
  src% "            tuple.0, tuple.1, tuple.2, tuple.3, tuple.4, tuple.5, tuple.6, tuple.7, tuple.8,",
  src% "            tuple.9, tuple.10, tuple.11, tuple.12, tuple.13,",
  src% "        )",
  src% "    }};",
  src% "    ($variant:path, $expr:expr, $a:ty, $b:ty, $c:ty, $d:ty, $e:ty, $f:ty, $g:ty, $h:ty, $i:ty, $j:ty, $k:ty, $l:ty, $m:ty, $n:ty, $o:ty) => {{",
  src% "        let tuple = $expr;",
  src% "        $variant(",
  src% "            tuple.0, tuple.1, tuple.2, tuple.3, tuple.4, tuple.5, tuple.6, tuple.7, tuple.8,",
  src% "            tuple.9, tuple.10, tuple.11, tuple.12, tuple.13, tuple.14,",
  src% "        )",
  src% "    }};",
  src% "    ($variant:path, $expr:expr, $a:ty, $b:ty, $c:ty, $d:ty, $e:ty, $f:ty, $g:ty, $h:ty, $i:ty, $j:ty, $k:ty, $l:ty, $m:ty, $n:ty, $o:ty, $p:ty) => {{",
  src% "        let tuple = $expr;",
  src% "        $variant(",
  src% "            tuple.0, tuple.1, tuple.2, tuple.3, tuple.4, tuple.5, tuple.6, tuple.7, tuple.8,",
  src% "            tuple.9, tuple.10, tuple.11, tuple.12, tuple.13, tuple.14, tuple.15,",
  src% "        )",
  src% "    }};",
  src% "    ($variant:path, $expr:expr, $a:ty, $b:ty, $c:ty, $d:ty, $e:ty, $f:ty, $g:ty, $h:ty, $i:ty, $j:ty, $k:ty, $l:ty, $m:ty, $n:ty, $o:ty, $p:ty, $q:ty) => {{",
  src% "        let tuple = $expr;",
  src% "        $variant(",
  src% "            tuple.0, tuple.1, tuple.2, tuple.3, tuple.4, tuple.5, tuple.6, tuple.7, tuple.8,",
  src% "            tuple.9, tuple.10, tuple.11, tuple.12, tuple.13, tuple.14, tuple.15, tuple.16,",
  src% "        )",
  src% "    }};",
  src% "    ($variant:path, $expr:expr, $a:ty, $b:ty, $c:ty, $d:ty, $e:ty, $f:ty, $g:ty, $h:ty, $i:ty, $j:ty, $k:ty, $l:ty, $m:ty, $n:ty, $o:ty, $p:ty, $q:ty, $r:ty) => {{",
  src% "        let tuple = $expr;",
  src% "        $variant(",
  src% "            tuple.0, tuple.1, tuple.2, tuple.3, tuple.4, tuple.5, tuple.6, tuple.7, tuple.8,",
  src% "            tuple.9, tuple.10, tuple.11, tuple.12, tuple.13, tuple.14, tuple.15, tuple.16,",
  src% "            tuple.17,",
  src% "        )",
  src% "    }};",
  src% "    ($variant:path, $expr:expr, $a:ty, $b:ty, $c:ty, $d:ty, $e:ty, $f:ty, $g:ty, $h:ty, $i:ty, $j:ty, $k:ty, $l:ty, $m:ty, $n:ty, $o:ty, $p:ty, $q:ty, $r:ty, $s:ty) => {{",
  src% "        let tuple = $expr;",
  src% "        $variant(",
  src% "            tuple.0, tuple.1, tuple.2, tuple.3, tuple.4, tuple.5, tuple.6, tuple.7, tuple.8,",
  src% "            tuple.9, tuple.10, tuple.11, tuple.12, tuple.13, tuple.14, tuple.15, tuple.16,",
  src% "            tuple.17, tuple.18,",
  src% "        )",
  src% "    }};",
  src% "    ($variant:path, $expr:expr, $a:ty, $b:ty, $c:ty, $d:ty, $e:ty, $f:ty, $g:ty, $h:ty, $i:ty, $j:ty, $k:ty, $l:ty, $m:ty, $n:ty, $o:ty, $p:ty, $q:ty, $r:ty, $s:ty, $t:ty) => {{",
  src% "        let tuple = $expr;",
  src% "        $variant(",
  src% "            tuple.0, tuple.1, tuple.2, tuple.3, tuple.4, tuple.5, tuple.6, tuple.7, tuple.8,",
  src% "            tuple.9, tuple.10, tuple.11, tuple.12, tuple.13, tuple.14, tuple.15, tuple.16,",
  src% "            tuple.17, tuple.18, tuple.19,",
  src% "        )",
  src% "    }};",
  src% "    ($variant:path, $expr:expr, $a:ty, $b:ty, $c:ty, $d:ty, $e:ty, $f:ty, $g:ty, $h:ty, $i:ty, $j:ty, $k:ty, $l:ty, $m:ty, $n:ty, $o:ty, $p:ty, $q:ty, $r:ty, $s:ty, $t:ty, $u:ty) => {{",
  src% "        let tuple = $expr;",
  src% "        $variant(",
  src% "            tuple.0, tuple.1, tuple.2, tuple.3, tuple.4, tuple.5, tuple.6, tuple.7, tuple.8,",
  src% "            tuple.9, tuple.10, tuple.11, tuple.12, tuple.13, tuple.14, tuple.15, tuple.16,",
  src% "            tuple.17, tuple.18, tuple.19, tuple.20,",
  src% "        )",
  src% "    }};",
  src% "    ($variant:path, $expr:expr, $a:ty, $b:ty, $c:ty, $d:ty, $e:ty, $f:ty, $g:ty, $h:ty, $i:ty, $j:ty, $k:ty, $l:ty, $m:ty, $n:ty, $o:ty, $p:ty, $q:ty, $r:ty, $s:ty, $t:ty, $u:ty, $v:ty) => {{",
  src% "        let tuple = $expr;",
  src% "        $variant(",
  src% "            tuple.0, tuple.1, tuple.2, tuple.3, tuple.4, tuple.5, tuple.6, tuple.7, tuple.8,",
  src% "            tuple.9, tuple.10, tuple.11, tuple.12, tuple.13, tuple.14, tuple.15, tuple.16,",
  src% "            tuple.17, tuple.18, tuple.19, tuple.20, tuple.21,",
  src% "        )",
  src% "    }};",
  src% "    ($variant:path, $expr:expr, $a:ty, $b:ty, $c:ty, $d:ty, $e:ty, $f:ty, $g:ty, $h:ty, $i:ty, $j:ty, $k:ty, $l:ty, $m:ty, $n:ty, $o:ty, $p:ty, $q:ty, $r:ty, $s:ty, $t:ty, $u:ty, $v:ty, $w:ty) => {{",
  src% "        let tuple = $expr;",
  src% "        $variant(",
  src% "            tuple.0, tuple.1, tuple.2, tuple.3, tuple.4, tuple.5, tuple.6, tuple.7, tuple.8,",
  src% "            tuple.9, tuple.10, tuple.11, tuple.12, tuple.13, tuple.14, tuple.15, tuple.16,",
  src% "            tuple.17, tuple.18, tuple.19, tuple.20, tuple.21, tuple.22,",
  src% "        )",
  src% "    }};",
  src% "    ($variant:path, $expr:expr, $a:ty, $b:ty, $c:ty, $d:ty, $e:ty, $f:ty, $g:ty, $h:ty, $i:ty, $j:ty, $k:ty, $l:ty, $m:ty, $n:ty, $o:ty, $p:ty, $q:ty, $r:ty, $s:ty, $t:ty, $u:ty, $v:ty, $w:ty, $x:ty) => {{",
  src% "        let tuple = $expr;",
  src% "        $variant(",
  src% "            tuple.0, tuple.1, tuple.2, tuple.3, tuple.4, tuple.5, tuple.6, tuple.7, tuple.8,",
  src% "            tuple.9, tuple.10, tuple.11, tuple.12, tuple.13, tuple.14, tuple.15, tuple.16,",
  src% "            tuple.17, tuple.18, tuple.19, tuple.20, tuple.21, tuple.22, tuple.23,",
  src% "        )",
  src% "    }};",
  src% "    ($variant:path, $expr:expr, $a:ty, $b:ty, $c:ty, $d:ty, $e:ty, $f:ty, $g:ty, $h:ty, $i:ty, $j:ty, $k:ty, $l:ty, $m:ty, $n:ty, $o:ty, $p:ty, $q:ty, $r:ty, $s:ty, $t:ty, $u:ty, $v:ty, $w:ty, $x:ty, $y:ty) => {{",
  src% "        let tuple = $expr;",
  src% "        $variant(",
  src% "            tuple.0, tuple.1, tuple.2, tuple.3, tuple.4, tuple.5, tuple.6, tuple.7, tuple.8,",
  src% "            tuple.9, tuple.10, tuple.11, tuple.12, tuple.13, tuple.14, tuple.15, tuple.16,",
  src% "            tuple.17, tuple.18, tuple.19, tuple.20, tuple.21, tuple.22, tuple.23, tuple.24,",
  src% "        )",
  src% "    }};",
  src% "    ($variant:path, $expr:expr, $a:ty, $b:ty, $c:ty, $d:ty, $e:ty, $f:ty, $g:ty, $h:ty, $i:ty, $j:ty, $k:ty, $l:ty, $m:ty, $n:ty, $o:ty, $p:ty, $q:ty, $r:ty, $s:ty, $t:ty, $u:ty, $v:ty, $w:ty, $x:ty, $y:ty, $z:ty) => {{",
  src% "        let tuple = $expr;",
  src% "        $variant(",
  src% "            tuple.0, tuple.1, tuple.2, tuple.3, tuple.4, tuple.5, tuple.6, tuple.7, tuple.8,",
  src% "            tuple.9, tuple.10, tuple.11, tuple.12, tuple.13, tuple.14, tuple.15, tuple.16,",
  src% "            tuple.17, tuple.18, tuple.19, tuple.20, tuple.21, tuple.22, tuple.23, tuple.24,",
  src% "            tuple.25,",
  src% "        )",
  src% "    }};",
  src% "    ($variant:path, $expr:expr, $a:ty, $b:ty, $c:ty, $d:ty, $e:ty, $f:ty, $g:ty, $h:ty, $i:ty, $j:ty, $k:ty, $l:ty, $m:ty, $n:ty, $o:ty, $p:ty, $q:ty, $r:ty, $s:ty, $t:ty, $u:ty, $v:ty, $w:ty, $x:ty, $y:ty, $z:ty, $aa:ty) => {{",
  src% "        let tuple = $expr;",
  src% "        $variant(",
  src% "            tuple.0, tuple.1, tuple.2, tuple.3, tuple.4, tuple.5, tuple.6, tuple.7, tuple.8,",
  src% "            tuple.9, tuple.10, tuple.11, tuple.12, tuple.13, tuple.14, tuple.15, tuple.16,",
  src% "            tuple.17, tuple.18, tuple.19, tuple.20, tuple.21, tuple.22, tuple.23, tuple.24,",
  src% "            tuple.25, tuple.26,",
  src% "        )",
  src% "    }};",
  src% "    ($variant:path, $expr:expr, $a:ty, $b:ty, $c:ty, $d:ty, $e:ty, $f:ty, $g:ty, $h:ty, $i:ty, $j:ty, $k:ty, $l:ty, $m:ty, $n:ty, $o:ty, $p:ty, $q:ty, $r:ty, $s:ty, $t:ty, $u:ty, $v:ty, $w:ty, $x:ty, $y:ty, $z:ty, $aa:ty, $bb:ty) => {{",
  src% "        let tuple = $expr;",
  src% "        $variant(",
  src% "            tuple.0, tuple.1, tuple.2, tuple.3, tuple.4, tuple.5, tuple.6, tuple.7, tuple.8,",
  src% "            tuple.9, tuple.10, tuple.11, tuple.12, tuple.13, tuple.14, tuple.15, tuple.16,",
  src% "            tuple.17, tuple.18, tuple.19, tuple.20, tuple.21, tuple.22, tuple.23, tuple.24,",
  src% "            tuple.25, tuple.26, tuple.27,",
  src% "        )",
  src% "    }};",
  src% "    ($variant:path, $expr:expr, $a:ty, $b:ty, $c:ty, $d:ty, $e:ty, $f:ty, $g:ty, $h:ty, $i:ty, $j:ty, $k:ty, $l:ty, $m:ty, $n:ty, $o:ty, $p:ty, $q:ty, $r:ty, $s:ty, $t:ty, $u:ty, $v:ty, $w:ty, $x:ty, $y:ty, $z:ty, $aa:ty, $bb:ty, $cc:ty) => {{",
  src% "        let tuple = $expr;",
  src% "        $variant(",
  src% "            tuple.0, tuple.1, tuple.2, tuple.3, tuple.4, tuple.5, tuple.6, tuple.7, tuple.8,",
  src% "            tuple.9, tuple.10, tuple.11, tuple.12, tuple.13, tuple.14, tuple.15, tuple.16,",
  src% "            tuple.17, tuple.18, tuple.19, tuple.20, tuple.21, tuple.22, tuple.23, tuple.24,",
  src% "            tuple.25, tuple.26, tuple.27, tuple.28,",
  src% "        )",
  src% "    }};",
  src% "    ($variant:path, $expr:expr, $a:ty, $b:ty, $c:ty, $d:ty, $e:ty, $f:ty, $g:ty, $h:ty, $i:ty, $j:ty, $k:ty, $l:ty, $m:ty, $n:ty, $o:ty, $p:ty, $q:ty, $r:ty, $s:ty, $t:ty, $u:ty, $v:ty, $w:ty, $x:ty, $y:ty, $z:ty, $aa:ty, $bb:ty, $cc:ty, $dd:ty) => {{",
  src% "        let tuple = $expr;",
  src% "        $variant(",
  src% "            tuple.0, tuple.1, tuple.2, tuple.3, tuple.4, tuple.5, tuple.6, tuple.7, tuple.8,",
  src% "            tuple.9, tuple.10, tuple.11, tuple.12, tuple.13, tuple.14, tuple.15, tuple.16,",
  src% "            tuple.17, tuple.18, tuple.19, tuple.20, tuple.21, tuple.22, tuple.23, tuple.24,",
  src% "            tuple.25, tuple.26, tuple.27, tuple.28, tuple.29,",
  src% "        )",
  src% "    }};",
  src% "    ($variant:path, $expr:expr, $a:ty, $b:ty, $c:ty, $d:ty, $e:ty, $f:ty, $g:ty, $h:ty, $i:ty, $j:ty, $k:ty, $l:ty, $m:ty, $n:ty, $o:ty, $p:ty, $q:ty, $r:ty, $s:ty, $t:ty, $u:ty, $v:ty, $w:ty, $x:ty, $y:ty, $z:ty, $aa:ty, $bb:ty, $cc:ty, $dd:ty, $ee:ty) => {{",
  src% "        let tuple = $expr;",
  src% "        $variant(",
  src% "            tuple.0, tuple.1, tuple.2, tuple.3, tuple.4, tuple.5, tuple.6, tuple.7, tuple.8,",
  src% "            tuple.9, tuple.10, tuple.11, tuple.12, tuple.13, tuple.14, tuple.15, tuple.16,",
  src% "            tuple.17, tuple.18, tuple.19, tuple.20, tuple.21, tuple.22, tuple.23, tuple.24,",
  src% "            tuple.25, tuple.26, tuple.27, tuple.28, tuple.29, tuple.30,",
  src% "        )",
  src% "    }};",
  src% "    ($variant:path, $expr:expr, $a:ty, $b:ty, $c:ty, $d:ty, $e:ty, $f:ty, $g:ty, $h:ty, $i:ty, $j:ty, $k:ty, $l:ty, $m:ty, $n:ty, $o:ty, $p:ty, $q:ty, $r:ty, $s:ty, $t:ty, $u:ty, $v:ty, $w:ty, $x:ty, $y:ty, $z:ty, $aa:ty, $bb:ty, $cc:ty, $dd:ty, $ee:ty, $ff:ty) => {{",
  src% "        let tuple = $expr;",
  src% "        $variant(",
  src% "            tuple.0, tuple.1, tuple.2, tuple.3, tuple.4, tuple.5, tuple.6, tuple.7, tuple.8,",
  src% "            tuple.9, tuple.10, tuple.11, tuple.12, tuple.13, tuple.14, tuple.15, tuple.16,",
  src% "            tuple.17, tuple.18, tuple.19, tuple.20, tuple.21, tuple.22, tuple.23, tuple.24,",
  src% "            tuple.25, tuple.26, tuple.27, tuple.28, tuple.29, tuple.30, tuple.31,",
  src% "        )",
  src% "    }};",
  src% "    ($variant:path, $expr:expr, $($others:ty),*) => {",
  src% "        compile_error!(\"Only enum tuple variants of up to 32 elements are supported\");",
  src% "    };",
  src% "}",
  src% "",
  src% "// TODO: Currently broken from rust/#52234",
  src% "// https://github.com/rust-lang/rust/pull/52234",
  src% "#[allow(unused_macros)]",
  src% "macro_rules! generate_tuple_arm_expansion {",
  src% "    (($dollar:tt, $others:ident) $($ident:ident),*) => {",
  src% "        generate_tuple_arm_expansion! {",
  src% "            @inner ($dollar, $others)",
  src% "                [",
  src% "                // ($tagged:expr, $enum:ident, $counter:ident, $variant:ident [$($finished:tt)*] [$($rest:tt)*] $($ty:ty),*) => {",
  src% "                //     $crate::__taggable_into_box!(@inner $tagged, $enum, $counter",
  src% "                //          [",
  src% "                //              $( $finished )*",
  src% "                //              $enum::$variant() => $crate::TaggedBox::dangling::<$enum>($counter::$variant as u8),",
  src% "                //         ]",
  src% "                //         $( $rest )*",
  src% "                //     )",
  src% "                // };",
  src% "                ($dollar tagged:expr, $dollar enum:ident, $dollar counter:ident, $dollar variant:ident [$dollar ($dollar finished:tt)*] [$dollar ($dollar rest:tt)*] $dollar($dollar ty:ty),*) => {",
  src% "                    $dollar crate::__taggable_into_box!(@inner $dollar tagged, $dollar enum, $dollar counter",
  src% "                            [",
  src% "                            $dollar ( $dollar finished )*",
  src% "                            $dollar enum::$dollar variant() => $dollar crate::TaggedBox::dangling::<$dollar enum>($dollar counter::$dollar variant as u8),",
  src% "                        ]",
  src% "                        $dollar ( $dollar rest )*",
  src% "                )",
  src% "                };",
  src% "                // ($tagged:expr, $enum:ident, $counter:ident, $variant:ident, [$($finished:tt)*] [$($rest:tt)*] $($ty:ty),*) => {",
  src% "                //     $crate::__taggable_into_box!(@inner $tagged, $enum, $counter",
  src% "                //          [",
  src% "                //              $( $finished )*",
  src% "                //              $enum::$variant() => $crate::TaggedBox::<$enum>::dangling::<$enum>($counter::$variant as u8),",
  src% "                //         ]",
  src% "                //         $( $rest )*",
  src% "                //     )",
  src% "                // };",
  src% "                ($dollar tagged:expr, $dollar enum:ident, $dollar counter:ident, $dollar variant:ident, [$dollar ($dollar finished:tt)*] [$dollar ($dollar rest:tt)*] $dollar($dollar ty:ty),*) => {",
  src% "                    $dollar crate::__taggable_into_box!(@inner $dollar tagged, $dollar enum, $dollar counter",
  src% "                            [",
  src% "                            $dollar ( $dollar finished )*",
  src% "                            $dollar enum::$dollar variant() => $dollar crate::TaggedBox::<$dollar enum>::dangling::<$dollar enum>($dollar counter::$dollar variant as u8),",
  src% "                        ]",
  src% "                        $dollar ( $dollar rest )*",
  src% "                )",
  src% "                };",
  src% "            ]",
  src% "                [] [] $( $ident )*",
  src% "        }",
  src% "    };",
  src% "",
  src% "    (@inner ($dollar:tt, $others:ident) [$($finished:tt)*] [$($match:tt)*] [$($access:tt)*] $ident:ident $($rest:ident)*) => {",
  src% "        generate_tuple_arm_expansion! {",
  src% "            @inner ($dollar, $others)",
  src% "                [",
  src% "                    $( $finished )*",
  src% "                // ($tagged:expr, $enum:ident, $counter:ident, $variant:ident, $a:ty, $b:ty, $c:ty [$($finished:tt)*] [$($rest:tt)*] $($ty:ty),*) => {",
  src% "                //     $crate::__taggable_into_box!(@inner $tagged, $enum, $counter",
  src% "                //          [",
  src% "                //              $( $finished )*",
  src% "                //             $enum::$variant(a, b, c) => {",
  src% "                //                  #[repr(C)]",
  src% "                //                  struct $variant($( $ty ),*);",
  src% "                //",
  src% "                //                  $crate::TaggedBox::<$enum>::new($variant(a, b, c), $counter::$variant as u8)",
  src% "                //              }",
  src% "                //         ]",
  src% "                //         $( $rest )*",
  src% "                //     )",
  src% "                // };",
  src% "                ($dollar tagged:expr, $dollar enum:ident, $dollar counter:ident, $dollar variant:ident, $( $match )* $dollar $ident:ty [$dollar ($dollar finished:tt)*] [$dollar ($dollar rest:tt)*] $dollar($dollar ty:ty),*) => {",
  src% "                    $dollar crate::__taggable_into_box!(@inner $dollar tagged, $dollar enum, $dollar counter",
  src% "                            [",
  src% "                            $dollar ( $dollar finished )*",
  src% "                            $dollar enum::$dollar variant($( $access, )* $ident) => {",
  src% "                                #[repr(C)]",
  src% "                                struct $dollar variant($dollar ($dollar ty),*);",
  src% "",
  src% "                                $dollar crate::TaggedBox::<$dollar enum>::new::<$dollar variant>($dollar variant($( $access, )* $ident), $dollar counter::$dollar variant as _)",
  src% "                            }",
  src% "                        ]",
  src% "                        $dollar ( $dollar rest )*",
  src% "                )",
  src% "                };",
  src% "            ]",
  src% "                [ $( $match )* $dollar $ident:ty, ]",
  src% "                [ $( $access )* $ident ]",
  src% "            $( $rest )*",
  src% "        }",
  src% "    };",
  src% "",
  src% "    (@inner ($dollar:tt, $others:ident) [$($finished:tt)*] [$($match:tt)*] [$($access:tt)*]) => {",
  src% "        generate_tuple_arm_expansion! {",
  src% "            @finish",
  src% "                $( $finished )*",
  src% "            // ($variant:path, $tuple:expr, $($others:ty),* [$($finished_match:tt)*] [$($rest_match:tt)*]) => {",
  src% "            //      compile_error!(\"Only enum tuple variants of up to 32 elements are supported\");",
  src% "            // };",
  src% "            ($dollar tagged:expr, $dollar enum:ident, $dollar counter:ident, $dollar variant:ident, $dollar ( $dollar $others:ty),* [$dollar($dollar finished:tt)*] [$dollar($dollar rest:tt)*]) => {",
  src% "                compile_error!(\"Only enum tuple variants of up to 32 elements are supported\");",
  src% "            };",
  src% "        }",
  src% "    };",
  src% "",
  src% "    (@finish $($finished:tt)*) => {",
  src% "        #[doc(hidden)]",
  src% "        #[macro_export]",
  src% "        macro_rules! __expand_tuple_arm {",
  src% "                $( $finished )*",
  src% "        }",
  src% "    };",
  src% "}",
  src% "",
  src% "// Unexpanded Macro",
  src% "// generate_tuple_arm_expansion! {",
  src% "//     ($, others)",
  src% "//     a, b, c, d, e, f, g,",
  src% "//     h, i, j, k, l, m, n,",
  src% "//     o, p, q, r, s, t, u,",
  src% "//     v, w, x, y, z, aa,",
  src% "//     bb, cc, dd, ee, ff",
  src% "// }",
  src% "",
  src% "// Expanded Macro",
  src% "#[doc(hidden)]",
  src% "#[macro_export]",
  src% "macro_rules! __expand_tuple_arm {",
  src% "    ($tagged:expr, $enum:ident, $counter:ident, $variant:ident[$($finished:tt)*] [$($rest:tt)*] $($ty:ty),*) => {",
  src% "      $crate::__taggable_into_box!(@inner $tagged, $enum, $counter",
  src% "            [",
  src% "                $( $finished )*",
  src% "                $enum::$variant() => $crate::TaggedBox::<$enum>::dangling::<$enum>($counter::$variant as u8),",
  src% "            ]",
  src% "            $( $rest )*",
  src% "        )",
  src% "    };",
  src% "    ($tagged:expr, $enum:ident, $counter:ident, $variant:ident,[$($finished:tt)*] [$($rest:tt)*] $($ty:ty),*) => {",
  src% "      $crate::__taggable_into_box!(@inner $tagged, $enum, $counter",
  src% "            [",
  src% "                $( $finished )*",
  src% "                $enum::$variant() => $crate::TaggedBox::<$enum>::dangling::<$enum>($counter::$variant as u8),",
  src% "            ]",
  src% "            $( $rest )*",
  src% "        )",
  src% "    };",
  src% "    ($tagged:expr, $enum:ident, $counter:ident, $variant:ident, $a:ty [$($finished:tt)*] [$($rest:tt)*] $($ty:ty),*) => {",
  src% "      $crate::__taggable_into_box!(@inner $tagged, $enum, $counter",
  src% "        [",
  src% "            $( $finished )*",
  src% "            $enum::$variant(a) => {",
  src% "                #[repr(C)]",
  src% "                struct $variant($( $ty ),*);",
  src% "",
  src% "                $crate::TaggedBox::new::<$variant>($variant(a), $counter::$variant as u8)",
  src% "            }",
  src% "        ]",
  src% "        $( $rest )*",
  src% "      )",
  src% "    };",
  src% "    ($tagged:expr, $enum:ident, $counter:ident, $variant:ident, $a:ty, $b:ty [$($finished:tt)*] [$($rest:tt)*] $($ty:ty),*) => {",
  src% "      $crate::__taggable_into_box!(@inner $tagged, $enum, $counter",
  src% "        [",
  src% "            $( $finished )*",
  src% "            $enum::$variant(a,b) => {",
  src% "                #[repr(C)]",
  src% "                struct $variant($( $ty ),*);",
  src% "",
  src% "                $crate::TaggedBox::new::<$variant>($variant(a,b), $counter::$variant as u8)",
  src% "            }",
  src% "        ]",
  src% "        $( $rest )*",
  src% "      )",
  src% "    };",
  src% "    ($tagged:expr, $enum:ident, $counter:ident, $variant:ident, $a:ty, $b:ty, $c:ty [$($finished:tt)*] [$($rest:tt)*] $($ty:ty),*) => {",
  src% "      $crate::__taggable_into_box!(@inner $tagged, $enum, $counter",
  src% "        [",
  src% "            $( $finished )*",
  src% "            $enum::$variant(a,b,c) => {",
  src% "                #[repr(C)]",
  src% "                struct $variant($( $ty ),*);",
  src% "",
  src% "                $crate::TaggedBox::new::<$variant>($variant(a,b,c), $counter::$variant as u8)",
  src% "            }",
  src% "        ]",
  src% "        $( $rest )*",
  src% "      )",
  src% "    };",
  src% "    ($tagged:expr, $enum:ident, $counter:ident, $variant:ident, $a:ty, $b:ty, $c:ty, $d:ty [$($finished:tt)*] [$($rest:tt)*] $($ty:ty),*) => {",
  src% "      $crate::__taggable_into_box!(@inner $tagged, $enum, $counter",
  src% "        [",
  src% "            $( $finished )*",
  src% "            $enum::$variant(a,b,c,d) => {",
  src% "                #[repr(C)]",
  src% "                struct $variant($( $ty ),*);",
  src% "",
  src% "                $crate::TaggedBox::new::<$variant>($variant(a,b,c,d), $counter::$variant as u8)",
  src% "            }",
  src% "        ]",
  src% "        $( $rest )*",
  src% "      )",
  src% "    };",
  src% "    ($tagged:expr, $enum:ident, $counter:ident, $variant:ident, $a:ty, $b:ty, $c:ty, $d:ty, $e:ty [$($finished:tt)*] [$($rest:tt)*] $($ty:ty),*) => {",
  src% "      $crate::__taggable_into_box!(@inner $tagged, $enum, $counter",
  src% "        [",
  src% "            $( $finished )*",
  src% "            $enum::$variant(a,b,c,d,e) => {",
  src% "                #[repr(C)]",
  src% "                struct $variant($( $ty ),*);",
  src% "",
  src% "                $crate::TaggedBox::new::<$variant>($variant(a,b,c,d,e), $counter::$variant as u8)",
  src% "            }",
  src% "        ]",
  src% "        $( $rest )*",
  src% "      )",
  src% "    };",
  src% "    ($tagged:expr, $enum:ident, $counter:ident, $variant:ident, $a:ty, $b:ty, $c:ty, $d:ty, $e:ty, $f:ty [$($finished:tt)*] [$($rest:tt)*] $($ty:ty),*) => {",
  src% "      $crate::__taggable_into_box!(@inner $tagged, $enum, $counter",
  src% "        [",
  src% "            $( $finished )*",
  src% "            $enum::$variant(a,b,c,d,e,f) => {",
  src% "                #[repr(C)]",
  src% "                struct $variant($( $ty ),*);",
  src% "",
  src% "                $crate::TaggedBox::new::<$variant>($variant(a,b,c,d,e,f), $counter::$variant as u8)",
  src% "            }",
  src% "        ]",
  src% "        $( $rest )*",
  src% "      )",
  src% "    };",
  src% "    ($tagged:expr, $enum:ident, $counter:ident, $variant:ident, $a:ty, $b:ty, $c:ty, $d:ty, $e:ty, $f:ty, $g:ty [$($finished:tt)*] [$($rest:tt)*] $($ty:ty),*) => {",
  src% "      $crate::__taggable_into_box!(@inner $tagged, $enum, $counter",
  src% "        [",
  src% "            $( $finished )*",
  src% "            $enum::$variant(a,b,c,d,e,f,g) => {",
  src% "                #[repr(C)]",
  src% "                struct $variant($( $ty ),*);",
  src% "",
  src% "                $crate::TaggedBox::new::<$variant>($variant(a,b,c,d,e,f,g), $counter::$variant as u8)",
  src% "            }",
  src% "        ]",
  src% "        $( $rest )*",
  src% "      )",
  src% "    };",
  src% "    ($tagged:expr, $enum:ident, $counter:ident, $variant:ident, $a:ty, $b:ty, $c:ty, $d:ty, $e:ty, $f:ty, $g:ty, $h:ty [$($finished:tt)*] [$($rest:tt)*] $($ty:ty),*) => {",
  src% "      $crate::__taggable_into_box!(@inner $tagged, $enum, $counter",
  src% "        [",
  src% "            $( $finished )*",
  src% "            $enum::$variant(a,b,c,d,e,f,g,h) => {",
  src% "                #[repr(C)]",
  src% "                struct $variant($( $ty ),*);",
  src% "",
  src% "                $crate::TaggedBox::new::<$variant>($variant(a,b,c,d,e,f,g,h), $counter::$variant as u8)",
  src% "            }",
  src% "        ]",
  src% "        $( $rest )*",
  src% "      )",
  src% "    };",
  src% "    ($tagged:expr, $enum:ident, $counter:ident, $variant:ident, $a:ty, $b:ty, $c:ty, $d:ty, $e:ty, $f:ty, $g:ty, $h:ty, $i:ty [$($finished:tt)*] [$($rest:tt)*] $($ty:ty),*) => {",
  src% "      $crate::__taggable_into_box!(@inner $tagged, $enum, $counter",
  src% "        [",
  src% "            $( $finished )*",
  src% "            $enum::$variant(a,b,c,d,e,f,g,h,i) => {",
  src% "                #[repr(C)]",
  src% "                struct $variant($( $ty ),*);",
  src% "",
  src% "                $crate::TaggedBox::new::<$variant>($variant(a,b,c,d,e,f,g,h,i), $counter::$variant as u8)",
  src% "            }",
  src% "        ]",
  src% "        $( $rest )*",
  src% "      )",
  src% "    };",
  src% "    ($tagged:expr, $enum:ident, $counter:ident, $variant:ident, $a:ty, $b:ty, $c:ty, $d:ty, $e:ty, $f:ty, $g:ty, $h:ty, $i:ty, $j:ty [$($finished:tt)*] [$($rest:tt)*] $($ty:ty),*) => {",
  src% "      $crate::__taggable_into_box!(@inner $tagged, $enum, $counter",
  src% "        [",
  src% "            $( $finished )*",
  src% "            $enum::$variant(a,b,c,d,e,f,g,h,i,j) => {",
  src% "                #[repr(C)]",
  src% "                struct $variant($( $ty ),*);",
  src% "",
  src% "                $crate::TaggedBox::new::<$variant>($variant(a,b,c,d,e,f,g,h,i,j), $counter::$variant as u8)",
  src% "            }",
  src% "        ]",
  src% "        $( $rest )*",
  src% "      )",
  src% "    };",
  src% "    ($tagged:expr, $enum:ident, $counter:ident, $variant:ident, $a:ty, $b:ty, $c:ty, $d:ty, $e:ty, $f:ty, $g:ty, $h:ty, $i:ty, $j:ty, $k:ty [$($finished:tt)*] [$($rest:tt)*] $($ty:ty),*) => {",
  src% "      $crate::__taggable_into_box!(@inner $tagged, $enum, $counter",
  src% "        [",
  src% "            $( $finished )*",
  src% "            $enum::$variant(a,b,c,d,e,f,g,h,i,j,k) => {",
  src% "                #[repr(C)]",
  src% "                struct $variant($( $ty ),*);",
  src% "",
  src% "                $crate::TaggedBox::new::<$variant>($variant(a,b,c,d,e,f,g,h,i,j,k), $counter::$variant as u8)",
  src% "            }",
  src% "        ]",
  src% "        $( $rest )*",
  src% "      )",
  src% "    };",
  src% "    ($tagged:expr, $enum:ident, $counter:ident, $variant:ident, $a:ty, $b:ty, $c:ty, $d:ty, $e:ty, $f:ty, $g:ty, $h:ty, $i:ty, $j:ty, $k:ty, $l:ty [$($finished:tt)*] [$($rest:tt)*] $($ty:ty),*) => {",
  src% "      $crate::__taggable_into_box!(@inner $tagged, $enum, $counter",
  src% "        [",
  src% "            $( $finished )*",
  src% "            $enum::$variant(a,b,c,d,e,f,g,h,i,j,k,l) => {",
  src% "                #[repr(C)]",
  src% "                struct $variant($( $ty ),*);",
  src% "",
  src% "                $crate::TaggedBox::new::<$variant>($variant(a,b,c,d,e,f,g,h,i,j,k,l), $counter::$variant as u8)",
  src% "            }",
  src% "        ]",
  src% "        $( $rest )*",
  src% "      )",
  src% "    };",
  src% "    ($tagged:expr, $enum:ident, $counter:ident, $variant:ident, $a:ty, $b:ty, $c:ty, $d:ty, $e:ty, $f:ty, $g:ty, $h:ty, $i:ty, $j:ty, $k:ty, $l:ty, $m:ty [$($finished:tt)*] [$($rest:tt)*] $($ty:ty),*) => {",
  src% "      $crate::__taggable_into_box!(@inner $tagged, $enum, $counter",
  src% "        [",
  src% "            $( $finished )*",
  src% "            $enum::$variant(a,b,c,d,e,f,g,h,i,j,k,l,m) => {",
  src% "                #[repr(C)]",
  src% "                struct $variant($( $ty ),*);",
  src% "",
  src% "                $crate::TaggedBox::new::<$variant>($variant(a,b,c,d,e,f,g,h,i,j,k,l,m), $counter::$variant as u8)",
  src% "            }",
  src% "        ]",
  src% "        $( $rest )*",
  src% "      )",
  src% "    };",
  src% "    ($tagged:expr, $enum:ident, $counter:ident, $variant:ident, $a:ty, $b:ty, $c:ty, $d:ty, $e:ty, $f:ty, $g:ty, $h:ty, $i:ty, $j:ty, $k:ty, $l:ty, $m:ty, $n:ty [$($finished:tt)*] [$($rest:tt)*] $($ty:ty),*) => {",
  src% "      $crate::__taggable_into_box!(@inner $tagged, $enum, $counter",
  src% "        [",
  src% "            $( $finished )*",
  src% "            $enum::$variant(a,b,c,d,e,f,g,h,i,j,k,l,m,n) => {",
  src% "                #[repr(C)]",
  src% "                struct $variant($( $ty ),*);",
  src% "",
  src% "                $crate::TaggedBox::new::<$variant>($variant(a,b,c,d,e,f,g,h,i,j,k,l,m,n), $counter::$variant as u8)",
  src% "            }",
  src% "        ]",
  src% "        $( $rest )*",
  src% "      )",
  src% "    };",
  src% "    ($tagged:expr, $enum:ident, $counter:ident, $variant:ident, $a:ty, $b:ty, $c:ty, $d:ty, $e:ty, $f:ty, $g:ty, $h:ty, $i:ty, $j:ty, $k:ty, $l:ty, $m:ty, $n:ty, $o:ty [$($finished:tt)*] [$($rest:tt)*] $($ty:ty),*) => {",
  src% "      $crate::__taggable_into_box!(@inner $tagged, $enum, $counter",
  src% "        [",
  src% "            $( $finished )*",
  src% "            $enum::$variant(a,b,c,d,e,f,g,h,i,j,k,l,m,n,o) => {",
  src% "                #[repr(C)]",
  src% "                struct $variant($( $ty ),*);",
  src% "",
  src% "                $crate::TaggedBox::new::<$variant>($variant(a,b,c,d,e,f,g,h,i,j,k,l,m,n,o), $counter::$variant as u8)",
  src% "            }",
  src% "        ]",
  src% "        $( $rest )*",
  src% "      )",
  src% "    };",
  src% "    ($tagged:expr, $enum:ident, $counter:ident, $variant:ident, $a:ty, $b:ty, $c:ty, $d:ty, $e:ty, $f:ty, $g:ty, $h:ty, $i:ty, $j:ty, $k:ty, $l:ty, $m:ty, $n:ty, $o:ty, $p:ty [$($finished:tt)*] [$($rest:tt)*] $($ty:ty),*) => {",
  src% "      $crate::__taggable_into_box!(@inner $tagged, $enum, $counter",
  src% "        [",
  src% "            $( $finished )*",
  src% "            $enum::$variant(a,b,c,d,e,f,g,h,i,j,k,l,m,n,o,p) => {",
  src% "                #[repr(C)]",
  src% "                struct $variant($( $ty ),*);",
  src% "",
  src% "                $crate::TaggedBox::new::<$variant>($variant(a,b,c,d,e,f,g,h,i,j,k,l,m,n,o,p), $counter::$variant as u8)",
  src% "            }",
  src% "        ]",
  src% "        $( $rest )*",
  src% "      )",
  src% "    };",
  src% "    ($tagged:expr, $enum:ident, $counter:ident, $variant:ident, $a:ty, $b:ty, $c:ty, $d:ty, $e:ty, $f:ty, $g:ty, $h:ty, $i:ty, $j:ty, $k:ty, $l:ty, $m:ty, $n:ty, $o:ty, $p:ty, $q:ty [$($finished:tt)*] [$($rest:tt)*] $($ty:ty),*) => {",
  src% "      $crate::__taggable_into_box!(@inner $tagged, $enum, $counter",
  src% "        [",
  src% "            $( $finished )*",
  src% "            $enum::$variant(a,b,c,d,e,f,g,h,i,j,k,l,m,n,o,p,q) => {",
  src% "                #[repr(C)]",
  src% "                struct $variant($( $ty ),*);",
  src% "",
  src% "                $crate::TaggedBox::new::<$variant>($variant(a,b,c,d,e,f,g,h,i,j,k,l,m,n,o,p,q), $counter::$variant as u8)",
  src% "            }",
  src% "        ]",
  src% "        $( $rest )*",
  src% "      )",
  src% "    };",
  src% "    ($tagged:expr, $enum:ident, $counter:ident, $variant:ident, $a:ty, $b:ty, $c:ty, $d:ty, $e:ty, $f:ty, $g:ty, $h:ty, $i:ty, $j:ty, $k:ty, $l:ty, $m:ty, $n:ty, $o:ty, $p:ty, $q:ty, $r:ty [$($finished:tt)*] [$($rest:tt)*] $($ty:ty),*) => {",
  src% "      $crate::__taggable_into_box!(@inner $tagged, $enum, $counter",
  src% "        [",
  src% "            $( $finished )*",
  src% "            $enum::$variant(a,b,c,d,e,f,g,h,i,j,k,l,m,n,o,p,q,r) => {",
  src% "                #[repr(C)]",
  src% "                struct $variant($( $ty ),*);",
  src% "",
  src% "                $crate::TaggedBox::new::<$variant>($variant(a,b,c,d,e,f,g,h,i,j,k,l,m,n,o,p,q,r), $counter::$variant as u8)",
  src% "            }",
  src% "        ]",
  src% "        $( $rest )*",
  src% "      )",
  src% "    };",
  src% "    ($tagged:expr, $enum:ident, $counter:ident, $variant:ident, $a:ty, $b:ty, $c:ty, $d:ty, $e:ty, $f:ty, $g:ty, $h:ty, $i:ty, $j:ty, $k:ty, $l:ty, $m:ty, $n:ty, $o:ty, $p:ty, $q:ty, $r:ty, $s:ty [$($finished:tt)*] [$($rest:tt)*] $($ty:ty),*) => {",
  src% "      $crate::__taggable_into_box!(@inner $tagged, $enum, $counter",
  src% "        [",
  src% "            $( $finished )*",
  src% "            $enum::$variant(a,b,c,d,e,f,g,h,i,j,k,l,m,n,o,p,q,r,s) => {",
  src% "                #[repr(C)]",
  src% "                struct $variant($( $ty ),*);",
  src% "",
  src% "                $crate::TaggedBox::new::<$variant>($variant(a,b,c,d,e,f,g,h,i,j,k,l,m,n,o,p,q,r,s), $counter::$variant as u8)",
  src% "            }",
  src% "        ]",
  src% "        $( $rest )*",
  src% "      )",
  src% "    };",
  src% "    ($tagged:expr, $enum:ident, $counter:ident, $variant:ident, $a:ty, $b:ty, $c:ty, $d:ty, $e:ty, $f:ty, $g:ty, $h:ty, $i:ty, $j:ty, $k:ty, $l:ty, $m:ty, $n:ty, $o:ty, $p:ty, $q:ty, $r:ty, $s:ty, $t:ty [$($finished:tt)*] [$($rest:tt)*] $($ty:ty),*) => {",
  src% "      $crate::__taggable_into_box!(@inner $tagged, $enum, $counter",
  src% "        [",
  src% "            $( $finished )*",
  src% "            $enum::$variant(a,b,c,d,e,f,g,h,i,j,k,l,m,n,o,p,q,r,s,t) => {",
  src% "                #[repr(C)]",
  src% "                struct $variant($( $ty ),*);",
  src% "",
  src% "                $crate::TaggedBox::new::<$variant>($variant(a,b,c,d,e,f,g,h,i,j,k,l,m,n,o,p,q,r,s,t), $counter::$variant as u8)",
  src% "            }",
  src% "        ]",
  src% "        $( $rest )*",
  src% "      )",
  src% "    };",
  src% "    ($tagged:expr, $enum:ident, $counter:ident, $variant:ident, $a:ty, $b:ty, $c:ty, $d:ty, $e:ty, $f:ty, $g:ty, $h:ty, $i:ty, $j:ty, $k:ty, $l:ty, $m:ty, $n:ty, $o:ty, $p:ty, $q:ty, $r:ty, $s:ty, $t:ty, $u:ty [$($finished:tt)*] [$($rest:tt)*] $($ty:ty),*) => {",
  src% "      $crate::__taggable_into_box!(@inner $tagged, $enum, $counter",
  src% "        [",
  src% "            $( $finished )*",
  src% "            $enum::$variant(a,b,c,d,e,f,g,h,i,j,k,l,m,n,o,p,q,r,s,t,u) => {",
  src% "                #[repr(C)]",
  src% "                struct $variant($( $ty ),*);",
  src% "",
  src% "                $crate::TaggedBox::new::<$variant>($variant(a,b,c,d,e,f,g,h,i,j,k,l,m,n,o,p,q,r,s,t,u), $counter::$variant as u8)",
  src% "            }",
  src% "        ]",
  src% "        $( $rest )*",
  src% "      )",
  src% "    };",
  src% "    ($tagged:expr, $enum:ident, $counter:ident, $variant:ident, $a:ty, $b:ty, $c:ty, $d:ty, $e:ty, $f:ty, $g:ty, $h:ty, $i:ty, $j:ty, $k:ty, $l:ty, $m:ty, $n:ty, $o:ty, $p:ty, $q:ty, $r:ty, $s:ty, $t:ty, $u:ty, $v:ty [$($finished:tt)*] [$($rest:tt)*] $($ty:ty),*) => {",
  src% "      $crate::__taggable_into_box!(@inner $tagged, $enum, $counter",
  src% "        [",
  src% "            $( $finished )*",
  src% "            $enum::$variant(a,b,c,d,e,f,g,h,i,j,k,l,m,n,o,p,q,r,s,t,u,v) => {",
  src% "                #[repr(C)]",
  src% "                struct $variant($( $ty ),*);",
  src% "",
  src% "                $crate::TaggedBox::new::<$variant>($variant(a,b,c,d,e,f,g,h,i,j,k,l,m,n,o,p,q,r,s,t,u,v), $counter::$variant as u8)",
  src% "            }",
  src% "        ]",
  src% "        $( $rest )*",
  src% "      )",
  src% "    };",
  src% "    ($tagged:expr, $enum:ident, $counter:ident, $variant:ident, $a:ty, $b:ty, $c:ty, $d:ty, $e:ty, $f:ty, $g:ty, $h:ty, $i:ty, $j:ty, $k:ty, $l:ty, $m:ty, $n:ty, $o:ty, $p:ty, $q:ty, $r:ty, $s:ty, $t:ty, $u:ty, $v:ty, $w:ty [$($finished:tt)*] [$($rest:tt)*] $($ty:ty),*) => {",
  src% "      $crate::__taggable_into_box!(@inner $tagged, $enum, $counter",
  src% "        [",
  src% "            $( $finished )*",
  src% "            $enum::$variant(a,b,c,d,e,f,g,h,i,j,k,l,m,n,o,p,q,r,s,t,u,v,w) => {",
  src% "                #[repr(C)]",
  src% "                struct $variant($( $ty ),*);",
  src% "",
  src% "                $crate::TaggedBox::new::<$variant>($variant(a,b,c,d,e,f,g,h,i,j,k,l,m,n,o,p,q,r,s,t,u,v,w), $counter::$variant as u8)",
  src% "            }",
  src% "        ]",
  src% "        $( $rest )*",
  src% "      )",
  src% "    };",
  src% "    ($tagged:expr, $enum:ident, $counter:ident, $variant:ident, $a:ty, $b:ty, $c:ty, $d:ty, $e:ty, $f:ty, $g:ty, $h:ty, $i:ty, $j:ty, $k:ty, $l:ty, $m:ty, $n:ty, $o:ty, $p:ty, $q:ty, $r:ty, $s:ty, $t:ty, $u:ty, $v:ty, $w:ty, $x:ty [$($finished:tt)*] [$($rest:tt)*] $($ty:ty),*) => {",
  src% "      $crate::__taggable_into_box!(@inner $tagged, $enum, $counter",
  src% "        [",
  src% "            $( $finished )*",
  src% "            $enum::$variant(a,b,c,d,e,f,g,h,i,j,k,l,m,n,o,p,q,r,s,t,u,v,w,x) => {",
  src% "                #[repr(C)]",
  src% "                struct $variant($( $ty ),*);",
  src% "",
  src% "                $crate::TaggedBox::new::<$variant>($variant(a,b,c,d,e,f,g,h,i,j,k,l,m,n,o,p,q,r,s,t,u,v,w,x), $counter::$variant as u8)",
  src% "            }",
  src% "        ]",
  src% "        $( $rest )*",
  src% "      )",
  src% "    };",
  src% "    ($tagged:expr, $enum:ident, $counter:ident, $variant:ident, $a:ty, $b:ty, $c:ty, $d:ty, $e:ty, $f:ty, $g:ty, $h:ty, $i:ty, $j:ty, $k:ty, $l:ty, $m:ty, $n:ty, $o:ty, $p:ty, $q:ty, $r:ty, $s:ty, $t:ty, $u:ty, $v:ty, $w:ty, $x:ty, $y:ty [$($finished:tt)*] [$($rest:tt)*] $($ty:ty),*) => {",
  src% "      $crate::__taggable_into_box!(@inner $tagged, $enum, $counter",
  src% "        [",
  src% "            $( $finished )*",
  src% "            $enum::$variant(a,b,c,d,e,f,g,h,i,j,k,l,m,n,o,p,q,r,s,t,u,v,w,x,y) => {",
  src% "                #[repr(C)]",
  src% "                struct $variant($( $ty ),*);",
  src% "",
  src% "                $crate::TaggedBox::new::<$variant>($variant(a,b,c,d,e,f,g,h,i,j,k,l,m,n,o,p,q,r,s,t,u,v,w,x,y), $counter::$variant as u8)",
  src% "            }",
  src% "        ]",
  src% "        $( $rest )*",
  src% "      )",
  src% "    };",
  src% "    ($tagged:expr, $enum:ident, $counter:ident, $variant:ident, $a:ty, $b:ty, $c:ty, $d:ty, $e:ty, $f:ty, $g:ty, $h:ty, $i:ty, $j:ty, $k:ty, $l:ty, $m:ty, $n:ty, $o:ty, $p:ty, $q:ty, $r:ty, $s:ty, $t:ty, $u:ty, $v:ty, $w:ty, $x:ty, $y:ty, $z:ty [$($finished:tt)*] [$($rest:tt)*] $($ty:ty),*) => {",
  src% "      $crate::__taggable_into_box!(@inner $tagged, $enum, $counter",
  src% "        [",
  src% "            $( $finished )*",
  src% "            $enum::$variant(a,b,c,d,e,f,g,h,i,j,k,l,m,n,o,p,q,r,s,t,u,v,w,x,y,z) => {",
  src% "                #[repr(C)]",
  src% "                struct $variant($( $ty ),*);",
  src% "",
  src% "                $crate::TaggedBox::new::<$variant>($variant(a,b,c,d,e,f,g,h,i,j,k,l,m,n,o,p,q,r,s,t,u,v,w,x,y,z), $counter::$variant as u8)",
  src% "            }",
  src% "        ]",
  src% "        $( $rest )*",
  src% "      )",
  src% "    };",
  src% "    ($tagged:expr, $enum:ident, $counter:ident, $variant:ident, $a:ty, $b:ty, $c:ty, $d:ty, $e:ty, $f:ty, $g:ty, $h:ty, $i:ty, $j:ty, $k:ty, $l:ty, $m:ty, $n:ty, $o:ty, $p:ty, $q:ty, $r:ty, $s:ty, $t:ty, $u:ty, $v:ty, $w:ty, $x:ty, $y:ty, $z:ty, $aa:ty [$($finished:tt)*] [$($rest:tt)*] $($ty:ty),*) => {",
  src% "      $crate::__taggable_into_box!(@inner $tagged, $enum, $counter",
  src% "        [",
  src% "            $( $finished )*",
  src% "            $enum::$variant(a,b,c,d,e,f,g,h,i,j,k,l,m,n,o,p,q,r,s,t,u,v,w,x,y,z,aa) => {",
  src% "                #[repr(C)]",
  src% "                struct $variant($( $ty ),*);",
  src% "",
  src% "                $crate::TaggedBox::new::<$variant>($variant(a,b,c,d,e,f,g,h,i,j,k,l,m,n,o,p,q,r,s,t,u,v,w,x,y,z,aa), $counter::$variant as u8)",
  src% "            }",
  src% "        ]",
  src% "        $( $rest )*",
  src% "      )",
  src% "    };",
  src% "    ($tagged:expr, $enum:ident, $counter:ident, $variant:ident, $a:ty, $b:ty, $c:ty, $d:ty, $e:ty, $f:ty, $g:ty, $h:ty, $i:ty, $j:ty, $k:ty, $l:ty, $m:ty, $n:ty, $o:ty, $p:ty, $q:ty, $r:ty, $s:ty, $t:ty, $u:ty, $v:ty, $w:ty, $x:ty, $y:ty, $z:ty, $aa:ty, $bb:ty [$($finished:tt)*] [$($rest:tt)*] $($ty:ty),*) => {",
  src% "      $crate::__taggable_into_box!(@inner $tagged, $enum, $counter",
  src% "        [",
  src% "            $( $finished )*",
  src% "            $enum::$variant(a,b,c,d,e,f,g,h,i,j,k,l,m,n,o,p,q,r,s,t,u,v,w,x,y,z,aa,bb) => {",
  src% "                #[repr(C)]",
  src% "                struct $variant($( $ty ),*);",
  src% "",
  src% "                $crate::TaggedBox::new::<$variant>($variant(a,b,c,d,e,f,g,h,i,j,k,l,m,n,o,p,q,r,s,t,u,v,w,x,y,z,aa,bb), $counter::$variant as u8)",
  src% "            }",
  src% "        ]",
  src% "        $( $rest )*",
  src% "      )",
  src% "    };",
  src% "    ($tagged:expr, $enum:ident, $counter:ident, $variant:ident, $a:ty, $b:ty, $c:ty, $d:ty, $e:ty, $f:ty, $g:ty, $h:ty, $i:ty, $j:ty, $k:ty, $l:ty, $m:ty, $n:ty, $o:ty, $p:ty, $q:ty, $r:ty, $s:ty, $t:ty, $u:ty, $v:ty, $w:ty, $x:ty, $y:ty, $z:ty, $aa:ty, $bb:ty, $cc:ty [$($finished:tt)*] [$($rest:tt)*] $($ty:ty),*) => {",
  src% "      $crate::__taggable_into_box!(@inner $tagged, $enum, $counter",
  src% "        [",
  src% "            $( $finished )*",
  src% "            $enum::$variant(a,b,c,d,e,f,g,h,i,j,k,l,m,n,o,p,q,r,s,t,u,v,w,x,y,z,aa,bb,cc) => {",
  src% "                #[repr(C)]",
  src% "                struct $variant($( $ty ),*);",
  src% "",
  src% "                $crate::TaggedBox::new::<$variant>($variant(a,b,c,d,e,f,g,h,i,j,k,l,m,n,o,p,q,r,s,t,u,v,w,x,y,z,aa,bb,cc), $counter::$variant as u8)",
  src% "            }",
  src% "        ]",
  src% "        $( $rest )*",
  src% "      )",
  src% "    };",
  src% "    ($tagged:expr, $enum:ident, $counter:ident, $variant:ident, $a:ty, $b:ty, $c:ty, $d:ty, $e:ty, $f:ty, $g:ty, $h:ty, $i:ty, $j:ty, $k:ty, $l:ty, $m:ty, $n:ty, $o:ty, $p:ty, $q:ty, $r:ty, $s:ty, $t:ty, $u:ty, $v:ty, $w:ty, $x:ty, $y:ty, $z:ty, $aa:ty, $bb:ty, $cc:ty, $dd:ty [$($finished:tt)*] [$($rest:tt)*] $($ty:ty),*) => {",
  src% "      $crate::__taggable_into_box!(@inner $tagged, $enum, $counter",
  src% "        [",
  src% "            $( $finished )*",
  src% "            $enum::$variant(a,b,c,d,e,f,g,h,i,j,k,l,m,n,o,p,q,r,s,t,u,v,w,x,y,z,aa,bb,cc,dd) => {",
  src% "                #[repr(C)]",
  src% "                struct $variant($( $ty ),*);",
  src% "",
  src% "                $crate::TaggedBox::new::<$variant>($variant(a,b,c,d,e,f,g,h,i,j,k,l,m,n,o,p,q,r,s,t,u,v,w,x,y,z,aa,bb,cc,dd), $counter::$variant as u8)",
  src% "            }",
  src% "        ]",
  src% "        $( $rest )*",
  src% "      )",
  src% "    };",
  src% "    ($tagged:expr, $enum:ident, $counter:ident, $variant:ident, $a:ty, $b:ty, $c:ty, $d:ty, $e:ty, $f:ty, $g:ty, $h:ty, $i:ty, $j:ty, $k:ty, $l:ty, $m:ty, $n:ty, $o:ty, $p:ty, $q:ty, $r:ty, $s:ty, $t:ty, $u:ty, $v:ty, $w:ty, $x:ty, $y:ty, $z:ty, $aa:ty, $bb:ty, $cc:ty, $dd:ty, $ee:ty [$($finished:tt)*] [$($rest:tt)*] $($ty:ty),*) => {",
  src% "      $crate::__taggable_into_box!(@inner $tagged, $enum, $counter",
  src% "        [",
  src% "            $( $finished )*",
  src% "            $enum::$variant(a,b,c,d,e,f,g,h,i,j,k,l,m,n,o,p,q,r,s,t,u,v,w,x,y,z,aa,bb,cc,dd,ee) => {",
  src% "                #[repr(C)]",
  src% "                struct $variant($( $ty ),*);",
  src% "",
  src% "                $crate::TaggedBox::new::<$variant>($variant(a,b,c,d,e,f,g,h,i,j,k,l,m,n,o,p,q,r,s,t,u,v,w,x,y,z,aa,bb,cc,dd,ee), $counter::$variant as u8)",
  src% "            }",
  src% "        ]",
  src% "        $( $rest )*",
  src% "      )",
  src% "    };",
  src% "    ($tagged:expr, $enum:ident, $counter:ident, $variant:ident, $a:ty, $b:ty, $c:ty, $d:ty, $e:ty, $f:ty, $g:ty, $h:ty, $i:ty, $j:ty, $k:ty, $l:ty, $m:ty, $n:ty, $o:ty, $p:ty, $q:ty, $r:ty, $s:ty, $t:ty, $u:ty, $v:ty, $w:ty, $x:ty, $y:ty, $z:ty, $aa:ty, $bb:ty, $cc:ty, $dd:ty, $ee:ty, $ff:ty [$($finished:tt)*] [$($rest:tt)*] $($ty:ty),*) => {",
  src% "      $crate::__taggable_into_box!(@inner $tagged, $enum, $counter",
  src% "        [",
  src% "            $( $finished )*",
  src% "            $enum::$variant(a,b,c,d,e,f,g,h,i,j,k,l,m,n,o,p,q,r,s,t,u,v,w,x,y,z,aa,bb,cc,dd,ee,ff) => {",
  src% "                #[repr(C)]",
  src% "                struct $variant($( $ty ),*);",
  src% "",
  src% "                $crate::TaggedBox::new::<$variant>($variant(a,b,c,d,e,f,g,h,i,j,k,l,m,n,o,p,q,r,s,t,u,v,w,x,y,z,aa,bb,cc,dd,ee,ff), $counter::$variant as u8)",
  src% "            }",
  src% "        ]",
  src% "        $( $rest )*",
  src% "      )",
  src% "    };",
  src% "    ($tagged:expr, $enum:ident, $counter:ident, $variant:ident, $($others:ty),*[$($finished:tt)*] [$($rest:tt)*]) => {",
  src% "      compile_error!(\"Only enum tuple variants of up to 32 elements are supported\");",
  src% "    };",
  src% "  }"]

end TB.Source

import Verif.Mem

/-!
# Field layout

`#[repr(C)]` structs are generated for multi-field variants
(`src/tagged_box_macro/mod.rs:61`, `:76`, `:204`, `:223`, `:237`, `:415`, `:444`, `:467`;
`meta_macros.rs:469` and the same line of every further arm).
Their layout is the C algorithm of the Rust reference: fields in declaration order, each at the next multiple
of its alignment, total size rounded up to the maximum alignment.

Rust tuples, which `__from_tagged_box` reads (`mod.rs:300`), have an unspecified layout; `reversedTuple` is one
legal choice (it is what rustc picks for a pair whose second field has the larger alignment).
-/

set_option autoImplicit false

namespace TB

/-- Next multiple of `a`. -/
def roundUp (n a : Nat) : Nat := (n + a - 1) / a * a

/-- Place fields one after another starting at `off`; returns the fields with offsets and the end offset. -/
def placeC (off : Nat) : List Leaf → List (Nat × Leaf) × Nat
  | [] => ([], off)
  | l :: ls =>
    ((roundUp off l.align, l) :: (placeC (roundUp off l.align + l.size) ls).1,
     (placeC (roundUp off l.align + l.size) ls).2)

/-- Alignment of a struct: the maximum of its fields' (1 if there are none). -/
def maxAlign (ls : List Leaf) : Nat := ls.foldr (fun l a => max l.align a) 1

/-- `#[repr(C)] struct`. -/
def reprC (ls : List Leaf) : Shape :=
  ⟨roundUp (placeC 0 ls).2 (maxAlign ls), maxAlign ls, (placeC 0 ls).1⟩

/-- A legal tuple layout: fields placed in reverse declaration order. -/
def reversedTuple (ls : List Leaf) : Shape :=
  ⟨roundUp (placeC 0 ls.reverse).2 (maxAlign ls), maxAlign ls, (placeC 0 ls.reverse).1.reverse⟩

/-- What rustc does with tuples of scalars: fields by decreasing alignment, in declaration order where the alignment is the same.
(Not code of this repository; used in examples only.) The offset of field `i` is the size of all that comes before it. -/
def byAlign (ls : List Leaf) : Shape :=
  ⟨roundUp ((ls.map (·.size)).sum) (maxAlign ls), maxAlign ls,
    ls.zipIdx.map fun f =>
      (((ls.zipIdx.filter fun g => g.1.align > f.1.align || (g.1.align == f.1.align && g.2 < f.2)).map (·.1.size)).sum, f.1)⟩

end TB

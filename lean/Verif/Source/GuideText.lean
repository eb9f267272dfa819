import Verif.Mbe.Lex

/-!
# The text of `src/manually_impl_enum.rs`

The whole file, verbatim, one entry per line (written by `scripts/gen_sources.py` from the file).
-/

set_option autoImplicit false
set_option maxRecDepth 100000

namespace TB.Source

/-- `src/manually_impl_enum.rs:1-137` -/
noncomputable def guideText : List (List Char) := [
  src% "//! A guide to manually implementing a tagged enum",
  src% "//!",
  src% "//! A good start is by looking at the code generated by [`tagged_box!`]. Given the following macro invocation:",
  src% "//!",
  src% "//! ```rust",
  src% "//! # use tagged_box::tagged_box;",
  src% "//! #",
  src% "//! tagged_box! {",
  src% "//!     struct Container, enum Item {",
  src% "//!         Integer(i32),",
  src% "//!         Boolean(bool),",
  src% "//!     }",
  src% "//! }",
  src% "//! ```",
  src% "//!",
  src% "//! This code will be generated:",
  src% "//!",
  src% "//! ```rust",
  src% "//! # use tagged_box::{TaggedBox, TaggableContainer, TaggableInner};",
  src% "//! # use core::mem::ManuallyDrop;",
  src% "//! #",
  src% "//! #[repr(transparent)]",
  src% "//! struct Container {",
  src% "//!     value: TaggedBox<Item>,",
  src% "//! }",
  src% "//!",
  src% "//! impl TaggableContainer for Container {",
  src% "//!     type Inner = Item;",
  src% "//!",
  src% "//!     fn into_inner(self) -> Self::Inner {",
  src% "//!         enum EnumCounter {",
  src% "//!             Integer,",
  src% "//!             Boolean,",
  src% "//!         }",
  src% "//!",
  src% "//!         unsafe {",
  src% "//!             match self.value.discriminant() {",
  src% "//!                 discrim if discrim == EnumCounter::Integer as _ =>",
  src% "//!                     Item::Integer(TaggedBox::into_inner(self.value)),",
  src% "//!                 discrim if discrim == EnumCounter::Boolean as _ =>",
  src% "//!                     Item::Boolean(TaggedBox::into_inner(self.value)),",
  src% "//!                 _ => panic!(),",
  src% "//!             }",
  src% "//!         }",
  src% "//!     }",
  src% "//! }",
  src% "//!",
  src% "//! enum Item {",
  src% "//!     Integer(i32),",
  src% "//!     Boolean(bool),",
  src% "//! }",
  src% "//!",
  src% "//! impl TaggableInner for Item {",
  src% "//!     fn into_tagged_box(self) -> TaggedBox<Self> {",
  src% "//!         enum EnumCounter {",
  src% "//!             Integer,",
  src% "//!             Boolean,",
  src% "//!         }",
  src% "//!",
  src% "//!         match self {",
  src% "//!             Self::Integer(value) => TaggedBox::new(value, EnumCounter::Integer as _),",
  src% "//!             Self::Boolean(value) => TaggedBox::new(value, EnumCounter::Boolean as _),",
  src% "//!         }",
  src% "//!     }",
  src% "//!",
  src% "//!     fn from_tagged_box(tagged: TaggedBox<Self>) -> Self {",
  src% "//!         enum EnumCounter {",
  src% "//!             Integer,",
  src% "//!             Boolean,",
  src% "//!         }",
  src% "//!",
  src% "//!         unsafe {",
  src% "//!             match tagged.discriminant() {",
  src% "//!                 discrim if discrim == EnumCounter::Integer as _ =>",
  src% "//!                     Self::Integer(TaggedBox::into_inner(tagged)),",
  src% "//!                 discrim if discrim == EnumCounter::Boolean as _ =>",
  src% "//!                     Self::Boolean(TaggedBox::into_inner(tagged)),",
  src% "//!                 _ => panic!(),",
  src% "//!             }",
  src% "//!         }",
  src% "//!     }",
  src% "//!",
  src% "//!     unsafe fn ref_from_tagged_box<F>(tagged: &TaggedBox<Self>, callback: F)",
  src% "//!     where",
  src% "//!         F: FnOnce(&Self),",
  src% "//!     {",
  src% "//!         enum EnumCounter {",
  src% "//!             Integer,",
  src% "//!             Boolean,",
  src% "//!         }",
  src% "//!",
  src% "//!         unsafe {",
  src% "//!             match tagged.discriminant() {",
  src% "//!                 discrim if discrim == EnumCounter::Integer as _ => {",
  src% "//!                     let variant = ManuallyDrop::new(Self::Integer(tagged.as_ptr::<i32>().read()));",
  src% "//!                     (callback)(&variant)",
  src% "//!                 }",
  src% "//!                 discrim if discrim == EnumCounter::Boolean as _ => {",
  src% "//!                     let variant = ManuallyDrop::new(Self::Boolean(tagged.as_ptr::<bool>().read()));",
  src% "//!                     (callback)(&variant)",
  src% "//!                 }",
  src% "//!                 _ => panic!(),",
  src% "//!             }",
  src% "//!         }",
  src% "//!     }",
  src% "//! }",
  src% "//! ```",
  src% "//!",
  src% "//! This is a lot of code, so we'll break it down a bit.",
  src% "//! The first piece of code generated is this struct:",
  src% "//!",
  src% "//! ```rust",
  src% "//! # use tagged_box::{TaggedBox, TaggableContainer, TaggableInner};",
  src% "//! # enum Item {}",
  src% "//! #",
  src% "//! #[repr(transparent)]",
  src% "//! struct Container {",
  src% "//!     value: TaggedBox<Item>,",
  src% "//! }",
  src% "//! ```",
  src% "//!",
  src% "//! This is the 'handle' if you will. It allows you to generically hold multiple different instances",
  src% "//! of the same overarching enum that have different internal types. It's essentially an enum and a",
  src% "//! [`Box`] rolled into one. However, unlike leaving the safety guarantees up to you, the `tagged_box!`",
  src% "//! macro creates a default implementation that makes sure that everything goes smoothly.",
  src% "//!",
  src% "//! Next is the implementation of [`TaggableContainer`] for `Container`, which is the safe interface for",
  src% "//! retrieving the correct variant of the enum from the backing `TaggedBox`.",
  src% "//!",
  src% "//! Then we have the `Item` enum, which is a representation of what the `TaggedBox` is holding, and can be conveniently",
  src% "//! gotten from any `Container` instance. This has the [`TaggableInner`] trait implemented on it, which allows us to",
  src% "//! have convenient things like `Clone`, `PartialEq` and `Ord`.",
  src% "//!",
  src% "//! [`tagged_box!`]: ../macro.tagged_box.html",
  src% "//! [`Box`]: https://doc.rust-lang.org/alloc/boxed/struct.Box.html",
  src% "//! [`TaggableContainer`]: crate::TaggableContainer",
  src% "//! [`TaggableInner`]: crate::TaggableInner"]

end TB.Source

import Verif.Mbe.Lex

/-!
# The text of `src/tagged_box.rs`

The whole file, verbatim, one entry per line (written by `scripts/gen_sources.py` from the file).
-/

set_option autoImplicit false
set_option maxRecDepth 100000

namespace TB.Source

/-- `src/tagged_box.rs:1-827` -/
noncomputable def boxText : List (List Char) := [
  src% "use crate::{discriminant::Discriminant, taggable::TaggableInner, tagged_pointer::TaggedPointer};",
  src% "use alloc::boxed::Box;",
  src% "use core::{",
  src% "    alloc::Layout,",
  src% "    cmp, fmt,",
  src% "    marker::PhantomData,",
  src% "    mem::{self, ManuallyDrop, MaybeUninit},",
  src% "    ptr::NonNull,",
  src% "};",
  src% "",
  src% "/// A tagged box, associated with a variable type (enum, integer, etc.) able to be extracted from",
  src% "/// the underlying [`TaggedPointer`]",
  src% "///",
  src% "/// [`TaggedPointer`]: crate::tagged_pointer::TaggedPointer",
  src% "#[repr(transparent)]",
  src% "pub struct TaggedBox<T> {",
  src% "    boxed: TaggedPointer,",
  src% "    _type: PhantomData<T>,",
  src% "}",
  src% "",
  src% "impl<T> TaggedBox<T> {",
  src% "    /// Creates a new `TaggedBox` from a value and its discriminant",
  src% "    ///",
  src% "    /// # Examples",
  src% "    ///",
  src% "    /// ```rust",
  src% "    /// # extern crate alloc;",
  src% "    /// # use alloc::{vec::Vec, string::String};",
  src% "    /// # use tagged_box::TaggedBox;",
  src% "    /// # struct Paper;",
  src% "    /// #",
  src% "    /// enum Communication {",
  src% "    ///     Message(String),",
  src% "    ///     Letter(Vec<Paper>),",
  src% "    /// }",
  src% "    ///",
  src% "    /// let tagged_message: TaggedBox<Communication> = TaggedBox::new(String::from(\"Foobar is a timeless classic\"), 0);",
  src% "    /// ```",
  src% "    ///",
  src% "    /// ## **Make sure to retrieve the correct type from the `TaggedBox`, or you will encounter undefined behavior!**  ",
  src% "    ///",
  src% "    /// This is alright, because we stored a `String` onto the heap and we are retrieving a `String` with `into_inner`",
  src% "    ///",
  src% "    /// ```rust",
  src% "    /// # extern crate alloc;",
  src% "    /// # use alloc::{vec::Vec, string::String};",
  src% "    /// # use tagged_box::TaggedBox;",
  src% "    /// # struct Paper;",
  src% "    /// # enum Communication {",
  src% "    /// #     Message(String),",
  src% "    /// #     Letter(Vec<Paper>),",
  src% "    /// # }",
  src% "    /// # let tagged_message: TaggedBox<Communication> = TaggedBox::new(String::from(\"Foobar is a timeless classic\"), 0);",
  src% "    /// #",
  src% "    /// unsafe {",
  src% "    ///     let message = TaggedBox::into_inner::<String>(tagged_message);",
  src% "    ///",
  src% "    ///     assert_eq!(&message, \"Foobar is a timeless classic\");",
  src% "    /// }",
  src% "    /// ```",
  src% "    ///",
  src% "    /// This is UB, because we stored a `String` onto the heap and are retreving a `Vec<Paper`",
  src% "    ///",
  src% "    /// ```should_panic",
  src% "    /// # extern crate alloc;",
  src% "    /// # use alloc::{vec::Vec, string::String};",
  src% "    /// # use tagged_box::TaggedBox;",
  src% "    /// # struct Paper;",
  src% "    /// # enum Communication {",
  src% "    /// #     Message(String),",
  src% "    /// #     Letter(Vec<Paper>),",
  src% "    /// # }",
  src% "    /// # let tagged_message: TaggedBox<Communication> = TaggedBox::new(String::from(\"Foobar is a timeless classic\"), 0);",
  src% "    /// #",
  src% "    /// unsafe {",
  src% "    ///     let letter = TaggedBox::into_inner::<Vec<Paper>>(tagged_message); // UB!",
  src% "    /// }",
  src% "    /// # panic!(\"Undefined Behavior!\");",
  src% "    /// ```",
  src% "    ///",
  src% "    #[inline]",
  src% "    pub fn new<U>(val: U, discriminant: Discriminant) -> Self {",
  src% "        if mem::size_of::<U>() == 0 {",
  src% "            Self::dangling::<U>(discriminant)",
  src% "        } else {",
  src% "            let layout = Layout::new::<U>();",
  src% "",
  src% "            // Safety: The allocation should be properly handled by alloc + layout,",
  src% "            // and writing should be properly aligned, as the pointer came from the",
  src% "            // global allocator, plus the allocated type is not a ZST",
  src% "            let ptr = unsafe {",
  src% "                let ptr = alloc::alloc::alloc(layout) as *mut U;",
  src% "                assert!(ptr as u64 != 0);",
  src% "                ptr.write(val);",
  src% "",
  src% "                ptr",
  src% "            };",
  src% "",
  src% "            Self {",
  src% "                boxed: TaggedPointer::new(ptr as u64, discriminant),",
  src% "                _type: PhantomData,",
  src% "            }",
  src% "        }",
  src% "    }",
  src% "",
  src% "    /// Creates a new `TaggedBox` from a value and its discriminant, without checking invariance",
  src% "    ///",
  src% "    /// # Safety",
  src% "    ///",
  src% "    /// `discriminant` must be <= [`MAX_DISCRIMINANT`] and `pointer` must be <=",
  src% "    /// [`MAX_POINTER_VALUE`].  ",
  src% "    /// See [`TaggedPointer::new_unchecked`] for more",
  src% "    ///",
  src% "    /// # Examples",
  src% "    ///",
  src% "    /// ```rust",
  src% "    /// # extern crate alloc;",
  src% "    /// # use alloc::{vec::Vec, string::String};",
  src% "    /// # use tagged_box::TaggedBox;",
  src% "    /// # struct Paper;",
  src% "    /// #",
  src% "    /// enum Communication {",
  src% "    ///     Message(String),",
  src% "    ///     Letter(Vec<Paper>),",
  src% "    /// }",
  src% "    ///",
  src% "    /// let tagged_message: TaggedBox<Communication> = TaggedBox::new(String::from(\"Foobar is a timeless classic\"), 0);",
  src% "    /// ```",
  src% "    ///",
  src% "    /// ## **Make sure to retrieve the correct type from the `TaggedBox`, or you will encounter undefined behavior!**  ",
  src% "    ///",
  src% "    /// This is alright, because we stored a `String` onto the heap and we are retrieving a `String` with `into_inner`",
  src% "    ///",
  src% "    /// ```rust",
  src% "    /// # extern crate alloc;",
  src% "    /// # use alloc::{vec::Vec, string::String};",
  src% "    /// # use tagged_box::TaggedBox;",
  src% "    /// # struct Paper;",
  src% "    /// # enum Communication {",
  src% "    /// #     Message(String),",
  src% "    /// #     Letter(Vec<Paper>),",
  src% "    /// # }",
  src% "    /// # let tagged_message: TaggedBox<Communication> = TaggedBox::new(String::from(\"Foobar is a timeless classic\"), 0);",
  src% "    /// #",
  src% "    /// unsafe {",
  src% "    ///     let message = TaggedBox::into_inner::<String>(tagged_message);",
  src% "    ///",
  src% "    ///     assert_eq!(&message, \"Foobar is a timeless classic\");",
  src% "    /// }",
  src% "    /// ```",
  src% "    ///",
  src% "    /// This is UB, because we stored a `String` onto the heap and are retreving a `Vec<Paper`",
  src% "    ///",
  src% "    /// ```should_panic",
  src% "    /// # extern crate alloc;",
  src% "    /// # use alloc::{vec::Vec, string::String};",
  src% "    /// # use tagged_box::TaggedBox;",
  src% "    /// # struct Paper;",
  src% "    /// # enum Communication {",
  src% "    /// #     Message(String),",
  src% "    /// #     Letter(Vec<Paper>),",
  src% "    /// # }",
  src% "    /// # let tagged_message: TaggedBox<Communication> = TaggedBox::new(String::from(\"Foobar is a timeless classic\"), 0);",
  src% "    /// #",
  src% "    /// unsafe {",
  src% "    ///     let letter = TaggedBox::into_inner::<Vec<Paper>>(tagged_message); // UB!",
  src% "    /// }",
  src% "    /// # panic!(\"Undefined Behavior!\");",
  src% "    /// ```",
  src% "    ///",
  src% "    /// [`MAX_DISCRIMINANT`]: crate::discriminant::MAX_DISCRIMINANT",
  src% "    /// [`MAX_POINTER_VALUE`]: crate::discriminant::MAX_POINTER_VALUE",
  src% "    /// [`TaggedPointer::new_unchecked`]: crate::tagged_pointer::TaggedPointer#new_unchecked",
  src% "    #[inline]",
  src% "    pub unsafe fn new_unchecked<U>(val: U, discriminant: Discriminant) -> Self {",
  src% "        if mem::size_of::<U>() == 0 {",
  src% "            Self::dangling::<U>(discriminant)",
  src% "        } else {",
  src% "            let layout = Layout::new::<U>();",
  src% "",
  src% "            // Safety: The allocation should be properly handled by alloc + layout,",
  src% "            // and writing should be properly aligned, as the pointer came from the",
  src% "            // global allocator",
  src% "            let ptr = {",
  src% "                let ptr = alloc::alloc::alloc(layout) as *mut U;",
  src% "                assert!(ptr as u64 != 0);",
  src% "                ptr.write(val);",
  src% "",
  src% "                ptr",
  src% "            };",
  src% "",
  src% "            Self {",
  src% "                boxed: TaggedPointer::new(ptr as u64, discriminant),",
  src% "                _type: PhantomData,",
  src% "            }",
  src% "        }",
  src% "    }",
  src% "",
  src% "    /// Creates a dangling tagged box, see [`NonNull::dangling`] for more information",
  src% "    ///",
  src% "    /// [`NonNull::dangling`]: https://doc.rust-lang.org/core/ptr/struct.NonNull.html#method.dangling",
  src% "    #[inline]",
  src% "    pub const fn dangling<U>(discriminant: Discriminant) -> Self {",
  src% "        Self {",
  src% "            boxed: TaggedPointer::dangling::<U>(discriminant),",
  src% "            _type: PhantomData,",
  src% "        }",
  src% "    }",
  src% "",
  src% "    /// Returns an immutable reference to the value stored on the heap",
  src% "    ///",
  src% "    /// # Safety",
  src% "    ///",
  src% "    /// The type provided as `U` must be the same type as allocated by `new`,",
  src% "    /// and any actions done with the value must not move it",
  src% "    ///",
  src% "    /// # Example",
  src% "    ///",
  src% "    /// ```rust",
  src% "    /// # use tagged_box::TaggedBox;",
  src% "    /// enum Bricks {",
  src% "    ///     Red(usize),",
  src% "    /// }",
  src% "    ///",
  src% "    /// let red_brick: TaggedBox<Bricks> = TaggedBox::new(100_usize, 0);",
  src% "    ///",
  src% "    /// unsafe {",
  src% "    ///     // We allocated a usize, so we can retrieve one",
  src% "    ///     assert_eq!(red_brick.as_ref::<usize>(), &100);",
  src% "    /// }",
  src% "    /// ```",
  src% "    ///",
  src% "    #[inline]",
  src% "    #[allow(clippy::should_implement_trait)]",
  src% "    pub unsafe fn as_ref<U>(&self) -> &U {",
  src% "        self.boxed.as_ref()",
  src% "    }",
  src% "",
  src% "    /// Returns an immutable reference to the value stored on the heap",
  src% "    ///",
  src% "    /// # Safety",
  src% "    ///",
  src% "    /// The type provided as `U` must be the same type as allocated by `new`,",
  src% "    /// and any actions done with the value must not move it",
  src% "    ///",
  src% "    /// # Example",
  src% "    ///",
  src% "    /// ```rust",
  src% "    /// # use tagged_box::TaggedBox;",
  src% "    /// enum Bricks {",
  src% "    ///     Red(usize),",
  src% "    /// }",
  src% "    ///",
  src% "    /// let mut red_brick: TaggedBox<Bricks> = TaggedBox::new(100_usize, 0);",
  src% "    ///",
  src% "    /// unsafe {",
  src% "    ///     assert_eq!(red_brick.as_ref::<usize>(), &100);",
  src% "    ///",
  src% "    ///     // We allocated a usize, so we can retrieve one and change it",
  src% "    ///     *red_brick.as_mut_ref::<usize>() = 300;",
  src% "    ///",
  src% "    ///     assert_eq!(red_brick.as_ref::<usize>(), &300);",
  src% "    /// }",
  src% "    /// ```",
  src% "    ///",
  src% "    #[inline]",
  src% "    pub unsafe fn as_mut_ref<U>(&mut self) -> &mut U {",
  src% "        self.boxed.as_mut_ref()",
  src% "    }",
  src% "",
  src% "    /// Return the boxed value contained in the `TaggedPointer`",
  src% "    ///",
  src% "    /// # Safety",
  src% "    ///",
  src% "    /// The type provided as `U` must be the same type as allocated by `new`",
  src% "    ///",
  src% "    /// # Example",
  src% "    ///",
  src% "    /// ```rust",
  src% "    /// # use tagged_box::TaggedBox;",
  src% "    /// enum Bricks {",
  src% "    ///     Red(usize),",
  src% "    /// }",
  src% "    ///",
  src% "    /// let red_brick: TaggedBox<Bricks> = TaggedBox::new(100_usize, 0);",
  src% "    ///",
  src% "    /// unsafe {",
  src% "    ///     // We allocated a usize, so we can retrieve one",
  src% "    ///     let mut number_bricks: usize = TaggedBox::into_inner(red_brick);",
  src% "    ///",
  src% "    ///     assert_eq!(number_bricks, 100);",
  src% "    /// }",
  src% "    /// ```",
  src% "    ///",
  src% "    #[inline]",
  src% "    #[must_use]",
  src% "    pub unsafe fn into_inner<U>(tagged: Self) -> U {",
  src% "        let mut tagged = ManuallyDrop::new(tagged);",
  src% "        tagged.as_mut_ptr::<U>().read()",
  src% "    }",
  src% "",
  src% "    /// Consumes the `TaggedBox`, returning a raw pointer.",
  src% "    ///",
  src% "    /// The pointer will be properly aligned and non-null, and the caller is responsible for managing the memory",
  src% "    /// allocated by `TaggedBox`.",
  src% "    ///",
  src% "    /// # Example",
  src% "    ///",
  src% "    /// ```rust",
  src% "    /// # use tagged_box::TaggedBox;",
  src% "    /// # enum InnerValue {}",
  src% "    /// #",
  src% "    /// let tagged_box: TaggedBox<InnerValue> = TaggedBox::new([10u8; 10], 8);",
  src% "    ///",
  src% "    /// // Get the raw pointer to the heap-allocated value",
  src% "    /// let raw: *mut [u8; 10] = TaggedBox::into_raw(tagged_box);",
  src% "    ///",
  src% "    /// unsafe {",
  src% "    ///     assert_eq!(*raw, [10; 10]);",
  src% "    /// }",
  src% "    /// ```",
  src% "    ///",
  src% "    #[inline]",
  src% "    pub fn into_raw<U>(tagged: Self) -> *mut U {",
  src% "        ManuallyDrop::new(tagged).boxed.as_mut_ptr()",
  src% "    }",
  src% "",
  src% "    /// Creates a [`Box`] from the provided `TaggedBox`  ",
  src% "    /// Trusts that the type provided as `U` is valid for the allocated layout.",
  src% "    ///",
  src% "    /// # Safety",
  src% "    ///",
  src% "    /// The type provided as `U` must be the same type that the instance of `TaggedBox`",
  src% "    /// was initialized with.",
  src% "    ///",
  src% "    /// # Example",
  src% "    ///",
  src% "    /// ```rust",
  src% "    /// # extern crate alloc;",
  src% "    /// # use alloc::boxed::Box;",
  src% "    /// # use tagged_box::TaggedBox;",
  src% "    /// # enum InnerValue {}",
  src% "    /// #",
  src% "    /// let tagged_box: TaggedBox<InnerValue> = TaggedBox::new([10u8; 10], 8);",
  src% "    ///",
  src% "    /// unsafe {",
  src% "    ///     // Get the Boxed value",
  src% "    ///     let boxed: Box<[u8; 10]> = TaggedBox::into_box(tagged_box);",
  src% "    /// }",
  src% "    /// ```",
  src% "    ///",
  src% "    /// [`Box`]: https://doc.rust-lang.org/alloc/boxed/struct.Box.html",
  src% "    #[inline]",
  src% "    pub unsafe fn into_box<U>(tagged: Self) -> alloc::boxed::Box<U> {",
  src% "        use alloc::boxed::Box;",
  src% "",
  src% "        let raw = Self::into_raw(tagged);",
  src% "        Box::from_raw(raw)",
  src% "    }",
  src% "",
  src% "    // TODO: from_box",
  src% "",
  src% "    /// Constructs a `TaggedBox` from a raw pointer and a discriminant.",
  src% "    ///",
  src% "    /// Trusts that the provided pointer is valid and non-null, as well as that the memory",
  src% "    /// allocated is the method same as allocated by `TaggedBox`. `TaggedBox` uses the standard",
  src% "    /// allocator",
  src% "    ///",
  src% "    /// # Safety",
  src% "    ///",
  src% "    /// This function is unsafe because improper use may lead to memory problems.",
  src% "    /// For example, a double-free may occur if the function is called twice on the same raw pointer.",
  src% "    ///",
  src% "    /// # Example",
  src% "    ///",
  src% "    /// ```rust",
  src% "    /// # extern crate alloc;",
  src% "    /// # use tagged_box::TaggedBox;",
  src% "    /// # use alloc::{vec, vec::Vec};",
  src% "    /// # enum InnerValue {}",
  src% "    /// #",
  src% "    /// let tagged_box: TaggedBox<InnerValue> = TaggedBox::new(vec![100_usize, 200, 300], 10);",
  src% "    ///",
  src% "    /// // Turn the tagged box into a raw pointer and its discriminant",
  src% "    /// let discriminant = tagged_box.discriminant();",
  src% "    /// let raw_box: *mut Vec<usize> = TaggedBox::into_raw(tagged_box);",
  src% "    ///",
  src% "    /// unsafe {",
  src% "    ///     assert_eq!(*raw_box, vec![100, 200, 300]);",
  src% "    ///",
  src% "    ///     let tagged_box: TaggedBox<InnerValue> = TaggedBox::from_raw(raw_box, discriminant);",
  src% "    ///     ",
  src% "    ///     assert_eq!(TaggedBox::into_inner::<Vec<usize>>(tagged_box), vec![100, 200, 300]);",
  src% "    /// }",
  src% "    /// ```",
  src% "    ///",
  src% "    #[inline]",
  src% "    pub unsafe fn from_raw<U>(raw: *mut U, discriminant: Discriminant) -> Self {",
  src% "        Self {",
  src% "            boxed: TaggedPointer::new(raw as u64, discriminant),",
  src% "            _type: PhantomData,",
  src% "        }",
  src% "    }",
  src% "",
  src% "    /// Fetches the discriminant of a `TaggedBox`",
  src% "    ///",
  src% "    /// # Examples",
  src% "    ///",
  src% "    /// ```rust",
  src% "    /// # use tagged_box::TaggedBox;",
  src% "    /// # enum InnerValue {}",
  src% "    /// #",
  src% "    /// let tagged_box: TaggedBox<InnerValue> = TaggedBox::new(0x00, 11);",
  src% "    ///",
  src% "    /// assert_eq!(tagged_box.discriminant(), 11);",
  src% "    /// ```",
  src% "    ///",
  src% "    #[inline]",
  src% "    pub const fn discriminant(&self) -> Discriminant {",
  src% "        self.boxed.discriminant()",
  src% "    }",
  src% "",
  src% "    /// Retrieves a raw pointer to the data owned by `TaggedBox`, see [`TaggedPointer::as_ptr`]  ",
  src% "    /// The caller must ensure that the returned pointer is never written to. If you need to",
  src% "    /// mutate the contents of the tagged pointer, use [`as_mut_ptr`].",
  src% "    ///",
  src% "    /// ```rust",
  src% "    /// # use tagged_box::TaggedBox;",
  src% "    /// enum Bricks {",
  src% "    ///     Red(usize),",
  src% "    /// }",
  src% "    ///",
  src% "    /// let red_brick: TaggedBox<Bricks> = TaggedBox::new(100_usize, 0);",
  src% "    ///",
  src% "    /// unsafe {",
  src% "    ///     assert_eq!(*red_brick.as_ptr::<usize>(), 100);",
  src% "    /// }",
  src% "    /// ```",
  src% "    ///",
  src% "    /// [`TaggedPointer::as_ptr`]: crate::TaggedPointer#as_ptr",
  src% "    /// [`as_mut_ptr`]: crate::TaggedBox::as_ptr",
  src% "    #[inline]",
  src% "    pub const fn as_ptr<U>(&self) -> *const U {",
  src% "        self.boxed.as_ptr() as *const U",
  src% "    }",
  src% "",
  src% "    /// Retrieves a raw pointer to the data owned by `TaggedBox`, see [`TaggedPointer::as_mut_ptr`]  ",
  src% "    /// It is your responsibility to make sure that the string slice only gets modified in a way",
  src% "    /// that it remains valid",
  src% "    ///",
  src% "    /// # Example",
  src% "    ///",
  src% "    /// ```rust",
  src% "    /// # use tagged_box::TaggedBox;",
  src% "    /// enum Bricks {",
  src% "    ///     Red(usize),",
  src% "    /// }",
  src% "    ///",
  src% "    /// let mut red_brick: TaggedBox<Bricks> = TaggedBox::new(100_usize, 0);",
  src% "    ///",
  src% "    /// unsafe {",
  src% "    ///     *red_brick.as_mut_ptr::<usize>() = 100_000;",
  src% "    ///",
  src% "    ///     assert_eq!(TaggedBox::into_inner::<usize>(red_brick), 100_000);",
  src% "    /// }",
  src% "    /// ```",
  src% "    ///",
  src% "    /// [`TaggedPointer::as_mut_ptr`]: crate::TaggedPointer#as_mut_ptr",
  src% "    #[inline]",
  src% "    pub fn as_mut_ptr<U>(&mut self) -> *mut U {",
  src% "        self.boxed.as_mut_ptr() as *mut U",
  src% "    }",
  src% "",
  src% "    /// Retrieves a u64 pointing to the data owned by `TaggedBox`, see [`TaggedPointer::as_usize`]",
  src% "    ///",
  src% "    /// [`TaggedPointer::as_u64`]: crate::TaggedPointer#as_u64",
  src% "    #[inline]",
  src% "    pub(crate) const fn as_u64(&self) -> u64 {",
  src% "        self.boxed.as_u64()",
  src% "    }",
  src% "}",
  src% "",
  src% "impl<T> fmt::Debug for TaggedBox<T>",
  src% "where",
  src% "    T: TaggableInner + fmt::Debug + Clone,",
  src% "{",
  src% "    fn fmt(&self, f: &mut fmt::Formatter<'_>) -> fmt::Result {",
  src% "        let mut result = Ok(());",
  src% "        unsafe {",
  src% "            T::ref_from_tagged_box(self, |this| {",
  src% "                result = write!(f, \"{:?}\", this);",
  src% "            });",
  src% "        }",
  src% "",
  src% "        result",
  src% "    }",
  src% "}",
  src% "",
  src% "impl<T> fmt::Display for TaggedBox<T>",
  src% "where",
  src% "    T: TaggableInner + fmt::Display + Clone,",
  src% "{",
  src% "    fn fmt(&self, f: &mut fmt::Formatter<'_>) -> fmt::Result {",
  src% "        let mut result = Ok(());",
  src% "        unsafe {",
  src% "            T::ref_from_tagged_box(self, |this| {",
  src% "                result = write!(f, \"{}\", this);",
  src% "            });",
  src% "        }",
  src% "",
  src% "        result",
  src% "    }",
  src% "}",
  src% "",
  src% "impl<T> Clone for TaggedBox<T>",
  src% "where",
  src% "    T: TaggableInner + Clone,",
  src% "{",
  src% "    fn clone(&self) -> Self {",
  src% "        let mut output = None;",
  src% "        unsafe {",
  src% "            T::ref_from_tagged_box(self, |this| {",
  src% "                output = Some(this.clone());",
  src% "            });",
  src% "        }",
  src% "",
  src% "        output",
  src% "            .expect(\"The inner value could not be fetched\")",
  src% "            .into_tagged_box()",
  src% "    }",
  src% "}",
  src% "",
  src% "impl<T> Copy for TaggedBox<T> where T: TaggableInner + Copy {}",
  src% "",
  src% "impl<T> PartialEq for TaggedBox<T>",
  src% "where",
  src% "    T: TaggableInner + PartialEq<T>,",
  src% "{",
  src% "    fn eq(&self, other: &TaggedBox<T>) -> bool {",
  src% "        let mut eq = false;",
  src% "        unsafe {",
  src% "            T::ref_from_tagged_box(self, |this| {",
  src% "                T::ref_from_tagged_box(other, |other| {",
  src% "                    eq = this == other;",
  src% "                });",
  src% "            });",
  src% "        }",
  src% "",
  src% "        eq",
  src% "    }",
  src% "}",
  src% "",
  src% "impl<T> Eq for TaggedBox<T> where T: TaggableInner + Eq {}",
  src% "",
  src% "impl<T> PartialOrd for TaggedBox<T>",
  src% "where",
  src% "    T: TaggableInner + PartialOrd<T>,",
  src% "{",
  src% "    fn partial_cmp(&self, other: &TaggedBox<T>) -> Option<cmp::Ordering> {",
  src% "        let mut cmp = None;",
  src% "        unsafe {",
  src% "            T::ref_from_tagged_box(self, |this| {",
  src% "                T::ref_from_tagged_box(other, |other| {",
  src% "                    cmp = this.partial_cmp(other);",
  src% "                });",
  src% "            });",
  src% "        }",
  src% "",
  src% "        cmp",
  src% "    }",
  src% "}",
  src% "",
  src% "impl<T> Ord for TaggedBox<T>",
  src% "where",
  src% "    T: TaggableInner + Ord,",
  src% "{",
  src% "    fn cmp(&self, other: &TaggedBox<T>) -> cmp::Ordering {",
  src% "        let mut cmp = cmp::Ordering::Equal;",
  src% "        unsafe {",
  src% "            T::ref_from_tagged_box(self, |this| {",
  src% "                T::ref_from_tagged_box(other, |other| {",
  src% "                    cmp = this.cmp(other);",
  src% "                });",
  src% "            });",
  src% "        }",
  src% "",
  src% "        cmp",
  src% "    }",
  src% "}",
  src% "",
  src% "impl_fmt!(impl[T: TaggableInner] TaggedBox<T> => LowerHex, UpperHex, Binary, Octal);",
  src% "",
  src% "#[cfg(test)]",
  src% "mod tests {",
  src% "    use super::*;",
  src% "    use crate::{tagged_box, TaggableContainer, TaggableInner};",
  src% "    use alloc::{string::String, vec, vec::Vec};",
  src% "    use core::mem::ManuallyDrop;",
  src% "",
  src% "    #[test]",
  src% "    fn new() {",
  src% "        enum Test {}",
  src% "        #[derive(Debug, PartialEq)]",
  src% "        struct Custom {",
  src% "            a: u32,",
  src% "            b: bool,",
  src% "            c: [usize; 10],",
  src% "        }",
  src% "",
  src% "        let integer: TaggedBox<Test> =",
  src% "            TaggedBox::new(0xF00D_BEEF_usize, crate::discriminant::MAX_DISCRIMINANT / 2);",
  src% "        let custom: TaggedBox<Test> = TaggedBox::new(",
  src% "            Custom {",
  src% "                a: 10000,",
  src% "                b: false,",
  src% "                c: [(usize::max_value() << 32) >> 32; 10],",
  src% "            },",
  src% "            crate::discriminant::MAX_DISCRIMINANT / 4,",
  src% "        );",
  src% "        let string: TaggedBox<Test> = TaggedBox::new(String::from(\"Hello world!\"), 0);",
  src% "        let vec: TaggedBox<Test> = TaggedBox::new(vec![1i32, 2, 3, 4, 5, 6], 10);",
  src% "",
  src% "        unsafe {",
  src% "            assert_eq!(0xF00D_BEEF_usize, TaggedBox::into_inner(integer));",
  src% "            assert_eq!(",
  src% "                Custom {",
  src% "                    a: 10000,",
  src% "                    b: false,",
  src% "                    c: [(usize::max_value() << 32) >> 32; 10],",
  src% "                },",
  src% "                TaggedBox::into_inner(custom)",
  src% "            );",
  src% "            assert_eq!(",
  src% "                String::from(\"Hello world!\"),",
  src% "                TaggedBox::into_inner::<String>(string)",
  src% "            );",
  src% "            assert_eq!(",
  src% "                vec![1, 2, 3, 4, 5, 6],",
  src% "                TaggedBox::into_inner::<Vec<i32>>(vec),",
  src% "            );",
  src% "        }",
  src% "    }",
  src% "",
  src% "    #[test]",
  src% "    fn new_zst() {",
  src% "        enum Test {}",
  src% "        #[derive(Debug, PartialEq)]",
  src% "        struct Zst;",
  src% "",
  src% "        let unit: TaggedBox<Test> = TaggedBox::new((), 0);",
  src% "        let zst: TaggedBox<Test> = TaggedBox::new(Zst, crate::discriminant::MAX_DISCRIMINANT);",
  src% "",
  src% "        unsafe {",
  src% "            assert_eq!((), TaggedBox::into_inner(unit));",
  src% "            assert_eq!(Zst, TaggedBox::into_inner(zst));",
  src% "        }",
  src% "    }",
  src% "",
  src% "    #[test]",
  src% "    fn clone() {",
  src% "        tagged_box! {",
  src% "            #[derive(Clone, Debug, PartialEq)]",
  src% "            struct Container, enum Enum {",
  src% "                Usize(usize),",
  src% "                Str(String),",
  src% "            }",
  src% "        }",
  src% "",
  src% "        let original_usize = Container::from(100usize);",
  src% "",
  src% "        let mut cloned_usize = original_usize.clone().into_inner().into_tagged_box();",
  src% "        unsafe {",
  src% "            *cloned_usize.as_mut_ref::<usize>() *= 100;",
  src% "        }",
  src% "        let cloned_usize = Enum::from_tagged_box(cloned_usize);",
  src% "        let original_usize = original_usize.into_inner();",
  src% "",
  src% "        assert_ne!(&original_usize, &cloned_usize);",
  src% "        assert_eq!(&Enum::Usize(100 * 100), &cloned_usize);",
  src% "        assert_eq!(Enum::Usize(100), original_usize);",
  src% "",
  src% "        let original_string = Container::from(String::from(\"Hello\"));",
  src% "",
  src% "        let mut cloned_string = original_string.clone().into_inner().into_tagged_box();",
  src% "        unsafe {",
  src% "            cloned_string.as_mut_ref::<String>().push_str(\", World!\");",
  src% "        }",
  src% "        let cloned_string = Enum::from_tagged_box(cloned_string);",
  src% "        let original_string = original_string.into_inner();",
  src% "",
  src% "        assert_ne!(&original_string, &cloned_string);",
  src% "        assert_eq!(&Enum::Str(String::from(\"Hello, World!\")), &cloned_string);",
  src% "        assert_eq!(Enum::Str(String::from(\"Hello\")), original_string);",
  src% "        assert_ne!(cloned_string, cloned_usize);",
  src% "    }",
  src% "",
  src% "    #[test]",
  src% "    fn tagged_box() {",
  src% "        #[derive(Clone)]",
  src% "        struct Container {",
  src% "            tagged: TaggedBox<Value>,",
  src% "        }",
  src% "",
  src% "        impl TaggableContainer for Container {",
  src% "            type Inner = Value;",
  src% "",
  src% "            fn into_inner(self) -> Self::Inner {",
  src% "                unsafe {",
  src% "                    match self.tagged.discriminant() {",
  src% "                        0 => Value::I32(TaggedBox::into_inner(self.tagged)),",
  src% "                        1 => Value::Bool(TaggedBox::into_inner(self.tagged)),",
  src% "                        _ => unreachable!(),",
  src% "                    }",
  src% "                }",
  src% "            }",
  src% "        }",
  src% "",
  src% "        #[derive(Debug, Copy, Clone, PartialEq, Eq)]",
  src% "        enum Value {",
  src% "            I32(i32),",
  src% "            Bool(bool),",
  src% "        }",
  src% "",
  src% "        impl TaggableInner for Value {",
  src% "            fn into_tagged_box(self) -> TaggedBox<Self> {",
  src% "                match self {",
  src% "                    Self::I32(int) => TaggedBox::new(int, 0),",
  src% "                    Self::Bool(boolean) => TaggedBox::new(boolean, 1),",
  src% "                }",
  src% "            }",
  src% "",
  src% "            fn from_tagged_box(tagged: TaggedBox<Self>) -> Self {",
  src% "                unsafe {",
  src% "                    match tagged.discriminant() {",
  src% "                        0 => Value::I32(TaggedBox::into_inner(tagged)),",
  src% "                        1 => Value::Bool(TaggedBox::into_inner(tagged)),",
  src% "                        _ => unreachable!(),",
  src% "                    }",
  src% "                }",
  src% "            }",
  src% "",
  src% "            unsafe fn ref_from_tagged_box<F>(tagged: &TaggedBox<Self>, callback: F)",
  src% "            where",
  src% "                F: FnOnce(&Self),",
  src% "            {",
  src% "                let value = ManuallyDrop::new(match tagged.discriminant() {",
  src% "                    0 => Value::I32(*tagged.as_ptr::<i32>()),",
  src% "                    1 => Value::Bool(*tagged.as_ptr::<bool>()),",
  src% "                    _ => unreachable!(),",
  src% "                });",
  src% "",
  src% "                (callback)(&value);",
  src% "            }",
  src% "        }",
  src% "",
  src% "        let int_container = Container {",
  src% "            tagged: TaggedBox::new::<i32>(110, 0),",
  src% "        };",
  src% "        let bool_container = Container {",
  src% "            tagged: TaggedBox::new::<bool>(true, 1),",
  src% "        };",
  src% "",
  src% "        assert_eq!(int_container.tagged.discriminant(), 0);",
  src% "        assert_eq!(bool_container.tagged.discriminant(), 1);",
  src% "",
  src% "        assert_eq!(unsafe { int_container.tagged.as_ref::<i32>() }, &110i32);",
  src% "        assert_eq!(unsafe { bool_container.tagged.as_ref::<bool>() }, &true);",
  src% "",
  src% "        assert_eq!(int_container.clone().into_inner(), Value::I32(110));",
  src% "        assert_eq!(bool_container.clone().into_inner(), Value::Bool(true));",
  src% "",
  src% "        assert_eq!(int_container.into_inner(), Value::I32(110));",
  src% "        assert_eq!(bool_container.into_inner(), Value::Bool(true));",
  src% "    }",
  src% "",
  src% "    #[test]",
  src% "    fn storage() {",
  src% "        #[derive(Debug, Copy, Clone, PartialEq)]",
  src% "        struct CustomStruct {",
  src% "            int: usize,",
  src% "            boolean: bool,",
  src% "        }",
  src% "",
  src% "        tagged_box! {",
  src% "            #[derive(Debug, Clone, PartialEq)]",
  src% "            struct Outer, enum Inner {",
  src% "                Float(f32),",
  src% "                Int(i32),",
  src% "                Byte(u8),",
  src% "                Unit,",
  src% "                Bool(bool),",
  src% "                Array([u8; 8]),",
  src% "                Vector(Vec<u8>),",
  src% "                CustomStruct(CustomStruct),",
  src% "                OrphanStructTrailingComma {",
  src% "                    int: i32,",
  src% "                    trailing_comma: f32,",
  src% "                },",
  src% "                OrphanStructNoTrailingComma {",
  src% "                    int: i32,",
  src% "                    no_trailing_comma: f32",
  src% "                },",
  src% "            }",
  src% "        }",
  src% "",
  src% "        assert_eq!(Outer::from(10.0f32).into_inner(), Inner::Float(10.0));",
  src% "        assert_eq!(Outer::from(100i32).into_inner(), Inner::Int(100));",
  src% "        assert_eq!(Outer::from(10u8).into_inner(), Inner::Byte(10));",
  src% "        assert_eq!(Outer::from(true).into_inner(), Inner::Bool(true));",
  src% "        assert_eq!(Outer::from([100; 8]).into_inner(), Inner::Array([100; 8]));",
  src% "        assert_eq!(",
  src% "            Outer::from(vec![100; 10]).into_inner(),",
  src% "            Inner::Vector(vec![100; 10])",
  src% "        );",
  src% "        assert_eq!(",
  src% "            Outer::from(CustomStruct {",
  src% "                int: 100_000,",
  src% "                boolean: false",
  src% "            })",
  src% "            .into_inner(),",
  src% "            Inner::CustomStruct(CustomStruct {",
  src% "                int: 100_000,",
  src% "                boolean: false",
  src% "            })",
  src% "        );",
  src% "    }",
  src% "}"]

end TB.Source

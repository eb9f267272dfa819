import Verif.Mbe.Lex

/-!
# The text of `src/tagged_pointer.rs`

The whole file, verbatim, one entry per line (the lines of one string literal are one entry) (written by `scripts/gen_sources.py` from the file).
-/

set_option autoImplicit false
set_option maxRecDepth 100000

namespace TB.Source

/-- `src/tagged_pointer.rs:1-287` -/
noncomputable def pointerText : List (List Char) := [
  src% "use crate::discriminant::{",
  src% "    Discriminant, DISCRIMINANT_MASK, MAX_DISCRIMINANT, MAX_POINTER_VALUE, POINTER_WIDTH,",
  src% "};",
  src% "use core::fmt;",
  src% "",
  src% "/// A pointer that holds a data pointer plus additional data stored as a [`Discriminant`]  ",
  src% "/// Note: The discriminant must be <= [`MAX_DISCRIMINANT`], which is feature-dependent  ",
  src% "///",
  src% "/// [`MAX_DISCRIMINANT`]: crate::discriminant::MAX_DISCRIMINANT",
  src% "#[derive(Copy, Clone, PartialEq, Eq, Hash, PartialOrd, Ord)]",
  src% "#[repr(transparent)]",
  src% "pub struct TaggedPointer {",
  src% "    /// The tagged pointer, the upper bits are used to store arbitrary data",
  src% "    tagged_ptr: u64,",
  src% "}",
  src% "",
  src% "impl TaggedPointer {",
  src% "    /// Create a new tagged pointer from a pointer and a discriminant",
  src% "    ///",
  src% "    /// # Panics",
  src% "    ///",
  src% "    /// Panics if `discriminant` is greater than [`MAX_DISCRIMINANT`] or if",
  src% "    /// `ptr` is greater than [`MAX_POINTER_VALUE`]",
  src% "    ///",
  src% "    /// [`MAX_DISCRIMINANT`]: crate::discriminant::MAX_DISCRIMINANT",
  src% "    /// [`MAX_POINTER_VALUE`]: crate::discriminant::MAX_POINTER_VALUE",
  src% "    #[inline]",
  src% "    #[allow(clippy::absurd_extreme_comparisons)]",
  src% "    pub fn new(ptr: u64, discriminant: Discriminant) -> Self {",
  src% "        debug_assert!(",
  src% "            discriminant <= MAX_DISCRIMINANT,",
  src% "            \"Attempted to store a discriminant of {} while the max value is {}\",",
  src% "            discriminant,",
  src% "            MAX_DISCRIMINANT,",
  src% "        );",
  src% "        debug_assert!(",
  src% "            ptr <= MAX_POINTER_VALUE,",
  src% "            \"If you are receiving this error, then your hardware uses more than {} bits of a pointer to store addresses. \\\n            It is recommended that you use a different feature for the `tagged-box` crate using `features = [\\\"{}bits\\\"]` or above.\n            \",",
  src% "            POINTER_WIDTH,",
  src% "            POINTER_WIDTH + 1,",
  src% "        );",
  src% "",
  src% "        let tagged_ptr = Self::store_discriminant(ptr, discriminant);",
  src% "",
  src% "        Self { tagged_ptr }",
  src% "    }",
  src% "",
  src% "    #[inline]",
  src% "    pub const fn dangling<T: Sized>(discriminant: Discriminant) -> Self {",
  src% "        Self {",
  src% "            tagged_ptr: Self::store_discriminant(core::mem::align_of::<T>() as u64, discriminant),",
  src% "        }",
  src% "    }",
  src% "",
  src% "    /// Fetches the [`Discriminant`] of a tagged pointer",
  src% "    ///",
  src% "    /// [`Discriminant`]: crate::Discriminant",
  src% "    #[inline]",
  src% "    pub const fn discriminant(self) -> Discriminant {",
  src% "        Self::fetch_discriminant(self.tagged_ptr)",
  src% "    }",
  src% "",
  src% "    /// Gains a reference to the inner value of the pointer",
  src% "    ///",
  src% "    /// # Safety",
  src% "    ///",
  src% "    /// The pointer given to [`TaggedPointer::new`] must be properly aligned and non-null",
  src% "    ///",
  src% "    /// [`TaggedPointer::new`]: crate::TaggedPointer#new",
  src% "    #[inline]",
  src% "    #[allow(clippy::should_implement_trait)]",
  src% "    pub unsafe fn as_ref<T>(&self) -> &T {",
  src% "        &*(Self::strip_discriminant(self.tagged_ptr) as *const T)",
  src% "    }",
  src% "",
  src% "    /// Gains a mutable reference to the inner value of the pointer",
  src% "    ///",
  src% "    /// # Safety",
  src% "    ///",
  src% "    /// The pointer given to [`TaggedPointer::new`] must be properly aligned and non-null",
  src% "    ///",
  src% "    /// [`TaggedPointer::new`]: crate::TaggedPointer#new",
  src% "    #[inline]",
  src% "    pub unsafe fn as_mut_ref<T>(&mut self) -> &mut T {",
  src% "        &mut *(Self::strip_discriminant(self.tagged_ptr) as *mut T)",
  src% "    }",
  src% "",
  src% "    /// Returns the pointer as a u64, removing the discriminant",
  src% "    #[inline]",
  src% "    pub const fn as_u64(self) -> u64 {",
  src% "        Self::strip_discriminant(self.tagged_ptr)",
  src% "    }",
  src% "",
  src% "    /// Returns the raw tagged pointer, without removing the discriminant",
  src% "    ///",
  src% "    /// # Warning",
  src% "    ///",
  src% "    /// Attempting to dereference this u64 will not point to valid memory!",
  src% "    ///",
  src% "    #[inline]",
  src% "    pub const fn as_raw_u64(self) -> u64 {",
  src% "        self.tagged_ptr",
  src% "    }",
  src% "",
  src% "    /// Converts a tagged pointer into a raw pointer, removing the discriminant",
  src% "    #[inline]",
  src% "    pub const fn as_ptr<T>(self) -> *const T {",
  src% "        Self::strip_discriminant(self.tagged_ptr) as *const T",
  src% "    }",
  src% "",
  src% "    /// Converts a tagged pointer into a raw pointer, removing the discriminant",
  src% "    #[inline]",
  src% "    pub fn as_mut_ptr<T>(self) -> *mut T {",
  src% "        Self::strip_discriminant(self.tagged_ptr) as *mut T",
  src% "    }",
  src% "",
  src% "    /// Store a [`Discriminant`] into a tagged pointer without any checks",
  src% "    ///",
  src% "    /// # Safety",
  src% "    ///",
  src% "    /// `discriminant` must be <= [`MAX_DISCRIMINANT`] and `pointer` must be <=",
  src% "    /// [`MAX_POINTER_VALUE`]",
  src% "    ///",
  src% "    /// [`Discriminant`]: crate::Discriminant",
  src% "    /// [`MAX_DISCRIMINANT`]: crate::discriminant::MAX_DISCRIMINANT",
  src% "    /// [`MAX_POINTER_VALUE`]: crate::discriminant::MAX_POINTER_VALUE",
  src% "    #[inline]",
  src% "    pub const fn store_discriminant(pointer: u64, discriminant: Discriminant) -> u64 {",
  src% "        pointer | ((discriminant as u64) << POINTER_WIDTH)",
  src% "    }",
  src% "",
  src% "    /// Fetch a [`Discriminant`] from a tagged pointer    ",
  src% "    ///",
  src% "    /// [`Discriminant`]: crate::Discriminant",
  src% "    #[allow(clippy::cast_possible_truncation)]",
  src% "    pub const fn fetch_discriminant(pointer: u64) -> Discriminant {",
  src% "        (pointer >> POINTER_WIDTH) as Discriminant",
  src% "    }",
  src% "",
  src% "    /// Strip the [`Discriminant`] from a tagged pointer, returning only the valid pointer as a usize",
  src% "    ///",
  src% "    /// [`Discriminant`]: crate::Discriminant",
  src% "    #[inline]",
  src% "    pub const fn strip_discriminant(pointer: u64) -> u64 {",
  src% "        pointer & DISCRIMINANT_MASK",
  src% "    }",
  src% "}",
  src% "",
  src% "impl fmt::Debug for TaggedPointer {",
  src% "    fn fmt(&self, f: &mut fmt::Formatter<'_>) -> fmt::Result {",
  src% "        f.debug_struct(\"TaggedPointer\")",
  src% "            .field(\"raw\", &(self.as_raw_u64() as *const ()))",
  src% "            .field(\"ptr\", &self.as_ptr::<()>())",
  src% "            .field(\"discriminant\", &self.discriminant())",
  src% "            .finish()",
  src% "    }",
  src% "}",
  src% "",
  src% "impl fmt::Pointer for TaggedPointer {",
  src% "    fn fmt(&self, f: &mut fmt::Formatter<'_>) -> fmt::Result {",
  src% "        fmt::Pointer::fmt(&self.as_ptr::<()>(), f)",
  src% "    }",
  src% "}",
  src% "",
  src% "impl_fmt!(TaggedPointer => LowerHex, UpperHex, Binary, Octal);",
  src% "",
  src% "#[cfg(test)]",
  src% "mod tests {",
  src% "    use super::*;",
  src% "    use crate::discriminant;",
  src% "    use alloc::string::String;",
  src% "    use core::slice;",
  src% "",
  src% "    #[test]",
  src% "    fn utility_functions() {",
  src% "        let ptr = 0xF00D_BEEF;",
  src% "        let discrim = discriminant::MAX_DISCRIMINANT / 2;",
  src% "        let stored = TaggedPointer::new(ptr, discrim).as_raw_u64();",
  src% "",
  src% "        assert_eq!(TaggedPointer::strip_discriminant(stored), ptr);",
  src% "        assert_eq!(TaggedPointer::fetch_discriminant(stored), discrim);",
  src% "        assert_eq!(TaggedPointer::store_discriminant(ptr, discrim), stored);",
  src% "    }",
  src% "",
  src% "    #[test]",
  src% "    fn tagged_pointer() {",
  src% "        let integer = 100i32;",
  src% "        let int_ptr = &integer as *const _ as u64;",
  src% "        let discriminant = 10;",
  src% "",
  src% "        let ptr = TaggedPointer::new(int_ptr, discriminant);",
  src% "",
  src% "        assert_eq!(ptr.discriminant(), discriminant);",
  src% "        assert_eq!(ptr.as_u64(), int_ptr);",
  src% "",
  src% "        unsafe {",
  src% "            assert_eq!(ptr.as_ref::<i32>(), &integer);",
  src% "        }",
  src% "    }",
  src% "",
  src% "    #[test]",
  src% "    fn max_pointer() {",
  src% "        let ptr = discriminant::MAX_POINTER_VALUE;",
  src% "        let discriminant = discriminant::MAX_DISCRIMINANT;",
  src% "",
  src% "        let tagged = TaggedPointer::new(ptr, discriminant);",
  src% "",
  src% "        assert_eq!(tagged.discriminant(), discriminant);",
  src% "        assert_eq!(tagged.as_u64(), ptr);",
  src% "    }",
  src% "",
  src% "    #[test]",
  src% "    fn min_pointer() {",
  src% "        let ptr: u64 = 0;",
  src% "        let discriminant = discriminant::MAX_DISCRIMINANT;",
  src% "",
  src% "        let tagged = TaggedPointer::new(ptr, discriminant);",
  src% "",
  src% "        assert_eq!(tagged.discriminant(), discriminant);",
  src% "        assert_eq!(tagged.as_u64(), ptr);",
  src% "    }",
  src% "",
  src% "    #[test]",
  src% "    fn max_discriminant() {",
  src% "        let integer = 100usize;",
  src% "        let int_ptr = &integer as *const _ as u64;",
  src% "        let discriminant = discriminant::MAX_DISCRIMINANT;",
  src% "",
  src% "        let ptr = TaggedPointer::new(int_ptr, discriminant);",
  src% "",
  src% "        assert_eq!(ptr.discriminant(), discriminant);",
  src% "        assert_eq!(ptr.as_u64(), int_ptr);",
  src% "",
  src% "        unsafe {",
  src% "            assert_eq!(ptr.as_ref::<usize>(), &integer);",
  src% "        }",
  src% "    }",
  src% "",
  src% "    #[test]",
  src% "    fn min_discriminant() {",
  src% "        let integer = 100usize;",
  src% "        let int_ptr = &integer as *const _ as u64;",
  src% "        let discriminant = 0;",
  src% "",
  src% "        let ptr = TaggedPointer::new(int_ptr, discriminant);",
  src% "",
  src% "        assert_eq!(ptr.discriminant(), discriminant);",
  src% "        assert_eq!(ptr.as_u64(), int_ptr);",
  src% "",
  src% "        unsafe {",
  src% "            assert_eq!(ptr.as_ref::<usize>(), &integer);",
  src% "        }",
  src% "    }",
  src% "",
  src% "    #[test]",
  src% "    fn string_pointer() {",
  src% "        let string = String::from(\"Hello world!\");",
  src% "        let str_ptr = string.as_ptr() as u64;",
  src% "        let discriminant = discriminant::MAX_DISCRIMINANT;",
  src% "",
  src% "        let ptr = TaggedPointer::new(str_ptr, discriminant);",
  src% "",
  src% "        assert_eq!(ptr.discriminant(), discriminant);",
  src% "        assert_eq!(ptr.as_u64(), str_ptr);",
  src% "",
  src% "        unsafe {",
  src% "            let temp_str = slice::from_raw_parts(ptr.as_ptr::<u8>(), string.len());",
  src% "            assert_eq!(core::str::from_utf8(temp_str).unwrap(), &string);",
  src% "        }",
  src% "    }",
  src% "",
  src% "    #[test]",
  src% "    #[should_panic]",
  src% "    #[cfg_attr(miri, ignore)]",
  src% "    fn oversized_discriminant() {",
  src% "        let pointer = 0xF00D_BEEF;",
  src% "        let discriminant = if let Some(discrim) = discriminant::MAX_DISCRIMINANT.checked_add(1) {",
  src% "            discrim",
  src% "        } else {",
  src% "            panic!(\"Adding one to discriminant would overflow type, aborting test\");",
  src% "        };",
  src% "",
  src% "        TaggedPointer::new(pointer, discriminant);",
  src% "    }",
  src% "}"]

end TB.Source

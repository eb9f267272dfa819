import Verif.Lemmas.Unused
import Verif.DemoMacro

/-!
# C99: the exported macros that nothing invokes, and the error arm

`HelperExpands rc name args out`: `tagged_box::name!(args)`, where an expression is expected, expands to `out` by the rules in the text of
`src/tagged_box_macro/mod.rs`; `HelperItems` the same where items are expected. `rc` is the compiler, arbitrary.
-/

set_option autoImplicit false

namespace TB.Props

open TB TB.Mbe TB.Macro TB.Source

/-- **C99**. `__generate_const_sizes!(T1, .., Tn)` expands, for any number of types, to an expression that is worth the sum of the sizes of the types in
bits. (`sumValue` reads the expression; `size` is what `core::mem::size_of` returns.) -/
theorem C99 (rc : Rustc) (h : NoAtType rc) (tys : List Ty) (size : Ty → Nat) :
    ∃ out, HelperExpands rc "__generate_const_sizes" (typeArgs tys) out ∧ sumValue size out = some (8 * (tys.map size).sum) :=
  ⟨_, exp_eq_some.1 (exp_constSizes h tys), sumValue_sizeSum size tys⟩

/-- **C99**, and to nothing else. -/
theorem C99_only (rc : Rustc) (h : NoAtType rc) (tys : List Ty) (size : Ty → Nat) (out : List TT)
    (ho : HelperExpands rc "__generate_const_sizes" (typeArgs tys) out) : sumValue size out = some (8 * (tys.map size).sum) := by
  obtain ⟨out', h1, h2⟩ := C99 rc h tys size
  rwa [Expands.det ho h1]

/-- **C99**, the text: the rules are those in the file. -/
theorem C99_text : macrosIn modText ["__generate_const_sizes", "__verify_variants", "__counter_enum"] =
    some ((exportedMacros "__generate_const_sizes").toList ++ (exportedMacros "__verify_variants").toList ++ (exportedMacros "__counter_enum").toList) := by
  kernel_rfl

/-- **C99**, the verifier. `__verify_variants!` expands for no input, valid or not, neither as an expression nor as items: its rules only ever invoke it
again. -/
theorem C99_verify (rc : Rustc) (args out : List TT) :
    ¬ HelperExpands rc "__verify_variants" args out ∧ ¬ HelperItems rc "__verify_variants" args out :=
  ⟨fun h => verify_no h .paren args [] rfl, fun h => verify_no h .paren args [] rfl⟩

/-- **C99**, the error arm. When `__counter_enum!` meets tokens that are no variant, it does not report them: it invokes itself without end, and the arm
with `compile_error!("Invalid enum definition: {}", ..)` is never entered. -/
theorem C99_error (rc : Rustc) (acc tts : List TT) (h : NotVariant tts) :
    (∀ n, (nested rc n (rust% "@inner [«acc»] «tts»")).isSome) ∧ ∀ out, ¬ HelperItems rc "__counter_enum" (rust% "@inner [«acc»] «tts»") out := by
  have he := error_enter (rc := rc) acc tts h
  constructor
  · intro n
    cases n with
    | zero => rfl
    | succ n => rw [nested_call n he]; exact (nested_error n tts).1
  · intro out ho
    have hc := headOf_call "__counter_enum" .paren (rust% "@inner [«acc»] «tts»") []
    cases ho with
    | done h2 => cases hc.symm.trans h2
    | plain h2 => cases hc.symm.trans h2
    | group h2 => cases hc.symm.trans h2
    | stmts h2 _ hm ha hb =>
      cases hc.symm.trans h2; cases hm
      cases ha.symm.trans he
      exact (error_no hb .paren tts []).1 rfl
    | expr h2 hs =>
      cases hc.symm.trans h2; cases hs

/-- A case: the enumeration `A = 1, B` (a discriminant is not allowed). -/
example : NotVariant (rust% "A = 1, B") := .other "A" "=" _ (by decide)

/-- A case: three types, of 8, 4 and 1 bytes. -/
example : ∃ out, HelperExpands rcDemo "__generate_const_sizes" [.ty (.named "u64"), .atom (.punct ","), .ty (.named "u32"), .atom (.punct ","), .ty (.named "u8")] out ∧
    sumValue (fun t => (rcDemo.leaf t).size) out = some 104 := by
  have := C99 rcDemo (fun _ => rfl) [.named "u64", .named "u32", .named "u8"] (fun t => (rcDemo.leaf t).size)
  exact this

end TB.Props

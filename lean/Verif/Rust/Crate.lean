import Verif.Rust.Parse
import Verif.Rust.Eval
import Verif.Mbe.Fuel
import Verif.Source.PointerText
import Verif.Source.BoxText
import Verif.Source.DiscriminantText
import Verif.Source.LibText

/-!
# The crate, read from its source text

The texts of `src/discriminant.rs`, `src/tagged_pointer.rs`, `src/tagged_box.rs`, with the macros they invoke at item level (`generate_discriminants!`,
`doc!`, `impl_fmt!`) expanded by the engine of `Mbe`, parsed by `Rust/Parse.lean` and collected into what the interpreter needs.
-/

set_option autoImplicit false

namespace TB.Rust

open TB.Mbe TB.Macro TB.Source

/-- The `ty` fragments these macros receive are single words (`u8`, `TaggedPointer`) or `TaggedBox<T>`. -/
def wordTypes : Rustc where
  parseTy := fun
    | .ident h :: .other "<" :: .ident x :: .other ">" :: _ => .ok (.app h [.named x]) 3
    | .ident s :: _ => .ok (.named s) 0
    | _ => .noStart
  leaf := fun _ => ⟨0, 0, 1, fun _ => true, false⟩
  typeId := fun _ => 0
  isCopy := fun _ => true

/-- Expand macro invocations that stand for items, at the top and inside of modules. `n` bounds the number of steps. -/
def expandItems (ms : List (String × List Rule)) : Nat → List TT → Option (List TT)
  | 0, _ => none
  | _ + 1, [] => some []
  | n + 1, .atom (.ident m) :: .atom (.punct b) :: .group d args :: r =>
    match (if b = "!" then lookup m ms else none) with
    | some rules => match applyF wordTypes rules args with
      | some body => expandItems ms n (body ++ (match eatP ";" r with
        | some r => r
        | none => r))
      | none => none
    | none => (expandItems ms n (.atom (.punct b) :: .group d args :: r)).map (.atom (.ident m) :: ·)
  | n + 1, .atom (.ident k) :: .atom (.ident x) :: .group .brace us :: r =>
    if k = "mod" then match expandItems ms n us, expandItems ms n r with
      | some us, some r => some (.atom (.ident k) :: .atom (.ident x) :: .group .brace us :: r)
      | _, _ => none
    else (expandItems ms n (.atom (.ident x) :: .group .brace us :: r)).map (.atom (.ident k) :: ·)
  | n + 1, t :: r => (expandItems ms n r).map (t :: ·)

/-- The macros of a text, by name. -/
def macrosOf (ls : List (List Char)) (names : List String) : Option (List (String × List Rule)) :=
  (macrosIn ls names).map fun rs => names.zip rs

/-- The items of a text after macro expansion. -/
def itemsOf (ms : Option (List (String × List Rule))) (ls : List (List Char)) : Option (List Item) :=
  match ms, parseText ls with
  | some ms, some ts => match expandItems ms 10000 ts with
    | some ts => pItems 1000 ts
    | none => none
  | _, _ => none

/-- The last segment of a type. -/
def tyName : RTy → String
  | .path p => lastName p
  | .user (.named s) => s
  | .user (.app s _) => s
  | _ => ""

/-- `cfg(x)` -/
def cfgName : List (List TT) → Option String
  | [] => none
  | [.atom (.ident c), .group .paren [.atom (.ident x)]] :: r => if c = "cfg" then some x else cfgName r
  | _ :: r => cfgName r

def itemConsts (is : List Item) : List (String × RTy × Expr) := is.filterMap fun
  | .const _ x t e => some (x, t, e)
  | _ => none

def itemTypes (is : List Item) : List (String × RTy) := is.filterMap fun
  | .type _ x t => some (x, t)
  | _ => none

def itemStructs (is : List Item) : List (String × List (String × RTy)) := is.filterMap fun
  | .struct _ x _ fs => some (x, fs)
  | _ => none

def itemFns (is : List Item) : List Fn := is.filterMap fun
  | .fn f => some f
  | _ => none

/-- Inherent functions. -/
def inherentFns (is : List Item) : List (String × Fn) := is.flatMap fun
  | .impl _ _ none t is => (itemFns is).map fun f => (tyName t, { f with attrs := [] })
  | _ => []

/-- Functions in trait implementations. -/
def traitImpls (is : List Item) : List (String × String × Fn) := is.flatMap fun
  | .impl _ _ (some tr) t is => (itemFns is).map fun f => (tyName tr, tyName t, { f with attrs := [] })
  | _ => []

/-- The modules with a `#[cfg(x)]`: their types and constants. -/
def cfgModules (is : List Item) : List (String × List (String × RTy) × List (String × RTy × Expr)) := is.filterMap fun
  | .mod attrs _ is => match cfgName attrs with
    | some c => some (c, itemTypes is, itemConsts is)
    | none => none
  | _ => none

/-- What the interpreter needs to know about the crate. -/
structure Parts where
  /-- the modules `variables`, one for each setting -/
  rows : List (String × List (String × RTy) × List (String × RTy × Expr))
  structs : List (String × List (String × RTy))
  fns : List (String × Fn)
  traitFns : List (String × String × Fn)

/-- The crate's source, read. -/
noncomputable def sourceParts : Option Parts :=
  match itemsOf (macrosOf discriminantText ["doc", "generate_discriminants"]) discriminantText,
      itemsOf (macrosOf libText ["impl_fmt"]) pointerText, itemsOf (macrosOf libText ["impl_fmt"]) boxText with
  | some d, some p, some b => some ⟨cfgModules d, itemStructs (p ++ b), inherentFns (p ++ b), traitImpls (p ++ b)⟩
  | _, _, _ => none

/-- The crate, compiled in an environment: the module `variables` is the one for the active setting. -/
def Parts.crate {E : Type} (p : Parts) (env : Env) (user : User E) : Crate E :=
  let row := (lookup env.cfg.feature p.rows).getD ([], [])
  ⟨env, user, row.2, row.1, p.structs, p.fns, p.traitFns⟩

end TB.Rust

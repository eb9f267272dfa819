import Verif.Spec.SourceHistory
import Verif.Spec.GenRun
import Verif.Spec.Container

/-!
# Client histories of containers, run from the text

The clients of `Spec/Container.lean`, whose operations now run code from the text: conversions run what `tagged_box!` expands to, and the trait implementations of
`TaggedBox` run the crate, whose calls to `into_tagged_box` and `ref_from_tagged_box` run what `tagged_box!` expands to (`linked`).
-/

set_option autoImplicit false

namespace TB.Spec

open TB TB.Macro TB.Mbe TB.Rust TB.Source

/-- The program, for every closure that may be given to `ref_from_tagged_box` (`IsProgram` has the closure as a parameter). -/
abbrev Programs : Type 1 := ∀ β : Type, (EVal → M β) → GCrate β

/-- What a caller sees of a run; code the interpreter cannot run counts as undefined behaviour. -/
def outcome {E α γ : Type} (dec : α → Option γ) : XOut E α → Out γ
  | .ret a _ s => match dec a with
    | some r => .ret r s
    | none => .ub .badValue
  | .panic m _ s => match kindOf m with
    | some k => .panic k s
    | none => .ub .badValue
  | .ub k => .ub k
  | .stuck => .ub .badValue

/-- Values of the interpreter, as values. -/
def toEnum {β : Type} : GV β → Option EVal
  | .user (.inl e) => some e
  | _ => none
def toCont {β : Type} : GV β → Option TBox
  | .struct _ [("value", b)] => toBox b
  | _ => none
def toBool {E : Type} : V E → Option Bool
  | .bool b => some b
  | _ => none
def toOrd {E : Type} : V E → Option Ordering
  | .ordering o => some o
  | _ => none
def toOptOrd {E : Type} : V E → Option (Option Ordering)
  | .struct "None" _ => some none
  | .struct "Some" [(_, .ordering o)] => some (some o)
  | _ => none
/-- What `write!` appended to `out`, and whether it succeeded. -/
def toText {E : Type} (out : String) : V E × List Char → Option (String × Bool)
  | (.struct "Ok" _, t) => some (out ++ String.ofList t, true)
  | (.struct "Err" _, t) => some (out ++ String.ofList t, false)
  | _ => none

noncomputable section

variable (env : Env) (G : Programs) (sn en : String)

/-- A program whose closure does not matter. -/
def someProgram : GCrate Unit := G Unit fun _ => pure ()

/-- The implementation of `TaggableInner` for the enum `en` in the program. -/
def linked : Taggable EVal where
  intoTaggedBox e s := outcome toBox ((someProgram G).call "TaggableInner" en none "into_tagged_box" (some (enumV e)) [] s)
  fromTaggedBox b s := outcome toEnum ((someProgram G).call "TaggableInner" en none "from_tagged_box" none [boxV b] s)
  refFrom b f s := outcome some ((G _ f).lend (boxV b) s)

/-- Run code of the crate, compiled with the user's code. -/
def inCrate {α γ : Type} (user : User EVal) (dec : α → Option γ) (run : Crate EVal → State → XOut EVal α) : M γ := fun s =>
  match sourceCrate env user with
  | some cr => outcome dec (run cr s)
  | none => .ub .badValue

/-- What a formatting function writes, apart from what had been written before. -/
def writes (f : UserFn M (EVal × FmtSpec × String) (String × Bool)) (e : EVal) (spec : FmtSpec) : M (List Char × Bool) := do
  let r ← f.run (e, spec, "")
  pure (r.1.toList, r.2)

/-- The end of a container: nothing, unless the text has a destructor for it or for `TaggedBox`. -/
def endOf (user : User EVal) (b : TBox) : M Unit := fun s =>
  match findImpl (someProgram G) "Drop" sn none "drop" (someProgram G).fns with
  | some _ => outcome (fun _ => some ()) ((someProgram G).call "Drop" sn none "drop" (some (contV b)) [] s)
  | none => inCrate env user (fun _ => some ()) (fun cr s => match findTrait "Drop" "TaggedBox" "drop" cr.traitFns with
      | some _ => cr.callTrait "Drop" "TaggedBox" "drop" (some (boxV b)) [] .unknown s
      | none => .ret .unit [] s) s

variable {β : Type}

/-- One client step. `user` is the user's code as far as the operation does not bring its own. (`Clone`, `PartialEq`, .. of the container are derived and call those of its
only field; copies are of bits.) -/
def genStep (user : User EVal) (c : CState) : COp M β → Option (CObs β × CState)
  | .from e => cstepWith c (fun s => outcome toCont ((someProgram G).call "From" sn (some (.named en)) "from" none [enumV e] s))
      (fun b => (.handle c.handles.length, c.handles ++ [some b]))
  | .clone h f => (c.get h).bind fun b =>
      cstepWith c (inCrate env { user with taggable := linked G en, clone := f.run } toBox fun cr =>
        cr.callTrait "Clone" "TaggedBox" "clone" (some (boxV b)) [] .unknown)
        (fun b' => (.handle c.handles.length, c.handles ++ [some b']))
  | .copy h => (c.get h).bind fun b => cstepWith c (pure b) (fun b' => (.handle c.handles.length, c.handles ++ [some b']))
  | .eq h h' f => (c.get h).bind fun b => (c.get h').bind fun b' =>
      cstepWith c (inCrate env { user with taggable := linked G en, eq := fun x y => f.run (x, y) } toBool fun cr =>
        cr.callTrait "PartialEq" "TaggedBox" "eq" (some (boxV b)) [.refv (boxV b')] .unknown) (fun r => (.bool r, c.handles))
  | .partialCmp h h' f => (c.get h).bind fun b => (c.get h').bind fun b' =>
      cstepWith c (inCrate env { user with taggable := linked G en, partialCmp := fun x y => f.run (x, y) } toOptOrd fun cr =>
        cr.callTrait "PartialOrd" "TaggedBox" "partial_cmp" (some (boxV b)) [.refv (boxV b')] .unknown) (fun r => (.pord r, c.handles))
  | .cmp h h' f => (c.get h).bind fun b => (c.get h').bind fun b' =>
      cstepWith c (inCrate env { user with taggable := linked G en, cmp := fun x y => f.run (x, y) } toOrd fun cr =>
        cr.callTrait "Ord" "TaggedBox" "cmp" (some (boxV b)) [.refv (boxV b')] .unknown) (fun r => (.ord r, c.handles))
  | .observe h f => (c.get h).bind fun b =>
      cstepWith c (fun s => outcome some ((G β f.run).lend (boxV b) s)) (fun r => (match r with | some x => .seen x | none => .unit, c.handles))
  | .debug h f out => (c.get h).bind fun b =>
      cstepWith c (inCrate env { user with taggable := linked G en, debug := writes f } (toText out) fun cr => cr.callFmt "Debug" "TaggedBox" (boxV b) {})
        (fun r => (.text r, c.handles))
  | .display h f out => (c.get h).bind fun b =>
      cstepWith c (inCrate env { user with taggable := linked G en, display := writes f } (toText out) fun cr => cr.callFmt "Display" "TaggedBox" (boxV b) {})
        (fun r => (.text r, c.handles))
  | .intoInner h => (c.get h).bind fun b =>
      cstepWith c (fun s => outcome toEnum ((someProgram G).call "TaggableContainer" sn none "into_inner" (some (contV b)) [] s))
        (fun e => (.val e, c.handles.set h none))
  | .drop h => (c.get h).bind fun b => cstepWith c (endOf env G sn user b) (fun _ => (.unit, c.handles.set h none))

/-- Run a client for at most `n` steps, from the state and the containers in `c₀`. -/
def runGen (user : User EVal) (p : CClient M β) (c₀ : CState) : Nat → Option (List (CObs β) × CState)
  | 0 => some ([], c₀)
  | n + 1 => (runGen user p c₀ n).bind fun (os, c) =>
      match p os with
      | none => some (os, c)
      | some op => (genStep env G sn en user c op).map fun (o, c') => (os ++ [o], c')

end

/-- The formatting functions of the client append to what has been written (a `Formatter` lets them do nothing else). -/
def Appends (f : UserFn M (EVal × FmtSpec × String) (String × Bool)) : Prop :=
  ∀ e spec out, f.run (e, spec, out) = (do
    let r ← f.run (e, spec, "")
    pure (out ++ r.1, r.2))

/-- All of them. -/
def AppendsAll {β : Type} (p : CClient M β) : Prop :=
  ∀ os h f out, (p os = some (.debug h f out) → Appends f) ∧ (p os = some (.display h f out) → Appends f)

end TB.Spec

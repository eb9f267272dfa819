import Verif.Config
import Verif.TaggedPointer
import Verif.Mem
import Verif.TaggedBox
import Verif.Lemmas.Word
import Verif.Lemmas.Mem
import Verif.Layout
import Verif.Lemmas.Layout
import Verif.Demo
import Verif.Spec.Box
import Verif.Lemmas.Box
import Verif.Props.Pointer
import Verif.Props.Box
import Verif.Spec.History
import Verif.Spec.Ledger
import Verif.Lemmas.Ledger
import Verif.Lemmas.History
import Verif.Props.History
import Verif.Traits
import Verif.Macro.Syntax
import Verif.Macro.Tables
import Verif.Macro.Expand
import Verif.Macro.Run
import Verif.Spec.Decl
import Verif.Lemmas.MacroParse
import Verif.Lemmas.MacroExpand
import Verif.Lemmas.MacroCheck
import Verif.Lemmas.MacroRun
import Verif.Lemmas.MacroInto
import Verif.DemoMacro
import Verif.Props.Macro
import Verif.Macro.Generators
import Verif.Spec.Sig
import Verif.Props.Decl
import Verif.Props.Names
import Verif.Lemmas.Traits
import Verif.Props.Traits
import Verif.Fmt
import Verif.Spec.Text
import Verif.Lemmas.Fmt
import Verif.Props.Fmt
import Verif.Spec.Container
import Verif.Lemmas.Container
import Verif.Props.Container
import Verif.Threads
import Verif.Spec.Threads
import Verif.Lemmas.Threads
import Verif.Macro.Prog
import Verif.Lemmas.Prog
import Verif.Props.Threads
import Verif.Spec.Sharing
import Verif.Lemmas.Sharing
import Verif.Props.Sharing
import Verif.Macro.Depth
import Verif.Lemmas.Depth
import Verif.Props.Depth
import Verif.Props.Observe
import Verif.Macro.Derive
import Verif.Props.Derive
import Verif.Spec.Owned
import Verif.Lemmas.Owned
import Verif.DemoOwned
import Verif.Props.Owned
import Verif.Props.OwnedCells
import Verif.Spec.Recursive
import Verif.Lemmas.Recursive
import Verif.Lemmas.RecursiveOrder
import Verif.Props.Recursive
import Verif.Provenance
import Verif.Lemmas.Provenance
import Verif.Props.Provenance
import Verif.Macro.Types
import Verif.Props.Types
import Verif.Props.ContainerFmt
import Verif.Build
import Verif.Props.Build
import Verif.Props.Interop
import Verif.Macro.ProvRun
import Verif.Lemmas.ProvRun
import Verif.Props.ProvRun
import Verif.Spec.Reentrant
import Verif.Lemmas.Reentrant
import Verif.Props.Reentrant
import Verif.Borrow
import Verif.Spec.Borrow
import Verif.Lemmas.Borrow
import Verif.Props.Borrow
import Verif.BorrowOwned
import Verif.Spec.BorrowOwned
import Verif.Lemmas.BorrowOwned
import Verif.Props.BorrowOwned
import Verif.Docs
import Verif.Props.Docs
import Verif.Replay
import Verif.Source.Crate
import Verif.Spec.RustCode
import Verif.Source.Decl
import Verif.Lemmas.MbeAttr
import Verif.Lemmas.MbeMatch
import Verif.Lemmas.MbeTrans
import Verif.Lemmas.MbeExpand
import Verif.Lemmas.MbeRun
import Verif.Lemmas.MbeHead
import Verif.Lemmas.MbeSteps
import Verif.Lemmas.MbeTuple
import Verif.Lemmas.MbeChain
import Verif.Spec.Invocation
import Verif.Spec.Generated
import Verif.Lemmas.MbeTop
import Verif.Lemmas.Generated
import Verif.Props.Source
import Verif.Lemmas.RsTraits
import Verif.Rust.Values
import Verif.Spec.SourceRun
import Verif.Lemmas.RsFmt
import Verif.Lemmas.RsTop
import Verif.Props.SourceRun
import Verif.Rust.GenCode
import Verif.Rust.GenEval
import Verif.Spec.GenRun
import Verif.Lemmas.PsAttr
import Verif.Lemmas.PsBase
import Verif.Lemmas.PsArms
import Verif.Lemmas.PsItems
import Verif.Lemmas.GsAttr
import Verif.Lemmas.GsBase
import Verif.Lemmas.GsRun
import Verif.Lemmas.GsRead
import Verif.Lemmas.GsFns
import Verif.Lemmas.GsLend
import Verif.Lemmas.GsInto
import Verif.Lemmas.GsFrom
import Verif.Lemmas.GsCrate
import Verif.Lemmas.GsTop
import Verif.Props.GenRun
import Verif.Cargo
import Verif.Lemmas.Cargo
import Verif.Rust.Script
import Verif.Source.Build
import Verif.Spec.BuildRun
import Verif.Lemmas.BuildRun
import Verif.Props.BuildRun
import Verif.Spec.SourceHistory
import Verif.Props.SourceHistory
import Verif.Spec.ContainerRun
import Verif.Props.ContainerRun
import Verif.Spec.Input
import Verif.Lemmas.MbeHeader
import Verif.Lemmas.MbeLex
import Verif.Props.Input
import Verif.Source.GuideText
import Verif.Rust.Guide
import Verif.Rust.GuideCode
import Verif.Lemmas.GuideRun
import Verif.Spec.Guide
import Verif.Props.Guide
import Verif.Spec.Whole
import Verif.Props.Whole
import Verif.Rust.Client
import Verif.Source.ExampleCode
import Verif.Lemmas.ExampleRun
import Verif.Lemmas.ExampleTests
import Verif.Spec.Examples
import Verif.Props.Examples
import Verif.Rust.UserCode
import Verif.Rust.BoxTests
import Verif.Source.TestsText
import Verif.Source.TaggableText
import Verif.Source.ReadmeText
import Verif.Source.UserCode
import Verif.Source.BoxTests
import Verif.Spec.UserRun
import Verif.Spec.BoxTests
import Verif.Lemmas.UserRun
import Verif.Lemmas.UserTests
import Verif.Lemmas.BoxTests
import Verif.Props.UserRun
import Verif.Props.BoxTests
import Verif.Rust.HandWritten
import Verif.Rust.HandCode
import Verif.Spec.HandWritten
import Verif.Lemmas.HandRun
import Verif.Lemmas.HandTest
import Verif.Props.HandWritten
import Verif.Rust.MoveCode
import Verif.Spec.MoveRun
import Verif.Source.MoveCode
import Verif.Lemmas.MoveRun
import Verif.Lemmas.MoveTest
import Verif.Props.MoveRun
import Verif.Rust.StringTest
import Verif.Spec.StringTest
import Verif.Props.StringTest
import Verif.Rust.Headers
import Verif.Spec.Headers
import Verif.Source.Headers
import Verif.Props.Headers
import Verif.Rust.FromCheck
import Verif.Spec.FromCheck
import Verif.Source.FromCheck
import Verif.Props.FromCheck
import Verif.Rust.ShownCode
import Verif.Lemmas.ShownRun
import Verif.Spec.Shown
import Verif.Props.Shown
import Verif.Source.MakeText
import Verif.Rust.Tasks
import Verif.Source.Tasks
import Verif.Spec.Tasks
import Verif.Lemmas.Tasks
import Verif.Props.Tasks
import Verif.Source.UnusedRules
import Verif.Spec.Unused
import Verif.Lemmas.Unused
import Verif.Props.Unused
import Verif.Source.BenchText
import Verif.Rust.Bench
import Verif.Source.Bench
import Verif.Spec.Bench
import Verif.Lemmas.Bench
import Verif.Props.Bench

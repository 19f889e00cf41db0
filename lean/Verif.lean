import Verif.Basic
import Verif.Model.Buffered
import Verif.Model.Cursor
import Verif.Model.Custom
import Verif.Model.Debug
import Verif.Model.Derive
import Verif.Model.Eq
import Verif.Model.Expand
import Verif.Model.Glsl
import Verif.Model.Imp
import Verif.Model.Internal
import Verif.Model.Iter
import Verif.Model.Lookup
import Verif.Model.Primitives
import Verif.Model.Rust
import Verif.Model.Sink
import Verif.Model.Text
import Verif.Model.TextClient
import Verif.Model.TextClientFeatures
import Verif.Model.TextDerive
import Verif.Model.TextFeatures
import Verif.Model.TextGlsl
import Verif.Model.TextNames
import Verif.Model.TextProgram
import Verif.Model.TextTypes
import Verif.Model.TextTyping
import Verif.Model.Tokens
import Verif.Model.Types
import Verif.Model.Unwind
import Verif.Model.Usize
import Verif.Model.Writer
import Verif.Proof.Accept
import Verif.Proof.AlignBound
import Verif.Proof.Arith
import Verif.Proof.Block
import Verif.Proof.BoolWord
import Verif.Proof.ByteOrder
import Verif.Proof.ClientCalls
import Verif.Proof.ClientCands
import Verif.Proof.ClientCoherence
import Verif.Proof.ClientConst
import Verif.Proof.ClientDynamic
import Verif.Proof.ClientFit
import Verif.Proof.ClientGlsl
import Verif.Proof.ClientIndex
import Verif.Proof.ClientNames
import Verif.Proof.ClientOut
import Verif.Proof.ClientPad
import Verif.Proof.ClientSame
import Verif.Proof.ClientSorted
import Verif.Proof.ClientStruct
import Verif.Proof.ClientUses
import Verif.Proof.ClientView
import Verif.Proof.ClientWithCoherence
import Verif.Proof.ClientWithIndex
import Verif.Proof.ClientWithSame
import Verif.Proof.ClientWithUses
import Verif.Proof.ClientWithView
import Verif.Proof.ClientWithout
import Verif.Proof.Coherence
import Verif.Proof.Coincide
import Verif.Proof.Congr
import Verif.Proof.Conserve
import Verif.Proof.Contract
import Verif.Proof.Conv
import Verif.Proof.DebugText
import Verif.Proof.DeclTables
import Verif.Proof.Decode
import Verif.Proof.Denote
import Verif.Proof.Derive
import Verif.Proof.Empty
import Verif.Proof.Encode
import Verif.Proof.EncodeBlock
import Verif.Proof.EncodeBool
import Verif.Proof.EnvIndep
import Verif.Proof.ExpandEq
import Verif.Proof.Factor
import Verif.Proof.FeatureIndex
import Verif.Proof.FeatureResolve
import Verif.Proof.FeatureSame
import Verif.Proof.FeatureTables
import Verif.Proof.FeatureTypes
import Verif.Proof.FeatureView
import Verif.Proof.Foreign
import Verif.Proof.FromCongr
import Verif.Proof.GlslConverse
import Verif.Proof.GlslText
import Verif.Proof.GlslWf
import Verif.Proof.Good
import Verif.Proof.History
import Verif.Proof.Hygiene
import Verif.Proof.Imports
import Verif.Proof.Item
import Verif.Proof.Iter
import Verif.Proof.Joint
import Verif.Proof.KernelRfl
import Verif.Proof.Layout
import Verif.Proof.Macro
import Verif.Proof.MacroAttr
import Verif.Proof.Math
import Verif.Proof.Names
import Verif.Proof.Overwrite
import Verif.Proof.Padding
import Verif.Proof.Place
import Verif.Proof.PlaceSpec
import Verif.Proof.PublicNames
import Verif.Proof.Read
import Verif.Proof.Record
import Verif.Proof.Rename
import Verif.Proof.Run
import Verif.Proof.Run140
import Verif.Proof.Run430
import Verif.Proof.RunAttr
import Verif.Proof.RunBool
import Verif.Proof.RunDerive
import Verif.Proof.RunDeriveEntry
import Verif.Proof.RunDynamic
import Verif.Proof.RunGlsl
import Verif.Proof.RunInternal
import Verif.Proof.RunIter
import Verif.Proof.RunLink
import Verif.Proof.RunNat
import Verif.Proof.RunNoStd
import Verif.Proof.RunSink
import Verif.Proof.Rust
import Verif.Proof.SameView
import Verif.Proof.Sessions
import Verif.Proof.Stride
import Verif.Proof.Strip
import Verif.Proof.StructImage
import Verif.Proof.Syntax
import Verif.Proof.SyntaxEmit
import Verif.Proof.SyntaxGlsl
import Verif.Proof.SyntaxItems
import Verif.Proof.Tables
import Verif.Proof.TargetIndep
import Verif.Proof.TextConv
import Verif.Proof.TextDefs
import Verif.Proof.TextDynOut
import Verif.Proof.TextDynamic
import Verif.Proof.TextForeign
import Verif.Proof.TextIndex
import Verif.Proof.TextMath
import Verif.Proof.TextMinty
import Verif.Proof.TextNameFacts
import Verif.Proof.TextNames
import Verif.Proof.TextOnly
import Verif.Proof.TextOut
import Verif.Proof.TextResolve
import Verif.Proof.TextRows
import Verif.Proof.TextTypes
import Verif.Proof.Typing
import Verif.Proof.TypingCrate
import Verif.Proof.TypingEnv
import Verif.Proof.TypingGlsl
import Verif.Proof.TypingItems
import Verif.Proof.TypingNeeds
import Verif.Proof.Usize
import Verif.Proof.Writer
import Verif.Props.C01_C03
import Verif.Props.C04_C16
import Verif.Props.C06_C12
import Verif.Props.C15_C38
import Verif.Props.C17_C20
import Verif.Props.C21
import Verif.Props.C22_C26
import Verif.Props.C24_C39
import Verif.Props.C28_C29
import Verif.Props.C30_C31
import Verif.Props.C32
import Verif.Props.C33
import Verif.Props.C40
import Verif.Props.C41_C42
import Verif.Props.C43_C46
import Verif.Props.C44_Order
import Verif.Props.C47
import Verif.Props.C48
import Verif.Props.C49
import Verif.Props.C50
import Verif.Props.C51
import Verif.Props.C52_C53
import Verif.Props.C52_Cursor
import Verif.Props.C54
import Verif.Props.C54_Writer
import Verif.Props.C55
import Verif.Props.C56
import Verif.Props.C57
import Verif.Props.C58
import Verif.Props.C59
import Verif.Props.C60
import Verif.Props.C61
import Verif.Props.C62
import Verif.Props.C63
import Verif.Props.C64
import Verif.Props.C65
import Verif.Props.C66
import Verif.Props.C67
import Verif.Props.C68
import Verif.Props.C69
import Verif.Props.C70
import Verif.Props.C71
import Verif.Props.C72
import Verif.Props.C73
import Verif.Props.C74
import Verif.Props.Depth
import Verif.Props.Examples
import Verif.Source.Bool
import Verif.Source.Derive
import Verif.Source.Glsl
import Verif.Source.Internal
import Verif.Source.Modules
import Verif.Source.Parsed
import Verif.Source.Parsed140
import Verif.Source.Parsed430
import Verif.Source.ParsedDerive
import Verif.Source.Std140
import Verif.Source.Std430
import Verif.Source.Tables
import Verif.Spec.Accept
import Verif.Spec.Block
import Verif.Spec.Calls
import Verif.Spec.Cfg
import Verif.Spec.ClientText
import Verif.Spec.Coincide
import Verif.Spec.Contract
import Verif.Spec.Correspond
import Verif.Spec.Custom
import Verif.Spec.Encode
import Verif.Spec.Exports
import Verif.Spec.Features
import Verif.Spec.Foreign
import Verif.Spec.Glsl
import Verif.Spec.GlslText
import Verif.Spec.Ieee
import Verif.Spec.Image
import Verif.Spec.Item
import Verif.Spec.Iter
import Verif.Spec.Lookup
import Verif.Spec.MacroRules
import Verif.Spec.MacroRun
import Verif.Spec.Overwrite
import Verif.Spec.Paths
import Verif.Spec.Place
import Verif.Spec.Refs
import Verif.Spec.Rename
import Verif.Spec.RustCode
import Verif.Spec.RustRun
import Verif.Spec.RustSyntax
import Verif.Spec.RustTypes
import Verif.Spec.Sessions
import Verif.Spec.Signatures
import Verif.Spec.Strip
import Verif.Spec.TextBlock
import Verif.Spec.TextClient
import Verif.Spec.TextCrate
import Verif.Spec.TextItems
import Verif.Spec.TextNames
import Verif.Spec.Trace
import Verif.Spec.TypeNames
import Verif.Spec.Typing
import Verif.Spec.Unwind
import Verif.Spec.Work
import Verif.Validate.ApplyText
import Verif.Validate.ApplyTypes
import Verif.Validate.ApplyWriter
import Verif.Validate.Fixtures
import Verif.Validate.ProjectTests
import Verif.Validate.Syntax

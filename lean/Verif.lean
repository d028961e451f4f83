import Verif.Model.Codec
import Verif.Spec.SSZ
import Verif.Proofs.RoundTrip
import Verif.Proofs.Canonical
import Verif.Proofs.Safe
import Verif.Proofs.Indep
import Verif.Proofs.Offsets
import Verif.Model.Objects
import Verif.Spec.Schema
import Verif.Spec.Members
import Verif.Spec.Yaml
import Verif.Props.Samples
import Verif.Props.Encoding
import Verif.Props.Decoding
import Verif.Proofs.Padding
import Verif.Props.Bits
import Verif.Props.Equality
import Verif.Props.Helpers
import Verif.Props.Merkle
import Verif.Model.Sha256Code
import Verif.Proofs.Sha256
import Verif.Proofs.LaneRounds
import Verif.Proofs.FourLoop
import Verif.Proofs.OneSched
import Verif.Proofs.One
import Verif.Proofs.OneCall
import Verif.Proofs.Eight
import Verif.Proofs.EightLoop
import Verif.Proofs.Shani
import Verif.Proofs.ShaniBlocks
import Verif.Proofs.ShaniLoop
import Verif.Props.Sha256
import Verif.Model.Hasher
import Verif.Proofs.Hasher
import Verif.Props.Machine
import Verif.Props.Hasher
import Verif.Model.Threads
import Verif.Model.Tso
import Verif.Model.Yaml
import Verif.Proofs.Threads
import Verif.Proofs.Tso
import Verif.Proofs.Race
import Verif.Proofs.Hide
import Verif.Proofs.Yaml
import Verif.Props.Threads
import Verif.Props.Classes
import Verif.Props.Yaml
import Verif.Model.Source
import Verif.Props.Source
import Verif.Model.Config
import Verif.Spec.Config
import Verif.Props.Config
import Verif.Model.TestDriver
import Verif.Proofs.Denotes
import Verif.Props.TestDriver
import Verif.Model.Programs
import Verif.Props.Programs
import Verif.Spec.Trace
import Verif.Proofs.Trace
import Verif.Proofs.Lockstep
import Verif.Props.Timing
import Verif.Spec.Accepts
import Verif.Proofs.Accepts
import Verif.Props.Accepts
import Verif.Spec.Decode
import Verif.Proofs.Decode
import Verif.Props.Decode
import Verif.Spec.Allowed
import Verif.Proofs.Allowed
import Verif.Proofs.Footprint
import Verif.Proofs.Needs
import Verif.Props.Allowed
import Verif.Props.Cpu
import Verif.Model.Reads
import Verif.Spec.Reads
import Verif.Proofs.Reads
import Verif.Props.Reads
import Verif.Model.Strict
import Verif.Spec.Packed
import Verif.Proofs.Strict
import Verif.Props.Strict
import Verif.Spec.Overflow
import Verif.Proofs.Small
import Verif.Proofs.Overflow
import Verif.Props.Overflow
import Verif.Model.Access
import Verif.Props.Access
import Verif.Model.TestTree
import Verif.Props.TestTree
import Verif.Model.HashCalls
import Verif.Props.HashCalls
import Verif.Spec.Leftover
import Verif.Proofs.Leftover
import Verif.Props.Leftover
import Verif.Proofs.Starts
import Verif.Props.Offsets
import Verif.Spec.Whole
import Verif.Proofs.Whole
import Verif.Props.Whole
import Verif.Spec.Fails
import Verif.Proofs.Fails
import Verif.Props.Fails
import Verif.Spec.Shape
import Verif.Proofs.Shape
import Verif.Props.Work
import Verif.Spec.YamlLeft
import Verif.Proofs.YamlLeft
import Verif.Props.YamlLeft
import Verif.Spec.Spare
import Verif.Proofs.Spare
import Verif.Props.Spare
import Verif.Model.AsmText
import Verif.Model.Nasm
import Verif.Proofs.AsmPack
import Verif.Proofs.AsmSteps
import Verif.Proofs.AsmCheck
import Verif.Proofs.AsmOneLines
import Verif.Proofs.AsmOne
import Verif.Proofs.AsmFourLines
import Verif.Proofs.AsmFour
import Verif.Proofs.AsmEightLines
import Verif.Proofs.AsmEight
import Verif.Proofs.AsmShaniLines
import Verif.Proofs.AsmShani
import Verif.Props.Assembled
import Verif.Model.CppText
import Verif.Model.Cpp
import Verif.Proofs.CppPack
import Verif.Proofs.CppCheck
import Verif.Proofs.CppConstants
import Verif.Props.Declared
import Verif.Model.CppSyntax
import Verif.Model.CppRun
import Verif.Model.CppObject
import Verif.Proofs.CppPackMore
import Verif.Proofs.CppFuncs
import Verif.Proofs.CppSim
import Verif.Proofs.CppScalar
import Verif.Proofs.CppBits
import Verif.Proofs.CppBitlist
import Verif.Proofs.CppLists
import Verif.Proofs.CppContainer
import Verif.Props.Bodies
import Verif.Proofs.CppMath
import Verif.Proofs.CppMath32
import Verif.Props.MathText
import Verif.Proofs.CppTree
import Verif.Proofs.CppTreeOf
import Verif.Props.TreeText
import Verif.Proofs.CppHash
import Verif.Props.HashText
import Verif.Proofs.CppPredicates
import Verif.Props.PredicateText
import Verif.Proofs.CppBytes
import Verif.Props.BytesText
import Verif.Proofs.CppHex
import Verif.Props.HexText
import Verif.Proofs.CppStream
import Verif.Props.StreamText
import Verif.Proofs.CppSwitch
import Verif.Props.SwitchText
import Verif.Model.CppNames
import Verif.Props.NameText
import Verif.Model.CppConversions
import Verif.Props.ConversionText
import Verif.Model.CppDefaults
import Verif.Props.DefaultText
import Verif.Model.CppTextMore
import Verif.Proofs.CppPackBitlist
import Verif.Props.BitlistText
import Verif.Model.CppTreeHeader
import Verif.Props.TreeHeaderText
import Verif.Model.CppEquality
import Verif.Props.EqualityText
import Verif.Model.CppReferences
import Verif.Props.ReferenceText
import Verif.Model.CppIterators
import Verif.Props.IteratorText
import Verif.Model.CppForward
import Verif.Props.ForwardText

import Verif.Base.Attr
import Verif.Base.CInt
import Verif.Base.Outcome
import Verif.Conform.Conv
import Verif.Conform.ConvCases
import Verif.Conform.Cosim
import Verif.Conform.EbreakImage
import Verif.Conform.Encoding
import Verif.Conform.EncodingCases
import Verif.Conform.Exec
import Verif.Conform.Images
import Verif.Conform.ImagesSemihost
import Verif.Conform.ListingCases
import Verif.Conform.Log
import Verif.Conform.Programs
import Verif.Conform.ProgramsSemihost
import Verif.Conform.Renode
import Verif.Conform.Top
import Verif.Conform.V2
import Verif.Gen.Keys
import Verif.Gen.Rows0
import Verif.Gen.Rows1
import Verif.Gen.Rows2
import Verif.Gen.Rows3
import Verif.Gen.Rows4
import Verif.Gen.Rows5
import Verif.Gen.Tok
import Verif.Gen.V1Scalar
import Verif.Gen.V1Text
import Verif.Gen.V2Keys
import Verif.Gen.V2LineKeys
import Verif.Gen.V2Rows
import Verif.Model.Agent
import Verif.Model.Asm
import Verif.Model.Conv
import Verif.Model.Cosim
import Verif.Model.CosimCore
import Verif.Model.Counters
import Verif.Model.DebugMem
import Verif.Model.DebugMemMax
import Verif.Model.Decode
import Verif.Model.Edits
import Verif.Model.HwSim
import Verif.Model.Isa
import Verif.Model.Kernel
import Verif.Model.KernelDw
import Verif.Model.KernelMat
import Verif.Model.Log
import Verif.Model.Main
import Verif.Model.RegNames
import Verif.Model.RenodeCore
import Verif.Model.RenodeMem
import Verif.Model.Session
import Verif.Model.Shell
import Verif.Model.Teardown
import Verif.Model.Threads
import Verif.Model.Top
import Verif.Model.Trace
import Verif.Model.V1Getters
import Verif.Model.V1Text
import Verif.Model.V2
import Verif.Model.V2Getters
import Verif.Model.V2Isa
import Verif.Model.V2Sim
import Verif.Model.VecBlock
import Verif.Model.VecCore
import Verif.Model.VecElem
import Verif.Model.VecFrame
import Verif.Model.VecInst
import Verif.Model.VecMem
import Verif.Proofs.Agent
import Verif.Proofs.CIntLemmas
import Verif.Proofs.CIntSimp
import Verif.Proofs.ConvAux
import Verif.Proofs.Cosim
import Verif.Proofs.CosimCore
import Verif.Proofs.Counters
import Verif.Proofs.DebugMem
import Verif.Proofs.Debugged
import Verif.Proofs.DecodeAux
import Verif.Proofs.DecodeBase
import Verif.Proofs.DecodeExec
import Verif.Proofs.DecodeKeys
import Verif.Proofs.DecodeSpecial
import Verif.Proofs.DecodeTab
import Verif.Proofs.DecodeTotal
import Verif.Proofs.DwCore
import Verif.Proofs.Edits
import Verif.Proofs.ElemArith
import Verif.Proofs.ElemBits
import Verif.Proofs.ElemMul
import Verif.Proofs.ElemShift
import Verif.Proofs.ElemShift2
import Verif.Proofs.Exact
import Verif.Proofs.Fetch
import Verif.Proofs.Footprint
import Verif.Proofs.Frame
import Verif.Proofs.FrameAll
import Verif.Proofs.Groups
import Verif.Proofs.GroupsKept
import Verif.Proofs.GroupsRow
import Verif.Proofs.HwSim
import Verif.Proofs.Kernel
import Verif.Proofs.KernelMat
import Verif.Proofs.Lanes
import Verif.Proofs.Lift
import Verif.Proofs.Log
import Verif.Proofs.MatCore
import Verif.Proofs.MemTest
import Verif.Proofs.Oracle
import Verif.Proofs.OracleMul
import Verif.Proofs.OracleShift
import Verif.Proofs.Perm
import Verif.Proofs.Perm2
import Verif.Proofs.PropAux
import Verif.Proofs.RegNames
import Verif.Proofs.RenodeCore
import Verif.Proofs.RenodeMem
import Verif.Proofs.RenodeTotal
import Verif.Proofs.RenodeUnits
import Verif.Proofs.Seq
import Verif.Proofs.Shell
import Verif.Proofs.SpecRange
import Verif.Proofs.StepStop
import Verif.Proofs.Teardown
import Verif.Proofs.Threads
import Verif.Proofs.Top
import Verif.Proofs.TopBp
import Verif.Proofs.TopDemo
import Verif.Proofs.TopHist
import Verif.Proofs.TopPlain
import Verif.Proofs.TopSeq
import Verif.Proofs.Total
import Verif.Proofs.Trace
import Verif.Proofs.V1Scalar
import Verif.Proofs.V1Text
import Verif.Proofs.V1TextRow
import Verif.Proofs.V2
import Verif.Proofs.V2Decode
import Verif.Proofs.V2Getters
import Verif.Proofs.V2Tables
import Verif.Proofs.VecBlock
import Verif.Proofs.VecCore
import Verif.Proofs.VecMemAux
import Verif.Proofs.VecMemProp
import Verif.Proofs.VecMemRun
import Verif.Proofs.VecTame
import Verif.Proofs.VecTest
import Verif.Proofs.VecTest2
import Verif.Proofs.VecTest3
import Verif.Proofs.Wide
import Verif.Props.Agent
import Verif.Props.AgentCalls
import Verif.Props.Arith
import Verif.Props.Asm
import Verif.Props.AsmLoop
import Verif.Props.AsmTrap
import Verif.Props.Bits
import Verif.Props.Conv
import Verif.Props.ConvTest
import Verif.Props.Cosim
import Verif.Props.CosimCore
import Verif.Props.CosimTotal
import Verif.Props.Counters
import Verif.Props.DebugMem
import Verif.Props.DebugMemMax
import Verif.Props.Debugged
import Verif.Props.Decode
import Verif.Props.DecodeExact
import Verif.Props.DwCore
import Verif.Props.DwDebugged
import Verif.Props.Edits
import Verif.Props.Exact
import Verif.Props.Fetch
import Verif.Props.Footprint
import Verif.Props.Groups
import Verif.Props.HwJobs
import Verif.Props.HwSim
import Verif.Props.Kernel
import Verif.Props.KernelDw
import Verif.Props.KernelMat
import Verif.Props.KernelPipe
import Verif.Props.Log
import Verif.Props.LogExact
import Verif.Props.Main
import Verif.Props.MatCore
import Verif.Props.MemExact
import Verif.Props.MemTest
import Verif.Props.Memory
import Verif.Props.RegNames
import Verif.Props.RenodeCore
import Verif.Props.RenodeTotal
import Verif.Props.RunControl
import Verif.Props.Semihost
import Verif.Props.Shell
import Verif.Props.ShiftMul
import Verif.Props.StepStop
import Verif.Props.Struct
import Verif.Props.Teardown
import Verif.Props.Trace
import Verif.Props.V1Scalar
import Verif.Props.V1Text
import Verif.Props.V2
import Verif.Props.V2Decode
import Verif.Props.V2Exact
import Verif.Props.V2Operands
import Verif.Props.V2Sim
import Verif.Props.VecBlock
import Verif.Props.VecCore
import Verif.Props.VecMem
import Verif.Props.VecTest
import Verif.Props.Widen
import Verif.Props.Words
import Verif.Spec.Agent
import Verif.Spec.Arith
import Verif.Spec.BlockMem
import Verif.Spec.BlockUnits
import Verif.Spec.Conv
import Verif.Spec.ConvTest
import Verif.Spec.Cosim
import Verif.Spec.CosimLife
import Verif.Spec.Counters
import Verif.Spec.DebugMem
import Verif.Spec.DwCore
import Verif.Spec.Feed
import Verif.Spec.Fetch
import Verif.Spec.Footprint
import Verif.Spec.Groups
import Verif.Spec.HwSim
import Verif.Spec.Isa
import Verif.Spec.Kernel
import Verif.Spec.KernelMat
import Verif.Spec.Log
import Verif.Spec.Main
import Verif.Spec.MemTest
import Verif.Spec.Memory
import Verif.Spec.Plain
import Verif.Spec.Program
import Verif.Spec.RegNames
import Verif.Spec.Rv32
import Verif.Spec.Shell
import Verif.Spec.Trace
import Verif.Spec.V1Scalar
import Verif.Spec.V1Text
import Verif.Spec.V2
import Verif.Spec.V2Isa
import Verif.Spec.V2Operands
import Verif.Spec.V2Sim
import Verif.Spec.VecOracle
import Verif.Spec.VecTest
import Verif.Spec.Vector
import Verif.Spec.Visits
import Verif.Spec.Words

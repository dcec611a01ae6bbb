import Verif.Model
import Verif.Conformance
import Verif.Props.AddSub
import Verif.Props.Agree
import Verif.Props.AgreeFloat
import Verif.Props.AgreeQSub
import Verif.Props.AgreeRecip
import Verif.Props.ArmAdd
import Verif.Props.ArmAgree
import Verif.Props.ArmConvert
import Verif.Props.ArmFloat
import Verif.Props.ArmLoad
import Verif.Props.ArmLogic
import Verif.Props.ArmMove
import Verif.Props.ArmMul
import Verif.Props.ArmPerm
import Verif.Props.ArmRest
import Verif.Props.ArmShift
import Verif.Props.ArmStore
import Verif.Props.ArmSub
import Verif.Props.BoolAlgebra
import Verif.Props.Bytes
import Verif.Props.Calls
import Verif.Props.Client
import Verif.Props.Commute
import Verif.Props.ConvLaws
import Verif.Props.CppRules
import Verif.Props.ExecCalls
import Verif.Props.ExecDet
import Verif.Props.ExecDetS
import Verif.Props.ExecExamples
import Verif.Props.ExecExpr
import Verif.Props.ExecLibrary
import Verif.Props.ExecMem
import Verif.Props.ExecOps
import Verif.Props.ExecStmt
import Verif.Props.ExecStore
import Verif.Props.ExecText
import Verif.Props.Float
import Verif.Props.FloatConv
import Verif.Props.FloatLaws
import Verif.Props.FloatPrograms
import Verif.Props.FloatSel
import Verif.Props.FloatSum
import Verif.Props.Grammar
import Verif.Props.Helper
import Verif.Props.History
import Verif.Props.HistoryAll
import Verif.Props.Init
import Verif.Props.Interp
import Verif.Props.InterpTypes
import Verif.Props.Kernel
import Verif.Props.Laws
import Verif.Props.Lexer
import Verif.Props.Library
import Verif.Props.LibraryTypes
import Verif.Props.Link
import Verif.Props.Load
import Verif.Props.Logic
import Verif.Props.MachineLibrary
import Verif.Props.MaxMin
import Verif.Props.Mirror
import Verif.Props.Move
import Verif.Props.Mul
import Verif.Props.NarrowHigh
import Verif.Props.Ostream
import Verif.Props.Outcome
import Verif.Props.Parser
import Verif.Props.Perm
import Verif.Props.PermAlgebra
import Verif.Props.Pipeline
import Verif.Props.ProgTotal
import Verif.Props.Program
import Verif.Props.QSub64
import Verif.Props.Recip
import Verif.Props.Reinterpret
import Verif.Props.Saturate
import Verif.Props.Select
import Verif.Props.Shift
import Verif.Props.Signatures
import Verif.Props.SortNet
import Verif.Props.SrcAdd
import Verif.Props.SrcClass
import Verif.Props.SrcConvert
import Verif.Props.SrcLoad
import Verif.Props.SrcLogic
import Verif.Props.SrcMove
import Verif.Props.SrcMul
import Verif.Props.SrcPerm
import Verif.Props.SrcRecip
import Verif.Props.SrcRest
import Verif.Props.SrcShift
import Verif.Props.SrcStore
import Verif.Props.SrcSub
import Verif.Props.StmtComplete
import Verif.Props.StmtParser
import Verif.Props.Store
import Verif.Props.Stream
import Verif.Props.Strict
import Verif.Props.TestSuite
import Verif.Props.TestUtil
import Verif.Props.Transpose
import Verif.Props.TransposeImage
import Verif.Props.TypeExamples
import Verif.Props.TypeSafe
import Verif.Props.TypeUnit
import Verif.Props.Typed
import Verif.Props.Typed0
import Verif.Props.Typed1
import Verif.Props.Typed2
import Verif.Props.Typed3
import Verif.Props.Typed4
import Verif.Props.Typed5
import Verif.Props.Typed6
import Verif.Props.Typed7
import Verif.Props.Typed8
import Verif.Props.TypedBase
import Verif.Props.UtestArgs
import Verif.Props.UtestChecks
import Verif.Props.UtestClock
import Verif.Props.UtestCompare
import Verif.Props.UtestFilter
import Verif.Props.UtestMain
import Verif.Props.UtestNear
import Verif.Props.UtestOptions
import Verif.Props.UtestOrder
import Verif.Props.UtestScope
import Verif.Props.UtestText
import Verif.Props.Widen

import Verif.Spec.TM
import Verif.Model.Tape
import Verif.Lemmas.Run
import Verif.Lemmas.RTape
import Verif.Lemmas.Tape
import Verif.Lemmas.Marks
import Verif.Props.Tape
import Verif.Model.Quick
import Verif.Lemmas.Forever
import Verif.Lemmas.Skip
import Verif.Lemmas.Quick
import Verif.Props.Quick
import Verif.Model.LinRec
import Verif.Lemmas.LinRec
import Verif.Props.LinRec
import Verif.Model.Rules
import Verif.Spec.Rules
import Verif.Lemmas.Rules
import Verif.Lemmas.MakeRule
import Verif.Lemmas.RulesRs
import Verif.Props.Rules
import Verif.Model.PastConfigs
import Verif.Props.PastConfigs
import Verif.Model.EnumTape
import Verif.Model.Prover
import Verif.Lemmas.Prover
import Verif.Props.Prover
import Verif.Lemmas.EnumTape
import Verif.Lemmas.EnumTapeRs
import Verif.Props.EnumTape
import Verif.Props.MinSig
import Verif.Model.Macro
import Verif.Lemmas.MacroWin
import Verif.Lemmas.Macro
import Verif.Lemmas.MacroSim
import Verif.Lemmas.MacroRun
import Verif.Lemmas.Ring
import Verif.Lemmas.MacroRing
import Verif.Props.Macro
import Verif.Model.Table
import Verif.Lemmas.Table
import Verif.Model.Parse
import Verif.Lemmas.Parse
import Verif.Props.Parse
import Verif.Model.Graph
import Verif.Lemmas.Graph
import Verif.Props.Graph
import Verif.Model.Normalize
import Verif.Lemmas.Rename
import Verif.Lemmas.Normalize
import Verif.Lemmas.NormalizeRun
import Verif.Props.Normalize
import Verif.Lemmas.Undef
import Verif.Props.Undef
import Verif.Lemmas.InstrSeq
import Verif.Model.Tree
import Verif.Lemmas.Tree
import Verif.Lemmas.TreeFull
import Verif.Props.Tree
import Verif.Model.Reason
import Verif.Lemmas.Reason
import Verif.Lemmas.ReasonSearch
import Verif.Lemmas.ReasonTargets
import Verif.Props.Reason
import Verif.Model.Segment
import Verif.Lemmas.Segment
import Verif.Lemmas.SegmentLoop
import Verif.Lemmas.SegmentTerm
import Verif.Props.Segment
import Verif.Model.Blocks
import Verif.Lemmas.Blocks
import Verif.Props.Blocks
import Verif.Model.Num
import Verif.Spec.Num
import Verif.Lemmas.NumSound
import Verif.Lemmas.NumOps
import Verif.Lemmas.NumRefine
import Verif.Model.NumMod
import Verif.Lemmas.NumMod
import Verif.Lemmas.NumMisc
import Verif.Props.Num
import Verif.Model.CGen
import Verif.Spec.CLang
import Verif.Lemmas.CGen
import Verif.Lemmas.CGenRun
import Verif.Props.CGen
import Verif.Model.RsProver
import Verif.Lemmas.RsProver
import Verif.Props.RsProver
import Verif.Props.Seen
import Verif.Props.SeenRs
import Verif.Props.StoredSig
import Verif.Props.MacroMachine
import Verif.Props.Asked
import Verif.Model.Reduce
import Verif.Lemmas.NormalForm
import Verif.Lemmas.NormalFormRun
import Verif.Lemmas.NormalOrder
import Verif.Props.NormalForm
import Verif.Lemmas.Reduce
import Verif.Props.Reduce
import Verif.Props.GraphRun
import Verif.Model.SymRules
import Verif.Spec.SymRules
import Verif.Lemmas.SymRules
import Verif.Props.SymRules
import Verif.Model.SymRun
import Verif.Spec.SymRun
import Verif.Lemmas.SymRun
import Verif.Lemmas.SymApply
import Verif.Props.SymRun
import Verif.Props.SymRunCases
import Verif.Spec.SymInt
import Verif.Lemmas.SymInt
import Verif.Lemmas.SymIntProver
import Verif.Lemmas.SymIntRun
import Verif.Props.SymInt
import Verif.Props.SymIntCases
import Verif.Spec.Recur
import Verif.Model.LinRecPy
import Verif.Lemmas.Recur
import Verif.Lemmas.LinRecPy
import Verif.Lemmas.LinRecHist
import Verif.Lemmas.LinRecStrict
import Verif.Lemmas.LinRecLoop
import Verif.Lemmas.LinRecSample
import Verif.Props.LinRecStrict
import Verif.Lemmas.LinRecWindow
import Verif.Lemmas.LinRecLoose
import Verif.Lemmas.LinRecComplete
import Verif.Props.LinRecFinds
import Verif.Model.Idris
import Verif.Model.IdrisParse
import Verif.Spec.Total
import Verif.Lemmas.IdrisTape
import Verif.Lemmas.IdrisSpans
import Verif.Lemmas.IdrisRun
import Verif.Lemmas.IdrisPtr
import Verif.Lemmas.IdrisDouble
import Verif.Lemmas.IdrisParse
import Verif.Props.Idris
import Verif.Lemmas.IdrisCells
import Verif.Props.IdrisCells
import Verif.Props.SkipAll
import Verif.Props.SkipAllCases
import Verif.Model.CSim
import Verif.Spec.Sim
import Verif.Lemmas.CSim
import Verif.Lemmas.CSimRun
import Verif.Lemmas.CSimText
import Verif.Props.CSim
import Verif.Spec.CStmt
import Verif.Model.Structured
import Verif.Lemmas.CStmtCheck
import Verif.Lemmas.CStmtRun
import Verif.Lemmas.CStmtSim
import Verif.Lemmas.CStmtEval
import Verif.Lemmas.StructuredText
import Verif.Props.Structured
import Verif.Props.StructuredTests
import Verif.Spec.Dot
import Verif.Model.Dot
import Verif.Lemmas.Dot
import Verif.Props.Dot
import Verif.Model.Expand
import Verif.Lemmas.Expand
import Verif.Props.Expand
import Verif.Spec.TapeText
import Verif.Model.TapeShow
import Verif.Lemmas.TapeShow
import Verif.Props.TapeShow
import Verif.Model.LinRado
import Verif.Lemmas.LinRado
import Verif.Props.LinRado
import Verif.Props.LinRadoSerial
import Verif.Model.BranchLast
import Verif.Props.BranchLast
import Verif.Model.Cons
import Verif.Props.Cons
import Verif.Spec.PyExpr
import Verif.Model.NumShow
import Verif.Lemmas.NumShow
import Verif.Props.NumShow
import Verif.Lemmas.HalfTapes
import Verif.Props.Settle
import Verif.Props.SettleThree
import Verif.Props.SettleTwoThreeA
import Verif.Props.SettleTwoThree
import Verif.Model.Estimate
import Verif.Spec.Estimate
import Verif.Lemmas.Estimate
import Verif.Props.Estimate
import Verif.Spec.Events
import Verif.Lemmas.Watch
import Verif.Props.Records
import Verif.Props.RecordsThreeA
import Verif.Props.RecordsThreeB
import Verif.Props.RecordsThreeC
import Verif.Props.RecordsThreeD
import Verif.Props.RecordsThree
import Verif.Spec.Tet
import Verif.Model.Tet
import Verif.Props.Tet
import Verif.Props.RecordsTwoThreeA
import Verif.Props.RecordsTwoThreeB
import Verif.Props.RecordsTwoThreeC
import Verif.Props.RecordsTwoThreeD
import Verif.Props.RecordsTwoThreeE
import Verif.Props.RecordsTwoThreeF
import Verif.Props.RecordsTwoThreeG
import Verif.Props.RecordsTwoThreeH
import Verif.Props.RecordsTwoThreeI
import Verif.Props.RecordsTwoThreeJ
import Verif.Props.RecordsTwoThree

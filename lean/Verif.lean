import Verif.Charset
import Verif.Props.Charset
import Verif.Input
import Verif.Props.Input
import Verif.Isa
import Verif.Capture
import Verif.Vm
import Verif.Pattern
import Verif.GetFuel
import Verif.Compile
import Verif.Encode
import Verif.Peg
import Verif.PegLemmas
import Verif.GetLemmas
import Verif.Props.Get
import Verif.Run
import Verif.Sim
import Verif.Inline
import Verif.CompileLemmas
import Verif.Occ
import Verif.Impl
import Verif.PegBounds
import Verif.Static
import Verif.Scan
import Verif.Cases
import Verif.Cases2
import Verif.CaseCap
import Verif.CaseStar
import Verif.CaseMemo
import Verif.CaseGrammar
import Verif.CaseSearch
import Verif.SimMain
import Verif.Labels
import Verif.Leaves
import Verif.Bisim
import Verif.EncodeLemmas
import Verif.EncodeSim
import Verif.Exec
import Verif.Props.Encode
import Verif.InputSim
import Verif.OptSim
import Verif.Props.Optimize
import Verif.Top
import Verif.Correct
import Verif.Ford
import Verif.Props.Compile
import Verif.Props.Nest
import Verif.Props.Order
import Verif.Props.Construct
import Verif.Iter
import Verif.Props.Iter
import Verif.IntervalArray
import Verif.Props.IntervalArray
import Verif.LazyLog
import Verif.LazyLogInv
import Verif.LazyLogOps
import Verif.LazyLogFirst
import Verif.LazyLogHist
import Verif.Props.LazyLog
import Verif.Quiet
import Verif.TreeTable
import Verif.Props.TreeTable
import Verif.MemoPar
import Verif.MemoIds
import Verif.Props.Memo
import Verif.Props.Tail
import Verif.Local
import Verif.Props.Incremental
import Verif.Rope
import Verif.RopeLemmas
import Verif.RopeLines
import Verif.Props.Rope
import Verif.Props.Rx
import Verif.EncTotal
import Verif.Re
import Verif.ReSpec
import Verif.ReParse
import Verif.ReTree
import Verif.ReExpr
import Verif.ReMain
import Verif.Props.Re
import Verif.CompTotal
import Verif.Props.Total
import Verif.Slice
import Verif.SliceSim
import Verif.SliceRun
import Verif.SliceStep
import Verif.LazyLogRel
import Verif.Props.Slice
import Verif.Lazy
import Verif.LazyInv
import Verif.LazyOps
import Verif.Props.Lazy
import Verif.Checker
import Verif.Props.Checker
import Verif.WellFormed
import Verif.Props.Term
import Verif.ReConv
import Verif.Props.ReConv
import Verif.Balance
import Verif.BalanceOps
import Verif.Props.Balance
import Verif.ReCheck
import Verif.GrammarFiles
import Verif.GrammarFilesC
import Verif.GrammarFilesJava
import Verif.GrammarFilesJavaMemo
import Verif.RePlain
import Verif.Props.Files
import Verif.Props.FilesC
import Verif.Props.FilesJava
import Verif.Props.FilesJavaMemo
import Verif.Eats
import Verif.Lang
import Verif.Arith
import Verif.LangRun
import Verif.Props.Arith
import Verif.JsonSpec
import Verif.Json
import Verif.Props.Json
import Verif.Spacing
import Verif.RePeg
import Verif.Props.Reparse
import Verif.Props.ReparseJava
import Verif.Props.ReparseTwice
import Verif.Props.RePeg
import Verif.IvPar
import Verif.CapFree
import Verif.Props.ExecInterval
import Verif.Lo
import Verif.Look
import Verif.Props.Session
import Verif.SetString
import Verif.Props.SetString
import Verif.LazyLogMap
import Verif.LazyLogKeep
import Verif.Obj
import Verif.ObjTab
import Verif.ObjCap
import Verif.ObjRel
import Verif.ObjSim
import Verif.Props.Obj
import Verif.ObjOwn
import Verif.ObjCert
import Verif.Props.ObjCert
import Verif.ObjNest
import Verif.ObjNestRun
import Verif.ObjComp
import Verif.Props.ObjFirst
import Verif.Props.ObjJava
import Verif.Props.AllValues
import Verif.Props.RopeEach
import Verif.RopeHeap
import Verif.RopeHeapLemmas
import Verif.RopeHeapEdit
import Verif.RopeHeapSplit
import Verif.Props.RopeHeap
import Verif.PatObj
import Verif.Props.PatObj
import Verif.Conc
import Verif.ConcLemmas
import Verif.Props.Conc
import Verif.LblSupply
import Verif.Props.LblSupply
import Verif.Build
import Verif.Props.Share
import Verif.Once
import Verif.Props.Once
import Verif.LazyLogBefore
import Verif.Props.Reuse
import Verif.Pretty
import Verif.Props.Pretty
import Verif.Calm
import Verif.BenchJava
import Verif.Props.BenchJava
import Verif.Props.BenchTwice
import Verif.PegPeg
import Verif.PegPegSyn
import Verif.PegRe
import Verif.Props.PegPeg
import Verif.RePegSyn
import Verif.Props.RePegLang
import Verif.BenchEdits
import Verif.BenchEditsLemmas
import Verif.Props.BenchEdits
import Verif.Listing
import Verif.Props.Listing
import Verif.CodeJson
import Verif.Props.CodeJson
import Verif.LazyLogEager
import Verif.Props.LazyLogEager
import Verif.LazyLogLazy
import Verif.LazyLogEach
import Verif.Props.LazyLogLazy
import Verif.CapText
import Verif.Props.CapText
import Verif.ProgSize
import Verif.Props.ProgSize
import Verif.Props.SessionFixed
import Verif.Asserts
import Verif.Props.GpegCmd

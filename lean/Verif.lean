import Verif.Basic
import Verif.Fasl
import Verif.FaslLemmas
import Verif.FaslProps
import Verif.Hash
import Verif.HashLemmas
import Verif.HashProps
import Verif.HashScm
import Verif.HashScmLemmas
import Verif.HashScmProps
import Verif.Env
import Verif.EnvLemmas
import Verif.EnvProps
import Verif.Intern
import Verif.InternLemmas
import Verif.FaslIdent
import Verif.InternProps
import Verif.Equal
import Verif.EqualProps
import Verif.EqualScmProps
import Verif.Num
import Verif.NumProps
import Verif.ListHeap
import Verif.ListHeapProps
import Verif.ListScm
import Verif.ListScmProps
import Verif.Str
import Verif.StrProps
import Verif.Reader
import Verif.ReaderLemmas
import Verif.ReaderPrint
import Verif.ReaderSafe
import Verif.ReaderProps
import Verif.Syntax
import Verif.SyntaxProps
import Verif.Record
import Verif.RecordLemmas
import Verif.RecordSim
import Verif.RecordProps
import Verif.Sx
import Verif.Check
import Verif.CheckProps
import Verif.Core
import Verif.JitFv
import Verif.JitFvProps
import Verif.Bytecode
import Verif.LabelLemmas
import Verif.CompileWf
import Verif.CompileSlots
import Verif.CompileProps
import Verif.ArityProps
import Verif.Machine
import Verif.RefSem
import Verif.SimBase
import Verif.SimStep
import Verif.SimCall
import Verif.SimDefs
import Verif.SimApply
import Verif.SimExpr
import Verif.SimMain
import Verif.MachineProps
import Verif.FailSem
import Verif.SimFail
import Verif.FailProps
import Verif.Stack
import Verif.StackProps
import Verif.Gc
import Verif.GcTable
import Verif.GcMark
import Verif.GcInv
import Verif.GcHist
import Verif.GcProps
import Verif.GcReg
import Verif.Passes
import Verif.PassSem
import Verif.PassRel
import Verif.PassWorld
import Verif.PassInv
import Verif.PassSim
import Verif.PassLet
import Verif.PassMain
import Verif.PassStep
import Verif.PassCon
import Verif.PassL1
import Verif.PassProg
import Verif.PassProps
import Verif.PassRun
import Verif.PassTerm
import Verif.Trees
import Verif.TotalProps
import Verif.Sort
import Verif.SortProps
import Verif.Port
import Verif.PortProps
import Verif.Fmt
import Verif.FmtProps
import Verif.Proc
import Verif.ProcProps
import Verif.Promise
import Verif.PromiseProps
import Verif.Path
import Verif.PathProps
import Verif.SetS
import Verif.SetProps
import Verif.EnumS
import Verif.EnumProps
import Verif.Lay
import Verif.LayProps
import Verif.Exp
import Verif.ExpSurf
import Verif.ExpMono
import Verif.ExpXp
import Verif.ExpRules
import Verif.ExpNF
import Verif.ExpMac
import Verif.ExpExpand
import Verif.ExpMain
import Verif.ExpSim
import Verif.ExpStep
import Verif.ExpProps
import Verif.ExpMod
import Verif.ExpModSim
import Verif.ExpModProps
import Verif.ExpCheck
import Verif.ExpCheckProps
import Verif.Load
import Verif.LoadInv
import Verif.LoadProps
import Verif.LibRead
import Verif.LibReadSpec
import Verif.LibReadLemmas
import Verif.LibReadDen
import Verif.LibReadFull
import Verif.LibReadEnd
import Verif.LibReadProps
import Verif.SxCase
import Verif.SxSpec
import Verif.SxLemmas
import Verif.SxMatch
import Verif.SxMatch2
import Verif.SxMatch3
import Verif.SxClause
import Verif.SxClauseProps
import Verif.SxTmpl
import Verif.SxTmplSpec
import Verif.SxTmplBuild
import Verif.SxTmplParse
import Verif.SxTmplEval
import Verif.SxTmplProps
import Verif.SxRules
import Verif.PatScope
import Verif.SxCaseMac
import Verif.SxDoMac
import Verif.Raise
import Verif.ExnLib
import Verif.Generics
import Verif.DefRec
import Verif.Prelude
import Verif.PreludeProps
import Verif.Scope
import Verif.LibNames
import Verif.LibPrelude
import Verif.LibBoot
import Verif.ScopeProps
import Verif.ScopeRun
import Verif.LibCalls
import Verif.LibCallsProps
import Verif.Sys
import Verif.SysProps
import Verif.LibFix
import Verif.LibEval
import Verif.LibCtx
import Verif.LibCode
import Verif.LibList
import Verif.LibMore
import Verif.LibTail
import Verif.LibLoad
import Verif.LibLaws
import Verif.LibRunProps
import Verif.LibMany
import Verif.PassTop
import Verif.PassHide
import Verif.PassSeq
import Verif.PassFile
import Verif.LibBooted
import Verif.LibOpt
import Verif.LibMach
import Verif.GenBoot
import Verif.Access
import Verif.FilePort

import Verif.Props.FileLoc
import Verif.Props.MessageLog
import Verif.Props.Report
import Verif.Props.Split
import Verif.Props.Kinds
import Verif.Props.Control
import Verif.Props.Clauses
import Verif.Props.IntSet
import Verif.Props.StateTable
import Verif.Props.MultiVal
import Verif.Props.ReadBack
import Verif.Props.IdSet
import Verif.Props.Tables
import Verif.Props.FlagMarkers
import Verif.Props.SRef
import Verif.Props.SRefSet
import Verif.Props.Modify
import Verif.Props.AliasTable
import Verif.Props.Guards
import Verif.Props.CppExp
import Verif.Props.CppHash
import Verif.Props.CppCond
import Verif.Props.CppInclude
import Verif.Props.IncludeNest
import Verif.Props.MacroCache
import Verif.Props.Flags
import Verif.Props.FlagName
import Verif.Props.CExpr
import Verif.Props.Constraint
import Verif.Props.LibRef
import Verif.Props.ConstraintDump
import Verif.Props.Usymtab
import Verif.Props.Number
import Verif.Props.StringLit
import Verif.Props.TypeSpec
import Verif.Props.Format
import Verif.Props.Prim
import Verif.Props.TypeMatch
import Verif.Props.Transfer
import Verif.Props.TypeMatchRules
import Verif.Props.FinalScope
import Verif.Props.Destroyed
import Verif.Props.CppMacro
import Verif.Props.CppArgs
import Verif.Props.TransferTable
import Verif.Props.NameCheck
import Verif.Props.EvalOrder
import Verif.Props.LoopEffect
import Verif.Props.SwitchEnum
import Verif.Props.Options
import Verif.Props.OptionsFiles
import Verif.Props.Paths
import Verif.Props.PathSearch
import Verif.Props.Access
import Verif.Props.TestFacts
import Verif.Props.StmtGen
import Verif.Props.StmtSwitch
import Verif.Props.CppDefine
import Verif.Props.CppRedef
import Verif.Props.UseMarks
import Verif.Props.MacroParam
import Verif.Props.Rescan
import Verif.Props.LibEntry
import Verif.Props.SymSection
import Verif.Props.FallThrough
import Verif.Props.BreakMsg
import Verif.Props.DistinctName
import Verif.Props.Snprintf
import Verif.Props.OpCheck
import Verif.Props.Message
import Verif.Props.Init
import Verif.Props.ExportLocal
import Verif.Props.Comment
import Verif.Props.Special
import Verif.Props.Redecl
import Verif.Props.RedeclClauses
import Verif.Props.GlobUse
import Verif.Props.ConstraintOr
import Verif.Props.CallModify
import Verif.Props.UseCheck
import Verif.Props.ReallyDefined
import Verif.Props.CompleteDef
import Verif.Props.NationalName
import Verif.Props.Unused
import Verif.Props.Redeclared
import Verif.Props.RedeclaredStatic
import Verif.Props.Declarator
import Verif.Props.SortCheck
import Verif.Props.LoopHeuristics
import Verif.Props.TypeTable
import Verif.Props.Intern
import Verif.Props.MetaState
import Verif.Props.MetaMerge
import Verif.Props.ArgPass
import Verif.Props.TempFiles
import Verif.Props.OpenFiles
import Verif.Props.StateHist
import Verif.Props.InputStream
import Verif.Props.MtScan
import Verif.Props.SameAlt
import Verif.Props.StateClause
import Verif.Props.MergeEnsures
import Verif.Props.Cast
import Verif.Props.MacroCheck
import Verif.Props.LitMatch
import Verif.Props.GlobReturn
import Verif.Props.GlobQual
import Verif.Props.AllDefined
import Verif.Props.Mapping
import Verif.Props.InfixTerm
import Verif.Props.TermList
import Verif.Props.PassThrough

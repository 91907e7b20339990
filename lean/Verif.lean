import Verif.Model.Basic
import Verif.Model.State
import Verif.Model.Scan
import Verif.Model.Storage
import Verif.Model.Parser
import Verif.Model.Z80Table
import Verif.Model.Ez80Table
import Verif.Model.PassTwo
import Verif.Model.Emit
import Verif.Model.Instr
import Verif.Model.Directive
import Verif.Model.Preop
import Verif.Model.PassOne
import Verif.Model.Bitmap
import Verif.Model.Knot
import Verif.Model.ExpandBuf
import Verif.Model.Modp
import Verif.Model.Sig
import Verif.Model.Export
import Verif.Model.Main
import Verif.Props.Operands
import Verif.Props.Literals
import Verif.Props.Expr
import Verif.Lemmas.StepsMain
import Verif.Props.Run
import Verif.Props.Sessions
import Verif.Props.Export
import Verif.Props.Signature
import Verif.Props.Text
import Verif.Props.Passes
import Verif.Props.Cond
import Verif.Props.Program
import Verif.Props.Layout
import Verif.Props.Split
import Verif.Props.Data
import Verif.Props.Directives
import Verif.Props.Anon
import Verif.Props.Labels
import Verif.Props.Names
import Verif.Props.Import
import Verif.Props.Tables
import Verif.Props.Defines
import Verif.Props.Options
import Verif.Props.Decode
import Verif.Props.DecodeEz80
import Verif.Props.Instr
import Verif.Props.Addinstr
import Verif.Props.Macro
import Verif.Props.Function
import Verif.Props.Calls
import Verif.Props.Terminate
import Verif.Props.Message
import Verif.Props.Bitmap
import Verif.Props.ImageMap
import Verif.Props.Include
import Verif.Props.ProgramImport
import Verif.Props.Mark
import Verif.Props.Violations
import Verif.Props.MacroDef
import Verif.Props.Computed
import Verif.Props.Buffer
import Verif.Props.Assume
import Verif.Props.Reproducible
import Verif.Spec.ProgramFile
import Verif.Lemmas.ProgramFile
import Verif.Props.ProgramCalls
import Verif.Props.ProgramFile
import Verif.Spec.AppFile
import Verif.Lemmas.AppFile
import Verif.Props.AppFile
import Verif.Spec.Option
import Verif.Spec.Predefined
import Verif.Props.Option
import Verif.Props.Predefined
import Verif.Props.Statistics
import Verif.Props.SymbolRun
import Verif.Props.StatsOnly
import Verif.Props.Named
import Verif.Props.Ignored
import Verif.Spec.Ignored
import Verif.Lemmas.Ignored
import Verif.Props.FunctionDef
import Verif.Lemmas.SymOnly
import Verif.Props.SymbolOnly

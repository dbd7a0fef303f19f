import Verif.Py.Basic
import Verif.Py.Num
import Verif.Model.Parse
import Verif.Model.Column
import Verif.Model.Table
import Verif.Model.Diff
import Verif.Model.Mygration
import Verif.Spec.MySQL
import Verif.Spec.Tables
import Verif.Proofs.Dict
import Verif.Proofs.Render
import Verif.Proofs.Clauses
import Verif.Proofs.AlterCols
import Verif.Proofs.AlterKeys
import Verif.Proofs.AlterAll
import Verif.Spec.Columns
import Verif.Proofs.Chars
import Verif.Proofs.Check
import Verif.Proofs.ColumnRender
import Verif.Props.Examples
import Verif.Props.C01
import Verif.Props.C02
import Verif.Props.C08
import Verif.Props.C04
import Verif.Model.Database
import Verif.Model.Parsers
import Verif.Model.Reader
import Verif.Spec.Plan
import Verif.Proofs.Plan
import Verif.Proofs.PlanFks
import Verif.Proofs.PlanParts
import Verif.Props.C09
import Verif.Props.C11
import Verif.Props.C13
import Verif.Spec.Rows
import Verif.Proofs.Rows
import Verif.Props.C17
import Verif.Props.C23
import Verif.Spec.Sql
import Verif.Proofs.Sql
import Verif.Proofs.Quotes
import Verif.Props.C24
import Verif.Proofs.Replay
import Verif.Props.C07
import Verif.Spec.Checks
import Verif.Proofs.Checks
import Verif.Props.C27
import Verif.Props.C29
import Verif.Props.C30
import Verif.Props.C55
import Verif.Props.C34
import Verif.Props.C56
import Verif.Proofs.Text
import Verif.Proofs.Engine
import Verif.Props.C43
import Verif.Proofs.Lex
import Verif.Spec.Text
import Verif.Proofs.ReadColumn
import Verif.Proofs.ReadDefs
import Verif.Proofs.ReadKeys
import Verif.Proofs.ReadFks
import Verif.Proofs.ReadText
import Verif.Proofs.ReadBare
import Verif.Props.C35
import Verif.Spec.Dump
import Verif.Spec.Declare
import Verif.Proofs.ReadCreate
import Verif.Proofs.ReadTop
import Verif.Proofs.ReadProcess
import Verif.Proofs.ReadDeclare
import Verif.Proofs.ReadClean
import Verif.Proofs.ReadLoop
import Verif.Proofs.ReadDoc
import Verif.Proofs.Same
import Verif.Props.C38
import Verif.Spec.Script
import Verif.Spec.Remarks
import Verif.Proofs.ReadInsert
import Verif.Proofs.ReadInsertText
import Verif.Proofs.ReadScript
import Verif.Proofs.ReadFiles
import Verif.Proofs.ReadRows
import Verif.Proofs.ReadReach
import Verif.Props.C39
import Verif.Props.C41
import Verif.Model.Dotenv
import Verif.Model.Commands
import Verif.Spec.Env
import Verif.Proofs.Env
import Verif.Proofs.Run
import Verif.Proofs.CheckRun
import Verif.Props.C45
import Verif.Props.C47
import Verif.Props.C48
import Verif.Proofs.Kept
import Verif.Proofs.Nodes
import Verif.Proofs.Plain
import Verif.Proofs.Tracked
import Verif.Props.C63
import Verif.Props.C64
import Verif.Spec.Live
import Verif.Proofs.ReadLive
import Verif.Proofs.ReadComment
import Verif.Proofs.Agree
import Verif.Props.C65
import Verif.Props.C62
import Verif.Props.C66
import Verif.Proofs.Widths
import Verif.Props.C15
import Verif.Spec.Grammar
import Verif.Spec.Meaning
import Verif.Proofs.Lexes
import Verif.Proofs.ColumnSql
import Verif.Proofs.StmtSql
import Verif.Props.C51
import Verif.Spec.Server
import Verif.Proofs.Exec
import Verif.Proofs.FkSets
import Verif.Proofs.Stages
import Verif.Proofs.States
import Verif.Proofs.Phases
import Verif.Proofs.Phases2
import Verif.Proofs.Trouble
import Verif.Proofs.ServerCheck
import Verif.Props.C14
import Verif.Proofs.Resume
import Verif.Proofs.Reading
import Verif.Props.C53
import Verif.Proofs.Converge
import Verif.Props.C67
import Verif.Spec.Session
import Verif.Spec.World
import Verif.Proofs.Session
import Verif.Proofs.Refused
import Verif.Props.C68
import Verif.Proofs.World
import Verif.Proofs.RowCols
import Verif.Props.C69
import Verif.Props.C70
import Verif.Proofs.Again
import Verif.Props.C71
import Verif.Props.C71Iff
import Verif.Props.C72
import Verif.Props.C73
import Verif.Model.Disk
import Verif.Model.Main
import Verif.Props.C74
import Verif.Props.C76
import Verif.Model.Warnings
import Verif.Props.C77
import Verif.Spec.Faults
import Verif.Proofs.Faults
import Verif.Proofs.KeyCols
import Verif.Props.C78
import Verif.Props.C79
import Verif.Model.CoreOps
import Verif.Props.C80
import Verif.Proofs.CoreReplay
import Verif.Props.C81
import Verif.Spec.Annotate
import Verif.Proofs.Annotate
import Verif.Props.C82
import Verif.Props.C83
import Verif.Props.C84
import Verif.Model.Edit
import Verif.Spec.Edit
import Verif.Props.C85
import Verif.Model.Json
import Verif.Spec.Json
import Verif.Proofs.Json
import Verif.Proofs.JsonRead
import Verif.Props.C86
import Verif.Props.C87
import Verif.Props.C74Glob
import Verif.Props.C41Slash
import Verif.Props.C37Blank
import Verif.Spec.JsonValue
import Verif.Spec.Settings
import Verif.Model.Settings
import Verif.Proofs.JsonValue
import Verif.Props.C88
import Verif.Spec.JsonPlain
import Verif.Proofs.JsonOnly
import Verif.Proofs.JsonClean
import Verif.Props.C89
import Verif.Spec.Updated
import Verif.Proofs.ReadUpdate
import Verif.Props.C62Update
import Verif.Props.C49Program
import Verif.Props.C90
import Verif.Props.C58Program
import Verif.Props.C69Program
import Verif.Props.C70Program
import Verif.Props.C71Program
import Verif.Props.C61Program

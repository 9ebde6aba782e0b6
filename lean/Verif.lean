import Verif.Props.Parse
import Verif.Props.Lexical
import Verif.Props.Accept
import Verif.Props.Structure
import Verif.Props.Build
import Verif.Props.Visitor
import Verif.Props.Errors
import Verif.Props.Gorm
import Verif.Props.GormText
import Verif.Props.GormComments
import Verif.Props.EntQL
import Verif.Props.GormSql
import Verif.Props.Agree
import Verif.Props.EntSQL
import Verif.Props.EntSQLSql
import Verif.Props.Tokens
import Verif.Props.Scope
import Verif.Props.GormErr
import Verif.Props.PegFile
import Verif.Steps
import Verif.StepsLin
import Verif.StepsBound
import Verif.StepsChain
import Verif.StepsHead
import Verif.StepsLocal
import Verif.StepsTails
import Verif.StepsLinear
import Verif.Spec.Leaves
import Verif.LeafThms
import Verif.StepsPrim
import Verif.StepsTree
import Verif.Props.Steps
import Verif.Trace
import Verif.Msg
import Verif.MsgThms
import Verif.Props.Messages
import Verif.Utf8
import Verif.Pieces
import Verif.Trail
import Verif.Template
import Verif.Guard
import Verif.Props.Template
import Verif.RoundTrip
import Verif.Props.Bytes
import Verif.RepoTests
import Verif.Props.ParseErrors
import Verif.Props.Inert
import Verif.Props.Layout
import Verif.Props.Size
import Verif.Props.Word32
import Verif.Props.Leaves
import Verif.Props.Heap
import Verif.Props.Faults
import Verif.Props.Memory
import Verif.Props.Deep
import Verif.Props.Stack
import Verif.Props.Key
import Verif.Props.ErrText
import Verif.Spec.Case
import Verif.CaseThms
import Verif.Props.Case
import Verif.Spec.Alphabet
import Verif.Props.Alphabet
import Verif.PegText
import Verif.Props.GoCode
import Verif.Spec.Words
import Verif.WordsThms
import Verif.WordsSync
import Verif.WordsRun
import Verif.Props.Words
import Verif.Mini.Ast
import Verif.Mini.Read
import Verif.Mini.Text
import Verif.Mini.TreeProg
import Verif.Mini.ParseProg
import Verif.Mini.JoinProg
import Verif.Mini.NodeProg
import Verif.Mini.VisitorProg
import Verif.Mini.GormProg
import Verif.Mini.EntqlProg
import Verif.Mini.UtilProg
import Verif.Mini.EntsqlProg
import Verif.Mini.PegProg
import Verif.Mini.Texts
import Verif.Mini.Eval
import Verif.Mini.Mq
import Verif.Mini.Steps
import Verif.Mini.TreeRun
import Verif.Mini.TreeMore
import Verif.Mini.PegMeths
import Verif.Mini.PegRun
import Verif.Mini.PegExecute
import Verif.Mini.ParseRun
import Verif.Mini.Buf
import Verif.Mini.JoinRun
import Verif.Mini.NodeRun
import Verif.Mini.StringRun
import Verif.Mini.BuildRun
import Verif.Mini.BuildTop
import Verif.Props.GoText
import Verif.Mini.VisitorRun
import Verif.Mini.VisitorInit
import Verif.Props.GoVisitor
import Verif.Mini.Gq
import Verif.Mini.GormRun
import Verif.Mini.GormVisit
import Verif.Mini.GormWire
import Verif.Mini.GormTop
import Verif.Mini.GormDone
import Verif.Props.GoGorm
import Verif.Mini.Eq
import Verif.Mini.EqVisit
import Verif.Mini.EqTop
import Verif.Props.GoEntql
import Verif.Mini.Sq
import Verif.Mini.SqRun
import Verif.Mini.SqLib
import Verif.Mini.SqVisit
import Verif.Mini.SqVisit2
import Verif.Mini.SqQuery
import Verif.Mini.SqEdge
import Verif.Mini.SqEdge2
import Verif.Mini.SqEdge3
import Verif.Mini.SqTop
import Verif.Props.GoEntsql
import Verif.Props.EndToEnd
import Verif.Gen.Ast
import Verif.Gen.Read
import Verif.Gen.Text
import Verif.Gen.Prog
import Verif.Gen.Eval
import Verif.Gen.Lib
import Verif.Gen.Texts
import Verif.Gen.Steps
import Verif.Gen.AddRun
import Verif.Gen.InitRun
import Verif.Gen.ResetRun
import Verif.Gen.InitDone
import Verif.Gen.ParseRun
import Verif.Gen.NameRun
import Verif.Gen.PosRun
import Verif.Gen.ErrRun
import Verif.Gen.OptRun
import Verif.Gen.AstRun
import Verif.Gen.TreeRun
import Verif.Gen.Session
import Verif.Props.GoSupport
import Verif.Props.GoWhole
import Verif.Props.GoRule
import Verif.Props.GoPretty
import Verif.Props.GoSteps
import Verif.Props.GoTree
import Verif.Props.GoShared

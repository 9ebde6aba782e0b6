import Verif.GormMsg
import Verif.EntQL
import Verif.EntSQL
import Verif.Ast
import Verif.Msg

/-! # The texts of the errors that callers see -/

namespace Verif

/-- The text of an error that `Parse` returned for `q` (/repo/miniquery/parse.go:3-16): `parseError.Error` (/repo/miniquery/miniquery.peg.go:318-340;
`Pretty` is not set) or the text of a `*strconv.NumError` (recorded by /repo/miniquery/tree.go:257-258, 267-268), made by strconv from the name of its
function, the quoted text and the reason.  `P` is `strconv.IsPrint`; `none`: the text is not modelled (/repo/miniquery/tree.go:84, 94; `Parse` never
returns these errors). -/
def Err.text (P : Char → Bool) (q : Str) : Err → Option Str
  | .syntax _ _ =>
    match pegParse q [] with
    | .err m _ => errorText P false q m
    | _ => none
  | .intRange x => some (c!"strconv.Atoi: parsing " ++ quote P x ++ c!": value out of range")
  | .badInt x => some (c!"strconv.Atoi: parsing " ++ quote P x ++ c!": invalid syntax")
  | .badBool x => some (c!"strconv.ParseBool: parsing " ++ quote P x ++ c!": invalid syntax")
  | .badFunction => none

/-- The text of an error that `WireMiniQuery` adds for the query `q` (/repo/gormq/miniquery.go:49, 55, 99); `model` is the text of an error of
`GetOrParseSchema` (/repo/gormq/miniquery.go:30, or gorm's). -/
def DbErr.text (P : Char → Bool) (model q : Str) : DbErr → Option Str
  | .parse e => (e.text P q).map fun t => c!"invalid query syntax: " ++ t
  | .schema => some model
  | .build e => some (e.text P)

/-- The text of an error of `Build` (/repo/entmq/entql.go:53, 70, 141, 150); `%q` of a `*Node` quotes its `String`
(/repo/miniquery/node.go:92-138). -/
def EErr.text (P : Char → Bool) (q : Str) : EErr → Option Str
  | .parse e => e.text P q
  | .opNode o => (nodeStr (.op o)).map fun t => c!"unexpected op node: " ++ quote P t
  | .unexpectedOp o => some (c!"unexpected op " ++ quote P o)
  | .invalidType => some (c!"invalid type " ++ quote P c!"reference")

/-- `errors.Wrapf` of github.com/pkg/errors, used at /repo/entmq/entql.go:16, 27: the message, then the text of the cause. -/
def wrapped (P : Char → Bool) (msg q cause : Str) : Str := msg ++ quote P q ++ c!": " ++ cause

/-- The text of an error of `BuildEntQL`, /repo/entmq/entql.go:27. -/
def buildText (P : Char → Bool) (q : Str) (e : EErr) : Option Str := (e.text P q).map (wrapped P c!"failed to build query: " q)

/-- The text of an error of `ApplyEntQL`, /repo/entmq/entql.go:16. -/
def applyText (P : Char → Bool) : AEnd → Option Str
  | .failed q e => (e.text P q).map (wrapped P c!"failed to apply query: " q)
  | _ => none

/-- The text of an error that the ent SQL builder records for the query `q`
(/repo/entmq/entsql.go:31, 53, 100, 108, 120, 142, 154, 182, 205, 211).  How `sql.Builder.Err` joins the recorded errors is ent's. -/
def SErr.text (P : Char → Bool) (q : Str) : SErr → Option Str
  | .parse e => e.text P q
  | .opNode o => (nodeStr (.op o)).map fun t => c!"unexpected op node: " ++ quote P t
  | .edgeParams => some c!"关联参数错误"
  | .noEdge x => some (c!"不存在关联: " ++ quote P x)
  | .edgeCond c => (nodeStr c).map fun t => c!"关联条件错误: " ++ quote P t
  | .unsupported f => some (c!"不支持的函数: " ++ quote P f)
  | .predOp o => some (c!"unexpected predicate op " ++ quote P o)
  | .unexpectedOp o => some (c!"unexpected op " ++ quote P o)
  | .invalidType => some (c!"invalid type " ++ quote P c!"reference")

end Verif

import Verif.Mini.Read
import Verif.Mini.Text
import Verif.Mini.TreeProg
import Verif.Mini.ParseProg
import Verif.Mini.JoinProg
import Verif.Mini.NodeProg
import Verif.Mini.VisitorProg
import Verif.Mini.GormProg
import Verif.Mini.EntqlProg
import Verif.Mini.EntsqlProg
import Verif.Mini.UtilProg
import Verif.Mini.PegProg

/-! # The texts of the files say what the programs are -/

namespace Verif.Mini

/-- /repo/miniquery/tree.go -/
theorem tree_read : readGo treeText = some treeDecls := by decide +kernel
/-- /repo/miniquery/parse.go -/
theorem parse_read : readGo parseText = some parseDecls := by decide +kernel
/-- /repo/miniquery/join.go -/
theorem join_read : readGo joinText = some joinDecls := by decide +kernel
/-- /repo/miniquery/node.go -/
theorem node_read : readGo nodeText = some nodeDecls := by decide +kernel
/-- /repo/miniquery/visitor.go -/
theorem visitor_read : readGo visitorText = some visitorDecls := by decide +kernel
/-- /repo/gormq/miniquery.go -/
theorem gorm_read : readGo gormText = some gormDecls := by decide +kernel
/-- /repo/entmq/entql.go -/
theorem entql_read : readGo entqlText = some entqlDecls := by decide +kernel
/-- /repo/entmq/entsql.go -/
theorem entsql_read : readGo entsqlText = some entsqlDecls := by decide +kernel
/-- /repo/entmq/entsql_util.go -/
theorem util_read : readGo utilText = some utilDecls := by decide +kernel
/-- /repo/miniquery/miniquery.peg.go:262-272, 360-433 -/
theorem peg_read : readGo pegText = some pegDecls := by decide +kernel

end Verif.Mini

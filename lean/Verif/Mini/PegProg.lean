import Verif.Mini.Ast

/-! # What the text of a file says (generated from it; `Verif.Mini.Texts` checks it) -/

namespace Verif.Mini

/-- The body of `MiniQueryPeg.Execute`, /repo/miniquery/miniquery.peg.go -/
def pegMiniQueryPegExecute : Stmts := (.cons (.define [c!"buffer", c!"_buffer", c!"text", c!"begin", c!"end"] (.cons (.sel (.id c!"p") c!"Buffer") (.cons (.sel (.id c!"p") c!"buffer") (.cons (.str c!"") (.cons (.int 0) (.cons (.int 0) .nil))))))
  (.cons (.range c!"_" c!"token" (.call (.sel (.id c!"p") c!"Tokens") .nil false) (.cons (.switch (.sel (.id c!"token") c!"pegRule") (.case (.cons (.id c!"rulePegText") .nil) (.cons (.assign (.cons (.id c!"begin") (.cons (.id c!"end") .nil)) (.cons (.call (.id c!"int") (.cons (.sel (.id c!"token") c!"begin") .nil) false) (.cons (.call (.id c!"int") (.cons (.sel (.id c!"token") c!"end") .nil) false) .nil)))
  (.cons (.assign (.cons (.id c!"text") .nil) (.cons (.call (.id c!"string") (.cons (.slc (.id c!"_buffer") (.id c!"begin") (.id c!"end")) .nil) false) .nil))
  .nil))
  (.case (.cons (.id c!"ruleAction0") .nil) (.cons (.expr (.call (.sel (.id c!"p") c!"PopLogic") .nil false))
  .nil)
  (.case (.cons (.id c!"ruleAction1") .nil) (.cons (.expr (.call (.sel (.id c!"p") c!"PopNot") .nil false))
  .nil)
  (.case (.cons (.id c!"ruleAction2") .nil) (.cons (.expr (.call (.sel (.id c!"p") c!"PopCompare") .nil false))
  .nil)
  (.case (.cons (.id c!"ruleAction3") .nil) (.cons (.expr (.call (.sel (.id c!"p") c!"AddCompare") (.cons (.id c!"text") .nil) false))
  .nil)
  (.case (.cons (.id c!"ruleAction4") .nil) (.cons (.expr (.call (.sel (.id c!"p") c!"PopCompare") .nil false))
  .nil)
  (.case (.cons (.id c!"ruleAction5") .nil) (.cons (.expr (.call (.sel (.id c!"p") c!"PopPredicate") .nil false))
  .nil)
  (.case (.cons (.id c!"ruleAction6") .nil) (.cons (.expr (.call (.sel (.id c!"p") c!"AddOperation") (.cons (.id c!"text") .nil) false))
  .nil)
  (.case (.cons (.id c!"ruleAction7") .nil) (.cons (.expr (.call (.sel (.id c!"p") c!"PopBetween") .nil false))
  .nil)
  (.case (.cons (.id c!"ruleAction8") .nil) (.cons (.expr (.call (.sel (.id c!"p") c!"PopParentheses") .nil false))
  .nil)
  (.case (.cons (.id c!"ruleAction9") .nil) (.cons (.expr (.call (.sel (.id c!"p") c!"PopFunction") .nil false))
  .nil)
  (.case (.cons (.id c!"ruleAction10") .nil) (.cons (.expr (.call (.sel (.id c!"p") c!"AddMark") .nil false))
  .nil)
  (.case (.cons (.id c!"ruleAction11") .nil) (.cons (.expr (.call (.sel (.id c!"p") c!"PopArray") .nil false))
  .nil)
  (.case (.cons (.id c!"ruleAction12") .nil) (.cons (.expr (.call (.sel (.id c!"p") c!"AddMark") .nil false))
  .nil)
  (.case (.cons (.id c!"ruleAction13") .nil) (.cons (.expr (.call (.sel (.id c!"p") c!"PopIdentifierReference") .nil false))
  .nil)
  (.case (.cons (.id c!"ruleAction14") .nil) (.cons (.expr (.call (.sel (.id c!"p") c!"AddName") (.cons (.id c!"text") .nil) false))
  .nil)
  (.case (.cons (.id c!"ruleAction15") .nil) (.cons (.expr (.call (.sel (.id c!"p") c!"AddCompare") (.cons (.id c!"text") .nil) false))
  .nil)
  (.case (.cons (.id c!"ruleAction16") .nil) (.cons (.expr (.call (.sel (.id c!"p") c!"AddCompare") (.cons (.id c!"text") .nil) false))
  .nil)
  (.case (.cons (.id c!"ruleAction17") .nil) (.cons (.expr (.call (.sel (.id c!"p") c!"AddCompare") (.cons (.id c!"text") .nil) false))
  .nil)
  (.case (.cons (.id c!"ruleAction18") .nil) (.cons (.expr (.call (.sel (.id c!"p") c!"AddLogic") (.cons (.id c!"text") .nil) false))
  .nil)
  (.case (.cons (.id c!"ruleAction19") .nil) (.cons (.expr (.call (.sel (.id c!"p") c!"AddLogic") (.cons (.id c!"text") .nil) false))
  .nil)
  (.case (.cons (.id c!"ruleAction20") .nil) (.cons (.expr (.call (.sel (.id c!"p") c!"AddMatch") (.cons (.id c!"text") .nil) false))
  .nil)
  (.case (.cons (.id c!"ruleAction21") .nil) (.cons (.expr (.call (.sel (.id c!"p") c!"AddMark") .nil false))
  .nil)
  (.case (.cons (.id c!"ruleAction22") .nil) (.cons (.expr (.call (.sel (.id c!"p") c!"PopArray") .nil false))
  .nil)
  (.case (.cons (.id c!"ruleAction23") .nil) (.cons (.expr (.call (.sel (.id c!"p") c!"AddMark") .nil false))
  .nil)
  (.case (.cons (.id c!"ruleAction24") .nil) (.cons (.expr (.call (.sel (.id c!"p") c!"PopArray") .nil false))
  .nil)
  (.case (.cons (.id c!"ruleAction25") .nil) (.cons (.expr (.call (.sel (.id c!"p") c!"AddInteger") (.cons (.id c!"text") .nil) false))
  .nil)
  (.case (.cons (.id c!"ruleAction26") .nil) (.cons (.expr (.call (.sel (.id c!"p") c!"AddBoolean") (.cons (.id c!"text") .nil) false))
  .nil)
  (.case (.cons (.id c!"ruleAction27") .nil) (.cons (.expr (.call (.sel (.id c!"p") c!"AddNull") .nil false))
  .nil)
  (.case (.cons (.id c!"ruleAction28") .nil) (.cons (.expr (.call (.sel (.id c!"p") c!"AddString") (.cons (.id c!"text") .nil) false))
  .nil)
  (.case (.cons (.id c!"ruleAction29") .nil) (.cons (.expr (.call (.sel (.id c!"p") c!"AddString") (.cons (.id c!"text") .nil) false))
  .nil)
  .nil))))))))))))))))))))))))))))))))
  .nil))
  (.cons (.assign (.cons (.id c!"_") (.cons (.id c!"_") (.cons (.id c!"_") (.cons (.id c!"_") (.cons (.id c!"_") .nil))))) (.cons (.id c!"buffer") (.cons (.id c!"_buffer") (.cons (.id c!"text") (.cons (.id c!"begin") (.cons (.id c!"end") .nil))))))
  .nil)))

/-- What /repo/miniquery/miniquery.peg.go declares. -/
def pegDecls : List Decl := [
  .struct c!"MiniQueryPeg" [(c!"Tree", (.un c!"*" (.id c!"Tree"))), (c!"Buffer", (.id c!"string")), (c!"buffer", (.arr (.id c!"rune"))), (c!"rules", (.arr (.id c!"func"))), (c!"parse", (.id c!"func")), (c!"reset", (.id c!"func")), (c!"Pretty", (.id c!"bool")), (c!"tokens32", (.id c!"tokens32"))],
  .func c!"MiniQueryPeg.Execute" true [c!"p"] [] pegMiniQueryPegExecute]

end Verif.Mini

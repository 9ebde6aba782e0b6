import Verif.Mini.Ast

/-! # What the text of a file says (generated from it; `Verif.Mini.Texts` checks it) -/

namespace Verif.Mini

/-- The body of `Visitor.Init`, /repo/miniquery/visitor.go -/
def visitorVisitorInit : Stmts := (.cons (.define [c!"noop"] (.cons (.fn [c!"ctx", c!"node"] [c!"err"] (.cons (.ret .nil)
  .nil)) .nil))
  (.cons (.ite .nil (.bin c!"==" (.sel (.id c!"v") c!"OperationNode") (.id c!"nil")) (.cons (.assign (.cons (.sel (.id c!"v") c!"OperationNode") .nil) (.cons (.id c!"noop") .nil))
  .nil) .nil)
  (.cons (.ite .nil (.bin c!"==" (.sel (.id c!"v") c!"IdentifierNode") (.id c!"nil")) (.cons (.assign (.cons (.sel (.id c!"v") c!"IdentifierNode") .nil) (.cons (.id c!"noop") .nil))
  .nil) .nil)
  (.cons (.ite .nil (.bin c!"==" (.sel (.id c!"v") c!"ParenthesesExpression") (.id c!"nil")) (.cons (.assign (.cons (.sel (.id c!"v") c!"ParenthesesExpression") .nil) (.cons (.fn [c!"ctx", c!"node"] [c!"_"] (.cons (.ret (.cons (.call (.sel (.id c!"v") c!"Visit") (.cons (.id c!"ctx") (.cons (.sel (.id c!"node") c!"Expression") .nil)) false) .nil))
  .nil)) .nil))
  .nil) .nil)
  (.cons (.ite .nil (.bin c!"==" (.sel (.id c!"v") c!"NotExpression") (.id c!"nil")) (.cons (.assign (.cons (.sel (.id c!"v") c!"NotExpression") .nil) (.cons (.fn [c!"ctx", c!"node"] [c!"_"] (.cons (.ret (.cons (.call (.sel (.id c!"v") c!"Visit") (.cons (.id c!"ctx") (.cons (.sel (.id c!"node") c!"Expression") .nil)) false) .nil))
  .nil)) .nil))
  .nil) .nil)
  (.cons (.ite .nil (.bin c!"==" (.sel (.id c!"v") c!"FunctionExpression") (.id c!"nil")) (.cons (.assign (.cons (.sel (.id c!"v") c!"FunctionExpression") .nil) (.cons (.fn [c!"ctx", c!"node"] [c!"err"] (.cons (.range c!"_" c!"n" (.sel (.id c!"node") c!"Params") (.cons (.ite (.cons (.assign (.cons (.id c!"err") .nil) (.cons (.call (.sel (.id c!"v") c!"Visit") (.cons (.id c!"ctx") (.cons (.id c!"n") .nil)) false) .nil))
  .nil) (.bin c!"!=" (.id c!"err") (.id c!"nil")) (.cons (.ret .nil)
  .nil) .nil)
  .nil))
  (.cons (.ret .nil)
  .nil))) .nil))
  .nil) .nil)
  (.cons (.define [c!"binary"] (.cons (.fn [c!"ctx", c!"node"] [c!"err"] (.cons (.assign (.cons (.id c!"err") .nil) (.cons (.call (.sel (.id c!"v") c!"Visit") (.cons (.id c!"ctx") (.cons (.sel (.id c!"node") c!"Left") .nil)) false) .nil))
  (.cons (.ite .nil (.bin c!"==" (.id c!"err") (.id c!"nil")) (.cons (.assign (.cons (.id c!"err") .nil) (.cons (.call (.sel (.id c!"v") c!"Visit") (.cons (.id c!"ctx") (.cons (.sel (.id c!"node") c!"Op") .nil)) false) .nil))
  .nil) .nil)
  (.cons (.ite .nil (.bin c!"==" (.id c!"err") (.id c!"nil")) (.cons (.assign (.cons (.id c!"err") .nil) (.cons (.call (.sel (.id c!"v") c!"Visit") (.cons (.id c!"ctx") (.cons (.sel (.id c!"node") c!"Right") .nil)) false) .nil))
  .nil) .nil)
  (.cons (.ret .nil)
  .nil))))) .nil))
  (.cons (.ite .nil (.bin c!"==" (.sel (.id c!"v") c!"BinaryExpression") (.id c!"nil")) (.cons (.assign (.cons (.sel (.id c!"v") c!"BinaryExpression") .nil) (.cons (.id c!"binary") .nil))
  .nil) .nil)
  (.cons (.ite .nil (.bin c!"==" (.sel (.id c!"v") c!"LogicExpression") (.id c!"nil")) (.cons (.assign (.cons (.sel (.id c!"v") c!"LogicExpression") .nil) (.cons (.id c!"binary") .nil))
  .nil) .nil)
  (.cons (.ite .nil (.bin c!"==" (.sel (.id c!"v") c!"PredicatesExpression") (.id c!"nil")) (.cons (.assign (.cons (.sel (.id c!"v") c!"PredicatesExpression") .nil) (.cons (.fn [c!"ctx", c!"node"] [c!"err"] (.cons (.assign (.cons (.id c!"err") .nil) (.cons (.call (.sel (.id c!"v") c!"Visit") (.cons (.id c!"ctx") (.cons (.sel (.id c!"node") c!"Left") .nil)) false) .nil))
  (.cons (.ite .nil (.bin c!"==" (.id c!"err") (.id c!"nil")) (.cons (.assign (.cons (.id c!"err") .nil) (.cons (.call (.sel (.id c!"v") c!"Visit") (.cons (.id c!"ctx") (.cons (.sel (.id c!"node") c!"Op") .nil)) false) .nil))
  .nil) .nil)
  (.cons (.ret .nil)
  .nil)))) .nil))
  .nil) .nil)
  (.cons (.ite .nil (.bin c!"==" (.sel (.id c!"v") c!"BetweenExpression") (.id c!"nil")) (.cons (.assign (.cons (.sel (.id c!"v") c!"BetweenExpression") .nil) (.cons (.fn [c!"ctx", c!"node"] [c!"err"] (.cons (.assign (.cons (.id c!"err") .nil) (.cons (.call (.sel (.id c!"v") c!"Visit") (.cons (.id c!"ctx") (.cons (.sel (.id c!"node") c!"Left") .nil)) false) .nil))
  (.cons (.ite .nil (.bin c!"==" (.id c!"err") (.id c!"nil")) (.cons (.assign (.cons (.id c!"err") .nil) (.cons (.call (.sel (.id c!"v") c!"Visit") (.cons (.id c!"ctx") (.cons (.sel (.id c!"node") c!"Op") .nil)) false) .nil))
  .nil) .nil)
  (.cons (.ite .nil (.bin c!"==" (.id c!"err") (.id c!"nil")) (.cons (.range c!"_" c!"n" (.sel (.id c!"node") c!"Params") (.cons (.ite (.cons (.assign (.cons (.id c!"err") .nil) (.cons (.call (.sel (.id c!"v") c!"Visit") (.cons (.id c!"ctx") (.cons (.id c!"n") .nil)) false) .nil))
  .nil) (.bin c!"!=" (.id c!"err") (.id c!"nil")) (.cons (.ret .nil)
  .nil) .nil)
  .nil))
  .nil) .nil)
  (.cons (.ret .nil)
  .nil))))) .nil))
  .nil) .nil)
  (.cons (.ite .nil (.bin c!"==" (.sel (.id c!"v") c!"ValueNode") (.id c!"nil")) (.cons (.assign (.cons (.sel (.id c!"v") c!"ValueNode") .nil) (.cons (.fn [c!"ctx", c!"node"] [c!"err"] (.cons (.ite .nil (.bin c!"==" (.sel (.id c!"node") c!"ValueType") (.id c!"ArrayValueType")) (.cons (.range c!"_" c!"n" (.sel (.id c!"node") c!"Array") (.cons (.ite (.cons (.assign (.cons (.id c!"err") .nil) (.cons (.call (.sel (.id c!"v") c!"Visit") (.cons (.id c!"ctx") (.cons (.id c!"n") .nil)) false) .nil))
  .nil) (.bin c!"!=" (.id c!"err") (.id c!"nil")) (.cons (.ret .nil)
  .nil) .nil)
  .nil))
  .nil) .nil)
  (.cons (.ret .nil)
  .nil))) .nil))
  .nil) .nil)
  .nil))))))))))))

/-- The body of `Visitor.Visit`, /repo/miniquery/visitor.go -/
def visitorVisitorVisit : Stmts := (.cons (.switch (.sel (.id c!"n") c!"Type") (.case (.cons (.id c!"ValueNodeType") .nil) (.cons (.ret (.cons (.call (.sel (.id c!"v") c!"ValueNode") (.cons (.id c!"ctx") (.cons (.id c!"n") .nil)) false) .nil))
  .nil)
  (.case (.cons (.id c!"OperationNodeType") .nil) (.cons (.ret (.cons (.call (.sel (.id c!"v") c!"OperationNode") (.cons (.id c!"ctx") (.cons (.id c!"n") .nil)) false) .nil))
  .nil)
  (.case (.cons (.id c!"IdentifierNodeType") .nil) (.cons (.ret (.cons (.call (.sel (.id c!"v") c!"IdentifierNode") (.cons (.id c!"ctx") (.cons (.id c!"n") .nil)) false) .nil))
  .nil)
  (.case (.cons (.id c!"ParenthesesExpressionType") .nil) (.cons (.ret (.cons (.call (.sel (.id c!"v") c!"ParenthesesExpression") (.cons (.id c!"ctx") (.cons (.id c!"n") .nil)) false) .nil))
  .nil)
  (.case (.cons (.id c!"CompareExpressionType") .nil) (.cons (.ret (.cons (.call (.sel (.id c!"v") c!"BinaryExpression") (.cons (.id c!"ctx") (.cons (.id c!"n") .nil)) false) .nil))
  .nil)
  (.case (.cons (.id c!"LogicExpressionType") .nil) (.cons (.ret (.cons (.call (.sel (.id c!"v") c!"LogicExpression") (.cons (.id c!"ctx") (.cons (.id c!"n") .nil)) false) .nil))
  .nil)
  (.case (.cons (.id c!"PredicatesExpressionType") .nil) (.cons (.ret (.cons (.call (.sel (.id c!"v") c!"PredicatesExpression") (.cons (.id c!"ctx") (.cons (.id c!"n") .nil)) false) .nil))
  .nil)
  (.case (.cons (.id c!"NotExpressionType") .nil) (.cons (.ret (.cons (.call (.sel (.id c!"v") c!"NotExpression") (.cons (.id c!"ctx") (.cons (.id c!"n") .nil)) false) .nil))
  .nil)
  (.case (.cons (.id c!"BetweenExpressionType") .nil) (.cons (.ret (.cons (.call (.sel (.id c!"v") c!"BetweenExpression") (.cons (.id c!"ctx") (.cons (.id c!"n") .nil)) false) .nil))
  .nil)
  (.case (.cons (.id c!"FunctionExpressionType") .nil) (.cons (.ret (.cons (.call (.sel (.id c!"v") c!"BetweenExpression") (.cons (.id c!"ctx") (.cons (.id c!"n") .nil)) false) .nil))
  .nil)
  .nil)))))))))))
  (.cons (.ret (.cons (.call (.sel (.id c!"errors") c!"Errorf") (.cons (.str c!"invalid type %q") (.cons (.sel (.id c!"n") c!"Type") .nil)) false) .nil))
  .nil))

/-- What /repo/miniquery/visitor.go declares. -/
def visitorDecls : List Decl := [
  .pkg c!"context",
  .pkg c!"errors",
  .alias c!"VisitFunc" (.id c!"func"),
  .struct c!"Visitor" [(c!"BinaryExpression", (.id c!"VisitFunc")), (c!"LogicExpression", (.id c!"VisitFunc")), (c!"BetweenExpression", (.id c!"VisitFunc")), (c!"FunctionExpression", (.id c!"VisitFunc")), (c!"PredicatesExpression", (.id c!"VisitFunc")), (c!"TerminateExpression", (.id c!"VisitFunc")), (c!"ParenthesesExpression", (.id c!"VisitFunc")), (c!"NotExpression", (.id c!"VisitFunc")), (c!"IdentifierNode", (.id c!"VisitFunc")), (c!"OperationNode", (.id c!"VisitFunc")), (c!"ValueNode", (.id c!"VisitFunc"))],
  .func c!"Visitor.Init" false [c!"v"] [] visitorVisitorInit,
  .func c!"Visitor.Visit" false [c!"v", c!"ctx", c!"n"] [c!"_"] visitorVisitorVisit]

end Verif.Mini

import Verif.Mini.Ast

/-! # What the text of a file says (generated from it; `Verif.Mini.Texts` checks it) -/

namespace Verif.Mini

/-- The value of `regSpace`, /repo/miniquery/tree.go -/
def treeregSpaceVal : Expr := (.call (.sel (.id c!"regexp") c!"MustCompile") (.cons (.str c!"\\s+") .nil) false)

/-- The value of `normalize`, /repo/miniquery/tree.go -/
def treenormalizeVal : Expr := (.lit (.map (.id c!"string") (.id c!"string")) (.cons (.str c!">=") (.cons (.str c!">") (.cons (.str c!"==") (.cons (.str c!"=") (.cons (.str c!"!=") (.cons (.str c!"<>") (.cons (.str c!"<") (.cons (.str c!"<=") (.cons (.str c!":") (.cons (.str c!"&&") (.cons (.str c!"||") (.cons (.str c!",") (.cons (.str c!"isnull") (.cons (.str c!"notnull") .nil)))))))))))))) (.cons (.str c!"gte") (.cons (.str c!"gt") (.cons (.str c!"eq") (.cons (.str c!"eq") (.cons (.str c!"neq") (.cons (.str c!"neq") (.cons (.str c!"lt") (.cons (.str c!"lte") (.cons (.str c!"eq") (.cons (.str c!"and") (.cons (.str c!"or") (.cons (.str c!"and") (.cons (.str c!"is null") (.cons (.str c!"is not null") .nil)))))))))))))))

/-- The body of `NormalizeOperation`, /repo/miniquery/tree.go -/
def treeNormalizeOperation : Stmts := (.cons (.assign (.cons (.id c!"s") .nil) (.cons (.call (.sel (.id c!"strings") c!"TrimSpace") (.cons (.id c!"s") .nil) false) .nil))
  (.cons (.assign (.cons (.id c!"s") .nil) (.cons (.call (.sel (.id c!"strings") c!"ToLower") (.cons (.id c!"s") .nil) false) .nil))
  (.cons (.assign (.cons (.id c!"s") .nil) (.cons (.call (.sel (.id c!"regSpace") c!"ReplaceAllString") (.cons (.id c!"s") (.cons (.str c!" ") .nil)) false) .nil))
  (.cons (.ite (.cons (.define [c!"v", c!"ok"] (.cons (.idx (.id c!"normalize") (.id c!"s")) .nil))
  .nil) (.id c!"ok") (.cons (.ret (.cons (.id c!"v") .nil))
  .nil) .nil)
  (.cons (.ret (.cons (.id c!"s") .nil))
  .nil)))))

/-- The body of `Tree.Push`, /repo/miniquery/tree.go -/
def treeTreePush : Stmts := (.cons (.assign (.cons (.sel (.id c!"t") c!"Stack") .nil) (.cons (.call (.id c!"append") (.cons (.sel (.id c!"t") c!"Stack") (.cons (.id c!"node") .nil)) false) .nil))
  .nil)

/-- The body of `Tree.Pop`, /repo/miniquery/tree.go -/
def treeTreePop : Stmts := (.cons (.define [c!"last"] (.cons (.bin c!"-" (.call (.id c!"len") (.cons (.sel (.id c!"t") c!"Stack") .nil) false) (.int 1)) .nil))
  (.cons (.ite .nil (.bin c!"<" (.id c!"last") (.int 0)) (.cons (.ret (.cons (.id c!"nil") .nil))
  .nil) .nil)
  (.cons (.define [c!"v"] (.cons (.idx (.sel (.id c!"t") c!"Stack") (.id c!"last")) .nil))
  (.cons (.assign (.cons (.sel (.id c!"t") c!"Stack") .nil) (.cons (.slc (.sel (.id c!"t") c!"Stack") .no (.id c!"last")) .nil))
  (.cons (.ret (.cons (.id c!"v") .nil))
  .nil)))))

/-- The body of `Tree.PopIdentifierReference`, /repo/miniquery/tree.go -/
def treeTreePopIdentifierReference : Stmts := (.cons (.define [c!"nodes"] (.cons (.call (.sel (.id c!"t") c!"popMarked") .nil false) .nil))
  (.cons (.define [c!"names"] (.cons (.call (.id c!"make") (.cons (.arr (.id c!"string")) (.cons (.int 0) (.cons (.call (.id c!"len") (.cons (.id c!"nodes") .nil) false) .nil))) false) .nil))
  (.cons (.range c!"_" c!"node" (.id c!"nodes") (.cons (.assign (.cons (.id c!"names") .nil) (.cons (.call (.id c!"append") (.cons (.id c!"names") (.cons (.sel (.id c!"node") c!"Name") .nil)) false) .nil))
  .nil))
  (.cons (.expr (.call (.sel (.id c!"t") c!"Push") (.cons (.un c!"&" (.lit (.id c!"Node") (.cons (.id c!"Type") (.cons (.id c!"Names") .nil)) (.cons (.id c!"ReferenceNodeType") (.cons (.id c!"names") .nil)))) .nil) false))
  .nil))))

/-- The body of `Tree.PopFunction`, /repo/miniquery/tree.go -/
def treeTreePopFunction : Stmts := (.cons (.define [c!"a"] (.cons (.call (.sel (.id c!"t") c!"Pop") .nil false) .nil))
  (.cons (.define [c!"n"] (.cons (.call (.sel (.id c!"t") c!"Pop") .nil false) .nil))
  (.cons (.ite .nil (.bin c!"||" (.bin c!"==" (.id c!"a") (.id c!"nil")) (.bin c!"==" (.id c!"n") (.id c!"nil"))) (.cons (.expr (.call (.sel (.id c!"t") c!"AddError") (.cons (.call (.sel (.id c!"fmt") c!"Errorf") (.cons (.str c!"invalid function exp %q %q") (.cons (.id c!"n") (.cons (.id c!"a") .nil))) false) .nil) false))
  (.cons (.ret .nil)
  .nil)) .nil)
  (.cons (.ite .nil (.bin c!"&&" (.bin c!"&&" (.bin c!"==" (.sel (.id c!"n") c!"Type") (.id c!"IdentifierNodeType")) (.bin c!"==" (.sel (.id c!"a") c!"Type") (.id c!"ValueNodeType"))) (.bin c!"==" (.sel (.id c!"a") c!"ValueType") (.id c!"ArrayValueType"))) (.cons (.expr (.call (.sel (.id c!"t") c!"Push") (.cons (.un c!"&" (.lit (.id c!"Node") (.cons (.id c!"Type") (.cons (.id c!"Name") (.cons (.id c!"Params") .nil))) (.cons (.id c!"FunctionExpressionType") (.cons (.sel (.id c!"n") c!"Name") (.cons (.sel (.id c!"a") c!"Array") .nil))))) .nil) false))
  .nil) (.cons (.expr (.call (.sel (.id c!"t") c!"AddError") (.cons (.call (.sel (.id c!"fmt") c!"Errorf") (.cons (.str c!"invalid function exp %q %q") (.cons (.sel (.id c!"n") c!"Type") (.cons (.sel (.id c!"a") c!"Type") .nil))) false) .nil) false))
  .nil))
  .nil))))

/-- The body of `Tree.PopBetween`, /repo/miniquery/tree.go -/
def treeTreePopBetween : Stmts := (.cons (.define [c!"up"] (.cons (.call (.sel (.id c!"t") c!"Pop") .nil false) .nil))
  (.cons (.define [c!"down"] (.cons (.call (.sel (.id c!"t") c!"Pop") .nil false) .nil))
  (.cons (.define [c!"op"] (.cons (.call (.sel (.id c!"t") c!"Pop") .nil false) .nil))
  (.cons (.define [c!"left"] (.cons (.call (.sel (.id c!"t") c!"Pop") .nil false) .nil))
  (.cons (.expr (.call (.sel (.id c!"t") c!"Push") (.cons (.un c!"&" (.lit (.id c!"Node") (.cons (.id c!"Type") (.cons (.id c!"Left") (.cons (.id c!"Op") (.cons (.id c!"Params") .nil)))) (.cons (.id c!"BetweenExpressionType") (.cons (.id c!"left") (.cons (.id c!"op") (.cons (.lit (.arr (.un c!"*" (.id c!"Node"))) (.cons .no (.cons .no .nil)) (.cons (.id c!"down") (.cons (.id c!"up") .nil))) .nil)))))) .nil) false))
  .nil)))))

/-- The body of `Tree.PopPredicate`, /repo/miniquery/tree.go -/
def treeTreePopPredicate : Stmts := (.cons (.define [c!"op"] (.cons (.call (.sel (.id c!"t") c!"Pop") .nil false) .nil))
  (.cons (.define [c!"left"] (.cons (.call (.sel (.id c!"t") c!"Pop") .nil false) .nil))
  (.cons (.expr (.call (.sel (.id c!"t") c!"Push") (.cons (.un c!"&" (.lit (.id c!"Node") (.cons (.id c!"Type") (.cons (.id c!"Left") (.cons (.id c!"Op") .nil))) (.cons (.id c!"PredicatesExpressionType") (.cons (.id c!"left") (.cons (.id c!"op") .nil))))) .nil) false))
  .nil)))

/-- The body of `Tree.PopLogic`, /repo/miniquery/tree.go -/
def treeTreePopLogic : Stmts := (.cons (.define [c!"right"] (.cons (.call (.sel (.id c!"t") c!"Pop") .nil false) .nil))
  (.cons (.define [c!"op"] (.cons (.call (.sel (.id c!"t") c!"Pop") .nil false) .nil))
  (.cons (.define [c!"left"] (.cons (.call (.sel (.id c!"t") c!"Pop") .nil false) .nil))
  (.cons (.expr (.call (.sel (.id c!"t") c!"Push") (.cons (.un c!"&" (.lit (.id c!"Node") (.cons (.id c!"Type") (.cons (.id c!"Left") (.cons (.id c!"Op") (.cons (.id c!"Right") .nil)))) (.cons (.id c!"LogicExpressionType") (.cons (.id c!"left") (.cons (.id c!"op") (.cons (.id c!"right") .nil)))))) .nil) false))
  .nil))))

/-- The body of `Tree.PopCompare`, /repo/miniquery/tree.go -/
def treeTreePopCompare : Stmts := (.cons (.define [c!"right"] (.cons (.call (.sel (.id c!"t") c!"Pop") .nil false) .nil))
  (.cons (.define [c!"op"] (.cons (.call (.sel (.id c!"t") c!"Pop") .nil false) .nil))
  (.cons (.define [c!"left"] (.cons (.call (.sel (.id c!"t") c!"Pop") .nil false) .nil))
  (.cons (.expr (.call (.sel (.id c!"t") c!"Push") (.cons (.un c!"&" (.lit (.id c!"Node") (.cons (.id c!"Type") (.cons (.id c!"Left") (.cons (.id c!"Op") (.cons (.id c!"Right") .nil)))) (.cons (.id c!"CompareExpressionType") (.cons (.id c!"left") (.cons (.id c!"op") (.cons (.id c!"right") .nil)))))) .nil) false))
  .nil))))

/-- The body of `Tree.PopParentheses`, /repo/miniquery/tree.go -/
def treeTreePopParentheses : Stmts := (.cons (.expr (.call (.sel (.id c!"t") c!"Push") (.cons (.un c!"&" (.lit (.id c!"Node") (.cons (.id c!"Type") (.cons (.id c!"Expression") .nil)) (.cons (.id c!"ParenthesesExpressionType") (.cons (.call (.sel (.id c!"t") c!"Pop") .nil false) .nil)))) .nil) false))
  .nil)

/-- The body of `Tree.PopMark`, /repo/miniquery/tree.go -/
def treeTreePopMark : Stmts := (.cons (.define [c!"v"] (.cons (.idx (.sel (.id c!"t") c!"marks") (.bin c!"-" (.call (.id c!"len") (.cons (.sel (.id c!"t") c!"marks") .nil) false) (.int 1))) .nil))
  (.cons (.assign (.cons (.sel (.id c!"t") c!"marks") .nil) (.cons (.slc (.sel (.id c!"t") c!"marks") .no (.bin c!"-" (.call (.id c!"len") (.cons (.sel (.id c!"t") c!"marks") .nil) false) (.int 1))) .nil))
  (.cons (.ret (.cons (.id c!"v") .nil))
  .nil)))

/-- The body of `Tree.AddMark`, /repo/miniquery/tree.go -/
def treeTreeAddMark : Stmts := (.cons (.assign (.cons (.sel (.id c!"t") c!"marks") .nil) (.cons (.call (.id c!"append") (.cons (.sel (.id c!"t") c!"marks") (.cons (.call (.id c!"len") (.cons (.sel (.id c!"t") c!"Stack") .nil) false) .nil)) false) .nil))
  .nil)

/-- The body of `Tree.popMarked`, /repo/miniquery/tree.go -/
def treeTreepopMarked : Stmts := (.cons (.define [c!"mark"] (.cons (.call (.sel (.id c!"t") c!"PopMark") .nil false) .nil))
  (.cons (.define [c!"elements"] (.cons (.call (.id c!"make") (.cons (.arr (.un c!"*" (.id c!"Node"))) (.cons (.bin c!"-" (.call (.id c!"len") (.cons (.sel (.id c!"t") c!"Stack") .nil) false) (.id c!"mark")) .nil)) false) .nil))
  (.cons (.expr (.call (.id c!"copy") (.cons (.id c!"elements") (.cons (.slc (.sel (.id c!"t") c!"Stack") (.id c!"mark") (.call (.id c!"len") (.cons (.sel (.id c!"t") c!"Stack") .nil) false)) .nil)) false))
  (.cons (.assign (.cons (.sel (.id c!"t") c!"Stack") .nil) (.cons (.slc (.sel (.id c!"t") c!"Stack") (.int 0) (.id c!"mark")) .nil))
  (.cons (.ret (.cons (.id c!"elements") .nil))
  .nil)))))

/-- The body of `Tree.PopArray`, /repo/miniquery/tree.go -/
def treeTreePopArray : Stmts := (.cons (.expr (.call (.sel (.id c!"t") c!"Push") (.cons (.un c!"&" (.lit (.id c!"Node") (.cons (.id c!"Type") (.cons (.id c!"ValueType") (.cons (.id c!"Array") .nil))) (.cons (.id c!"ValueNodeType") (.cons (.id c!"ArrayValueType") (.cons (.call (.sel (.id c!"t") c!"popMarked") .nil false) .nil))))) .nil) false))
  .nil)

/-- The body of `Tree.AddOperation`, /repo/miniquery/tree.go -/
def treeTreeAddOperation : Stmts := (.cons (.expr (.call (.sel (.id c!"t") c!"Push") (.cons (.un c!"&" (.lit (.id c!"Node") (.cons (.id c!"Type") (.cons (.id c!"Operation") .nil)) (.cons (.id c!"OperationNodeType") (.cons (.call (.id c!"NormalizeOperation") (.cons (.id c!"s") .nil) false) .nil)))) .nil) false))
  .nil)

/-- The body of `Tree.AddCompare`, /repo/miniquery/tree.go -/
def treeTreeAddCompare : Stmts := (.cons (.expr (.call (.sel (.id c!"t") c!"Push") (.cons (.un c!"&" (.lit (.id c!"Node") (.cons (.id c!"Type") (.cons (.id c!"Operation") .nil)) (.cons (.id c!"OperationNodeType") (.cons (.call (.id c!"NormalizeOperation") (.cons (.id c!"s") .nil) false) .nil)))) .nil) false))
  .nil)

/-- The body of `Tree.AddLogic`, /repo/miniquery/tree.go -/
def treeTreeAddLogic : Stmts := (.cons (.expr (.call (.sel (.id c!"t") c!"Push") (.cons (.un c!"&" (.lit (.id c!"Node") (.cons (.id c!"Type") (.cons (.id c!"Operation") .nil)) (.cons (.id c!"OperationNodeType") (.cons (.call (.id c!"NormalizeOperation") (.cons (.id c!"s") .nil) false) .nil)))) .nil) false))
  .nil)

/-- The body of `Tree.PopNot`, /repo/miniquery/tree.go -/
def treeTreePopNot : Stmts := (.cons (.expr (.call (.sel (.id c!"t") c!"Push") (.cons (.un c!"&" (.lit (.id c!"Node") (.cons (.id c!"Type") (.cons (.id c!"Expression") .nil)) (.cons (.id c!"NotExpressionType") (.cons (.call (.sel (.id c!"t") c!"Pop") .nil false) .nil)))) .nil) false))
  .nil)

/-- The body of `Tree.AddMatch`, /repo/miniquery/tree.go -/
def treeTreeAddMatch : Stmts := (.cons (.expr (.call (.sel (.id c!"t") c!"Push") (.cons (.un c!"&" (.lit (.id c!"Node") (.cons (.id c!"Type") (.cons (.id c!"Operation") .nil)) (.cons (.id c!"OperationNodeType") (.cons (.call (.id c!"NormalizeOperation") (.cons (.id c!"s") .nil) false) .nil)))) .nil) false))
  .nil)

/-- The body of `Tree.AddName`, /repo/miniquery/tree.go -/
def treeTreeAddName : Stmts := (.cons (.expr (.call (.sel (.id c!"t") c!"Push") (.cons (.un c!"&" (.lit (.id c!"Node") (.cons (.id c!"Type") (.cons (.id c!"Name") .nil)) (.cons (.id c!"IdentifierNodeType") (.cons (.id c!"s") .nil)))) .nil) false))
  .nil)

/-- The body of `Tree.AddError`, /repo/miniquery/tree.go -/
def treeTreeAddError : Stmts := (.cons (.ite .nil (.bin c!"!=" (.id c!"err") (.id c!"nil")) (.cons (.assign (.cons (.sel (.id c!"t") c!"Errors") .nil) (.cons (.call (.id c!"append") (.cons (.sel (.id c!"t") c!"Errors") (.cons (.id c!"err") .nil)) false) .nil))
  .nil) .nil)
  .nil)

/-- The body of `Tree.AddString`, /repo/miniquery/tree.go -/
def treeTreeAddString : Stmts := (.cons (.assign (.cons (.sel (.id c!"t") c!"Stack") .nil) (.cons (.call (.id c!"append") (.cons (.sel (.id c!"t") c!"Stack") (.cons (.un c!"&" (.lit (.id c!"Node") (.cons (.id c!"Type") (.cons (.id c!"ValueType") (.cons (.id c!"Str") .nil))) (.cons (.id c!"ValueNodeType") (.cons (.id c!"StringValueType") (.cons (.id c!"s") .nil))))) .nil)) false) .nil))
  .nil)

/-- The body of `Tree.AddFloat`, /repo/miniquery/tree.go -/
def treeTreeAddFloat : Stmts := (.cons (.define [c!"v", c!"err"] (.cons (.call (.sel (.id c!"strconv") c!"ParseFloat") (.cons (.id c!"s") (.cons (.int 64) .nil)) false) .nil))
  (.cons (.expr (.call (.sel (.id c!"t") c!"AddError") (.cons (.id c!"err") .nil) false))
  (.cons (.assign (.cons (.sel (.id c!"t") c!"Stack") .nil) (.cons (.call (.id c!"append") (.cons (.sel (.id c!"t") c!"Stack") (.cons (.un c!"&" (.lit (.id c!"Node") (.cons (.id c!"Type") (.cons (.id c!"ValueType") (.cons (.id c!"Float") .nil))) (.cons (.id c!"ValueNodeType") (.cons (.id c!"FloatValueType") (.cons (.id c!"v") .nil))))) .nil)) false) .nil))
  .nil)))

/-- The body of `Tree.AddNull`, /repo/miniquery/tree.go -/
def treeTreeAddNull : Stmts := (.cons (.assign (.cons (.sel (.id c!"t") c!"Stack") .nil) (.cons (.call (.id c!"append") (.cons (.sel (.id c!"t") c!"Stack") (.cons (.un c!"&" (.lit (.id c!"Node") (.cons (.id c!"Type") (.cons (.id c!"ValueType") .nil)) (.cons (.id c!"ValueNodeType") (.cons (.id c!"NullValueType") .nil)))) .nil)) false) .nil))
  .nil)

/-- The body of `Tree.AddBoolean`, /repo/miniquery/tree.go -/
def treeTreeAddBoolean : Stmts := (.cons (.define [c!"i", c!"err"] (.cons (.call (.sel (.id c!"strconv") c!"ParseBool") (.cons (.id c!"s") .nil) false) .nil))
  (.cons (.expr (.call (.sel (.id c!"t") c!"AddError") (.cons (.id c!"err") .nil) false))
  (.cons (.assign (.cons (.sel (.id c!"t") c!"Stack") .nil) (.cons (.call (.id c!"append") (.cons (.sel (.id c!"t") c!"Stack") (.cons (.un c!"&" (.lit (.id c!"Node") (.cons (.id c!"Type") (.cons (.id c!"ValueType") (.cons (.id c!"Bool") .nil))) (.cons (.id c!"ValueNodeType") (.cons (.id c!"BooleanValueType") (.cons (.id c!"i") .nil))))) .nil)) false) .nil))
  .nil)))

/-- The body of `Tree.AddInteger`, /repo/miniquery/tree.go -/
def treeTreeAddInteger : Stmts := (.cons (.define [c!"i", c!"err"] (.cons (.call (.sel (.id c!"strconv") c!"Atoi") (.cons (.id c!"s") .nil) false) .nil))
  (.cons (.expr (.call (.sel (.id c!"t") c!"AddError") (.cons (.id c!"err") .nil) false))
  (.cons (.assign (.cons (.sel (.id c!"t") c!"Stack") .nil) (.cons (.call (.id c!"append") (.cons (.sel (.id c!"t") c!"Stack") (.cons (.un c!"&" (.lit (.id c!"Node") (.cons (.id c!"Type") (.cons (.id c!"ValueType") (.cons (.id c!"Int") .nil))) (.cons (.id c!"ValueNodeType") (.cons (.id c!"IntValueType") (.cons (.id c!"i") .nil))))) .nil)) false) .nil))
  .nil)))

/-- What /repo/miniquery/tree.go declares. -/
def treeDecls : List Decl := [
  .pkg c!"fmt",
  .pkg c!"regexp",
  .pkg c!"strconv",
  .pkg c!"strings",
  .struct c!"Tree" [(c!"Stack", (.arr (.un c!"*" (.id c!"Node")))), (c!"Errors", (.arr (.id c!"error"))), (c!"marks", (.arr (.id c!"int")))],
  .val c!"regSpace" treeregSpaceVal,
  .val c!"normalize" treenormalizeVal,
  .func c!"NormalizeOperation" false [c!"s"] [c!"_"] treeNormalizeOperation,
  .func c!"Tree.Push" true [c!"t", c!"node"] [] treeTreePush,
  .func c!"Tree.Pop" true [c!"t"] [c!"_"] treeTreePop,
  .func c!"Tree.PopIdentifierReference" true [c!"t"] [] treeTreePopIdentifierReference,
  .func c!"Tree.PopFunction" true [c!"t"] [] treeTreePopFunction,
  .func c!"Tree.PopBetween" true [c!"t"] [] treeTreePopBetween,
  .func c!"Tree.PopPredicate" true [c!"t"] [] treeTreePopPredicate,
  .func c!"Tree.PopLogic" true [c!"t"] [] treeTreePopLogic,
  .func c!"Tree.PopCompare" true [c!"t"] [] treeTreePopCompare,
  .func c!"Tree.PopParentheses" true [c!"t"] [] treeTreePopParentheses,
  .func c!"Tree.PopMark" true [c!"t"] [c!"_"] treeTreePopMark,
  .func c!"Tree.AddMark" true [c!"t"] [] treeTreeAddMark,
  .func c!"Tree.popMarked" true [c!"t"] [c!"_"] treeTreepopMarked,
  .func c!"Tree.PopArray" true [c!"t"] [] treeTreePopArray,
  .func c!"Tree.AddOperation" true [c!"t", c!"s"] [] treeTreeAddOperation,
  .func c!"Tree.AddCompare" true [c!"t", c!"s"] [] treeTreeAddCompare,
  .func c!"Tree.AddLogic" true [c!"t", c!"s"] [] treeTreeAddLogic,
  .func c!"Tree.PopNot" true [c!"t"] [] treeTreePopNot,
  .func c!"Tree.AddMatch" true [c!"t", c!"s"] [] treeTreeAddMatch,
  .func c!"Tree.AddName" true [c!"t", c!"s"] [] treeTreeAddName,
  .func c!"Tree.AddError" true [c!"t", c!"err"] [] treeTreeAddError,
  .func c!"Tree.AddString" true [c!"t", c!"s"] [] treeTreeAddString,
  .func c!"Tree.AddFloat" true [c!"t", c!"s"] [] treeTreeAddFloat,
  .func c!"Tree.AddNull" true [c!"t"] [] treeTreeAddNull,
  .func c!"Tree.AddBoolean" true [c!"t", c!"s"] [] treeTreeAddBoolean,
  .func c!"Tree.AddInteger" true [c!"t", c!"s"] [] treeTreeAddInteger]

end Verif.Mini

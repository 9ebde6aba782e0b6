import Verif.Mini.Ast

/-! # What the text of a file says (generated from it; `Verif.Mini.Texts` checks it) -/

namespace Verif.Mini

/-- The body of `Node.Value`, /repo/miniquery/node.go -/
def nodeNodeValue : Stmts := (.cons (.switch (.sel (.id c!"n") c!"ValueType") (.case (.cons (.id c!"IntValueType") .nil) (.cons (.ret (.cons (.sel (.id c!"n") c!"Int") .nil))
  .nil)
  (.case (.cons (.id c!"StringValueType") .nil) (.cons (.ret (.cons (.sel (.id c!"n") c!"Str") .nil))
  .nil)
  (.case (.cons (.id c!"FloatValueType") .nil) (.cons (.ret (.cons (.sel (.id c!"n") c!"Float") .nil))
  .nil)
  (.case (.cons (.id c!"BooleanValueType") .nil) (.cons (.ret (.cons (.sel (.id c!"n") c!"Bool") .nil))
  .nil)
  (.case (.cons (.id c!"NullValueType") .nil) (.cons (.ret (.cons (.id c!"nil") .nil))
  .nil)
  (.case (.cons (.id c!"ArrayValueType") .nil) (.cons (.var c!"s" (.arr (.id c!"interface")))
  (.cons (.range c!"_" c!"v" (.sel (.id c!"n") c!"Array") (.cons (.assign (.cons (.id c!"s") .nil) (.cons (.call (.id c!"append") (.cons (.id c!"s") (.cons (.call (.sel (.id c!"v") c!"Value") .nil false) .nil)) false) .nil))
  .nil))
  (.cons (.ret (.cons (.id c!"s") .nil))
  .nil)))
  .nil)))))))
  (.cons (.ret (.cons (.str c!"<unknown value>") .nil))
  .nil))

/-- The body of `Node.IsValue`, /repo/miniquery/node.go -/
def nodeNodeIsValue : Stmts := (.cons (.ret (.cons (.bin c!"!=" (.sel (.id c!"n") c!"ValueType") (.str c!"")) .nil))
  .nil)

/-- The body of `Node.IsExpression`, /repo/miniquery/node.go -/
def nodeNodeIsExpression : Stmts := (.cons (.switch (.sel (.id c!"n") c!"Type") (.case (.cons (.id c!"IdentifierNodeType") (.cons (.id c!"ValueNodeType") (.cons (.id c!"OperationNodeType") (.cons (.id c!"ReferenceNodeType") .nil)))) (.cons (.ret (.cons (.id c!"false") .nil))
  .nil)
  .nil))
  (.cons (.ret (.cons (.id c!"true") .nil))
  .nil))

/-- The body of `Node.String`, /repo/miniquery/node.go -/
def nodeNodeString : Stmts := (.cons (.define [c!"buf"] (.cons (.un c!"&" (.lit (.sel (.id c!"strings") c!"Builder") .nil .nil)) .nil))
  (.cons (.expr (.call (.sel (.id c!"buf") c!"WriteString") (.cons (.call (.id c!"string") (.cons (.sel (.id c!"n") c!"Type") .nil) false) .nil) false))
  (.cons (.expr (.call (.sel (.id c!"buf") c!"WriteString") (.cons (.str c!"(") .nil) false))
  (.cons (.switch (.sel (.id c!"n") c!"Type") (.case (.cons (.id c!"BetweenExpressionType") .nil) (.cons (.expr (.call (.sel (.id c!"buf") c!"WriteString") (.cons (.call (.sel (.idx (.sel (.id c!"n") c!"Params") (.int 0)) c!"String") .nil false) .nil) false))
  (.cons (.expr (.call (.sel (.id c!"buf") c!"WriteString") (.cons (.str c!",") .nil) false))
  (.cons (.expr (.call (.sel (.id c!"buf") c!"WriteString") (.cons (.call (.sel (.idx (.sel (.id c!"n") c!"Params") (.int 1)) c!"String") .nil false) .nil) false))
  .nil)))
  (.case (.cons (.id c!"PredicatesExpressionType") .nil) (.cons (.expr (.call (.sel (.id c!"buf") c!"WriteString") (.cons (.sel (.id c!"n") c!"Operation") .nil) false))
  .nil)
  (.case (.cons (.id c!"LogicExpressionType") .nil) (.cons (.expr (.call (.sel (.id c!"buf") c!"WriteString") (.cons (.call (.sel (.sel (.id c!"n") c!"Op") c!"String") .nil false) .nil) false))
  (.cons (.expr (.call (.sel (.id c!"buf") c!"WriteString") (.cons (.str c!",") .nil) false))
  (.cons (.expr (.call (.sel (.id c!"buf") c!"WriteString") (.cons (.call (.sel (.sel (.id c!"n") c!"Left") c!"String") .nil false) .nil) false))
  (.cons (.expr (.call (.sel (.id c!"buf") c!"WriteString") (.cons (.str c!",") .nil) false))
  (.cons (.expr (.call (.sel (.id c!"buf") c!"WriteString") (.cons (.call (.sel (.sel (.id c!"n") c!"Right") c!"String") .nil false) .nil) false))
  .nil)))))
  (.case (.cons (.id c!"CompareExpressionType") .nil) (.cons (.expr (.call (.sel (.id c!"buf") c!"WriteString") (.cons (.call (.sel (.sel (.id c!"n") c!"Left") c!"String") .nil false) .nil) false))
  (.cons (.expr (.call (.sel (.id c!"buf") c!"WriteString") (.cons (.str c!",") .nil) false))
  (.cons (.expr (.call (.sel (.id c!"buf") c!"WriteString") (.cons (.call (.sel (.sel (.id c!"n") c!"Op") c!"String") .nil false) .nil) false))
  (.cons (.expr (.call (.sel (.id c!"buf") c!"WriteString") (.cons (.str c!",") .nil) false))
  (.cons (.expr (.call (.sel (.id c!"buf") c!"WriteString") (.cons (.call (.sel (.sel (.id c!"n") c!"Right") c!"String") .nil false) .nil) false))
  .nil)))))
  (.case (.cons (.id c!"ParenthesesExpressionType") .nil) (.cons .fall
  .nil)
  (.case (.cons (.id c!"NotExpressionType") .nil) (.cons (.expr (.call (.sel (.id c!"buf") c!"WriteString") (.cons (.call (.sel (.sel (.id c!"n") c!"Expression") c!"String") .nil false) .nil) false))
  .nil)
  (.case (.cons (.id c!"ValueNodeType") .nil) (.cons (.assign (.cons (.id c!"_") (.cons (.id c!"_") .nil)) (.cons (.call (.sel (.id c!"fmt") c!"Fprint") (.cons (.id c!"buf") (.cons (.call (.sel (.id c!"n") c!"Value") .nil false) .nil)) false) .nil))
  .nil)
  (.case (.cons (.id c!"OperationNodeType") .nil) (.cons (.expr (.call (.sel (.id c!"buf") c!"WriteString") (.cons (.sel (.id c!"n") c!"Operation") .nil) false))
  .nil)
  (.case (.cons (.id c!"IdentifierNodeType") .nil) (.cons (.expr (.call (.sel (.id c!"buf") c!"WriteString") (.cons (.sel (.id c!"n") c!"Name") .nil) false))
  .nil)
  (.case (.cons (.id c!"ReferenceNodeType") .nil) (.cons (.expr (.call (.sel (.id c!"buf") c!"WriteString") (.cons (.call (.sel (.id c!"strings") c!"Join") (.cons (.sel (.id c!"n") c!"Names") (.cons (.str c!".") .nil)) false) .nil) false))
  .nil)
  (.case (.cons (.id c!"FunctionExpressionType") .nil) (.cons (.expr (.call (.sel (.id c!"buf") c!"WriteString") (.cons (.sel (.id c!"n") c!"Name") .nil) false))
  (.cons (.range c!"_" c!"v" (.sel (.id c!"n") c!"Params") (.cons (.expr (.call (.sel (.id c!"buf") c!"WriteString") (.cons (.str c!",") .nil) false))
  (.cons (.expr (.call (.sel (.id c!"buf") c!"WriteString") (.cons (.call (.sel (.id c!"v") c!"String") .nil false) .nil) false))
  .nil)))
  .nil))
  (.dflt (.cons (.expr (.call (.sel (.id c!"buf") c!"WriteString") (.cons (.str c!"unknown") .nil) false))
  .nil)
  .nil)))))))))))))
  (.cons (.expr (.call (.sel (.id c!"buf") c!"WriteString") (.cons (.str c!")") .nil) false))
  (.cons (.ret (.cons (.call (.sel (.id c!"buf") c!"String") .nil false) .nil))
  .nil))))))

/-- The body of `Build`, /repo/miniquery/node.go -/
def nodeBuild : Stmts := (.cons (.define [c!"buf"] (.cons (.un c!"&" (.lit (.sel (.id c!"strings") c!"Builder") .nil .nil)) .nil))
  (.cons (.var c!"visit" (.id c!"func"))
  (.cons (.assign (.cons (.id c!"visit") .nil) (.cons (.fn [c!"node"] [] (.cons (.switch (.sel (.id c!"node") c!"Type") (.case (.cons (.id c!"NotExpressionType") .nil) (.cons (.expr (.call (.sel (.id c!"buf") c!"WriteString") (.cons (.str c!"not ") .nil) false))
  (.cons (.expr (.call (.id c!"visit") (.cons (.sel (.id c!"node") c!"Expression") .nil) false))
  .nil))
  (.case (.cons (.id c!"BetweenExpressionType") .nil) (.cons (.expr (.call (.id c!"visit") (.cons (.sel (.id c!"node") c!"Left") .nil) false))
  (.cons (.expr (.call (.sel (.id c!"buf") c!"WriteString") (.cons (.str c!" ") .nil) false))
  (.cons (.expr (.call (.id c!"visit") (.cons (.sel (.id c!"node") c!"Op") .nil) false))
  (.cons (.expr (.call (.sel (.id c!"buf") c!"WriteString") (.cons (.str c!" ") .nil) false))
  (.cons (.expr (.call (.id c!"visit") (.cons (.idx (.sel (.id c!"node") c!"Params") (.int 0)) .nil) false))
  (.cons (.expr (.call (.sel (.id c!"buf") c!"WriteString") (.cons (.str c!" and ") .nil) false))
  (.cons (.expr (.call (.id c!"visit") (.cons (.idx (.sel (.id c!"node") c!"Params") (.int 1)) .nil) false))
  .nil)))))))
  (.case (.cons (.id c!"PredicatesExpressionType") .nil) (.cons .fall
  .nil)
  (.case (.cons (.id c!"LogicExpressionType") .nil) (.cons .fall
  .nil)
  (.case (.cons (.id c!"CompareExpressionType") .nil) (.cons (.expr (.call (.id c!"visit") (.cons (.sel (.id c!"node") c!"Left") .nil) false))
  (.cons (.expr (.call (.sel (.id c!"buf") c!"WriteRune") (.cons (.chr ' ') .nil) false))
  (.cons (.expr (.call (.id c!"visit") (.cons (.sel (.id c!"node") c!"Op") .nil) false))
  (.cons (.ite .nil (.bin c!"!=" (.sel (.id c!"node") c!"Right") (.id c!"nil")) (.cons (.expr (.call (.sel (.id c!"buf") c!"WriteRune") (.cons (.chr ' ') .nil) false))
  (.cons (.expr (.call (.id c!"visit") (.cons (.sel (.id c!"node") c!"Right") .nil) false))
  .nil)) .nil)
  .nil))))
  (.case (.cons (.id c!"ParenthesesExpressionType") .nil) (.cons (.expr (.call (.sel (.id c!"buf") c!"WriteRune") (.cons (.chr '(') .nil) false))
  (.cons (.expr (.call (.id c!"visit") (.cons (.sel (.id c!"node") c!"Expression") .nil) false))
  (.cons (.expr (.call (.sel (.id c!"buf") c!"WriteRune") (.cons (.chr ')') .nil) false))
  .nil)))
  (.case (.cons (.id c!"OperationNodeType") .nil) (.cons (.expr (.call (.sel (.id c!"buf") c!"WriteString") (.cons (.call (.id c!"printPretty") (.cons (.sel (.id c!"node") c!"Operation") .nil) false) .nil) false))
  .nil)
  (.case (.cons (.id c!"IdentifierNodeType") .nil) (.cons (.expr (.call (.sel (.id c!"buf") c!"WriteString") (.cons (.sel (.id c!"node") c!"Name") .nil) false))
  .nil)
  (.case (.cons (.id c!"ReferenceNodeType") .nil) (.cons (.expr (.call (.sel (.id c!"buf") c!"WriteString") (.cons (.call (.sel (.id c!"strings") c!"Join") (.cons (.sel (.id c!"node") c!"Names") (.cons (.str c!".") .nil)) false) .nil) false))
  .nil)
  (.case (.cons (.id c!"FunctionExpressionType") .nil) (.cons (.expr (.call (.sel (.id c!"buf") c!"WriteString") (.cons (.sel (.id c!"n") c!"Name") .nil) false))
  (.cons (.expr (.call (.sel (.id c!"buf") c!"WriteRune") (.cons (.chr '(') .nil) false))
  (.cons (.define [c!"n"] (.cons (.call (.id c!"len") (.cons (.sel (.id c!"node") c!"Params") .nil) false) .nil))
  (.cons (.range c!"i" c!"v" (.sel (.id c!"node") c!"Params") (.cons (.expr (.call (.id c!"visit") (.cons (.id c!"v") .nil) false))
  (.cons (.ite .nil (.bin c!"!=" (.id c!"i") (.bin c!"-" (.id c!"n") (.int 1))) (.cons (.expr (.call (.sel (.id c!"buf") c!"WriteRune") (.cons (.chr ',') .nil) false))
  .nil) .nil)
  .nil)))
  (.cons (.expr (.call (.sel (.id c!"buf") c!"WriteRune") (.cons (.chr ')') .nil) false))
  .nil)))))
  (.case (.cons (.id c!"ValueNodeType") .nil) (.cons (.expr (.call (.id c!"buildValue") (.cons (.id c!"buf") (.cons (.id c!"node") (.cons (.id c!"visit") .nil))) false))
  .nil)
  (.dflt (.cons (.expr (.call (.sel (.id c!"buf") c!"WriteString") (.cons (.str c!"<unknown type>") .nil) false))
  .nil)
  .nil)))))))))))))
  .nil)) .nil))
  (.cons (.expr (.call (.id c!"visit") (.cons (.id c!"n") .nil) false))
  (.cons (.ret (.cons (.call (.sel (.id c!"buf") c!"String") .nil false) .nil))
  .nil)))))

/-- The body of `buildValue`, /repo/miniquery/node.go -/
def nodebuildValue : Stmts := (.cons (.switch (.sel (.id c!"node") c!"ValueType") (.case (.cons (.id c!"ArrayValueType") .nil) (.cons (.expr (.call (.sel (.id c!"buf") c!"WriteRune") (.cons (.chr '[') .nil) false))
  (.cons (.define [c!"n"] (.cons (.call (.id c!"len") (.cons (.sel (.id c!"node") c!"Array") .nil) false) .nil))
  (.cons (.range c!"i" c!"v" (.sel (.id c!"node") c!"Array") (.cons (.expr (.call (.id c!"visit") (.cons (.id c!"v") .nil) false))
  (.cons (.ite .nil (.bin c!"!=" (.id c!"i") (.bin c!"-" (.id c!"n") (.int 1))) (.cons (.expr (.call (.sel (.id c!"buf") c!"WriteRune") (.cons (.chr ',') .nil) false))
  .nil) .nil)
  .nil)))
  (.cons (.expr (.call (.sel (.id c!"buf") c!"WriteRune") (.cons (.chr ']') .nil) false))
  .nil))))
  (.case (.cons (.id c!"StringValueType") .nil) (.cons (.assign (.cons (.id c!"_") (.cons (.id c!"_") .nil)) (.cons (.call (.sel (.id c!"fmt") c!"Fprintf") (.cons (.id c!"buf") (.cons (.str c!"%q") (.cons (.sel (.id c!"node") c!"Str") .nil))) false) .nil))
  .nil)
  (.dflt (.cons (.define [c!"value"] (.cons (.call (.sel (.id c!"node") c!"Value") .nil false) .nil))
  (.cons (.ite .nil (.bin c!"==" (.id c!"value") (.id c!"nil")) (.cons (.expr (.call (.sel (.id c!"buf") c!"WriteString") (.cons (.str c!"null") .nil) false))
  .nil) (.cons (.assign (.cons (.id c!"_") (.cons (.id c!"_") .nil)) (.cons (.call (.sel (.id c!"fmt") c!"Fprint") (.cons (.id c!"buf") (.cons (.id c!"value") .nil)) false) .nil))
  .nil))
  .nil))
  .nil))))
  .nil)

/-- The value of `pretties`, /repo/miniquery/node.go -/
def nodeprettiesVal : Expr := (.lit (.map (.id c!"string") (.id c!"string")) (.cons (.str c!"gte") (.cons (.str c!"gt") (.cons (.str c!"eq") (.cons (.str c!"neq") (.cons (.str c!"lt") (.cons (.str c!"lte") (.cons (.str c!"and") (.cons (.str c!"or") (.cons (.str c!"isnull") (.cons (.str c!"isnotnull") (.cons (.str c!"notin") .nil))))))))))) (.cons (.str c!">=") (.cons (.str c!">") (.cons (.str c!"==") (.cons (.str c!"!=") (.cons (.str c!"<") (.cons (.str c!"<=") (.cons (.str c!"&&") (.cons (.str c!"||") (.cons (.str c!"is null") (.cons (.str c!"is not null") (.cons (.str c!"not in") .nil))))))))))))

/-- The body of `printPretty`, /repo/miniquery/node.go -/
def nodeprintPretty : Stmts := (.cons (.ite (.cons (.define [c!"v", c!"ok"] (.cons (.idx (.id c!"pretties") (.id c!"s")) .nil))
  .nil) (.id c!"ok") (.cons (.ret (.cons (.id c!"v") .nil))
  .nil) .nil)
  (.cons (.ret (.cons (.id c!"s") .nil))
  .nil))

/-- What /repo/miniquery/node.go declares. -/
def nodeDecls : List Decl := [
  .pkg c!"fmt",
  .pkg c!"strings",
  .alias c!"NodeType" (.id c!"string"),
  .alias c!"ValueType" (.id c!"string"),
  .val c!"ValueNodeType" (.str c!"value"),
  .val c!"OperationNodeType" (.str c!"operation"),
  .val c!"IdentifierNodeType" (.str c!"identifier"),
  .val c!"ReferenceNodeType" (.str c!"reference"),
  .val c!"PredicatesExpressionType" (.str c!"predicates"),
  .val c!"CompareExpressionType" (.str c!"compare"),
  .val c!"LogicExpressionType" (.str c!"logic"),
  .val c!"ParenthesesExpressionType" (.str c!"parentheses"),
  .val c!"NotExpressionType" (.str c!"not"),
  .val c!"BetweenExpressionType" (.str c!"between"),
  .val c!"FunctionExpressionType" (.str c!"function"),
  .val c!"IntValueType" (.str c!"int"),
  .val c!"FloatValueType" (.str c!"float"),
  .val c!"BooleanValueType" (.str c!"bool"),
  .val c!"StringValueType" (.str c!"string"),
  .val c!"NullValueType" (.str c!"null"),
  .val c!"ArrayValueType" (.str c!"array"),
  .struct c!"Node" [(c!"Type", (.id c!"NodeType")), (c!"ValueType", (.id c!"ValueType")), (c!"Int", (.id c!"int")), (c!"Bool", (.id c!"bool")), (c!"Str", (.id c!"string")), (c!"Float", (.id c!"float64")), (c!"Array", (.arr (.un c!"*" (.id c!"Node")))), (c!"Operation", (.id c!"OpType")), (c!"Name", (.id c!"string")), (c!"Names", (.arr (.id c!"string"))), (c!"Expression", (.un c!"*" (.id c!"Node"))), (c!"Left", (.un c!"*" (.id c!"Node"))), (c!"Op", (.un c!"*" (.id c!"Node"))), (c!"Right", (.un c!"*" (.id c!"Node"))), (c!"Params", (.arr (.un c!"*" (.id c!"Node"))))],
  .func c!"Node.Value" false [c!"n"] [c!"_"] nodeNodeValue,
  .func c!"Node.IsValue" false [c!"n"] [c!"_"] nodeNodeIsValue,
  .func c!"Node.IsExpression" false [c!"n"] [c!"_"] nodeNodeIsExpression,
  .func c!"Node.String" false [c!"n"] [c!"_"] nodeNodeString,
  .func c!"Build" false [c!"n"] [c!"_"] nodeBuild,
  .func c!"buildValue" false [c!"buf", c!"node", c!"visit"] [] nodebuildValue,
  .alias c!"OpType" (.id c!"string"),
  .val c!"OpGTE" (.str c!"gte"),
  .val c!"OpGT" (.str c!"gt"),
  .val c!"OpEQ" (.str c!"eq"),
  .val c!"OpNEQ" (.str c!"neq"),
  .val c!"OpLT" (.str c!"lt"),
  .val c!"OpLTE" (.str c!"lte"),
  .val c!"OpAnd" (.str c!"and"),
  .val c!"OpOr" (.str c!"or"),
  .val c!"OpBetween" (.str c!"between"),
  .val c!"OpLike" (.str c!"like"),
  .val c!"OpNotLike" (.str c!"not like"),
  .val c!"OpNotBetween" (.str c!"not between"),
  .val c!"OpIsNull" (.str c!"is null"),
  .val c!"OpIsNotNull" (.str c!"is not null"),
  .val c!"OpNot" (.str c!"not"),
  .val c!"OpIn" (.str c!"in"),
  .val c!"OpNotIn" (.str c!"not in"),
  .val c!"pretties" nodeprettiesVal,
  .func c!"printPretty" false [c!"s"] [c!"_"] nodeprintPretty]

end Verif.Mini

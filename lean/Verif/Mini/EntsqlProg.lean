import Verif.Mini.Ast

/-! # What the text of a file says (generated from it; `Verif.Mini.Texts` checks it) -/

namespace Verif.Mini

/-- The body of `MiniQLToEntSQLBuilder.Query`, /repo/entmq/entsql.go -/
def entsqlMiniQLToEntSQLBuilderQuery : Stmts := (.cons (.ite .nil (.bin c!"==" (.sel (.id c!"mb") c!"ast") (.id c!"nil")) (.cons (.define [c!"ast", c!"err"] (.cons (.call (.sel (.id c!"miniquery") c!"Parse") (.cons (.sel (.id c!"mb") c!"QueryString") .nil) false) .nil))
  (.cons (.ite .nil (.bin c!"!=" (.id c!"err") (.id c!"nil")) (.cons (.expr (.call (.sel (.id c!"mb") c!"AddError") (.cons (.id c!"err") .nil) false))
  (.cons (.ret (.cons (.str c!"") (.cons (.id c!"nil") .nil)))
  .nil)) .nil)
  (.cons (.assign (.cons (.sel (.id c!"mb") c!"ast") .nil) (.cons (.id c!"ast") .nil))
  .nil))) .nil)
  (.cons (.define [c!"err"] (.cons (.call (.sel (.id c!"mb") c!"visit") (.cons (.sel (.id c!"mb") c!"ast") .nil) false) .nil))
  (.cons (.ite .nil (.bin c!"!=" (.id c!"err") (.id c!"nil")) (.cons (.expr (.call (.sel (.id c!"mb") c!"AddError") (.cons (.id c!"err") .nil) false))
  (.cons (.ret (.cons (.str c!"") (.cons (.id c!"nil") .nil)))
  .nil)) .nil)
  (.cons (.ret (.cons (.call (.sel (.sel (.id c!"mb") c!"Builder") c!"Query") .nil false) .nil))
  .nil))))

/-- The body of `MiniQLToEntSQLBuilder.visit`, /repo/entmq/entsql.go -/
def entsqlMiniQLToEntSQLBuildervisit : Stmts := (.cons (.define [c!"visit"] (.cons (.sel (.id c!"mb") c!"visit") .nil))
  (.cons (.define [c!"s"] (.cons (.sel (.id c!"mb") c!"SQLBuilder") .nil))
  (.cons (.ite .nil (.bin c!"==" (.id c!"s") (.id c!"nil")) (.cons (.assign (.cons (.id c!"s") .nil) (.cons (.un c!"&" (.sel (.id c!"mb") c!"Builder")) .nil))
  .nil) .nil)
  (.cons (.switch (.sel (.id c!"node") c!"Type") (.case (.cons (.sel (.id c!"miniquery") c!"OperationNodeType") .nil) (.cons (.ret (.cons (.call (.sel (.id c!"errors") c!"Errorf") (.cons (.str c!"unexpected op node: %q") (.cons (.id c!"node") .nil)) false) .nil))
  .nil)
  (.case (.cons (.sel (.id c!"miniquery") c!"ValueNodeType") .nil) (.cons (.ite .nil (.bin c!"==" (.sel (.id c!"node") c!"ValueType") (.sel (.id c!"miniquery") c!"ArrayValueType")) (.cons (.expr (.call (.sel (.id c!"s") c!"WriteString") (.cons (.str c!"(") .nil) false))
  (.cons (.expr (.call (.sel (.id c!"s") c!"Args") (.cons (.cast (.call (.sel (.id c!"node") c!"Value") .nil false) (.arr (.id c!"interface"))) .nil) true))
  (.cons (.expr (.call (.sel (.id c!"s") c!"WriteString") (.cons (.str c!")") .nil) false))
  .nil))) (.cons (.ite .nil (.sel (.id c!"mb") c!"DisableTypeCasting") (.cons (.expr (.call (.sel (.id c!"s") c!"Arg") (.cons (.call (.sel (.id c!"node") c!"Value") .nil false) .nil) false))
  .nil) (.cons (.expr (.call (.sel (.id c!"s") c!"Arg") (.cons (.call (.id c!"argWithCast") (.cons (.call (.sel (.id c!"node") c!"Value") .nil false) .nil) false) .nil) false))
  .nil))
  .nil))
  .nil)
  (.case (.cons (.sel (.id c!"miniquery") c!"IdentifierNodeType") .nil) (.cons (.expr (.call (.sel (.id c!"s") c!"Ident") (.cons (.call (.sel (.id c!"xstrings") c!"ToSnakeCase") (.cons (.sel (.id c!"node") c!"Name") .nil) false) .nil) false))
  .nil)
  (.case (.cons (.sel (.id c!"miniquery") c!"ParenthesesExpressionType") .nil) (.cons (.expr (.call (.sel (.id c!"s") c!"WriteString") (.cons (.str c!"(") .nil) false))
  (.cons (.assign (.cons (.id c!"err") .nil) (.cons (.call (.id c!"visit") (.cons (.sel (.id c!"node") c!"Expression") .nil) false) .nil))
  (.cons (.expr (.call (.sel (.id c!"s") c!"WriteString") (.cons (.str c!")") .nil) false))
  .nil)))
  (.case (.cons (.sel (.id c!"miniquery") c!"NotExpressionType") .nil) (.cons (.expr (.call (.sel (.id c!"s") c!"WriteString") (.cons (.str c!"NOT ") .nil) false))
  (.cons (.assign (.cons (.id c!"err") .nil) (.cons (.call (.id c!"visit") (.cons (.sel (.id c!"node") c!"Expression") .nil) false) .nil))
  .nil))
  (.case (.cons (.sel (.id c!"miniquery") c!"FunctionExpressionType") .nil) (.cons (.switch (.sel (.id c!"node") c!"Name") (.case (.cons (.str c!"date") .nil) (.cons (.expr (.call (.sel (.id c!"s") c!"WriteString") (.cons (.str c!"DATE(") .nil) false))
  (.cons (.assign (.cons (.id c!"err") .nil) (.cons (.call (.sel (.id c!"mb") c!"visit") (.cons (.idx (.sel (.id c!"node") c!"Params") (.int 0)) .nil) false) .nil))
  (.cons (.expr (.call (.sel (.id c!"s") c!"WriteString") (.cons (.str c!")") .nil) false))
  .nil)))
  (.case (.cons (.str c!"has_edge") .nil) (.cons (.define [c!"params"] (.cons (.sel (.id c!"node") c!"Params") .nil))
  (.cons (.ite .nil (.bin c!"||" (.bin c!"==" (.call (.id c!"len") (.cons (.id c!"params") .nil) false) (.int 0)) (.bin c!"==" (.sel (.idx (.id c!"params") (.int 0)) c!"Name") (.str c!""))) (.cons (.assign (.cons (.id c!"err") .nil) (.cons (.call (.sel (.id c!"errors") c!"New") (.cons (.str c!"关联参数错误") .nil) false) .nil))
  (.cons .brk
  .nil)) .nil)
  (.cons (.define [c!"tab"] (.cons (.sel (.id c!"mb") c!"Node") .nil))
  (.cons (.define [c!"builder"] (.cons (.call (.sel (.call (.sel (.call (.sel (.id c!"sql") c!"Dialect") (.cons (.call (.sel (.id c!"mb") c!"Dialect") .nil false) .nil) false) c!"Select") .nil false) c!"From") (.cons (.call (.sel (.call (.sel (.id c!"sql") c!"Table") (.cons (.sel (.id c!"tab") c!"Table") .nil) false) c!"Schema") (.cons (.sel (.id c!"tab") c!"Schema") .nil) false) .nil) false) .nil))
  (.cons (.define [c!"edge", c!"ok"] (.cons (.idx (.sel (.id c!"tab") c!"Edges") (.sel (.idx (.id c!"params") (.int 0)) c!"Name")) .nil))
  (.cons (.ite .nil (.un c!"!" (.id c!"ok")) (.cons (.assign (.cons (.id c!"err") .nil) (.cons (.call (.sel (.id c!"errors") c!"Errorf") (.cons (.str c!"不存在关联: %q") (.cons (.sel (.idx (.id c!"params") (.int 0)) c!"Name") .nil)) false) .nil))
  (.cons .brk
  .nil)) .nil)
  (.cons (.switch (.call (.id c!"len") (.cons (.id c!"params") .nil) false) (.case (.cons (.int 1) .nil) (.cons (.expr (.call (.sel (.id c!"sqlgraph") c!"HasNeighbors") (.cons (.id c!"builder") (.cons (.call (.sel (.id c!"sqlgraph") c!"NewStep") (.cons (.call (.sel (.id c!"sqlgraph") c!"From") (.cons (.sel (.id c!"tab") c!"Table") (.cons (.sel (.sel (.id c!"tab") c!"ID") c!"Column") .nil)) false) (.cons (.call (.sel (.id c!"sqlgraph") c!"To") (.cons (.sel (.sel (.id c!"edge") c!"To") c!"Table") (.cons (.sel (.sel (.sel (.id c!"edge") c!"To") c!"ID") c!"Column") .nil)) false) (.cons (.call (.sel (.id c!"sqlgraph") c!"Edge") (.cons (.sel (.sel (.id c!"edge") c!"Spec") c!"Rel") (.cons (.sel (.sel (.id c!"edge") c!"Spec") c!"Inverse") (.cons (.sel (.sel (.id c!"edge") c!"Spec") c!"Table") (.cons (.sel (.sel (.id c!"edge") c!"Spec") c!"Columns") .nil)))) true) .nil))) false) .nil)) false))
  .nil)
  (.case (.cons (.int 2) .nil) (.cons (.ite .nil (.un c!"!" (.call (.sel (.idx (.id c!"params") (.int 1)) c!"IsExpression") .nil false)) (.cons (.assign (.cons (.id c!"err") .nil) (.cons (.call (.sel (.id c!"errors") c!"Errorf") (.cons (.str c!"关联条件错误: %q") (.cons (.call (.sel (.idx (.id c!"params") (.int 1)) c!"String") .nil false) .nil)) false) .nil))
  (.cons .brk
  .nil)) .nil)
  (.cons (.expr (.call (.sel (.id c!"sqlgraph") c!"HasNeighborsWith") (.cons (.id c!"builder") (.cons (.call (.sel (.id c!"sqlgraph") c!"NewStep") (.cons (.call (.sel (.id c!"sqlgraph") c!"From") (.cons (.sel (.id c!"tab") c!"Table") (.cons (.sel (.sel (.id c!"tab") c!"ID") c!"Column") .nil)) false) (.cons (.call (.sel (.id c!"sqlgraph") c!"To") (.cons (.sel (.sel (.id c!"edge") c!"To") c!"Table") (.cons (.sel (.sel (.sel (.id c!"edge") c!"To") c!"ID") c!"Column") .nil)) false) (.cons (.call (.sel (.id c!"sqlgraph") c!"Edge") (.cons (.sel (.sel (.id c!"edge") c!"Spec") c!"Rel") (.cons (.sel (.sel (.id c!"edge") c!"Spec") c!"Inverse") (.cons (.sel (.sel (.id c!"edge") c!"Spec") c!"Table") (.cons (.sel (.sel (.id c!"edge") c!"Spec") c!"Columns") .nil)))) true) .nil))) false) (.cons (.fn [c!"selector"] [] (.cons (.expr (.call (.sel (.id c!"selector") c!"Where") (.cons (.call (.sel (.id c!"sql") c!"P") (.cons (.fn [c!"builder"] [] (.cons (.define [c!"mb"] (.cons (.un c!"&" (.lit (.id c!"MiniQLToEntSQLBuilder") (.cons (.id c!"ast") (.cons (.id c!"Node") (.cons (.id c!"DisableTypeCasting") .nil))) (.cons (.idx (.id c!"params") (.int 1)) (.cons (.sel (.id c!"edge") c!"To") (.cons (.sel (.id c!"mb") c!"DisableTypeCasting") .nil))))) .nil))
  (.cons (.expr (.call (.sel (.id c!"builder") c!"Join") (.cons (.id c!"mb") .nil) false))
  (.cons (.define [c!"err"] (.cons (.call (.sel (.id c!"mb") c!"Err") .nil false) .nil))
  (.cons (.ite .nil (.bin c!"!=" (.id c!"err") (.id c!"nil")) (.cons (.expr (.call (.sel (.id c!"builder") c!"AddError") (.cons (.id c!"err") .nil) false))
  .nil) .nil)
  .nil))))) .nil) false) .nil) false))
  .nil)) .nil))) false))
  .nil))
  (.dflt (.cons (.assign (.cons (.id c!"err") .nil) (.cons (.call (.sel (.id c!"errors") c!"New") (.cons (.str c!"关联参数错误") .nil) false) .nil))
  .nil)
  .nil))))
  (.cons (.ite .nil (.bin c!"==" (.id c!"err") (.id c!"nil")) (.cons (.define [c!"rv"] (.cons (.call (.sel (.call (.sel (.id c!"reflect") c!"ValueOf") (.cons (.id c!"builder") .nil) false) c!"Elem") .nil false) .nil))
  (.cons (.define [c!"rf"] (.cons (.call (.sel (.id c!"rv") c!"FieldByName") (.cons (.str c!"where") .nil) false) .nil))
  (.cons (.assign (.cons (.id c!"rf") .nil) (.cons (.call (.sel (.call (.sel (.id c!"reflect") c!"NewAt") (.cons (.call (.sel (.id c!"rf") c!"Type") .nil false) (.cons (.call (.sel (.id c!"unsafe") c!"Pointer") (.cons (.call (.sel (.id c!"rf") c!"UnsafeAddr") .nil false) .nil) false) .nil)) false) c!"Elem") .nil false) .nil))
  (.cons (.define [c!"p"] (.cons (.cast (.call (.sel (.id c!"rf") c!"Interface") .nil false) (.un c!"*" (.sel (.id c!"sql") c!"Predicate"))) .nil))
  (.cons (.assign (.cons (.id c!"err") .nil) (.cons (.call (.sel (.id c!"p") c!"Err") .nil false) .nil))
  (.cons (.expr (.call (.sel (.id c!"mb") c!"Join") (.cons (.id c!"p") .nil) false))
  .nil)))))) .nil)
  .nil))))))))
  (.dflt (.cons (.assign (.cons (.id c!"err") .nil) (.cons (.call (.sel (.id c!"errors") c!"Errorf") (.cons (.str c!"不支持的函数: %q") (.cons (.sel (.id c!"node") c!"Name") .nil)) false) .nil))
  .nil)
  .nil))))
  .nil)
  (.case (.cons (.sel (.id c!"miniquery") c!"BetweenExpressionType") .nil) (.cons (.define [c!"lo"] (.cons (.sel (.id c!"sql") c!"OpGTE") .nil))
  (.cons (.define [c!"ro"] (.cons (.sel (.id c!"sql") c!"OpLTE") .nil))
  (.cons (.ite .nil (.bin c!"==" (.sel (.sel (.id c!"node") c!"Op") c!"Operation") (.sel (.id c!"miniquery") c!"OpNotBetween")) (.cons (.assign (.cons (.id c!"lo") .nil) (.cons (.sel (.id c!"sql") c!"OpLT") .nil))
  (.cons (.assign (.cons (.id c!"ro") .nil) (.cons (.sel (.id c!"sql") c!"OpGT") .nil))
  .nil)) .nil)
  (.cons (.assign (.cons (.id c!"err") .nil) (.cons (.call (.id c!"visit") (.cons (.sel (.id c!"node") c!"Left") .nil) false) .nil))
  (.cons (.ite .nil (.bin c!"==" (.id c!"err") (.id c!"nil")) (.cons (.expr (.call (.sel (.id c!"s") c!"WriteOp") (.cons (.id c!"lo") .nil) false))
  (.cons (.assign (.cons (.id c!"err") .nil) (.cons (.call (.id c!"visit") (.cons (.idx (.sel (.id c!"node") c!"Params") (.int 0)) .nil) false) .nil))
  .nil)) .nil)
  (.cons (.ite .nil (.bin c!"==" (.id c!"err") (.id c!"nil")) (.cons (.expr (.call (.sel (.id c!"s") c!"WriteString") (.cons (.str c!" AND ") .nil) false))
  .nil) .nil)
  (.cons (.ite .nil (.bin c!"==" (.id c!"err") (.id c!"nil")) (.cons (.assign (.cons (.id c!"err") .nil) (.cons (.call (.id c!"visit") (.cons (.sel (.id c!"node") c!"Left") .nil) false) .nil))
  .nil) .nil)
  (.cons (.ite .nil (.bin c!"==" (.id c!"err") (.id c!"nil")) (.cons (.expr (.call (.sel (.id c!"s") c!"WriteOp") (.cons (.id c!"ro") .nil) false))
  (.cons (.assign (.cons (.id c!"err") .nil) (.cons (.call (.id c!"visit") (.cons (.idx (.sel (.id c!"node") c!"Params") (.int 1)) .nil) false) .nil))
  .nil)) .nil)
  .nil))))))))
  (.case (.cons (.sel (.id c!"miniquery") c!"PredicatesExpressionType") .nil) (.cons (.define [c!"op", c!"found"] (.cons (.idx (.id c!"entsqlOpMap") (.sel (.sel (.id c!"node") c!"Op") c!"Operation")) .nil))
  (.cons (.ite .nil (.un c!"!" (.id c!"found")) (.cons (.ret (.cons (.call (.sel (.id c!"errors") c!"Errorf") (.cons (.str c!"unexpected predicate op %q") (.cons (.sel (.sel (.id c!"node") c!"Op") c!"Operation") .nil)) false) .nil))
  .nil) .nil)
  (.cons (.assign (.cons (.id c!"err") .nil) (.cons (.call (.id c!"visit") (.cons (.sel (.id c!"node") c!"Left") .nil) false) .nil))
  (.cons (.expr (.call (.sel (.id c!"s") c!"WriteOp") (.cons (.id c!"op") .nil) false))
  .nil))))
  (.case (.cons (.sel (.id c!"miniquery") c!"LogicExpressionType") .nil) (.cons .fall
  .nil)
  (.case (.cons (.sel (.id c!"miniquery") c!"CompareExpressionType") .nil) (.cons (.assign (.cons (.id c!"err") .nil) (.cons (.call (.id c!"visit") (.cons (.sel (.id c!"node") c!"Left") .nil) false) .nil))
  (.cons (.define [c!"op", c!"found"] (.cons (.idx (.id c!"entsqlOpMap") (.sel (.sel (.id c!"node") c!"Op") c!"Operation")) .nil))
  (.cons (.ite .nil (.un c!"!" (.id c!"found")) (.cons (.switch (.sel (.sel (.id c!"node") c!"Op") c!"Operation") (.case (.cons (.sel (.id c!"miniquery") c!"OpNotLike") .nil) (.cons .fall
  .nil)
  (.case (.cons (.sel (.id c!"miniquery") c!"OpAnd") .nil) (.cons .fall
  .nil)
  (.case (.cons (.sel (.id c!"miniquery") c!"OpOr") .nil) (.cons (.expr (.call (.sel (.call (.sel (.call (.sel (.id c!"s") c!"Pad") .nil false) c!"WriteString") (.cons (.call (.sel (.id c!"strings") c!"ToUpper") (.cons (.sel (.sel (.id c!"node") c!"Op") c!"Operation") .nil) false) .nil) false) c!"Pad") .nil false))
  (.cons (.assign (.cons (.id c!"found") .nil) (.cons (.id c!"true") .nil))
  .nil))
  .nil))))
  .nil) (.cons (.expr (.call (.sel (.id c!"s") c!"WriteOp") (.cons (.id c!"op") .nil) false))
  .nil))
  (.cons (.ite .nil (.un c!"!" (.id c!"found")) (.cons (.ret (.cons (.call (.sel (.id c!"errors") c!"Errorf") (.cons (.str c!"unexpected op %q") (.cons (.sel (.sel (.id c!"node") c!"Op") c!"Operation") .nil)) false) .nil))
  .nil) .nil)
  (.cons (.ite .nil (.bin c!"==" (.id c!"err") (.id c!"nil")) (.cons (.assign (.cons (.id c!"err") .nil) (.cons (.call (.id c!"visit") (.cons (.sel (.id c!"node") c!"Right") .nil) false) .nil))
  .nil) .nil)
  .nil)))))
  (.dflt (.cons (.ret (.cons (.call (.sel (.id c!"errors") c!"Errorf") (.cons (.str c!"invalid type %q") (.cons (.sel (.id c!"node") c!"Type") .nil)) false) .nil))
  .nil)
  .nil))))))))))))
  (.cons (.ret (.cons (.id c!"err") .nil))
  .nil)))))

/-- The value of `entsqlOpMap`, /repo/entmq/entsql.go -/
def entsqlentsqlOpMapVal : Expr := (.lit (.map (.sel (.id c!"miniquery") c!"OpType") (.sel (.id c!"sql") c!"Op")) (.cons (.sel (.id c!"miniquery") c!"OpEQ") (.cons (.sel (.id c!"miniquery") c!"OpNEQ") (.cons (.sel (.id c!"miniquery") c!"OpGT") (.cons (.sel (.id c!"miniquery") c!"OpGTE") (.cons (.sel (.id c!"miniquery") c!"OpLT") (.cons (.sel (.id c!"miniquery") c!"OpLTE") (.cons (.sel (.id c!"miniquery") c!"OpIn") (.cons (.sel (.id c!"miniquery") c!"OpNotIn") (.cons (.sel (.id c!"miniquery") c!"OpLike") (.cons (.sel (.id c!"miniquery") c!"OpIsNull") (.cons (.sel (.id c!"miniquery") c!"OpIsNotNull") .nil))))))))))) (.cons (.sel (.id c!"sql") c!"OpEQ") (.cons (.sel (.id c!"sql") c!"OpNEQ") (.cons (.sel (.id c!"sql") c!"OpGT") (.cons (.sel (.id c!"sql") c!"OpGTE") (.cons (.sel (.id c!"sql") c!"OpLT") (.cons (.sel (.id c!"sql") c!"OpLTE") (.cons (.sel (.id c!"sql") c!"OpIn") (.cons (.sel (.id c!"sql") c!"OpNotIn") (.cons (.sel (.id c!"sql") c!"OpLike") (.cons (.sel (.id c!"sql") c!"OpIsNull") (.cons (.sel (.id c!"sql") c!"OpNotNull") .nil))))))))))))

/-- What /repo/entmq/entsql.go declares. -/
def entsqlDecls : List Decl := [
  .pkg c!"reflect",
  .pkg c!"strings",
  .pkg c!"unsafe",
  .pkg c!"miniquery",
  .pkg c!"sql",
  .pkg c!"sqlgraph",
  .pkg c!"xstrings",
  .pkg c!"errors",
  .struct c!"MiniQLToEntSQLBuilder" [(c!"Node", (.un c!"*" (.sel (.id c!"sqlgraph") c!"Node"))), (c!"QueryString", (.id c!"string")), (c!"ast", (.un c!"*" (.sel (.id c!"miniquery") c!"Node"))), (c!"SQLBuilder", (.un c!"*" (.sel (.id c!"sql") c!"Builder"))), (c!"Graph", (.un c!"*" (.sel (.id c!"sqlgraph") c!"Schema"))), (c!"Builder", (.sel (.id c!"sql") c!"Builder")), (c!"DisableTypeCasting", (.id c!"bool"))],
  .func c!"MiniQLToEntSQLBuilder.Query" true [c!"mb"] [c!"_", c!"_"] entsqlMiniQLToEntSQLBuilderQuery,
  .func c!"MiniQLToEntSQLBuilder.visit" true [c!"mb", c!"node"] [c!"err"] entsqlMiniQLToEntSQLBuildervisit,
  .val c!"entsqlOpMap" entsqlentsqlOpMapVal]

end Verif.Mini

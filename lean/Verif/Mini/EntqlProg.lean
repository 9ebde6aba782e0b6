import Verif.Mini.Ast

/-! # What the text of a file says (generated from it; `Verif.Mini.Texts` checks it) -/

namespace Verif.Mini

/-- The body of `ApplyEntQL`, /repo/entmq/entql.go -/
def entqlApplyEntQL : Stmts := (.cons (.range c!"_" c!"v" (.id c!"queries") (.cons (.define [c!"mb"] (.cons (.lit (.id c!"MiniQLToEntQLBuilder") (.cons (.id c!"Query") .nil) (.cons (.id c!"v") .nil)) .nil))
  (.cons (.define [c!"p", c!"err"] (.cons (.call (.sel (.id c!"mb") c!"Build") .nil false) .nil))
  (.cons (.ite .nil (.bin c!"!=" (.id c!"err") (.id c!"nil")) (.cons (.ret (.cons (.call (.sel (.id c!"errors") c!"Wrapf") (.cons (.id c!"err") (.cons (.str c!"failed to apply query: %q") (.cons (.id c!"v") .nil))) false) .nil))
  .nil) .nil)
  (.cons (.expr (.call (.sel (.id c!"q") c!"Where") (.cons (.id c!"p") .nil) false))
  .nil)))))
  (.cons (.ret (.cons (.id c!"nil") .nil))
  .nil))

/-- The body of `BuildEntQL`, /repo/entmq/entql.go -/
def entqlBuildEntQL : Stmts := (.cons (.define [c!"mb"] (.cons (.lit (.id c!"MiniQLToEntQLBuilder") (.cons (.id c!"Query") .nil) (.cons (.id c!"v") .nil)) .nil))
  (.cons (.define [c!"p", c!"err"] (.cons (.call (.sel (.id c!"mb") c!"Build") .nil false) .nil))
  (.cons (.ite .nil (.bin c!"!=" (.id c!"err") (.id c!"nil")) (.cons (.ret (.cons (.id c!"nil") (.cons (.call (.sel (.id c!"errors") c!"Wrapf") (.cons (.id c!"err") (.cons (.str c!"failed to build query: %q") (.cons (.id c!"v") .nil))) false) .nil)))
  .nil) .nil)
  (.cons (.ret (.cons (.id c!"p") (.cons (.id c!"nil") .nil)))
  .nil))))

/-- The body of `MiniQLToEntQLBuilder.pop`, /repo/entmq/entql.go -/
def entqlMiniQLToEntQLBuilderpop : Stmts := (.cons (.define [c!"v"] (.cons (.idx (.sel (.id c!"mb") c!"stack") (.bin c!"-" (.call (.id c!"len") (.cons (.sel (.id c!"mb") c!"stack") .nil) false) (.int 1))) .nil))
  (.cons (.assign (.cons (.sel (.id c!"mb") c!"stack") .nil) (.cons (.slc (.sel (.id c!"mb") c!"stack") .no (.bin c!"-" (.call (.id c!"len") (.cons (.sel (.id c!"mb") c!"stack") .nil) false) (.int 1))) .nil))
  (.cons (.ret (.cons (.id c!"v") .nil))
  .nil)))

/-- The body of `MiniQLToEntQLBuilder.push`, /repo/entmq/entql.go -/
def entqlMiniQLToEntQLBuilderpush : Stmts := (.cons (.assign (.cons (.sel (.id c!"mb") c!"stack") .nil) (.cons (.call (.id c!"append") (.cons (.sel (.id c!"mb") c!"stack") (.cons (.id c!"e") .nil)) false) .nil))
  .nil)

/-- The body of `MiniQLToEntQLBuilder.Build`, /repo/entmq/entql.go -/
def entqlMiniQLToEntQLBuilderBuild : Stmts := (.cons (.ite .nil (.bin c!"==" (.sel (.id c!"mb") c!"Query") (.str c!"")) (.cons (.ret .nil)
  .nil) .nil)
  (.cons (.define [c!"node", c!"err"] (.cons (.call (.sel (.id c!"miniquery") c!"Parse") (.cons (.sel (.id c!"mb") c!"Query") .nil) false) .nil))
  (.cons (.ite .nil (.bin c!"!=" (.id c!"err") (.id c!"nil")) (.cons (.ret (.cons (.id c!"nil") (.cons (.id c!"err") .nil)))
  .nil) .nil)
  (.cons (.assign (.cons (.id c!"err") .nil) (.cons (.call (.sel (.id c!"mb") c!"visit") (.cons (.id c!"node") .nil) false) .nil))
  (.cons (.ite .nil (.bin c!"&&" (.bin c!"==" (.id c!"err") (.id c!"nil")) (.bin c!">" (.call (.id c!"len") (.cons (.sel (.id c!"mb") c!"stack") .nil) false) (.int 0))) (.cons (.assign (.cons (.id c!"p") .nil) (.cons (.cast (.call (.sel (.id c!"mb") c!"pop") .nil false) (.sel (.id c!"entql") c!"P")) .nil))
  (.cons (.ite .nil (.bin c!">" (.call (.id c!"len") (.cons (.sel (.id c!"mb") c!"stack") .nil) false) (.int 1)) (.cons (.expr (.call (.sel (.call (.sel (.id c!"slog") c!"With") (.cons (.str c!"query") (.cons (.sel (.id c!"mb") c!"Query") .nil)) false) c!"Error") (.cons (.str c!"unexpected MiniQLBuilder stack size") (.cons (.str c!"size") (.cons (.call (.id c!"len") (.cons (.sel (.id c!"mb") c!"stack") .nil) false) .nil))) false))
  .nil) .nil)
  .nil)) .nil)
  (.cons (.ret .nil)
  .nil))))))

/-- The body of `MiniQLToEntQLBuilder.visit`, /repo/entmq/entql.go -/
def entqlMiniQLToEntQLBuildervisit : Stmts := (.cons (.define [c!"visit"] (.cons (.sel (.id c!"mb") c!"visit") .nil))
  (.cons (.switch (.sel (.id c!"node") c!"Type") (.case (.cons (.sel (.id c!"miniquery") c!"OperationNodeType") .nil) (.cons (.ret (.cons (.call (.sel (.id c!"errors") c!"Errorf") (.cons (.str c!"unexpected op node: %q") (.cons (.id c!"node") .nil)) false) .nil))
  .nil)
  (.case (.cons (.sel (.id c!"miniquery") c!"ValueNodeType") .nil) (.cons (.expr (.call (.sel (.id c!"mb") c!"push") (.cons (.un c!"&" (.lit (.sel (.id c!"entql") c!"Value") (.cons (.id c!"V") .nil) (.cons (.call (.sel (.id c!"node") c!"Value") .nil false) .nil))) .nil) false))
  .nil)
  (.case (.cons (.sel (.id c!"miniquery") c!"IdentifierNodeType") .nil) (.cons (.expr (.call (.sel (.id c!"mb") c!"push") (.cons (.call (.sel (.id c!"entql") c!"F") (.cons (.sel (.id c!"node") c!"Name") .nil) false) .nil) false))
  .nil)
  (.case (.cons (.sel (.id c!"miniquery") c!"ParenthesesExpressionType") .nil) (.cons (.assign (.cons (.id c!"err") .nil) (.cons (.call (.id c!"visit") (.cons (.sel (.id c!"node") c!"Expression") .nil) false) .nil))
  .nil)
  (.case (.cons (.sel (.id c!"miniquery") c!"NotExpressionType") .nil) (.cons (.assign (.cons (.id c!"err") .nil) (.cons (.call (.id c!"visit") (.cons (.sel (.id c!"node") c!"Expression") .nil) false) .nil))
  (.cons (.ite .nil (.bin c!"!=" (.id c!"err") (.id c!"nil")) (.cons (.expr (.call (.sel (.id c!"mb") c!"push") (.cons (.call (.sel (.id c!"entql") c!"Not") (.cons (.cast (.call (.sel (.id c!"mb") c!"pop") .nil false) (.sel (.id c!"entql") c!"P")) .nil) false) .nil) false))
  .nil) .nil)
  .nil))
  (.case (.cons (.sel (.id c!"miniquery") c!"FunctionExpressionType") .nil) .nil
  (.case (.cons (.sel (.id c!"miniquery") c!"BetweenExpressionType") .nil) (.cons (.assign (.cons (.id c!"err") .nil) (.cons (.call (.id c!"visit") (.cons (.sel (.id c!"node") c!"Left") .nil) false) .nil))
  (.cons (.ite .nil (.bin c!"==" (.id c!"err") (.id c!"nil")) (.cons (.assign (.cons (.id c!"err") .nil) (.cons (.call (.id c!"visit") (.cons (.idx (.sel (.id c!"node") c!"Params") (.int 0)) .nil) false) .nil))
  .nil) .nil)
  (.cons (.ite .nil (.bin c!"==" (.id c!"err") (.id c!"nil")) (.cons (.assign (.cons (.id c!"err") .nil) (.cons (.call (.id c!"visit") (.cons (.idx (.sel (.id c!"node") c!"Params") (.int 1)) .nil) false) .nil))
  .nil) .nil)
  (.cons (.ite .nil (.bin c!"==" (.id c!"err") (.id c!"nil")) (.cons (.define [c!"hig"] (.cons (.call (.sel (.id c!"mb") c!"pop") .nil false) .nil))
  (.cons (.define [c!"low"] (.cons (.call (.sel (.id c!"mb") c!"pop") .nil false) .nil))
  (.cons (.define [c!"left"] (.cons (.call (.sel (.id c!"mb") c!"pop") .nil false) .nil))
  (.cons (.define [c!"lo"] (.cons (.sel (.id c!"entql") c!"OpGTE") .nil))
  (.cons (.define [c!"ro"] (.cons (.sel (.id c!"entql") c!"OpLTE") .nil))
  (.cons (.ite .nil (.bin c!"==" (.sel (.sel (.id c!"node") c!"Op") c!"Operation") (.sel (.id c!"miniquery") c!"OpNotBetween")) (.cons (.assign (.cons (.id c!"lo") .nil) (.cons (.sel (.id c!"entql") c!"OpLT") .nil))
  (.cons (.assign (.cons (.id c!"ro") .nil) (.cons (.sel (.id c!"entql") c!"OpGT") .nil))
  .nil)) .nil)
  (.cons (.expr (.call (.sel (.id c!"mb") c!"push") (.cons (.call (.sel (.id c!"entql") c!"And") (.cons (.un c!"&" (.lit (.sel (.id c!"entql") c!"BinaryExpr") (.cons (.id c!"Op") (.cons (.id c!"X") (.cons (.id c!"Y") .nil))) (.cons (.id c!"lo") (.cons (.id c!"left") (.cons (.id c!"low") .nil))))) (.cons (.un c!"&" (.lit (.sel (.id c!"entql") c!"BinaryExpr") (.cons (.id c!"Op") (.cons (.id c!"X") (.cons (.id c!"Y") .nil))) (.cons (.id c!"ro") (.cons (.id c!"left") (.cons (.id c!"hig") .nil))))) .nil)) false) .nil) false))
  .nil))))))) .nil)
  .nil))))
  (.case (.cons (.sel (.id c!"miniquery") c!"PredicatesExpressionType") .nil) (.cons (.expr (.call (.id c!"panic") (.cons (.str c!"TODO") .nil) false))
  .nil)
  (.case (.cons (.sel (.id c!"miniquery") c!"LogicExpressionType") .nil) (.cons .fall
  .nil)
  (.case (.cons (.sel (.id c!"miniquery") c!"CompareExpressionType") .nil) (.cons (.assign (.cons (.id c!"err") .nil) (.cons (.call (.id c!"visit") (.cons (.sel (.id c!"node") c!"Left") .nil) false) .nil))
  (.cons (.ite .nil (.bin c!"==" (.id c!"err") (.id c!"nil")) (.cons (.assign (.cons (.id c!"err") .nil) (.cons (.call (.id c!"visit") (.cons (.sel (.id c!"node") c!"Right") .nil) false) .nil))
  .nil) .nil)
  (.cons (.ite .nil (.bin c!"==" (.id c!"err") (.id c!"nil")) (.cons (.define [c!"right"] (.cons (.call (.sel (.id c!"mb") c!"pop") .nil false) .nil))
  (.cons (.define [c!"left"] (.cons (.call (.sel (.id c!"mb") c!"pop") .nil false) .nil))
  (.cons (.define [c!"op", c!"found"] (.cons (.idx (.id c!"entqlOpMap") (.sel (.sel (.id c!"node") c!"Op") c!"Operation")) .nil))
  (.cons (.ite .nil (.un c!"!" (.id c!"found")) (.cons (.ret (.cons (.call (.sel (.id c!"errors") c!"Errorf") (.cons (.str c!"unexpected op %q") (.cons (.sel (.sel (.id c!"node") c!"Op") c!"Operation") .nil)) false) .nil))
  .nil) .nil)
  (.cons (.expr (.call (.sel (.id c!"mb") c!"push") (.cons (.un c!"&" (.lit (.sel (.id c!"entql") c!"BinaryExpr") (.cons (.id c!"Op") (.cons (.id c!"X") (.cons (.id c!"Y") .nil))) (.cons (.id c!"op") (.cons (.id c!"left") (.cons (.id c!"right") .nil))))) .nil) false))
  .nil))))) .nil)
  .nil)))
  (.dflt (.cons (.ret (.cons (.call (.sel (.id c!"errors") c!"Errorf") (.cons (.str c!"invalid type %q") (.cons (.sel (.id c!"node") c!"Type") .nil)) false) .nil))
  .nil)
  .nil))))))))))))
  (.cons (.ret (.cons (.id c!"err") .nil))
  .nil)))

/-- The value of `entqlOpMap`, /repo/entmq/entql.go -/
def entqlentqlOpMapVal : Expr := (.lit (.map (.sel (.id c!"miniquery") c!"OpType") (.sel (.id c!"entql") c!"Op")) (.cons (.sel (.id c!"miniquery") c!"OpAnd") (.cons (.sel (.id c!"miniquery") c!"OpOr") (.cons (.sel (.id c!"miniquery") c!"OpNot") (.cons (.sel (.id c!"miniquery") c!"OpEQ") (.cons (.sel (.id c!"miniquery") c!"OpNEQ") (.cons (.sel (.id c!"miniquery") c!"OpGT") (.cons (.sel (.id c!"miniquery") c!"OpGTE") (.cons (.sel (.id c!"miniquery") c!"OpLT") (.cons (.sel (.id c!"miniquery") c!"OpLTE") (.cons (.sel (.id c!"miniquery") c!"OpIn") (.cons (.sel (.id c!"miniquery") c!"OpNotIn") .nil))))))))))) (.cons (.sel (.id c!"entql") c!"OpAnd") (.cons (.sel (.id c!"entql") c!"OpOr") (.cons (.sel (.id c!"entql") c!"OpNot") (.cons (.sel (.id c!"entql") c!"OpEQ") (.cons (.sel (.id c!"entql") c!"OpNEQ") (.cons (.sel (.id c!"entql") c!"OpGT") (.cons (.sel (.id c!"entql") c!"OpGTE") (.cons (.sel (.id c!"entql") c!"OpLT") (.cons (.sel (.id c!"entql") c!"OpLTE") (.cons (.sel (.id c!"entql") c!"OpIn") (.cons (.sel (.id c!"entql") c!"OpNotIn") .nil))))))))))))

/-- What /repo/entmq/entql.go declares. -/
def entqlDecls : List Decl := [
  .pkg c!"slog",
  .pkg c!"entql",
  .pkg c!"errors",
  .pkg c!"miniquery",
  .func c!"ApplyEntQL" false [c!"q", c!"queries"] [c!"_"] entqlApplyEntQL,
  .func c!"BuildEntQL" false [c!"v"] [c!"_", c!"_"] entqlBuildEntQL,
  .struct c!"MiniQLToEntQLBuilder" [(c!"Query", (.id c!"string")), (c!"stack", (.arr (.sel (.id c!"entql") c!"Expr")))],
  .func c!"MiniQLToEntQLBuilder.pop" true [c!"mb"] [c!"_"] entqlMiniQLToEntQLBuilderpop,
  .func c!"MiniQLToEntQLBuilder.push" true [c!"mb", c!"e"] [] entqlMiniQLToEntQLBuilderpush,
  .func c!"MiniQLToEntQLBuilder.Build" true [c!"mb"] [c!"p", c!"err"] entqlMiniQLToEntQLBuilderBuild,
  .func c!"MiniQLToEntQLBuilder.visit" true [c!"mb", c!"node"] [c!"err"] entqlMiniQLToEntQLBuildervisit,
  .val c!"entqlOpMap" entqlentqlOpMapVal]

end Verif.Mini

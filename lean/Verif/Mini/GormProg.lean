import Verif.Mini.Ast

/-! # What the text of a file says (generated from it; `Verif.Mini.Texts` checks it) -/

namespace Verif.Mini

/-- The body of `MiniQuery.Scope`, /repo/gormq/miniquery.go -/
def gormMiniQueryScope : Stmts := (.cons (.ret (.cons (.call (.id c!"WireMiniQuery") (.cons (.id c!"db") (.cons (.call (.sel (.id c!"miniquery") c!"Join") (.cons (.sel (.id c!"q") c!"Query") .nil) false) .nil)) false) .nil))
  .nil)

/-- The body of `GetOrParseSchema`, /repo/gormq/miniquery.go -/
def gormGetOrParseSchema : Stmts := (.cons (.define [c!"stat"] (.cons (.sel (.id c!"db") c!"Statement") .nil))
  (.cons (.ite .nil (.bin c!"==" (.sel (.id c!"stat") c!"Schema") (.id c!"nil")) (.cons (.ite .nil (.bin c!"!=" (.sel (.id c!"stat") c!"Model") (.id c!"nil")) (.cons (.ite (.cons (.assign (.cons (.id c!"err") .nil) (.cons (.call (.sel (.id c!"stat") c!"Parse") (.cons (.sel (.id c!"stat") c!"Model") .nil) false) .nil))
  .nil) (.bin c!"!=" (.id c!"err") (.id c!"nil")) (.cons (.ret .nil)
  .nil) .nil)
  .nil) (.cons (.ret (.cons (.id c!"nil") (.cons (.call (.sel (.id c!"fmt") c!"Errorf") (.cons (.str c!"missing model") .nil) false) .nil)))
  .nil))
  .nil) .nil)
  (.cons (.ret (.cons (.sel (.id c!"stat") c!"Schema") (.cons (.id c!"nil") .nil)))
  .nil)))

/-- The body of `ApplyMiniQuery`, /repo/gormq/miniquery.go -/
def gormApplyMiniQuery : Stmts := (.cons (.ret (.cons (.fn [c!"db"] [c!"_"] (.cons (.ret (.cons (.call (.id c!"WireMiniQuery") (.cons (.id c!"db") (.cons (.id c!"query") .nil)) false) .nil))
  .nil)) .nil))
  .nil)

/-- The body of `WireMiniQuery`, /repo/gormq/miniquery.go -/
def gormWireMiniQuery : Stmts := (.cons (.ite .nil (.bin c!"==" (.id c!"query") (.str c!"")) (.cons (.ret (.cons (.id c!"db") .nil))
  .nil) .nil)
  (.cons (.define [c!"ast", c!"err"] (.cons (.call (.sel (.id c!"miniquery") c!"Parse") (.cons (.id c!"query") .nil) false) .nil))
  (.cons (.ite .nil (.bin c!"!=" (.id c!"err") (.id c!"nil")) (.cons (.assign (.cons (.id c!"_") .nil) (.cons (.call (.sel (.id c!"db") c!"AddError") (.cons (.call (.sel (.id c!"fmt") c!"Errorf") (.cons (.str c!"invalid query syntax: %v") (.cons (.id c!"err") .nil)) false) .nil) false) .nil))
  (.cons (.ret (.cons (.id c!"db") .nil))
  .nil)) .nil)
  (.cons (.define [c!"schema", c!"err"] (.cons (.call (.id c!"GetOrParseSchema") (.cons (.id c!"db") .nil) false) .nil))
  (.cons (.ite .nil (.bin c!"!=" (.id c!"err") (.id c!"nil")) (.cons (.assign (.cons (.id c!"_") .nil) (.cons (.call (.sel (.id c!"db") c!"AddError") (.cons (.id c!"err") .nil) false) .nil))
  (.cons (.ret (.cons (.id c!"db") .nil))
  .nil)) .nil)
  (.cons (.var c!"vals" (.arr (.id c!"interface")))
  (.cons (.define [c!"buf"] (.cons (.un c!"&" (.lit (.sel (.id c!"strings") c!"Builder") .nil .nil)) .nil))
  (.cons (.define [c!"joined"] (.cons (.lit (.map (.id c!"string") (.arr (.id c!"string"))) .nil .nil) .nil))
  (.cons (.define [c!"quote"] (.cons (.fn [c!"builder", c!"name"] [] (.cons (.expr (.call (.sel (.id c!"db") c!"QuoteTo") (.cons (.id c!"builder") (.cons (.id c!"name") .nil)) false))
  .nil)) .nil))
  (.cons (.define [c!"qb"] (.cons (.un c!"&" (.lit (.id c!"queryBuilder") (.cons (.id c!"buf") (.cons (.id c!"addValue") (.cons (.id c!"mapName") (.cons (.id c!"join") (.cons (.id c!"quote") .nil))))) (.cons (.id c!"buf") (.cons (.fn [c!"i"] [] (.cons (.assign (.cons (.id c!"vals") .nil) (.cons (.call (.id c!"append") (.cons (.id c!"vals") (.cons (.id c!"i") .nil)) false) .nil))
  .nil)) (.cons (.fn [c!"s"] [c!"_", c!"_"] (.cons (.define [c!"n", c!"ok"] (.cons (.call (.id c!"getDBName") (.cons (.id c!"schema") (.cons (.id c!"s") .nil)) false) .nil))
  (.cons (.ite .nil (.un c!"!" (.id c!"ok")) (.cons (.ret (.cons (.id c!"s") (.cons (.call (.sel (.id c!"fmt") c!"Errorf") (.cons (.str c!"field not found: %q") (.cons (.id c!"s") .nil)) false) .nil)))
  .nil) .nil)
  (.cons (.ret (.cons (.id c!"n") (.cons (.id c!"nil") .nil)))
  .nil)))) (.cons (.fn [c!"s", c!"fieldName"] [c!"_", c!"_"] (.cons (.define [c!"r"] (.cons (.idx (.sel (.sel (.id c!"schema") c!"Relationships") c!"Relations") (.id c!"s")) .nil))
  (.cons (.ite .nil (.bin c!"==" (.id c!"r") (.id c!"nil")) (.cons (.ret (.cons (.str c!"") (.cons (.call (.sel (.id c!"fmt") c!"Errorf") (.cons (.str c!"relation not found: %q") (.cons (.id c!"s") .nil)) false) .nil)))
  .nil) .nil)
  (.cons (.var c!"name" (.id c!"string"))
  (.cons (.var c!"ok" (.id c!"bool"))
  (.cons (.ite (.cons (.assign (.cons (.id c!"name") (.cons (.id c!"ok") .nil)) (.cons (.call (.id c!"getDBName") (.cons (.sel (.id c!"r") c!"FieldSchema") (.cons (.id c!"fieldName") .nil)) false) .nil))
  .nil) (.un c!"!" (.id c!"ok")) (.cons (.ret (.cons (.str c!"") (.cons (.call (.sel (.id c!"fmt") c!"Errorf") (.cons (.str c!"relation field not found: %q.%q") (.cons (.id c!"s") (.cons (.id c!"fieldName") .nil))) false) .nil)))
  .nil) .nil)
  (.cons (.ite (.cons (.define [c!"_", c!"ok"] (.cons (.idx (.id c!"joined") (.id c!"s")) .nil))
  .nil) (.un c!"!" (.id c!"ok")) (.cons (.assign (.cons (.id c!"db") .nil) (.cons (.call (.sel (.id c!"db") c!"Joins") (.cons (.id c!"s") .nil) false) .nil))
  .nil) .nil)
  (.cons (.assign (.cons (.idx (.id c!"joined") (.id c!"s")) .nil) (.cons (.call (.id c!"append") (.cons (.idx (.id c!"joined") (.id c!"s")) (.cons (.id c!"name") .nil)) false) .nil))
  (.cons (.ret (.cons (.bin c!"+" (.bin c!"+" (.id c!"s") (.str c!".")) (.id c!"name")) (.cons (.id c!"nil") .nil)))
  .nil))))))))) (.cons (.id c!"quote") .nil))))))) .nil))
  (.cons (.assign (.cons (.id c!"err") .nil) (.cons (.call (.sel (.id c!"qb") c!"visit") (.cons (.id c!"ast") .nil) false) .nil))
  (.cons (.ite .nil (.bin c!"!=" (.id c!"err") (.id c!"nil")) (.cons (.assign (.cons (.id c!"_") .nil) (.cons (.call (.sel (.id c!"db") c!"AddError") (.cons (.id c!"err") .nil) false) .nil))
  .nil) (.cons (.assign (.cons (.id c!"db") .nil) (.cons (.call (.sel (.id c!"db") c!"Where") (.cons (.call (.sel (.id c!"buf") c!"String") .nil false) (.cons (.id c!"vals") .nil)) true) .nil))
  .nil))
  (.cons (.ret (.cons (.id c!"db") .nil))
  .nil)))))))))))))

/-- The body of `queryBuilder.visitReference`, /repo/gormq/miniquery.go -/
def gormqueryBuildervisitReference : Stmts := (.cons (.ite .nil (.bin c!"!=" (.call (.id c!"len") (.cons (.sel (.id c!"node") c!"Names") .nil) false) (.int 2)) (.cons (.ret (.cons (.call (.sel (.id c!"errors") c!"New") (.cons (.str c!"only support join one level") .nil) false) .nil))
  .nil) .nil)
  (.cons (.define [c!"name", c!"err"] (.cons (.call (.sel (.id c!"qb") c!"join") (.cons (.idx (.sel (.id c!"node") c!"Names") (.int 0)) (.cons (.idx (.sel (.id c!"node") c!"Names") (.int 1)) .nil)) false) .nil))
  (.cons (.ite .nil (.bin c!"!=" (.id c!"err") (.id c!"nil")) (.cons (.ret (.cons (.id c!"err") .nil))
  .nil) .nil)
  (.cons (.define [c!"quote"] (.cons (.sel (.id c!"qb") c!"quote") .nil))
  (.cons (.define [c!"buf"] (.cons (.sel (.id c!"qb") c!"buf") .nil))
  (.cons (.expr (.call (.id c!"quote") (.cons (.id c!"buf") (.cons (.id c!"name") .nil)) false))
  (.cons (.ret .nil)
  .nil)))))))

/-- The body of `queryBuilder.visitIdentifier`, /repo/gormq/miniquery.go -/
def gormqueryBuildervisitIdentifier : Stmts := (.cons (.define [c!"buf"] (.cons (.sel (.id c!"qb") c!"buf") .nil))
  (.cons (.define [c!"mapName"] (.cons (.sel (.id c!"qb") c!"mapName") .nil))
  (.cons (.define [c!"quote"] (.cons (.sel (.id c!"qb") c!"quote") .nil))
  (.cons (.define [c!"name"] (.cons (.sel (.id c!"node") c!"Name") .nil))
  (.cons (.assign (.cons (.id c!"name") (.cons (.id c!"err") .nil)) (.cons (.call (.id c!"mapName") (.cons (.id c!"name") .nil) false) .nil))
  (.cons (.ite .nil (.bin c!"!=" (.id c!"err") (.id c!"nil")) (.cons (.ret (.cons (.id c!"err") .nil))
  .nil) .nil)
  (.cons (.expr (.call (.id c!"quote") (.cons (.id c!"buf") (.cons (.id c!"name") .nil)) false))
  (.cons (.ret .nil)
  .nil))))))))

/-- The body of `queryBuilder.visit`, /repo/gormq/miniquery.go -/
def gormqueryBuildervisit : Stmts := (.cons (.define [c!"buf"] (.cons (.sel (.id c!"qb") c!"buf") .nil))
  (.cons (.define [c!"addValue"] (.cons (.sel (.id c!"qb") c!"addValue") .nil))
  (.cons (.define [c!"visit"] (.cons (.sel (.id c!"qb") c!"visit") .nil))
  (.cons (.switch (.sel (.id c!"node") c!"Type") (.case (.cons (.sel (.id c!"miniquery") c!"OperationNodeType") .nil) (.cons (.expr (.call (.sel (.id c!"buf") c!"WriteString") (.cons (.call (.id c!"normalizeSQL") (.cons (.sel (.id c!"node") c!"Operation") .nil) false) .nil) false))
  .nil)
  (.case (.cons (.sel (.id c!"miniquery") c!"ValueNodeType") .nil) (.cons (.expr (.call (.sel (.id c!"buf") c!"WriteRune") (.cons (.chr '?') .nil) false))
  (.cons (.expr (.call (.id c!"addValue") (.cons (.call (.sel (.id c!"node") c!"Value") .nil false) .nil) false))
  .nil))
  (.case (.cons (.sel (.id c!"miniquery") c!"IdentifierNodeType") .nil) (.cons (.assign (.cons (.id c!"err") .nil) (.cons (.call (.sel (.id c!"qb") c!"visitIdentifier") (.cons (.id c!"node") .nil) false) .nil))
  .nil)
  (.case (.cons (.sel (.id c!"miniquery") c!"ReferenceNodeType") .nil) (.cons (.assign (.cons (.id c!"err") .nil) (.cons (.call (.sel (.id c!"qb") c!"visitReference") (.cons (.id c!"node") .nil) false) .nil))
  .nil)
  (.case (.cons (.sel (.id c!"miniquery") c!"ParenthesesExpressionType") .nil) (.cons (.expr (.call (.sel (.id c!"buf") c!"WriteRune") (.cons (.chr '(') .nil) false))
  (.cons (.assign (.cons (.id c!"err") .nil) (.cons (.call (.id c!"visit") (.cons (.sel (.id c!"node") c!"Expression") .nil) false) .nil))
  (.cons (.expr (.call (.sel (.id c!"buf") c!"WriteRune") (.cons (.chr ')') .nil) false))
  .nil)))
  (.case (.cons (.sel (.id c!"miniquery") c!"NotExpressionType") .nil) (.cons (.expr (.call (.sel (.id c!"buf") c!"WriteString") (.cons (.str c!"not ") .nil) false))
  (.cons (.assign (.cons (.id c!"err") .nil) (.cons (.call (.id c!"visit") (.cons (.sel (.id c!"node") c!"Expression") .nil) false) .nil))
  .nil))
  (.case (.cons (.sel (.id c!"miniquery") c!"FunctionExpressionType") .nil) (.cons (.assign (.cons (.id c!"err") .nil) (.cons (.call (.sel (.id c!"qb") c!"visitFunction") (.cons (.id c!"node") .nil) false) .nil))
  .nil)
  (.case (.cons (.sel (.id c!"miniquery") c!"BetweenExpressionType") .nil) (.cons (.assign (.cons (.id c!"err") .nil) (.cons (.call (.id c!"visit") (.cons (.sel (.id c!"node") c!"Left") .nil) false) .nil))
  (.cons (.ite .nil (.bin c!"==" (.id c!"err") (.id c!"nil")) (.cons (.expr (.call (.sel (.id c!"buf") c!"WriteRune") (.cons (.chr ' ') .nil) false))
  (.cons (.assign (.cons (.id c!"err") .nil) (.cons (.call (.id c!"visit") (.cons (.sel (.id c!"node") c!"Op") .nil) false) .nil))
  .nil)) .nil)
  (.cons (.ite .nil (.bin c!"==" (.id c!"err") (.id c!"nil")) (.cons (.expr (.call (.sel (.id c!"buf") c!"WriteRune") (.cons (.chr ' ') .nil) false))
  (.cons (.assign (.cons (.id c!"err") .nil) (.cons (.call (.id c!"visit") (.cons (.idx (.sel (.id c!"node") c!"Params") (.int 0)) .nil) false) .nil))
  .nil)) .nil)
  (.cons (.ite .nil (.bin c!"==" (.id c!"err") (.id c!"nil")) (.cons (.expr (.call (.sel (.id c!"buf") c!"WriteString") (.cons (.str c!" and ") .nil) false))
  (.cons (.assign (.cons (.id c!"err") .nil) (.cons (.call (.id c!"visit") (.cons (.idx (.sel (.id c!"node") c!"Params") (.int 1)) .nil) false) .nil))
  .nil)) .nil)
  .nil))))
  (.case (.cons (.sel (.id c!"miniquery") c!"PredicatesExpressionType") .nil) (.cons .fall
  .nil)
  (.case (.cons (.sel (.id c!"miniquery") c!"LogicExpressionType") .nil) (.cons .fall
  .nil)
  (.case (.cons (.sel (.id c!"miniquery") c!"CompareExpressionType") .nil) (.cons (.assign (.cons (.id c!"err") .nil) (.cons (.call (.id c!"visit") (.cons (.sel (.id c!"node") c!"Left") .nil) false) .nil))
  (.cons (.ite .nil (.bin c!"==" (.id c!"err") (.id c!"nil")) (.cons (.expr (.call (.sel (.id c!"buf") c!"WriteRune") (.cons (.chr ' ') .nil) false))
  (.cons (.assign (.cons (.id c!"err") .nil) (.cons (.call (.id c!"visit") (.cons (.sel (.id c!"node") c!"Op") .nil) false) .nil))
  .nil)) .nil)
  (.cons (.ite .nil (.bin c!"&&" (.bin c!"==" (.id c!"err") (.id c!"nil")) (.bin c!"!=" (.sel (.id c!"node") c!"Right") (.id c!"nil"))) (.cons (.expr (.call (.sel (.id c!"buf") c!"WriteRune") (.cons (.chr ' ') .nil) false))
  (.cons (.assign (.cons (.id c!"err") .nil) (.cons (.call (.id c!"visit") (.cons (.sel (.id c!"node") c!"Right") .nil) false) .nil))
  .nil)) .nil)
  .nil)))
  (.dflt (.cons (.ret (.cons (.call (.sel (.id c!"errors") c!"Errorf") (.cons (.str c!"invalid type %q") (.cons (.sel (.id c!"node") c!"Type") .nil)) false) .nil))
  .nil)
  .nil)))))))))))))
  (.cons (.ret (.cons (.id c!"err") .nil))
  .nil)))))

/-- The body of `queryBuilder.visitFunction`, /repo/gormq/miniquery.go -/
def gormqueryBuildervisitFunction : Stmts := (.cons (.define [c!"buf"] (.cons (.sel (.id c!"qb") c!"buf") .nil))
  (.cons (.define [c!"visit"] (.cons (.sel (.id c!"qb") c!"visit") .nil))
  (.cons (.switch (.sel (.id c!"node") c!"Name") (.case (.cons (.str c!"date") .nil) (.cons (.expr (.call (.sel (.id c!"buf") c!"WriteString") (.cons (.sel (.id c!"node") c!"Name") .nil) false))
  (.cons (.expr (.call (.sel (.id c!"buf") c!"WriteString") (.cons (.str c!"(") .nil) false))
  (.cons (.range c!"_" c!"v" (.sel (.id c!"node") c!"Params") (.cons (.ite (.cons (.assign (.cons (.id c!"err") .nil) (.cons (.call (.id c!"visit") (.cons (.id c!"v") .nil) false) .nil))
  .nil) (.bin c!"!=" (.id c!"err") (.id c!"nil")) (.cons (.ret .nil)
  .nil) .nil)
  .nil))
  (.cons (.expr (.call (.sel (.id c!"buf") c!"WriteString") (.cons (.str c!")") .nil) false))
  .nil))))
  (.dflt (.cons (.assign (.cons (.id c!"err") .nil) (.cons (.call (.sel (.id c!"fmt") c!"Errorf") (.cons (.str c!"unsupported function: %q") (.cons (.sel (.id c!"node") c!"Name") .nil)) false) .nil))
  .nil)
  .nil)))
  (.cons (.ret .nil)
  .nil))))

/-- The body of `getDBName`, /repo/gormq/miniquery.go -/
def gormgetDBName : Stmts := (.cons (.ite (.cons (.define [c!"_", c!"ok"] (.cons (.idx (.sel (.id c!"st") c!"FieldsByDBName") (.id c!"name")) .nil))
  .nil) (.id c!"ok") (.cons (.ret (.cons (.id c!"name") (.cons (.id c!"true") .nil)))
  .nil) .nil)
  (.cons (.ite (.cons (.define [c!"f", c!"ok"] (.cons (.idx (.sel (.id c!"st") c!"FieldsByName") (.id c!"name")) .nil))
  .nil) (.id c!"ok") (.cons (.ret (.cons (.sel (.id c!"f") c!"DBName") (.cons (.id c!"true") .nil)))
  .nil) .nil)
  (.cons (.range c!"_" c!"f" (.sel (.id c!"st") c!"Fields") (.cons (.ite .nil (.call (.sel (.id c!"strings") c!"EqualFold") (.cons (.sel (.id c!"f") c!"Name") (.cons (.id c!"name") .nil)) false) (.cons (.ret (.cons (.sel (.id c!"f") c!"DBName") (.cons (.id c!"true") .nil)))
  .nil) .nil)
  .nil))
  (.cons (.ret (.cons (.id c!"name") (.cons (.id c!"false") .nil)))
  .nil))))

/-- The body of `normalizeSQL`, /repo/gormq/miniquery.go -/
def gormnormalizeSQL : Stmts := (.cons (.ite (.cons (.define [c!"v", c!"ok"] (.cons (.idx (.id c!"normalize") (.id c!"s")) .nil))
  .nil) (.id c!"ok") (.cons (.ret (.cons (.id c!"v") .nil))
  .nil) .nil)
  (.cons (.ret (.cons (.id c!"s") .nil))
  .nil))

/-- The value of `normalize`, /repo/gormq/miniquery.go -/
def gormnormalizeVal : Expr := (.lit (.map (.id c!"string") (.id c!"string")) (.cons (.str c!"gt") (.cons (.str c!"gte") (.cons (.str c!"eq") (.cons (.str c!"neq") (.cons (.str c!"lt") (.cons (.str c!"lte") (.cons (.str c!"and") (.cons (.str c!"or") .nil)))))))) (.cons (.str c!">") (.cons (.str c!">=") (.cons (.str c!"=") (.cons (.str c!"<>") (.cons (.str c!"<") (.cons (.str c!"<=") (.cons (.str c!"and") (.cons (.str c!"or") .nil)))))))))

/-- What /repo/gormq/miniquery.go declares. -/
def gormDecls : List Decl := [
  .pkg c!"fmt",
  .pkg c!"strings",
  .pkg c!"errors",
  .pkg c!"miniquery",
  .pkg c!"gorm",
  .pkg c!"schema",
  .struct c!"MiniQuery" [(c!"Query", (.arr (.id c!"string")))],
  .func c!"MiniQuery.Scope" false [c!"q", c!"db"] [c!"_"] gormMiniQueryScope,
  .func c!"GetOrParseSchema" false [c!"db"] [c!"schema", c!"err"] gormGetOrParseSchema,
  .func c!"ApplyMiniQuery" false [c!"query"] [c!"_"] gormApplyMiniQuery,
  .func c!"WireMiniQuery" false [c!"db", c!"query"] [c!"_"] gormWireMiniQuery,
  .struct c!"queryBuilder" [(c!"buf", (.un c!"*" (.sel (.id c!"strings") c!"Builder"))), (c!"addValue", (.id c!"func")), (c!"mapName", (.id c!"func")), (c!"quote", (.id c!"func")), (c!"join", (.id c!"func"))],
  .func c!"queryBuilder.visitReference" true [c!"qb", c!"node"] [c!"err"] gormqueryBuildervisitReference,
  .func c!"queryBuilder.visitIdentifier" true [c!"qb", c!"node"] [c!"err"] gormqueryBuildervisitIdentifier,
  .func c!"queryBuilder.visit" true [c!"qb", c!"node"] [c!"err"] gormqueryBuildervisit,
  .func c!"queryBuilder.visitFunction" true [c!"qb", c!"node"] [c!"err"] gormqueryBuildervisitFunction,
  .func c!"getDBName" false [c!"st", c!"name"] [c!"_", c!"_"] gormgetDBName,
  .func c!"normalizeSQL" false [c!"s"] [c!"_"] gormnormalizeSQL,
  .val c!"normalize" gormnormalizeVal]

end Verif.Mini

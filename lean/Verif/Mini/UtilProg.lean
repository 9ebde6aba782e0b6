import Verif.Mini.Ast

/-! # What the text of a file says (generated from it; `Verif.Mini.Texts` checks it) -/

namespace Verif.Mini

/-- The body of `argWithCast`, /repo/entmq/entsql_util.go -/
def utilargWithCast : Stmts := (.cons (.ret (.cons (.lit (.id c!"typeCastParamFormatter") (.cons .no .nil) (.cons (.id c!"in") .nil)) .nil))
  .nil)

/-- The body of `typeCastParamFormatter.FormatParam`, /repo/entmq/entsql_util.go -/
def utiltypeCastParamFormatterFormatParam : Stmts := (.cons (.ite .nil (.bin c!"==" (.sel (.id c!"info") c!"Dialect") (.sel (.id c!"dialect") c!"Postgres")) (.cons (.var c!"typ" (.id c!"string"))
  (.cons (.types (.sel (.id c!"f") c!"v") (.case (.cons (.id c!"int") .nil) (.cons (.assign (.cons (.id c!"typ") .nil) (.cons (.str c!"int") .nil))
  .nil)
  (.case (.cons (.id c!"bool") .nil) (.cons (.assign (.cons (.id c!"typ") .nil) (.cons (.str c!"bool") .nil))
  .nil)
  (.case (.cons (.id c!"float64") .nil) (.cons (.assign (.cons (.id c!"typ") .nil) (.cons (.str c!"double precision") .nil))
  .nil)
  (.dflt (.cons (.ret (.cons (.id c!"placeholder") .nil))
  .nil)
  .nil)))))
  (.cons (.ret (.cons (.bin c!"+" (.bin c!"+" (.id c!"placeholder") (.str c!"::")) (.id c!"typ")) .nil))
  .nil))) .nil)
  (.cons (.ret (.cons (.id c!"placeholder") .nil))
  .nil))

/-- The body of `typeCastParamFormatter.Value`, /repo/entmq/entsql_util.go -/
def utiltypeCastParamFormatterValue : Stmts := (.cons (.ret (.cons (.sel (.id c!"f") c!"v") (.cons (.id c!"nil") .nil)))
  .nil)

/-- What /repo/entmq/entsql_util.go declares. -/
def utilDecls : List Decl := [
  .pkg c!"driver",
  .pkg c!"dialect",
  .pkg c!"sql",
  .func c!"argWithCast" false [c!"in"] [c!"_"] utilargWithCast,
  .struct c!"typeCastParamFormatter" [(c!"v", (.id c!"interface"))],
  .func c!"typeCastParamFormatter.FormatParam" false [c!"f", c!"placeholder", c!"info"] [c!"_"] utiltypeCastParamFormatterFormatParam,
  .func c!"typeCastParamFormatter.Value" false [c!"f"] [c!"_", c!"_"] utiltypeCastParamFormatterValue]

end Verif.Mini

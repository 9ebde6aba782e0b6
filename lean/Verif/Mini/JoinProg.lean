import Verif.Mini.Ast

/-! # What the text of a file says (generated from it; `Verif.Mini.Texts` checks it) -/

namespace Verif.Mini

/-- The body of `Join`, /repo/miniquery/join.go -/
def joinJoin : Stmts := (.cons (.switch (.call (.id c!"len") (.cons (.id c!"s") .nil) false) (.case (.cons (.int 0) .nil) (.cons (.ret (.cons (.str c!"") .nil))
  .nil)
  (.case (.cons (.int 1) .nil) (.cons (.ret (.cons (.idx (.id c!"s") (.int 0)) .nil))
  .nil)
  .nil)))
  (.cons (.define [c!"sb"] (.cons (.lit (.sel (.id c!"strings") c!"Builder") .nil .nil) .nil))
  (.cons (.range c!"_" c!"v" (.id c!"s") (.cons (.ite .nil (.bin c!"==" (.call (.id c!"len") (.cons (.call (.sel (.id c!"strings") c!"TrimSpace") (.cons (.id c!"v") .nil) false) .nil) false) (.int 0)) (.cons .cont
  .nil) .nil)
  (.cons (.ite .nil (.bin c!"!=" (.call (.sel (.id c!"sb") c!"Len") .nil false) (.int 0)) (.cons (.expr (.call (.sel (.id c!"sb") c!"WriteString") (.cons (.str c!" and ") .nil) false))
  .nil) .nil)
  (.cons (.expr (.call (.sel (.id c!"sb") c!"WriteString") (.cons (.str c!"(") .nil) false))
  (.cons (.expr (.call (.sel (.id c!"sb") c!"WriteString") (.cons (.id c!"v") .nil) false))
  (.cons (.expr (.call (.sel (.id c!"sb") c!"WriteString") (.cons (.str c!")") .nil) false))
  .nil))))))
  (.cons (.ret (.cons (.call (.sel (.id c!"sb") c!"String") .nil false) .nil))
  .nil))))

/-- What /repo/miniquery/join.go declares. -/
def joinDecls : List Decl := [
  .pkg c!"strings",
  .func c!"Join" false [c!"s"] [c!"_"] joinJoin]

end Verif.Mini

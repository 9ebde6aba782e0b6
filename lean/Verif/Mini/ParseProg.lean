import Verif.Mini.Ast

/-! # What the text of a file says (generated from it; `Verif.Mini.Texts` checks it) -/

namespace Verif.Mini

/-- The body of `Parse`, /repo/miniquery/parse.go -/
def parseParse : Stmts := (.cons (.define [c!"p"] (.cons (.un c!"&" (.lit (.id c!"MiniQueryPeg") (.cons (.id c!"Tree") (.cons (.id c!"Buffer") .nil)) (.cons (.un c!"&" (.lit (.id c!"Tree") .nil .nil)) (.cons (.id c!"s") .nil)))) .nil))
  (.cons (.ite (.cons (.define [c!"err"] (.cons (.call (.sel (.id c!"p") c!"Init") .nil false) .nil))
  .nil) (.bin c!"!=" (.id c!"err") (.id c!"nil")) (.cons (.ret (.cons (.id c!"nil") (.cons (.id c!"err") .nil)))
  .nil) .nil)
  (.cons (.ite (.cons (.define [c!"err"] (.cons (.call (.sel (.id c!"p") c!"Parse") .nil false) .nil))
  .nil) (.bin c!"!=" (.id c!"err") (.id c!"nil")) (.cons (.ret (.cons (.id c!"nil") (.cons (.id c!"err") .nil)))
  .nil) .nil)
  (.cons (.expr (.call (.sel (.id c!"p") c!"Execute") .nil false))
  (.cons (.ite .nil (.bin c!"!=" (.call (.id c!"len") (.cons (.sel (.id c!"p") c!"Errors") .nil) false) (.int 0)) (.cons (.ret (.cons (.id c!"nil") (.cons (.idx (.sel (.id c!"p") c!"Errors") (.int 0)) .nil)))
  .nil) .nil)
  (.cons (.ret (.cons (.call (.sel (.id c!"p") c!"Pop") .nil false) (.cons (.id c!"nil") .nil)))
  .nil))))))

/-- What /repo/miniquery/parse.go declares. -/
def parseDecls : List Decl := [
  .func c!"Parse" false [c!"s"] [c!"_", c!"_"] parseParse]

end Verif.Mini

import Verif.Gen.Ast

/-! # The support code of the generated file, read -/

namespace Verif.Gen

/-- The value of `endSymbol`, /repo/miniquery/miniquery.peg.go -/
def gendSymbolVal : Expr := (.int 1114112)

/-- The value of `rul3s`, /repo/miniquery/miniquery.peg.go -/
def grul3sVal : Expr := (.lit (.fix (.id c!"string")) (.cons .no (.cons .no (.cons .no (.cons .no (.cons .no (.cons .no (.cons .no (.cons .no (.cons .no (.cons .no (.cons .no (.cons .no (.cons .no (.cons .no (.cons .no (.cons .no (.cons .no (.cons .no (.cons .no (.cons .no (.cons .no (.cons .no (.cons .no (.cons .no (.cons .no (.cons .no (.cons .no (.cons .no (.cons .no (.cons .no (.cons .no (.cons .no (.cons .no (.cons .no (.cons .no (.cons .no (.cons .no (.cons .no (.cons .no (.cons .no (.cons .no (.cons .no (.cons .no (.cons .no (.cons .no (.cons .no (.cons .no (.cons .no (.cons .no (.cons .no (.cons .no (.cons .no (.cons .no (.cons .no (.cons .no (.cons .no (.cons .no (.cons .no (.cons .no (.cons .no (.cons .no (.cons .no (.cons .no (.cons .no .nil)))))))))))))))))))))))))))))))))))))))))))))))))))))))))))))))) (.cons (.str c!"Unknown") (.cons (.str c!"Grammar") (.cons (.str c!"Expression") (.cons (.str c!"LogicExpression") (.cons (.str c!"NotExpression") (.cons (.str c!"CompareExpression") (.cons (.str c!"CompareInExpression") (.cons (.str c!"PredicateExpression") (.cons (.str c!"BetweenExpression") (.cons (.str c!"PrimaryExpression") (.cons (.str c!"ArgumentList") (.cons (.str c!"Argument") (.cons (.str c!"Reference") (.cons (.str c!"IdentifierReference") (.cons (.str c!"JsonReference") (.cons (.str c!"Identifier") (.cons (.str c!"Compare") (.cons (.str c!"Logic") (.cons (.str c!"Match") (.cons (.str c!"Value") (.cons (.str c!"Array") (.cons (.str c!"Literal") (.cons (.str c!"Integer") (.cons (.str c!"Boolean") (.cons (.str c!"Null") (.cons (.str c!"String") (.cons (.str c!"SpaceComment") (.cons (.str c!"_") (.cons (.str c!"__") (.cons (.str c!"Comment") (.cons (.str c!"Space") (.cons (.str c!"EndOfLine") (.cons (.str c!"EndOfFile") (.cons (.str c!"Action0") (.cons (.str c!"Action1") (.cons (.str c!"Action2") (.cons (.str c!"PegText") (.cons (.str c!"Action3") (.cons (.str c!"Action4") (.cons (.str c!"Action5") (.cons (.str c!"Action6") (.cons (.str c!"Action7") (.cons (.str c!"Action8") (.cons (.str c!"Action9") (.cons (.str c!"Action10") (.cons (.str c!"Action11") (.cons (.str c!"Action12") (.cons (.str c!"Action13") (.cons (.str c!"Action14") (.cons (.str c!"Action15") (.cons (.str c!"Action16") (.cons (.str c!"Action17") (.cons (.str c!"Action18") (.cons (.str c!"Action19") (.cons (.str c!"Action20") (.cons (.str c!"Action21") (.cons (.str c!"Action22") (.cons (.str c!"Action23") (.cons (.str c!"Action24") (.cons (.str c!"Action25") (.cons (.str c!"Action26") (.cons (.str c!"Action27") (.cons (.str c!"Action28") (.cons (.str c!"Action29") .nil)))))))))))))))))))))))))))))))))))))))))))))))))))))))))))))))))

/-- The body of `token32.String`, /repo/miniquery/miniquery.peg.go -/
def gtoken32String : Stmts := (.cons (.ret (.cons (.call (.sel (.id c!"fmt") c!"Sprintf") (.cons (.str c!"\x1b[34m%v\x1b[m %v %v") (.cons (.idx (.id c!"rul3s") (.sel (.id c!"t") c!"pegRule")) (.cons (.sel (.id c!"t") c!"begin") (.cons (.sel (.id c!"t") c!"end") .nil)))) false) .nil))
  .nil)

/-- The body of `node32.print`, /repo/miniquery/miniquery.peg.go -/
def gnode32print : Stmts := (.cons (.var [c!"print"] (.cons (.id c!"func") .nil))
  (.cons (.assign (.cons (.id c!"print") .nil) (.cons (.fn [c!"node", c!"depth"] false .nil (.cons (.loop c!"" .nil (.bin c!"!=" (.id c!"node") (.id c!"nil")) .nil (.cons (.loop c!"" (.cons (.define [c!"c"] (.cons (.int 0) .nil))
  .nil) (.bin c!"<" (.id c!"c") (.id c!"depth")) (.cons (.assign (.cons (.id c!"c") .nil) (.cons (.bin c!"+" (.id c!"c") (.int 1)) .nil))
  .nil) (.cons (.expr (.call (.sel (.id c!"fmt") c!"Fprintf") (.cons (.id c!"w") (.cons (.str c!" ") .nil)) false))
  .nil))
  (.cons (.define [c!"rule"] (.cons (.idx (.id c!"rul3s") (.sel (.id c!"node") c!"pegRule")) .nil))
  (.cons (.define [c!"quote"] (.cons (.call (.sel (.id c!"strconv") c!"Quote") (.cons (.call (.id c!"string") (.cons (.slc (.call (.arr (.id c!"rune")) (.cons (.id c!"buffer") .nil) false) (.sel (.id c!"node") c!"begin") (.sel (.id c!"node") c!"end")) .nil) false) .nil) false) .nil))
  (.cons (.ite (.un c!"!" (.id c!"pretty")) (.cons (.expr (.call (.sel (.id c!"fmt") c!"Fprintf") (.cons (.id c!"w") (.cons (.str c!"%v %v\n") (.cons (.id c!"rule") (.cons (.id c!"quote") .nil)))) false))
  .nil) (.cons (.expr (.call (.sel (.id c!"fmt") c!"Fprintf") (.cons (.id c!"w") (.cons (.str c!"\x1b[36m%v\x1b[m %v\n") (.cons (.id c!"rule") (.cons (.id c!"quote") .nil)))) false))
  .nil))
  (.cons (.ite (.bin c!"!=" (.sel (.id c!"node") c!"up") (.id c!"nil")) (.cons (.expr (.call (.id c!"print") (.cons (.sel (.id c!"node") c!"up") (.cons (.bin c!"+" (.id c!"depth") (.int 1)) .nil)) false))
  .nil) .nil)
  (.cons (.assign (.cons (.id c!"node") .nil) (.cons (.sel (.id c!"node") c!"next") .nil))
  .nil)))))))
  .nil)) .nil))
  (.cons (.expr (.call (.id c!"print") (.cons (.id c!"node") (.cons (.int 0) .nil)) false))
  .nil)))

/-- The body of `node32.Print`, /repo/miniquery/miniquery.peg.go -/
def gnode32Print : Stmts := (.cons (.expr (.call (.sel (.id c!"node") c!"print") (.cons (.id c!"w") (.cons (.id c!"false") (.cons (.id c!"buffer") .nil))) false))
  .nil)

/-- The body of `node32.PrettyPrint`, /repo/miniquery/miniquery.peg.go -/
def gnode32PrettyPrint : Stmts := (.cons (.expr (.call (.sel (.id c!"node") c!"print") (.cons (.id c!"w") (.cons (.id c!"true") (.cons (.id c!"buffer") .nil))) false))
  .nil)

/-- The body of `tokens32.Trim`, /repo/miniquery/miniquery.peg.go -/
def gtokens32Trim : Stmts := (.cons (.assign (.cons (.sel (.id c!"t") c!"tree") .nil) (.cons (.slc (.sel (.id c!"t") c!"tree") .no (.id c!"length")) .nil))
  .nil)

/-- The body of `tokens32.Print`, /repo/miniquery/miniquery.peg.go -/
def gtokens32Print : Stmts := (.cons (.range c!"" c!"_" c!"token" (.sel (.id c!"t") c!"tree") (.cons (.expr (.call (.sel (.id c!"fmt") c!"Println") (.cons (.call (.sel (.id c!"token") c!"String") .nil false) .nil) false))
  .nil))
  .nil)

/-- The body of `tokens32.AST`, /repo/miniquery/miniquery.peg.go -/
def gtokens32AST : Stmts := (.cons (.typ c!"element" [c!"node", c!"down"] (.cons (.un c!"*" (.id c!"node32")) (.cons (.un c!"*" (.id c!"element")) .nil)))
  (.cons (.define [c!"tokens"] (.cons (.call (.sel (.id c!"t") c!"Tokens") .nil false) .nil))
  (.cons (.var [c!"stack"] (.cons (.un c!"*" (.id c!"element")) .nil))
  (.cons (.range c!"" c!"_" c!"token" (.id c!"tokens") (.cons (.ite (.bin c!"==" (.sel (.id c!"token") c!"begin") (.sel (.id c!"token") c!"end")) (.cons (.cont c!"")
  .nil) .nil)
  (.cons (.define [c!"node"] (.cons (.un c!"&" (.lit (.id c!"node32") (.cons (.id c!"token32") .nil) (.cons (.id c!"token") .nil))) .nil))
  (.cons (.loop c!"" .nil (.bin c!"&&" (.bin c!"&&" (.bin c!"!=" (.id c!"stack") (.id c!"nil")) (.bin c!">=" (.sel (.sel (.id c!"stack") c!"node") c!"begin") (.sel (.id c!"token") c!"begin"))) (.bin c!"<=" (.sel (.sel (.id c!"stack") c!"node") c!"end") (.sel (.id c!"token") c!"end"))) .nil (.cons (.assign (.cons (.sel (.sel (.id c!"stack") c!"node") c!"next") .nil) (.cons (.sel (.id c!"node") c!"up") .nil))
  (.cons (.assign (.cons (.sel (.id c!"node") c!"up") .nil) (.cons (.sel (.id c!"stack") c!"node") .nil))
  (.cons (.assign (.cons (.id c!"stack") .nil) (.cons (.sel (.id c!"stack") c!"down") .nil))
  .nil))))
  (.cons (.assign (.cons (.id c!"stack") .nil) (.cons (.un c!"&" (.lit (.id c!"element") (.cons (.id c!"node") (.cons (.id c!"down") .nil)) (.cons (.id c!"node") (.cons (.id c!"stack") .nil)))) .nil))
  .nil)))))
  (.cons (.ite (.bin c!"!=" (.id c!"stack") (.id c!"nil")) (.cons (.ret (.cons (.sel (.id c!"stack") c!"node") .nil))
  .nil) .nil)
  (.cons (.ret (.cons (.id c!"nil") .nil))
  .nil))))))

/-- The body of `tokens32.PrintSyntaxTree`, /repo/miniquery/miniquery.peg.go -/
def gtokens32PrintSyntaxTree : Stmts := (.cons (.expr (.call (.sel (.call (.sel (.id c!"t") c!"AST") .nil false) c!"Print") (.cons (.sel (.id c!"os") c!"Stdout") (.cons (.id c!"buffer") .nil)) false))
  .nil)

/-- The body of `tokens32.WriteSyntaxTree`, /repo/miniquery/miniquery.peg.go -/
def gtokens32WriteSyntaxTree : Stmts := (.cons (.expr (.call (.sel (.call (.sel (.id c!"t") c!"AST") .nil false) c!"Print") (.cons (.id c!"w") (.cons (.id c!"buffer") .nil)) false))
  .nil)

/-- The body of `tokens32.PrettyPrintSyntaxTree`, /repo/miniquery/miniquery.peg.go -/
def gtokens32PrettyPrintSyntaxTree : Stmts := (.cons (.expr (.call (.sel (.call (.sel (.id c!"t") c!"AST") .nil false) c!"PrettyPrint") (.cons (.sel (.id c!"os") c!"Stdout") (.cons (.id c!"buffer") .nil)) false))
  .nil)

/-- The body of `tokens32.Add`, /repo/miniquery/miniquery.peg.go -/
def gtokens32Add : Stmts := (.cons (.define [c!"tree", c!"i"] (.cons (.sel (.id c!"t") c!"tree") (.cons (.call (.id c!"int") (.cons (.id c!"index") .nil) false) .nil)))
  (.cons (.ite (.bin c!">=" (.id c!"i") (.call (.id c!"len") (.cons (.id c!"tree") .nil) false)) (.cons (.assign (.cons (.sel (.id c!"t") c!"tree") .nil) (.cons (.call (.id c!"append") (.cons (.id c!"tree") (.cons (.lit (.id c!"token32") (.cons (.id c!"pegRule") (.cons (.id c!"begin") (.cons (.id c!"end") .nil))) (.cons (.id c!"rule") (.cons (.id c!"begin") (.cons (.id c!"end") .nil)))) .nil)) false) .nil))
  (.cons (.ret .nil)
  .nil)) .nil)
  (.cons (.assign (.cons (.idx (.id c!"tree") (.id c!"i")) .nil) (.cons (.lit (.id c!"token32") (.cons (.id c!"pegRule") (.cons (.id c!"begin") (.cons (.id c!"end") .nil))) (.cons (.id c!"rule") (.cons (.id c!"begin") (.cons (.id c!"end") .nil)))) .nil))
  .nil)))

/-- The body of `tokens32.Tokens`, /repo/miniquery/miniquery.peg.go -/
def gtokens32Tokens : Stmts := (.cons (.ret (.cons (.sel (.id c!"t") c!"tree") .nil))
  .nil)

/-- The body of `MiniQueryPeg.Parse`, /repo/miniquery/miniquery.peg.go -/
def gMiniQueryPegParse : Stmts := (.cons (.ret (.cons (.call (.sel (.id c!"p") c!"parse") (.cons (.id c!"rule") .nil) true) .nil))
  .nil)

/-- The body of `MiniQueryPeg.Reset`, /repo/miniquery/miniquery.peg.go -/
def gMiniQueryPegReset : Stmts := (.cons (.expr (.call (.sel (.id c!"p") c!"reset") .nil false))
  .nil)

/-- The body of `translatePositions`, /repo/miniquery/miniquery.peg.go -/
def gtranslatePositions : Stmts := (.cons (.define [c!"length", c!"translations", c!"j", c!"line", c!"symbol"] (.cons (.call (.id c!"len") (.cons (.id c!"positions") .nil) false) (.cons (.call (.id c!"make") (.cons (.id c!"textPositionMap") (.cons (.call (.id c!"len") (.cons (.id c!"positions") .nil) false) .nil)) false) (.cons (.int 0) (.cons (.int 1) (.cons (.int 0) .nil))))))
  (.cons (.expr (.call (.sel (.id c!"sort") c!"Ints") (.cons (.id c!"positions") .nil) false))
  (.cons (.range c!"search" c!"i" c!"c" (.id c!"buffer") (.cons (.ite (.bin c!"==" (.id c!"c") (.chr '\n')) (.cons (.assign (.cons (.id c!"line") (.cons (.id c!"symbol") .nil)) (.cons (.bin c!"+" (.id c!"line") (.int 1)) (.cons (.int 0) .nil)))
  .nil) (.cons (.assign (.cons (.id c!"symbol") .nil) (.cons (.bin c!"+" (.id c!"symbol") (.int 1)) .nil))
  .nil))
  (.cons (.ite (.bin c!"==" (.id c!"i") (.idx (.id c!"positions") (.id c!"j"))) (.cons (.assign (.cons (.idx (.id c!"translations") (.idx (.id c!"positions") (.id c!"j"))) .nil) (.cons (.lit (.id c!"textPosition") (.cons .no (.cons .no .nil)) (.cons (.id c!"line") (.cons (.id c!"symbol") .nil))) .nil))
  (.cons (.loop c!"" (.cons (.assign (.cons (.id c!"j") .nil) (.cons (.bin c!"+" (.id c!"j") (.int 1)) .nil))
  .nil) (.bin c!"<" (.id c!"j") (.id c!"length")) (.cons (.assign (.cons (.id c!"j") .nil) (.cons (.bin c!"+" (.id c!"j") (.int 1)) .nil))
  .nil) (.cons (.ite (.bin c!"!=" (.id c!"i") (.idx (.id c!"positions") (.id c!"j"))) (.cons (.cont c!"search")
  .nil) .nil)
  .nil))
  (.cons (.brk c!"search")
  .nil))) .nil)
  .nil)))
  (.cons (.ret (.cons (.id c!"translations") .nil))
  .nil))))

/-- The body of `parseError.Error`, /repo/miniquery/miniquery.peg.go -/
def gparseErrorError : Stmts := (.cons (.define [c!"tokens", c!"err"] (.cons (.lit (.arr (.id c!"token32")) (.cons .no .nil) (.cons (.sel (.id c!"e") c!"max") .nil)) (.cons (.str c!"\n") .nil)))
  (.cons (.define [c!"positions", c!"p"] (.cons (.call (.id c!"make") (.cons (.arr (.id c!"int")) (.cons (.bin c!"*" (.int 2) (.call (.id c!"len") (.cons (.id c!"tokens") .nil) false)) .nil)) false) (.cons (.int 0) .nil)))
  (.cons (.range c!"" c!"_" c!"token" (.id c!"tokens") (.cons (.assign (.cons (.idx (.id c!"positions") (.id c!"p")) (.cons (.id c!"p") .nil)) (.cons (.call (.id c!"int") (.cons (.sel (.id c!"token") c!"begin") .nil) false) (.cons (.bin c!"+" (.id c!"p") (.int 1)) .nil)))
  (.cons (.assign (.cons (.idx (.id c!"positions") (.id c!"p")) (.cons (.id c!"p") .nil)) (.cons (.call (.id c!"int") (.cons (.sel (.id c!"token") c!"end") .nil) false) (.cons (.bin c!"+" (.id c!"p") (.int 1)) .nil)))
  .nil)))
  (.cons (.define [c!"translations"] (.cons (.call (.id c!"translatePositions") (.cons (.sel (.sel (.id c!"e") c!"p") c!"buffer") (.cons (.id c!"positions") .nil)) false) .nil))
  (.cons (.define [c!"format"] (.cons (.str c!"parse error near %v (line %v symbol %v - line %v symbol %v):\n%v\n") .nil))
  (.cons (.ite (.sel (.sel (.id c!"e") c!"p") c!"Pretty") (.cons (.assign (.cons (.id c!"format") .nil) (.cons (.str c!"parse error near \x1b[34m%v\x1b[m (line %v symbol %v - line %v symbol %v):\n%v\n") .nil))
  .nil) .nil)
  (.cons (.range c!"" c!"_" c!"token" (.id c!"tokens") (.cons (.define [c!"begin", c!"end"] (.cons (.call (.id c!"int") (.cons (.sel (.id c!"token") c!"begin") .nil) false) (.cons (.call (.id c!"int") (.cons (.sel (.id c!"token") c!"end") .nil) false) .nil)))
  (.cons (.assign (.cons (.id c!"err") .nil) (.cons (.bin c!"+" (.id c!"err") (.call (.sel (.id c!"fmt") c!"Sprintf") (.cons (.id c!"format") (.cons (.idx (.id c!"rul3s") (.sel (.id c!"token") c!"pegRule")) (.cons (.sel (.idx (.id c!"translations") (.id c!"begin")) c!"line") (.cons (.sel (.idx (.id c!"translations") (.id c!"begin")) c!"symbol") (.cons (.sel (.idx (.id c!"translations") (.id c!"end")) c!"line") (.cons (.sel (.idx (.id c!"translations") (.id c!"end")) c!"symbol") (.cons (.call (.sel (.id c!"strconv") c!"Quote") (.cons (.call (.id c!"string") (.cons (.slc (.sel (.sel (.id c!"e") c!"p") c!"buffer") (.id c!"begin") (.id c!"end")) .nil) false) .nil) false) .nil))))))) false)) .nil))
  .nil)))
  (.cons (.ret (.cons (.id c!"err") .nil))
  .nil))))))))

/-- The body of `MiniQueryPeg.PrintSyntaxTree`, /repo/miniquery/miniquery.peg.go -/
def gMiniQueryPegPrintSyntaxTree : Stmts := (.cons (.ite (.sel (.id c!"p") c!"Pretty") (.cons (.expr (.call (.sel (.sel (.id c!"p") c!"tokens32") c!"PrettyPrintSyntaxTree") (.cons (.sel (.id c!"p") c!"Buffer") .nil) false))
  .nil) (.cons (.expr (.call (.sel (.sel (.id c!"p") c!"tokens32") c!"PrintSyntaxTree") (.cons (.sel (.id c!"p") c!"Buffer") .nil) false))
  .nil))
  .nil)

/-- The body of `MiniQueryPeg.WriteSyntaxTree`, /repo/miniquery/miniquery.peg.go -/
def gMiniQueryPegWriteSyntaxTree : Stmts := (.cons (.expr (.call (.sel (.sel (.id c!"p") c!"tokens32") c!"WriteSyntaxTree") (.cons (.id c!"w") (.cons (.sel (.id c!"p") c!"Buffer") .nil)) false))
  .nil)

/-- The body of `MiniQueryPeg.SprintSyntaxTree`, /repo/miniquery/miniquery.peg.go -/
def gMiniQueryPegSprintSyntaxTree : Stmts := (.cons (.var [c!"bldr"] (.cons (.sel (.id c!"strings") c!"Builder") .nil))
  (.cons (.expr (.call (.sel (.id c!"p") c!"WriteSyntaxTree") (.cons (.un c!"&" (.id c!"bldr")) .nil) false))
  (.cons (.ret (.cons (.call (.sel (.id c!"bldr") c!"String") .nil false) .nil))
  .nil)))

/-- The body of `Pretty`, /repo/miniquery/miniquery.peg.go -/
def gPretty : Stmts := (.cons (.ret (.cons (.fn [c!"p"] false (.cons (.id c!"error") .nil) (.cons (.assign (.cons (.sel (.id c!"p") c!"Pretty") .nil) (.cons (.id c!"pretty") .nil))
  (.cons (.ret (.cons (.id c!"nil") .nil))
  .nil))) .nil))
  .nil)

/-- The body of `Size`, /repo/miniquery/miniquery.peg.go -/
def gSize : Stmts := (.cons (.ret (.cons (.fn [c!"p"] false (.cons (.id c!"error") .nil) (.cons (.assign (.cons (.sel (.id c!"p") c!"tokens32") .nil) (.cons (.lit (.id c!"tokens32") (.cons (.id c!"tree") .nil) (.cons (.call (.id c!"make") (.cons (.arr (.id c!"token32")) (.cons (.int 0) (.cons (.id c!"size") .nil))) false) .nil)) .nil))
  (.cons (.ret (.cons (.id c!"nil") .nil))
  .nil))) .nil))
  .nil)

/-- The body of `MiniQueryPeg.Init`, /repo/miniquery/miniquery.peg.go -/
def gMiniQueryPegInit : Stmts := (.cons (.var [c!"max", c!"position", c!"tokenIndex", c!"buffer"] (.cons (.id c!"token32") (.cons (.id c!"uint32") (.cons (.id c!"uint32") (.cons (.arr (.id c!"rune")) .nil)))))
  (.cons (.range c!"" c!"_" c!"option" (.id c!"options") (.cons (.define [c!"err"] (.cons (.call (.id c!"option") (.cons (.id c!"p") .nil) false) .nil))
  (.cons (.ite (.bin c!"!=" (.id c!"err") (.id c!"nil")) (.cons (.ret (.cons (.id c!"err") .nil))
  .nil) .nil)
  .nil)))
  (.cons (.assign (.cons (.sel (.id c!"p") c!"reset") .nil) (.cons (.fn [] false .nil (.cons (.assign (.cons (.id c!"max") .nil) (.cons (.lit (.id c!"token32") .nil .nil) .nil))
  (.cons (.assign (.cons (.id c!"position") (.cons (.id c!"tokenIndex") .nil)) (.cons (.int 0) (.cons (.int 0) .nil)))
  (.cons (.assign (.cons (.sel (.id c!"p") c!"buffer") .nil) (.cons (.call (.arr (.id c!"rune")) (.cons (.sel (.id c!"p") c!"Buffer") .nil) false) .nil))
  (.cons (.ite (.bin c!"||" (.bin c!"==" (.call (.id c!"len") (.cons (.sel (.id c!"p") c!"buffer") .nil) false) (.int 0)) (.bin c!"!=" (.idx (.sel (.id c!"p") c!"buffer") (.bin c!"-" (.call (.id c!"len") (.cons (.sel (.id c!"p") c!"buffer") .nil) false) (.int 1))) (.id c!"endSymbol"))) (.cons (.assign (.cons (.sel (.id c!"p") c!"buffer") .nil) (.cons (.call (.id c!"append") (.cons (.sel (.id c!"p") c!"buffer") (.cons (.id c!"endSymbol") .nil)) false) .nil))
  .nil) .nil)
  (.cons (.assign (.cons (.id c!"buffer") .nil) (.cons (.sel (.id c!"p") c!"buffer") .nil))
  .nil)))))) .nil))
  (.cons (.expr (.call (.sel (.id c!"p") c!"reset") .nil false))
  (.cons (.define [c!"_rules"] (.cons (.sel (.id c!"p") c!"rules") .nil))
  (.cons (.define [c!"tree"] (.cons (.sel (.id c!"p") c!"tokens32") .nil))
  (.cons (.assign (.cons (.sel (.id c!"p") c!"parse") .nil) (.cons (.fn [c!"rule"] true (.cons (.id c!"error") .nil) (.cons (.define [c!"r"] (.cons (.int 1) .nil))
  (.cons (.ite (.bin c!">" (.call (.id c!"len") (.cons (.id c!"rule") .nil) false) (.int 0)) (.cons (.assign (.cons (.id c!"r") .nil) (.cons (.idx (.id c!"rule") (.int 0)) .nil))
  .nil) .nil)
  (.cons (.define [c!"matches"] (.cons (.call (.idx (.sel (.id c!"p") c!"rules") (.id c!"r")) .nil false) .nil))
  (.cons (.assign (.cons (.sel (.id c!"p") c!"tokens32") .nil) (.cons (.id c!"tree") .nil))
  (.cons (.ite (.id c!"matches") (.cons (.expr (.call (.sel (.id c!"p") c!"Trim") (.cons (.id c!"tokenIndex") .nil) false))
  (.cons (.ret (.cons (.id c!"nil") .nil))
  .nil)) .nil)
  (.cons (.ret (.cons (.un c!"&" (.lit (.id c!"parseError") (.cons .no (.cons .no .nil)) (.cons (.id c!"p") (.cons (.id c!"max") .nil)))) .nil))
  .nil))))))) .nil))
  (.cons (.define [c!"add"] (.cons (.fn [c!"rule", c!"begin"] false .nil (.cons (.expr (.call (.sel (.id c!"tree") c!"Add") (.cons (.id c!"rule") (.cons (.id c!"begin") (.cons (.id c!"position") (.cons (.id c!"tokenIndex") .nil)))) false))
  (.cons (.assign (.cons (.id c!"tokenIndex") .nil) (.cons (.bin c!"+" (.id c!"tokenIndex") (.int 1)) .nil))
  (.cons (.ite (.bin c!"&&" (.bin c!"!=" (.id c!"begin") (.id c!"position")) (.bin c!">" (.id c!"position") (.sel (.id c!"max") c!"end"))) (.cons (.assign (.cons (.id c!"max") .nil) (.cons (.lit (.id c!"token32") (.cons .no (.cons .no (.cons .no .nil))) (.cons (.id c!"rule") (.cons (.id c!"begin") (.cons (.id c!"position") .nil)))) .nil))
  .nil) .nil)
  .nil)))) .nil))
  (.cons (.define [c!"matchDot"] (.cons (.fn [] false (.cons (.id c!"bool") .nil) (.cons (.ite (.bin c!"!=" (.idx (.id c!"buffer") (.id c!"position")) (.id c!"endSymbol")) (.cons (.assign (.cons (.id c!"position") .nil) (.cons (.bin c!"+" (.id c!"position") (.int 1)) .nil))
  (.cons (.ret (.cons (.id c!"true") .nil))
  .nil)) .nil)
  (.cons (.ret (.cons (.id c!"false") .nil))
  .nil))) .nil))
  (.cons (.assign (.cons (.id c!"_rules") .nil) (.cons (.lit (.fix (.id c!"func")) (.cons .no .nil) (.cons (.id c!"nil") .nil)) .nil))
  (.cons (.assign (.cons (.sel (.id c!"p") c!"rules") .nil) (.cons (.id c!"_rules") .nil))
  (.cons (.ret (.cons (.id c!"nil") .nil))
  .nil))))))))))))

/-- What /repo/miniquery/miniquery.peg.go declares. -/
def gDecls : List Decl := [
  .val c!"endSymbol" gendSymbolVal,
  .val c!"rul3s" grul3sVal,
  .struct c!"token32" [(c!"pegRule", (.id c!"pegRule")), (c!"begin", (.id c!"uint32")), (c!"end", (.id c!"uint32"))],
  .func c!"token32.String" [c!"t"] false (.cons (.id c!"string") .nil) gtoken32String,
  .struct c!"node32" [(c!"token32", (.id c!"token32")), (c!"up", (.un c!"*" (.id c!"node32"))), (c!"next", (.un c!"*" (.id c!"node32")))],
  .func c!"node32.print" [c!"node", c!"w", c!"pretty", c!"buffer"] false .nil gnode32print,
  .func c!"node32.Print" [c!"node", c!"w", c!"buffer"] false .nil gnode32Print,
  .func c!"node32.PrettyPrint" [c!"node", c!"w", c!"buffer"] false .nil gnode32PrettyPrint,
  .struct c!"tokens32" [(c!"tree", (.arr (.id c!"token32")))],
  .func c!"tokens32.Trim" [c!"t", c!"length"] false .nil gtokens32Trim,
  .func c!"tokens32.Print" [c!"t"] false .nil gtokens32Print,
  .func c!"tokens32.AST" [c!"t"] false (.cons (.un c!"*" (.id c!"node32")) .nil) gtokens32AST,
  .func c!"tokens32.PrintSyntaxTree" [c!"t", c!"buffer"] false .nil gtokens32PrintSyntaxTree,
  .func c!"tokens32.WriteSyntaxTree" [c!"t", c!"w", c!"buffer"] false .nil gtokens32WriteSyntaxTree,
  .func c!"tokens32.PrettyPrintSyntaxTree" [c!"t", c!"buffer"] false .nil gtokens32PrettyPrintSyntaxTree,
  .func c!"tokens32.Add" [c!"t", c!"rule", c!"begin", c!"end", c!"index"] false .nil gtokens32Add,
  .func c!"tokens32.Tokens" [c!"t"] false (.cons (.arr (.id c!"token32")) .nil) gtokens32Tokens,
  .struct c!"MiniQueryPeg" [(c!"Tree", (.un c!"*" (.id c!"Tree"))), (c!"Buffer", (.id c!"string")), (c!"buffer", (.arr (.id c!"rune"))), (c!"rules", (.fix (.id c!"func"))), (c!"parse", (.id c!"func")), (c!"reset", (.id c!"func")), (c!"Pretty", (.id c!"bool")), (c!"tokens32", (.id c!"tokens32"))],
  .func c!"MiniQueryPeg.Parse" [c!"p", c!"rule"] true (.cons (.id c!"error") .nil) gMiniQueryPegParse,
  .func c!"MiniQueryPeg.Reset" [c!"p"] false .nil gMiniQueryPegReset,
  .struct c!"textPosition" [(c!"line", (.id c!"int")), (c!"symbol", (.id c!"int"))],
  .alias c!"textPositionMap" (.map (.id c!"int") (.id c!"textPosition")),
  .func c!"translatePositions" [c!"buffer", c!"positions"] false (.cons (.id c!"textPositionMap") .nil) gtranslatePositions,
  .struct c!"parseError" [(c!"p", (.un c!"*" (.id c!"MiniQueryPeg"))), (c!"max", (.id c!"token32"))],
  .func c!"parseError.Error" [c!"e"] false (.cons (.id c!"string") .nil) gparseErrorError,
  .func c!"MiniQueryPeg.PrintSyntaxTree" [c!"p"] false .nil gMiniQueryPegPrintSyntaxTree,
  .func c!"MiniQueryPeg.WriteSyntaxTree" [c!"p", c!"w"] false .nil gMiniQueryPegWriteSyntaxTree,
  .func c!"MiniQueryPeg.SprintSyntaxTree" [c!"p"] false (.cons (.id c!"string") .nil) gMiniQueryPegSprintSyntaxTree,
  .func c!"Pretty" [c!"pretty"] false (.cons (.id c!"func") .nil) gPretty,
  .func c!"Size" [c!"size"] false (.cons (.id c!"func") .nil) gSize,
  .func c!"MiniQueryPeg.Init" [c!"p", c!"options"] true (.cons (.id c!"error") .nil) gMiniQueryPegInit]

end Verif.Gen

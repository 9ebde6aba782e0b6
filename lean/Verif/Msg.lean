import Verif.ErrPos
import Verif.Ast
import Verif.Build

/-! # The texts printed by a parser object: error messages, syntax trees, token lists (/repo/miniquery/miniquery.peg.go:86-260, 313-358) -/

namespace Verif

/-- The names of the rules in `rul3s`, /repo/miniquery/miniquery.peg.go:88-119. -/
def ruleName : Rule → Str
  | .Grammar => c!"Grammar"
  | .Expression => c!"Expression"
  | .LogicExpression => c!"LogicExpression"
  | .NotExpression => c!"NotExpression"
  | .CompareExpression => c!"CompareExpression"
  | .CompareInExpression => c!"CompareInExpression"
  | .PredicateExpression => c!"PredicateExpression"
  | .BetweenExpression => c!"BetweenExpression"
  | .PrimaryExpression => c!"PrimaryExpression"
  | .ArgumentList => c!"ArgumentList"
  | .Argument => c!"Argument"
  | .Reference => c!"Reference"
  | .IdentifierReference => c!"IdentifierReference"
  | .JsonReference => c!"JsonReference"
  | .Identifier => c!"Identifier"
  | .Compare => c!"Compare"
  | .Logic => c!"Logic"
  | .Match => c!"Match"
  | .Value => c!"Value"
  | .Array => c!"Array"
  | .Literal => c!"Literal"
  | .Integer => c!"Integer"
  | .Boolean => c!"Boolean"
  | .Null => c!"Null"
  | .String => c!"String"
  | .SpaceComment => c!"SpaceComment"
  | .sp => c!"_"
  | .sp1 => c!"__"
  | .Comment => c!"Comment"
  | .Space => c!"Space"
  | .EndOfLine => c!"EndOfLine"
  | .EndOfFile => c!"EndOfFile"

/-- `rul3s`, /repo/miniquery/miniquery.peg.go:86-151, for the kinds of tokens that the recogniser adds.  Simplification: the table ends with
`Action29`; the grammar has no higher action. -/
def kindName : TokKind → Str
  | .rule r => ruleName r
  | .text => c!"PegText"
  | .act n => c!"Action" ++ Nat.toDigits 10 n

/-- `fmt`'s `%v` of an int. -/
def natText (n : Nat) : Str := Nat.toDigits 10 n

/-- The escape character that starts a colour sequence. -/
def esc : Char := Char.ofNat 27

/-- `token32.String`, /repo/miniquery/miniquery.peg.go:158-160 -/
def tokText (t : Tok) : Str :=
  esc :: (c!"[34m" ++ kindName t.kind ++ esc :: (c!"[m " ++ natText t.b ++ ' ' :: natText t.e))

/-- `tokens32.Print`, /repo/miniquery/miniquery.peg.go:206-210 -/
def tokensText (ts : List Tok) : Str := ts.flatMap fun t => tokText t ++ c!"\n"

/-- A word in colour `k` if `pretty`. -/
def coloured (pretty : Bool) (k : Str) (w : Str) : Str :=
  if pretty then esc :: (c!"[" ++ k ++ c!"m" ++ w ++ esc :: c!"[m") else w

/-- One line of `print`, /repo/miniquery/miniquery.peg.go:171-180; `P` is `strconv.IsPrint`. -/
def lineText (P : Char → Bool) (pretty : Bool) (l : Line) : Str :=
  List.replicate l.1 ' ' ++ (coloured pretty c!"36" (kindName l.2.1) ++ ' ' :: (quote P l.2.2 ++ c!"\n"))

/-- `PrintSyntaxTree` and `PrettyPrintSyntaxTree` (`pretty`), `WriteSyntaxTree`, `SprintSyntaxTree`, /repo/miniquery/miniquery.peg.go:167-196,
237-247, 342-358; `none` is a panic. -/
def treeText (P : Char → Bool) (pretty : Bool) (s : Str) (toks : List Tok) : Option Str :=
  (printTree s toks).map fun ls => ls.flatMap (lineText P pretty)

/-- The name that an error message gives to the farthest token.  In the code `max` starts as the zero `token32`, whose rule is `Unknown`; in the model
it starts with another rule (`initSt`).  No token that replaces it is empty, so the two are told apart by the positions. -/
def maxName (m : Tok) : Str := if m.b = m.e then c!"Unknown" else kindName m.kind

/-- `parseError.Error`, /repo/miniquery/miniquery.peg.go:318-340, when the buffer of `e.p` is that of the query `s`; `none` is a panic.
Simplification: `errorReport` gives the text as code points; it is read back with `Char.ofNat` (the end symbol is not a character, but no theorem
about a token that includes it is stated). -/
def errorText (P : Char → Bool) (pretty : Bool) (s : Str) (m : Tok) : Option Str :=
  (errorReport s m.b m.e).map fun r =>
    c!"\nparse error near " ++ coloured pretty c!"34" (maxName m) ++
      c!" (line " ++ natText r.1.1 ++ c!" symbol " ++ natText r.1.2 ++ c!" - line " ++ natText r.2.1.1 ++ c!" symbol " ++ natText r.2.1.2 ++
      c!"):\n" ++ quote P (r.2.2.map Char.ofNat) ++ c!"\n"

end Verif

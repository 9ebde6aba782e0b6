import Verif.Peg

/-!
# The grammar of the generated recogniser

One definition per rule function of /repo/miniquery/miniquery.peg.go (the comment above each Go function shows the
expression after the `-switch` optimisation; it is that optimised form which is modelled, alternative by alternative).
-/

namespace Verif

namespace PExp

/-- Sequence of several expressions. -/
def seqs : List PExp → PExp
  | [] => .eps
  | [a] => a
  | a :: as => .seq a (seqs as)

/-- Ordered choice of several expressions. -/
def alts : List PExp → PExp
  | [] => .eps
  | [a] => a
  | a :: as => .alt a (alts as)

/-- Case sensitive literal: one `buffer[position] != rune(..)` test per rune. -/
def lit (s : Str) : PExp := seqs (s.map .chr)

/-- One rune in either case: `('n' / 'N')`, e.g. /repo/miniquery/miniquery.peg.go:609-623. -/
def ci (c : Char) : PExp := .alt (.chr c) (.chr c.toUpper)

/-- Case insensitive literal (double quoted in the .peg file). -/
def ciLit (s : Str) : PExp := seqs (s.map ci)

end PExp

open PExp

/-- /repo/miniquery/miniquery.peg.go:524-546 -/
def gGrammar : PExp := seqs [.call .sp, .call .Expression, .call .sp, .call .EndOfFile]

/-- /repo/miniquery/miniquery.peg.go:548-561 -/
def gExpression : PExp := .call .LogicExpression

/-- /repo/miniquery/miniquery.peg.go:563-592 -/
def gLogicExpression : PExp :=
  .seq (.call .NotExpression) (.star (seqs [.call .Logic, .call .NotExpression, .act 0]))

/-- /repo/miniquery/miniquery.peg.go:594-671 -/
def gNotExpression : PExp :=
  .alt (.call .CompareExpression)
    (seqs [.call .sp, ciLit c!"not", .call .sp1, .call .CompareExpression, .act 1])

/-- /repo/miniquery/miniquery.peg.go:673-702 -/
def gCompareExpression : PExp :=
  .seq (.call .CompareInExpression) (.star (seqs [.call .Compare, .call .CompareInExpression, .act 2]))

/-- The operator text of `in` / `not in`: /repo/miniquery/miniquery.peg.go:716-834 -/
def gInOp : PExp := .alt (ciLit c!"in") (seqs [ciLit c!"not", .call .sp1, ciLit c!"in"])

/-- /repo/miniquery/miniquery.peg.go:704-858 -/
def gCompareInExpression : PExp :=
  .seq (.call .PredicateExpression)
    (.opt (seqs [.call .sp, .txt gInOp, .call .sp, .act 3, .call .Array, .act 4]))

/-- /repo/miniquery/miniquery.peg.go:860-886 -/
def gPredicateExpression : PExp :=
  .seq (.call .BetweenExpression) (.opt (seqs [.call .Match, .act 5]))

/-- The operator text of `between` / `not between`: /repo/miniquery/miniquery.peg.go:900-986 -/
def gBetweenOp : PExp := .seq (.opt (seqs [ciLit c!"not", .call .sp1])) (lit c!"between")

/-- The bounds `v and v` or `[v, v]`: /repo/miniquery/miniquery.peg.go:993-1085 -/
def gBounds : PExp :=
  .alt (seqs [.call .Value, .call .sp, ciLit c!"and", .call .sp, .call .Value])
    (seqs [.chr '[', .call .sp, .call .Value, .call .sp, .chr ',', .call .sp, .call .Value, .call .sp, .chr ']'])

/-- /repo/miniquery/miniquery.peg.go:888-1101 -/
def gBetweenExpression : PExp :=
  .seq (.call .PrimaryExpression)
    (.opt (seqs [.call .sp, .txt gBetweenOp, .act 6, .call .sp, gBounds, .act 7]))

/-- /repo/miniquery/miniquery.peg.go:1103-1161 -/
def gPrimaryExpression : PExp :=
  alts [seqs [.chr '(', .call .sp, .call .Expression, .call .sp, .chr ')', .act 8],
        .call .Value,
        seqs [.call .Identifier, .call .ArgumentList, .act 9],
        .call .Reference]

/-- `(X (_ ',' _ X)* _ ','?)?`, used by ArgumentList and twice by Array: /repo/miniquery/miniquery.peg.go:1177-1220,
2479-2522, 2546-2589 -/
def gItems (x : Rule) : PExp :=
  .opt (seqs [.call x, .star (seqs [.call .sp, .chr ',', .call .sp, .call x]), .call .sp, .opt (.chr ',')])

/-- /repo/miniquery/miniquery.peg.go:1163-1237 -/
def gArgumentList : PExp :=
  seqs [.chr '(', .call .sp, .act 10, gItems .Argument, .call .sp, .chr ')', .act 11]

/-- /repo/miniquery/miniquery.peg.go:1239-1252 -/
def gArgument : PExp := .call .Expression

/-- /repo/miniquery/miniquery.peg.go:1254-1283 -/
def gReference : PExp := alts [.call .IdentifierReference, .call .JsonReference, .call .Identifier]

/-- /repo/miniquery/miniquery.peg.go:1285-1325 -/
def gIdentifierReference : PExp :=
  seqs [.act 12, .call .Identifier, .chr '.', .call .Identifier, .star (.seq (.chr '.') (.call .Identifier)), .act 13]

/-- /repo/miniquery/miniquery.peg.go:1327-1361 -/
def gJsonReference : PExp :=
  seqs [.call .Identifier, .chr '-', .chr '>', .alt (.call .JsonReference) (.call .Identifier)]

/-- The case labels of /repo/miniquery/miniquery.peg.go:1440 -/
def digits : List Char := c!"0123456789"
/-- The case labels of /repo/miniquery/miniquery.peg.go:1445 -/
def uppers : List Char := c!"ABCDEFGHIJKLMNOPQRSTUVWXYZ"

/-- First rune of an identifier: /repo/miniquery/miniquery.peg.go:1420-1434 -/
def gIdHead : PExp := .alt (.rng 'a' 'z') (.rng 'A' 'Z')
/-- Further runes of an identifier: /repo/miniquery/miniquery.peg.go:1438-1461 -/
def gIdTail : PExp := .sw digits (.rng '0' '9') (.sw uppers (.rng 'A' 'Z') (.sw ['_'] (.chr '_') (.rng 'a' 'z')))

/-- /repo/miniquery/miniquery.peg.go:1363-1478 -/
def gIdentifier : PExp :=
  seqs [.notP (ciLit c!"not"), .txt (.seq gIdHead (.star gIdTail)), .act 14]

/-- The symbolic comparison operators: /repo/miniquery/miniquery.peg.go:1491-1566 -/
def gCmpSym : PExp :=
  alts [lit c!">=", lit c!"<=", lit c!"==", .chr '<',
        .sw ['='] (.chr '=') (.sw ['<'] (lit c!"<>") (.sw ['>'] (.chr '>') (lit c!"!=")))]

/-- The comparison words: /repo/miniquery/miniquery.peg.go:1584-1830 -/
def gCmpWord : PExp :=
  alts [ciLit c!"gt", ciLit c!"lt",
        .sw c!"Nn" (ciLit c!"neq") (.sw c!"Ee" (ciLit c!"eq") (.sw c!"Ll" (ciLit c!"lte") (ciLit c!"gte")))]

/-- `like` / `not like`: /repo/miniquery/miniquery.peg.go:1848-2021 -/
def gCmpLike : PExp := .alt (ciLit c!"like") (seqs [ciLit c!"not", .call .sp1, ciLit c!"like"])

/-- /repo/miniquery/miniquery.peg.go:1480-2039 -/
def gCompare : PExp :=
  alts [seqs [.call .sp, .txt gCmpSym, .call .sp, .act 15],
        seqs [.call .sp, .txt gCmpWord, .call .sp, .act 16],
        seqs [.call .sp, .txt gCmpLike, .call .sp, .act 17]]

/-- `and` / `or`: /repo/miniquery/miniquery.peg.go:2052-2132 -/
def gLogicWord : PExp := .alt (ciLit c!"and") (ciLit c!"or")
/-- `&&` / `||`: /repo/miniquery/miniquery.peg.go:2150-2171 -/
def gLogicSym : PExp := .alt (lit c!"&&") (lit c!"||")

/-- /repo/miniquery/miniquery.peg.go:2041-2189 -/
def gLogic : PExp :=
  .alt (seqs [.call .sp, .txt gLogicWord, .call .sp, .act 18])
       (seqs [.call .sp, .txt gLogicSym, .call .sp, .act 19])

/-- `'true'/'false'/'null'` after the switch optimisation: /repo/miniquery/miniquery.peg.go:2271-2329, 2360-2418 -/
def gTfn : PExp := .sw ['n'] (lit c!"null") (.sw ['f'] (lit c!"false") (lit c!"true"))

/-- The predicate operators: /repo/miniquery/miniquery.peg.go:2200-2420 -/
def gMatchOp : PExp :=
  alts [lit c!"isnull", lit c!"notnull",
        seqs [.chr 'i', .chr 's', .call .sp1, gTfn],
        seqs [.chr 'i', .chr 's', .call .sp1, .chr 'n', .chr 'o', .chr 't', .call .sp1, gTfn]]

/-- /repo/miniquery/miniquery.peg.go:2191-2436 -/
def gMatch : PExp := seqs [.call .sp1, .txt gMatchOp, .call .sp, .act 20]

/-- /repo/miniquery/miniquery.peg.go:2438-2461 -/
def gValue : PExp := .alt (.call .Literal) (.call .Array)

/-- /repo/miniquery/miniquery.peg.go:2463-2608 -/
def gArray : PExp :=
  .alt (seqs [.chr '[', .act 21, .call .sp, gItems .Literal, .call .sp, .chr ']', .act 22])
       (seqs [.chr '(', .act 23, .call .sp, gItems .Literal, .call .sp, .chr ')', .act 24])

/-- /repo/miniquery/miniquery.peg.go:2610-2641 -/
def gLiteral : PExp :=
  .sw c!"Nn" (.call .Null) (.sw c!"FTft" (.call .Boolean) (.sw c!"\"'" (.call .String) (.call .Integer)))

/-- /repo/miniquery/miniquery.peg.go:2643-2686 -/
def gInteger : PExp :=
  .seq (.txt (.alt (.chr '0') (.seq (.rng '1' '9') (.star (.rng '0' '9'))))) (.act 25)

/-- /repo/miniquery/miniquery.peg.go:2688-2786 -/
def gBoolean : PExp :=
  .seq (.txt (.sw ['F'] (lit c!"FALSE") (.sw ['T'] (lit c!"TRUE") (.sw ['f'] (lit c!"false") (lit c!"true"))))) (.act 26)

/-- /repo/miniquery/miniquery.peg.go:2788-2844 -/
def gNull : PExp := .seq (.txt (.alt (lit c!"null") (lit c!"NULL"))) (.act 27)

/-- The body of a string literal: `(!q .)*`, /repo/miniquery/miniquery.peg.go:2857-2877 -/
def gStrBody (q : Char) : PExp := .star (.seq (.notP (.chr q)) .any)

/-- /repo/miniquery/miniquery.peg.go:2846-2933 -/
def gString : PExp :=
  .alt (seqs [.chr '\'', .txt (gStrBody '\''), .chr '\'', .act 28])
       (seqs [.chr '"', .txt (gStrBody '"'), .chr '"', .act 29])

/-- /repo/miniquery/miniquery.peg.go:2935-2958 -/
def gSpaceComment : PExp := .alt (.call .Space) (.call .Comment)
/-- /repo/miniquery/miniquery.peg.go:2960-2976 -/
def gSp : PExp := .star (.call .SpaceComment)
/-- /repo/miniquery/miniquery.peg.go:2978-3001 -/
def gSp1 : PExp := .seq (.call .SpaceComment) (.star (.call .SpaceComment))
/-- /repo/miniquery/miniquery.peg.go:3003-3058 -/
def gComment : PExp :=
  seqs [.alt (lit c!"--") (lit c!"//"), .star (.seq (.notP (.call .EndOfLine)) .any), .call .EndOfLine]
/-- /repo/miniquery/miniquery.peg.go:3060-3089 -/
def gSpace : PExp := .sw ['\t'] (.chr '\t') (.sw [' '] (.chr ' ') (.call .EndOfLine))
/-- /repo/miniquery/miniquery.peg.go:3091-3127 -/
def gEndOfLine : PExp := alts [lit c!"\r\n", .chr '\n', .chr '\r']
/-- /repo/miniquery/miniquery.peg.go:3129-3148 -/
def gEndOfFile : PExp := .notP .any

/-- The rule table `_rules`: /repo/miniquery/miniquery.peg.go:521-3148 -/
def G : Rule → PExp
  | .Grammar => gGrammar
  | .Expression => gExpression
  | .LogicExpression => gLogicExpression
  | .NotExpression => gNotExpression
  | .CompareExpression => gCompareExpression
  | .CompareInExpression => gCompareInExpression
  | .PredicateExpression => gPredicateExpression
  | .BetweenExpression => gBetweenExpression
  | .PrimaryExpression => gPrimaryExpression
  | .ArgumentList => gArgumentList
  | .Argument => gArgument
  | .Reference => gReference
  | .IdentifierReference => gIdentifierReference
  | .JsonReference => gJsonReference
  | .Identifier => gIdentifier
  | .Compare => gCompare
  | .Logic => gLogic
  | .Match => gMatch
  | .Value => gValue
  | .Array => gArray
  | .Literal => gLiteral
  | .Integer => gInteger
  | .Boolean => gBoolean
  | .Null => gNull
  | .String => gString
  | .SpaceComment => gSpaceComment
  | .sp => gSp
  | .sp1 => gSp1
  | .Comment => gComment
  | .Space => gSpace
  | .EndOfLine => gEndOfLine
  | .EndOfFile => gEndOfFile

end Verif

import Verif.Spec.PegFile

/-!
# The text of the grammar file and its notation

`pegText` is the text of /repo/miniquery/miniquery.peg from its first rule on, with a blank pair for each tab.  `readPeg` reads the notation of the `peg` tool as far as
the file uses it.
-/

namespace Verif.PegText

/-- /repo/miniquery/miniquery.peg:8-61 -/
def pegLines : List Str := [
c! r#"Grammar             <- _ Expression _ EndOfFile"#,
c! r#"Expression          <- LogicExpression"#,
c! r#""#,
c! r#"LogicExpression     <- NotExpression ( Logic NotExpression {p.PopLogic()})*"#,
c! r#"NotExpression       <- CompareExpression / _ "not" __ CompareExpression {p.PopNot()}"#,
c! r#"CompareExpression   <- CompareInExpression ( Compare CompareInExpression {p.PopCompare()})*"#,
c! r#"# Prevent confusion column in (1)"#,
c! r#"CompareInExpression   <- PredicateExpression ( _ <( "in" / "not" __ "in"  )> _ {p.AddCompare(text)} Array {p.PopCompare()} )?"#,
c! r#"PredicateExpression <- BetweenExpression ( Match {p.PopPredicate()})?"#,
c! r#"BetweenExpression   <- PrimaryExpression ( _ <("not" __)? 'between'> {p.AddOperation(text)} _ (Value _ "and" _ Value / '[' _ Value _ ',' _ Value _ ']') {p.PopBetween()})?"#,
c! r#"PrimaryExpression   <- '(' _ Expression _ ')' {p.PopParentheses()}"#,
c! r#"                    / Value"#,
c! r#"                    / Identifier ArgumentList {p.PopFunction()}"#,
c! r#"                    / Reference"#,
c! r#""#,
c! r#"ArgumentList        <- '(' _ {p.AddMark()} (Argument ( _ ',' _ Argument)* _ ','?)? _ ')' {p.PopArray()}"#,
c! r#"# support complex args"#,
c! r#"Argument            <- Expression"#,
c! r#"# Argument            <- Value / Identifier"#,
c! r#""#,
c! r#"Reference     <- IdentifierReference"#,
c! r#"              / JsonReference"#,
c! r#"              / Identifier"#,
c! r#"IdentifierReference <- {p.AddMark()} Identifier '.' Identifier ( '.' Identifier)* {p.PopIdentifierReference()}"#,
c! r#"JsonReference <- Identifier '->' (JsonReference / Identifier)"#,
c! r#"Identifier    <- !"not" <[a-zA-Z]([_a-zA-Z0-9])*> {p.AddName(text)}"#,
c! r#""#,
c! r#"Compare <- _ <( '>=' / '<=' / '==' / '!=' /  '>' / '<'  / '<>' / '=' )> _ {p.AddCompare(text)}"#,
c! r#"        / _ <( "gt" / "lt" / "gte" / "lte" / "eq" / "neq" )> _ {p.AddCompare(text)}"#,
c! r#"        / _ <( "like" / "not" __ "like" )> _ {p.AddCompare(text)}"#,
c! r#"        # / _ <( "in" / "not" __ "in"  )> _ {p.AddCompare(text)}"#,
c! r#""#,
c! r#"Logic <- _ <("and" / "or")> _ {p.AddLogic(text)}"#,
c! r#"      / _ <( '&&' / '||' )> _ {p.AddLogic(text)}"#,
c! r#""#,
c! r#"Match <- __ <'isnull' / 'notnull' / 'is' __ ('true'/'false'/'null') / 'is' __ 'not' __ ('true'/'false'/'null') > _ {p.AddMatch(text)}"#,
c! r#""#,
c! r#"Value         <- Literal / Array"#,
c! r#"# JS Array Syntax and Record syntax"#,
c! r#"Array         <- '[' {p.AddMark()} _ (Literal ( _ ',' _ Literal)* _ ','?)? _ ']' {p.PopArray()}"#,
c! r#"              /  '(' {p.AddMark()} _ (Literal ( _ ',' _ Literal)* _ ','?)? _ ')' {p.PopArray()}"#,
c! r#"Literal       <- String / Integer / Boolean / Null"#,
c! r#"Integer       <- <'0' / [1-9][0-9]*> {p.AddInteger(text)}"#,
c! r#"Boolean       <- <'true' / 'false' / 'TRUE' / 'FALSE'> {p.AddBoolean(text)}"#,
c! r#"Null          <- <'null'/'NULL'> {p.AddNull()}"#,
c! r#"String        <- "'" <[^']*> "'" {p.AddString(text)}/ '"' <[^"]*> '"' {p.AddString(text)}"#,
c! r#""#,
c! r#"SpaceComment  <- (Space / Comment)"#,
c! r#"_             <- SpaceComment*"#,
c! r#"__            <- SpaceComment+"#,
c! r#"Comment        <- ('--' / '//') (!EndOfLine .)* EndOfLine"#,
c! r#"Space          <- ' ' / '\t' / EndOfLine"#,
c! r#"EndOfLine      <- '\r\n' / '\n' / '\r'"#,
c! r#"EndOfFile      <- !."#]

/-- The text of the file. -/
def pegText : Str := pegLines.flatMap (· ++ ['\n'])

/-- The words and signs of the notation. -/
inductive PTok where
  | name (s : Str)
  | arrow | slash | bang | star | plus | quest | lpar | rpar | lt | gt | dot
  /-- `{…}` -/
  | act (s : Str)
  /-- `'…'` -/
  | lit (s : Str)
  /-- `"…"` -/
  | word (s : Str)
  /-- `[…]` -/
  | cls (s : Str)
  deriving DecidableEq, Repr

/-- Letters, digits and underscores. -/
def nameChar (c : Char) : Bool := c.isAlphanum || c = '_'

/-- The text up to a closing character, with the escapes `\t`, `\n`, `\r` replaced, and the rest. -/
def upTo (q : Char) : Str → Option (Str × Str)
  | [] => none
  | '\\' :: c :: s =>
    (upTo q s).bind fun (a, r) =>
      if c = 't' then some ('\t' :: a, r) else if c = 'n' then some ('\n' :: a, r) else if c = 'r' then some ('\r' :: a, r) else none
  | c :: s => if c = q then some ([], s) else (upTo q s).map fun (a, r) => (c :: a, r)

/-- The words and signs of a text; the first argument bounds their number. -/
def lexPeg : Nat → Str → Option (List PTok)
  | 0, _ => none
  | _, [] => some []
  | n + 1, c :: s =>
    if c = ' ' || c = '\n' then lexPeg n s
    else if c = '#' then lexPeg n (s.dropWhile (· ≠ '\n'))
    else if c = '\'' then (upTo c s).bind fun (a, r) => (lexPeg n r).map (.lit a :: ·)
    else if c = '"' then (upTo c s).bind fun (a, r) => (lexPeg n r).map (.word a :: ·)
    else if c = '[' then (upTo ']' s).bind fun (a, r) => (lexPeg n r).map (.cls a :: ·)
    else if c = '{' then (upTo '}' s).bind fun (a, r) => (lexPeg n r).map (.act a :: ·)
    else if c = '/' then (lexPeg n s).map (.slash :: ·)
    else if c = '!' then (lexPeg n s).map (.bang :: ·)
    else if c = '*' then (lexPeg n s).map (.star :: ·)
    else if c = '+' then (lexPeg n s).map (.plus :: ·)
    else if c = '?' then (lexPeg n s).map (.quest :: ·)
    else if c = '(' then (lexPeg n s).map (.lpar :: ·)
    else if c = ')' then (lexPeg n s).map (.rpar :: ·)
    else if c = '>' then (lexPeg n s).map (.gt :: ·)
    else if c = '.' then (lexPeg n s).map (.dot :: ·)
    else if c = '<' then
      match s with
      | '-' :: r => (lexPeg n r).map (.arrow :: ·)
      | _ => (lexPeg n s).map (.lt :: ·)
    else if nameChar c then (lexPeg n (s.dropWhile nameChar)).map (.name (c :: s.takeWhile nameChar) :: ·)
    else none

/-- The ranges of a class: single characters and `a-z`. -/
def ranges : Str → List (Char × Char)
  | a :: '-' :: b :: s => (a, b) :: ranges s
  | a :: s => (a, a) :: ranges s
  | [] => []

/-- `[^c]` and `[…]`. -/
def readCls : Str → GExp
  | ['^', c] => .other c
  | s => .cls (ranges s)

/-- The names of the rules. -/
def ruleNames : List (Str × Rule) := [
  (c!"Grammar", .Grammar), (c!"Expression", .Expression), (c!"LogicExpression", .LogicExpression), (c!"NotExpression", .NotExpression),
  (c!"CompareExpression", .CompareExpression), (c!"CompareInExpression", .CompareInExpression), (c!"PredicateExpression", .PredicateExpression),
  (c!"BetweenExpression", .BetweenExpression), (c!"PrimaryExpression", .PrimaryExpression), (c!"ArgumentList", .ArgumentList), (c!"Argument", .Argument),
  (c!"Reference", .Reference), (c!"IdentifierReference", .IdentifierReference), (c!"JsonReference", .JsonReference), (c!"Identifier", .Identifier),
  (c!"Compare", .Compare), (c!"Logic", .Logic), (c!"Match", .Match), (c!"Value", .Value), (c!"Array", .Array), (c!"Literal", .Literal),
  (c!"Integer", .Integer), (c!"Boolean", .Boolean), (c!"Null", .Null), (c!"String", .String), (c!"SpaceComment", .SpaceComment), (c!"_", .sp),
  (c!"__", .sp1), (c!"Comment", .Comment), (c!"Space", .Space), (c!"EndOfLine", .EndOfLine), (c!"EndOfFile", .EndOfFile)]

/-- The calls, as they are written in the file. -/
def callTexts : List (Str × Meth) := [
  (c!"p.PopLogic()", .PopLogic), (c!"p.PopNot()", .PopNot), (c!"p.PopCompare()", .PopCompare), (c!"p.AddCompare(text)", .AddCompare),
  (c!"p.PopPredicate()", .PopPredicate), (c!"p.AddOperation(text)", .AddOperation), (c!"p.PopBetween()", .PopBetween),
  (c!"p.PopParentheses()", .PopParentheses), (c!"p.PopFunction()", .PopFunction), (c!"p.AddMark()", .AddMark), (c!"p.PopArray()", .PopArray),
  (c!"p.PopIdentifierReference()", .PopIdentifierReference), (c!"p.AddName(text)", .AddName), (c!"p.AddLogic(text)", .AddLogic),
  (c!"p.AddMatch(text)", .AddMatch), (c!"p.AddInteger(text)", .AddInteger), (c!"p.AddBoolean(text)", .AddBoolean), (c!"p.AddNull()", .AddNull),
  (c!"p.AddString(text)", .AddString)]

/-- `e`, `e*`, `e+`, `e?` -/
def readSuffix (e : GExp) : List PTok → GExp × List PTok
  | .star :: ts => (.star e, ts)
  | .plus :: ts => (.plus e, ts)
  | .quest :: ts => (.opt e, ts)
  | ts => (e, ts)

/-- What is being read: a choice, a sequence, or one of its parts. -/
inductive Level where
  | choice | seq | item

/-- Reads a choice of sequences of parts.  A name that is followed by an arrow begins the next rule.  The number bounds the calls. -/
def readExp : Nat → Level → List PTok → Option (GExp × List PTok)
  | 0, _, _ => none
  | n + 1, .choice, ts =>
    (readExp n .seq ts).bind fun (a, ts) =>
      match ts with
      | .slash :: ts => (readExp n .choice ts).map fun (b, ts) => (a ∕ b, ts)
      | ts => some (a, ts)
  | n + 1, .seq, ts =>
    (readExp n .item ts).bind fun (a, ts) =>
      match ts with
      | [] | .slash :: _ | .rpar :: _ | .gt :: _ | .name _ :: .arrow :: _ => some (a, ts)
      | ts => (readExp n .seq ts).map fun (b, ts) => (a ⬝ b, ts)
  | n + 1, .item, ts =>
    match ts with
    | .bang :: ts => (readExp n .item ts).map fun (a, ts) => (.no a, ts)
    | .name s :: ts => (ruleNames.lookup s).map fun r => readSuffix (.rule r) ts
    | .lit s :: ts => some (readSuffix (.lit s) ts)
    | .word s :: ts => some (readSuffix (.word s) ts)
    | .cls s :: ts => some (readSuffix (readCls s) ts)
    | .dot :: ts => some (readSuffix .dot ts)
    | .act s :: ts => (callTexts.lookup s).map fun m => (.act m, ts)
    | .lpar :: ts =>
      (readExp n .choice ts).bind fun (a, ts) =>
        match ts with
        | .rpar :: ts => some (readSuffix a ts)
        | _ => none
    | .lt :: ts =>
      (readExp n .choice ts).bind fun (a, ts) =>
        match ts with
        | .gt :: ts => some (.cap a, ts)
        | _ => none
    | _ => none

/-- Reads the rules of a file. -/
def readRules (k : Nat) : Nat → List PTok → Option (List (Rule × GExp))
  | _, [] => some []
  | 0, _ => none
  | n + 1, .name s :: .arrow :: ts =>
    (ruleNames.lookup s).bind fun r => (readExp k .choice ts).bind fun (e, ts) => (readRules k n ts).map ((r, e) :: ·)
  | _, _ => none

/-- Reads a grammar file from its first rule on. -/
def readPeg (s : Str) : Option (List (Rule × GExp)) :=
  (lexPeg (s.length + 1) s).bind fun ts => readRules (ts.length + 1) (ts.length + 1) ts

end Verif.PegText

import Verif.Peg
import Verif.Node
import Verif.Spec.Lang

/-! # The grammar file, independently of the generated parser

`grammarFile` is /repo/miniquery/miniquery.peg as it stands, with its own notation; `Parses` is the textbook meaning of parsing expression
grammars (Ford 2004): ordered choice, greedy repetition, `!e` without consumption.  Nothing here refers to the generated code. -/

namespace Verif

/-- The calls written between braces in /repo/miniquery/miniquery.peg:11-53. -/
inductive Meth where
  | PopLogic | PopNot | PopCompare | AddCompare | PopPredicate | AddOperation | PopBetween | PopParentheses | PopFunction | AddMark | PopArray
  | PopIdentifierReference | AddName | AddLogic | AddMatch | AddInteger | AddBoolean | AddNull | AddString
  deriving DecidableEq

/-- The notation of the grammar file. -/
inductive GExp where
  /-- `'abc'`: exactly these characters -/
  | lit (w : Str)
  /-- `"abc"`: these letters or their capitals -/
  | word (w : Str)
  /-- `[a-z0-9]`: one character of these ranges -/
  | cls (rs : List (Char × Char))
  /-- `[^']`: one other character -/
  | other (c : Char)
  | dot
  /-- one after the other -/
  | seq (a b : GExp)
  /-- ordered choice, written `/` in the file -/
  | alt (a b : GExp)
  | star (a : GExp)
  | plus (a : GExp)
  | opt (a : GExp)
  /-- `!e` -/
  | no (a : GExp)
  | rule (r : Rule)
  /-- `<e>` -/
  | cap (a : GExp)
  | act (m : Meth)

@[inherit_doc] scoped infixr:35 " ⬝ " => GExp.seq
@[inherit_doc] scoped infixr:30 " ∕ " => GExp.alt

/-- What a successful derivation leaves: captured texts and calls, in order. -/
inductive FEv where
  | text (s : Str)
  | act (m : Meth)
  deriving DecidableEq

/-- The textbook meaning: `Parses g e s (some (out, rest))`: `e` matches the beginning of `s`; `Parses g e s none`: it fails. -/
inductive Parses (g : Rule → GExp) : GExp → Str → Option (List FEv × Str) → Prop where
  | lit {w r} : Parses g (.lit w) (w ++ r) (some ([], r))
  | litFail {w s} : (∀ r, s ≠ w ++ r) → Parses g (.lit w) s none
  | word {w u r} : CI w u → Parses g (.word w) (u ++ r) (some ([], r))
  | wordFail {w s} : (∀ u r, CI w u → s ≠ u ++ r) → Parses g (.word w) s none
  | cls {rs c r} : (∃ p ∈ rs, p.1 ≤ c ∧ c ≤ p.2) → Parses g (.cls rs) (c :: r) (some ([], r))
  | clsFail {rs s} : (∀ c r, s = c :: r → ¬ ∃ p ∈ rs, p.1 ≤ c ∧ c ≤ p.2) → Parses g (.cls rs) s none
  | other {x c r} : c ≠ x → Parses g (.other x) (c :: r) (some ([], r))
  | otherFail {x s} : (∀ c r, s = c :: r → c = x) → Parses g (.other x) s none
  | dot {c r} : Parses g .dot (c :: r) (some ([], r))
  | dotFail : Parses g .dot [] none
  | seq {a b s e1 s1 e2 s2} : Parses g a s (some (e1, s1)) → Parses g b s1 (some (e2, s2)) → Parses g (a ⬝ b) s (some (e1 ++ e2, s2))
  | seqFail1 {a b s} : Parses g a s none → Parses g (a ⬝ b) s none
  | seqFail2 {a b s e1 s1} : Parses g a s (some (e1, s1)) → Parses g b s1 none → Parses g (a ⬝ b) s none
  | alt1 {a b s x} : Parses g a s (some x) → Parses g (a ∕ b) s (some x)
  | alt2 {a b s x} : Parses g a s none → Parses g b s x → Parses g (a ∕ b) s x
  | starNil {a s} : Parses g a s none → Parses g (.star a) s (some ([], s))
  | starCons {a s e1 s1 e2 s2} : Parses g a s (some (e1, s1)) → Parses g (.star a) s1 (some (e2, s2)) → Parses g (.star a) s (some (e1 ++ e2, s2))
  | plus {a s x} : Parses g (a ⬝ .star a) s x → Parses g (.plus a) s x
  | optSome {a s x} : Parses g a s (some x) → Parses g (.opt a) s (some x)
  | optNone {a s} : Parses g a s none → Parses g (.opt a) s (some ([], s))
  | noFail {a s x} : Parses g a s (some x) → Parses g (.no a) s none
  | no {a s} : Parses g a s none → Parses g (.no a) s (some ([], s))
  | rule {r s x} : Parses g (g r) s x → Parses g (.rule r) s x
  | cap {a u r e} : Parses g a (u ++ r) (some (e, r)) → Parses g (.cap a) (u ++ r) (some (e ++ [.text u], r))
  | capFail {a s} : Parses g a s none → Parses g (.cap a) s none
  | act {m s} : Parses g (.act m) s (some ([.act m], s))

/-- `_` -/
local notation "_'" => GExp.rule Rule.sp
/-- `__` -/
local notation "__'" => GExp.rule Rule.sp1
/-- `'…'` -/
local notation "q' " w:max => GExp.lit w
/-- `"…"` -/
local notation "Q' " w:max => GExp.word w

/-- /repo/miniquery/miniquery.peg:8-61 -/
def grammarFile : Rule → GExp
  | .Grammar => _' ⬝ .rule .Expression ⬝ _' ⬝ .rule .EndOfFile
  | .Expression => .rule .LogicExpression
  | .LogicExpression => .rule .NotExpression ⬝ .star (.rule .Logic ⬝ .rule .NotExpression ⬝ .act .PopLogic)
  | .NotExpression => .rule .CompareExpression ∕ _' ⬝ Q' c!"not" ⬝ __' ⬝ .rule .CompareExpression ⬝ .act .PopNot
  | .CompareExpression => .rule .CompareInExpression ⬝ .star (.rule .Compare ⬝ .rule .CompareInExpression ⬝ .act .PopCompare)
  | .CompareInExpression =>
    .rule .PredicateExpression ⬝
      .opt (_' ⬝ .cap (Q' c!"in" ∕ Q' c!"not" ⬝ __' ⬝ Q' c!"in") ⬝ _' ⬝ .act .AddCompare ⬝ .rule .Array ⬝ .act .PopCompare)
  | .PredicateExpression => .rule .BetweenExpression ⬝ .opt (.rule .Match ⬝ .act .PopPredicate)
  | .BetweenExpression =>
    .rule .PrimaryExpression ⬝
      .opt (_' ⬝ .cap (.opt (Q' c!"not" ⬝ __') ⬝ q' c!"between") ⬝ .act .AddOperation ⬝ _' ⬝
        (.rule .Value ⬝ _' ⬝ Q' c!"and" ⬝ _' ⬝ .rule .Value
          ∕ q' c!"[" ⬝ _' ⬝ .rule .Value ⬝ _' ⬝ q' c!"," ⬝ _' ⬝ .rule .Value ⬝ _' ⬝ q' c!"]") ⬝ .act .PopBetween)
  | .PrimaryExpression =>
    q' c!"(" ⬝ _' ⬝ .rule .Expression ⬝ _' ⬝ q' c!")" ⬝ .act .PopParentheses
    ∕ .rule .Value
    ∕ .rule .Identifier ⬝ .rule .ArgumentList ⬝ .act .PopFunction
    ∕ .rule .Reference
  | .ArgumentList =>
    q' c!"(" ⬝ _' ⬝ .act .AddMark ⬝
      .opt (.rule .Argument ⬝ .star (_' ⬝ q' c!"," ⬝ _' ⬝ .rule .Argument) ⬝ _' ⬝ .opt (q' c!",")) ⬝ _' ⬝ q' c!")" ⬝ .act .PopArray
  | .Argument => .rule .Expression
  | .Reference => .rule .IdentifierReference ∕ .rule .JsonReference ∕ .rule .Identifier
  | .IdentifierReference =>
    .act .AddMark ⬝ .rule .Identifier ⬝ q' c!"." ⬝ .rule .Identifier ⬝ .star (q' c!"." ⬝ .rule .Identifier) ⬝ .act .PopIdentifierReference
  | .JsonReference => .rule .Identifier ⬝ q' c!"->" ⬝ (.rule .JsonReference ∕ .rule .Identifier)
  | .Identifier =>
    .no (Q' c!"not") ⬝ .cap (.cls [('a', 'z'), ('A', 'Z')] ⬝ .star (.cls [('_', '_'), ('a', 'z'), ('A', 'Z'), ('0', '9')])) ⬝ .act .AddName
  | .Compare =>
    _' ⬝ .cap (q' c!">=" ∕ q' c!"<=" ∕ q' c!"==" ∕ q' c!"!=" ∕ q' c!">" ∕ q' c!"<" ∕ q' c!"<>" ∕ q' c!"=") ⬝ _' ⬝ .act .AddCompare
    ∕ _' ⬝ .cap (Q' c!"gt" ∕ Q' c!"lt" ∕ Q' c!"gte" ∕ Q' c!"lte" ∕ Q' c!"eq" ∕ Q' c!"neq") ⬝ _' ⬝ .act .AddCompare
    ∕ _' ⬝ .cap (Q' c!"like" ∕ Q' c!"not" ⬝ __' ⬝ Q' c!"like") ⬝ _' ⬝ .act .AddCompare
  | .Logic =>
    _' ⬝ .cap (Q' c!"and" ∕ Q' c!"or") ⬝ _' ⬝ .act .AddLogic
    ∕ _' ⬝ .cap (q' c!"&&" ∕ q' c!"||") ⬝ _' ⬝ .act .AddLogic
  | .Match =>
    __' ⬝ .cap (q' c!"isnull" ∕ q' c!"notnull" ∕ q' c!"is" ⬝ __' ⬝ (q' c!"true" ∕ q' c!"false" ∕ q' c!"null")
      ∕ q' c!"is" ⬝ __' ⬝ q' c!"not" ⬝ __' ⬝ (q' c!"true" ∕ q' c!"false" ∕ q' c!"null")) ⬝ _' ⬝ .act .AddMatch
  | .Value => .rule .Literal ∕ .rule .Array
  | .Array =>
    q' c!"[" ⬝ .act .AddMark ⬝ _' ⬝
      .opt (.rule .Literal ⬝ .star (_' ⬝ q' c!"," ⬝ _' ⬝ .rule .Literal) ⬝ _' ⬝ .opt (q' c!",")) ⬝ _' ⬝ q' c!"]" ⬝ .act .PopArray
    ∕ q' c!"(" ⬝ .act .AddMark ⬝ _' ⬝
      .opt (.rule .Literal ⬝ .star (_' ⬝ q' c!"," ⬝ _' ⬝ .rule .Literal) ⬝ _' ⬝ .opt (q' c!",")) ⬝ _' ⬝ q' c!")" ⬝ .act .PopArray
  | .Literal => .rule .String ∕ .rule .Integer ∕ .rule .Boolean ∕ .rule .Null
  | .Integer => .cap (q' c!"0" ∕ .cls [('1', '9')] ⬝ .star (.cls [('0', '9')])) ⬝ .act .AddInteger
  | .Boolean => .cap (q' c!"true" ∕ q' c!"false" ∕ q' c!"TRUE" ∕ q' c!"FALSE") ⬝ .act .AddBoolean
  | .Null => .cap (q' c!"null" ∕ q' c!"NULL") ⬝ .act .AddNull
  | .String =>
    Q' c!"'" ⬝ .cap (.star (.other '\'')) ⬝ Q' c!"'" ⬝ .act .AddString
    ∕ q' c!"\"" ⬝ .cap (.star (.other '"')) ⬝ q' c!"\"" ⬝ .act .AddString
  | .SpaceComment => .rule .Space ∕ .rule .Comment
  | .sp => .star (.rule .SpaceComment)
  | .sp1 => .plus (.rule .SpaceComment)
  | .Comment => (q' c!"--" ∕ q' c!"//") ⬝ .star (.no (.rule .EndOfLine) ⬝ .dot) ⬝ .rule .EndOfLine
  | .Space => q' c!" " ∕ q' c!"\t" ∕ .rule .EndOfLine
  | .EndOfLine => q' c!"\r\n" ∕ q' c!"\n" ∕ q' c!"\r"
  | .EndOfFile => .no .dot

/-- The methods of `Tree` that the calls stand for (/repo/miniquery/tree.go:68-271); the text is the last captured one. -/
def doMeth (m : Meth) (text : Str) (t : Tree) : Option Tree :=
  match m with
  | .PopLogic => some t.popLogic
  | .PopNot => some t.popNot
  | .PopCompare => some t.popCompare
  | .AddCompare => some (t.addOperation text)
  | .PopPredicate => some t.popPredicate
  | .AddOperation => some (t.addOperation text)
  | .PopBetween => some t.popBetween
  | .PopParentheses => some t.popParentheses
  | .PopFunction => some t.popFunction
  | .AddMark => some t.addMark
  | .PopArray => t.popArray
  | .PopIdentifierReference => t.popIdentifierReference
  | .AddName => some (t.addName text)
  | .AddLogic => some (t.addOperation text)
  | .AddMatch => some (t.addOperation text)
  | .AddInteger => some (t.addInteger text)
  | .AddBoolean => some (t.addBoolean text)
  | .AddNull => some t.addNull
  | .AddString => some (t.addString text)

/-- The calls in order, each with the text captured last. -/
def doMeths : Str → List FEv → Tree → Option Tree
  | _, [], t => some t
  | _, .text s :: evs, t => doMeths s evs t
  | x, .act m :: evs, t => (doMeth m x t).bind (doMeths x evs)

end Verif

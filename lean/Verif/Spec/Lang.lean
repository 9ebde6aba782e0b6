import Verif.Node

/-!
# Specification: the query language as a declarative attribute grammar

Independent of the recogniser: ambiguous, unordered, no backtracking.  `Query s n` says that the text `s` can be read as the
tree `n`.
-/

namespace Verif

/-- `u` is the lower case word `w` up to the case of its letters. -/
def CI : Str → Str → Prop
  | [], u => u = []
  | c :: w, u => ∃ x t, u = x :: t ∧ (x = c ∨ x = c.toUpper) ∧ CI w t

/-- Blank characters. -/
def blanks : Str := c!" \t\n\r"

/-- Blanks and comments. -/
inductive WS : Str → Prop where
  | nil : WS []
  | blank {c u} : c ∈ blanks → WS u → WS (c :: u)
  | comment {o b e u} : o = c!"--" ∨ o = c!"//" → (∀ c ∈ b, c ≠ '\n' ∧ c ≠ '\r') → e = '\n' ∨ e = '\r' → WS u →
      WS (o ++ (b ++ e :: u))

/-- White space: the blanks and the form feed. -/
def whites : Str := '\x0c' :: blanks

/-- `m` is `u` with every run of white space as one space, and in lower case. -/
inductive Condensed : Str → Str → Prop where
  | nil : Condensed [] []
  | run {b u m} : b ≠ [] → (∀ c ∈ b, c ∈ whites) → (∀ c t, u = c :: t → c ∉ whites) → Condensed u m → Condensed (b ++ u) (' ' :: m)
  | char {c u m} : c ∉ whites → Condensed u m → Condensed (c :: u) (lowerChar c :: m)

/-- The separator `u` inside a multi-word operator, recorded as `m`: one space if it consists of blanks; a comment is recorded too. -/
def Sep (u m : Str) : Prop := WS u ∧ u ≠ [] ∧ Condensed u m

/-- Comparison operators: spelling and meaning. -/
inductive CmpOp : Str → Str → Prop where
  | sym {u o} : (u, o) ∈ [(c!">=", c!"gte"), (c!"<=", c!"lte"), (c!"==", c!"eq"), (c!"<", c!"lt"), (c!"=", c!"eq"),
      (c!">", c!"gt"), (c!"!=", c!"neq"), (c!"<>", c!"neq")] → CmpOp u o
  | word {w u} : w ∈ [c!"gt", c!"lt", c!"gte", c!"lte", c!"eq", c!"neq", c!"like"] → CI w u → CmpOp u w
  | notLike {a s m b} : CI c!"not" a → Sep s m → CI c!"like" b → CmpOp (a ++ (s ++ b)) (c!"not" ++ (m ++ c!"like"))

/-- Logic operators. -/
inductive LogicOp : Str → Str → Prop where
  | word {w u} : w ∈ [c!"and", c!"or"] → CI w u → LogicOp u w
  | amp : LogicOp c!"&&" c!"and"
  | bar : LogicOp c!"||" c!"or"

/-- Membership operators. -/
inductive InOp : Str → Str → Prop where
  | inn {u} : CI c!"in" u → InOp u c!"in"
  | notIn {a s m b} : CI c!"not" a → Sep s m → CI c!"in" b → InOp (a ++ (s ++ b)) (c!"not" ++ (m ++ c!"in"))

/-- Range operators. -/
inductive BetweenOp : Str → Str → Prop where
  | btw : BetweenOp c!"between" c!"between"
  | notBtw {a s m} : CI c!"not" a → Sep s m → BetweenOp (a ++ (s ++ c!"between")) (c!"not" ++ (m ++ c!"between"))

/-- Predicate operators. -/
inductive MatchOp : Str → Str → Prop where
  | isnull : MatchOp c!"isnull" c!"is null"
  | notnull : MatchOp c!"notnull" c!"is not null"
  | is {s m w} : Sep s m → w ∈ [c!"null", c!"true", c!"false"] → MatchOp (c!"is" ++ (s ++ w)) (c!"is" ++ (m ++ w))
  | isNot {s m s' m' w} : Sep s m → Sep s' m' → w ∈ [c!"null", c!"true", c!"false"] →
      MatchOp (c!"is" ++ (s ++ (c!"not" ++ (s' ++ w)))) (c!"is" ++ (m ++ (c!"not" ++ (m' ++ w))))

/-- Literals: a canonical decimal within the range of `int`, a boolean or null keyword, or quoted text taken verbatim. -/
inductive Lit : Str → Node → Prop where
  | int {k : Nat} : k ≤ maxInt → Lit (Nat.toDigits 10 k) (.int k)
  | tru {u} : u = c!"true" ∨ u = c!"TRUE" → Lit u (.bool true)
  | fls {u} : u = c!"false" ∨ u = c!"FALSE" → Lit u (.bool false)
  | null {u} : u = c!"null" ∨ u = c!"NULL" → Lit u .null
  | sq {s} : '\'' ∉ s → Lit ('\'' :: (s ++ c!"'")) (.str s)
  | dq {s} : '"' ∉ s → Lit ('"' :: (s ++ c!"\"")) (.str s)

/-- One or more literals separated by commas. -/
inductive LitItems : Str → List Node → Prop where
  | one {u n} : Lit u n → LitItems u [n]
  | more {u ns w1 w2 v n} : LitItems u ns → WS w1 → WS w2 → Lit v n → LitItems (u ++ (w1 ++ ',' :: (w2 ++ v))) (ns ++ [n])

/-- Array literals in square or round brackets, an optional trailing comma. -/
inductive LitArr : Str → Node → Prop where
  | empty {o c w} : (o, c) ∈ [('[', ']'), ('(', ')')] → WS w → LitArr (o :: (w ++ [c])) (.arr [])
  | items {o c w u ns w1 t w2} : (o, c) ∈ [('[', ']'), ('(', ')')] → WS w → LitItems u ns → WS w1 → t = [] ∨ t = c!"," →
      WS w2 → LitArr (o :: (w ++ (u ++ (w1 ++ (t ++ (w2 ++ [c])))))) (.arr ns)

/-- Values: literals and arrays. -/
def Val (u : Str) (n : Node) : Prop := Lit u n ∨ LitArr u n

/-- First character of an identifier. -/
def IdHead (c : Char) : Prop := ('a' ≤ c ∧ c ≤ 'z') ∨ ('A' ≤ c ∧ c ≤ 'Z')
/-- Further characters of an identifier. -/
def IdTail (c : Char) : Prop := IdHead c ∨ ('0' ≤ c ∧ c ≤ '9') ∨ c = '_'

/-- Identifiers; none begins with `not`. -/
def IdText (u : Str) : Prop :=
  (∃ c t, u = c :: t ∧ IdHead c ∧ ∀ x ∈ t, IdTail x) ∧ ∀ a t, u = a ++ t → ¬ CI c!"not" a

/-- Dot separated names. -/
def joinDots : List Str → Str
  | [] => []
  | [a] => a
  | a :: as => a ++ '.' :: joinDots as

/-- Column names: a plain identifier or a dotted reference. -/
inductive Name : Str → Node → Prop where
  | ident {u} : IdText u → Name u (.ident u)
  | ref {a b names} : (∀ x ∈ a :: b :: names, IdText x) → Name (joinDots (a :: b :: names)) (.ref (a :: b :: names))

/-- The text does not begin with a literal keyword. -/
def KwFree (u : Str) : Prop := ∀ k ∈ [c!"true", c!"false", c!"TRUE", c!"FALSE", c!"null", c!"NULL"], ¬ k <+: u

/-- Precedence levels, tightest first; `args1`/`args` are argument lists, represented by an array node. -/
inductive Lvl where
  | prim | btw | prd | cin | cmp | neg | logic | args1 | args
  deriving DecidableEq, Repr

/-- `Rd l u n`: the text `u`, at precedence level `l`, reads as the tree `n`. -/
inductive Rd : Lvl → Str → Node → Prop where
  | val {u n} : Val u n → Rd .prim u n
  | name {u n} : Name u n → KwFree u → Rd .prim u n
  | paren {w1 u w2 n} : WS w1 → Rd .logic u n → WS w2 → Rd .prim ('(' :: (w1 ++ (u ++ (w2 ++ c!")")))) (.paren n)
  | func {f u ns} : IdText f → KwFree f → Rd .args u (.arr ns) → Rd .prim (f ++ '(' :: (u ++ c!")")) (.func f ns)
  | argOne {u n} : Rd .logic u n → Rd .args1 u (.arr [n])
  | argMore {u ns w1 w2 v n} : Rd .args1 u (.arr ns) → WS w1 → WS w2 → Rd .logic v n →
      Rd .args1 (u ++ (w1 ++ ',' :: (w2 ++ v))) (.arr (ns ++ [n]))
  | argsNone {w} : WS w → Rd .args w (.arr [])
  | argsSome {w u ns w1 t w2} : WS w → Rd .args1 u (.arr ns) → WS w1 → t = [] ∨ t = c!"," → WS w2 →
      Rd .args (w ++ (u ++ (w1 ++ (t ++ w2)))) (.arr ns)
  | btwUp {u n} : Rd .prim u n → Rd .btw u n
  | btwAnd {u l w1 ob o w2 a lo w3 k w4 b hi} : Rd .prim u l → WS w1 → BetweenOp ob o → WS w2 → Val a lo → WS w3 →
      CI c!"and" k → WS w4 → Val b hi →
      Rd .btw (u ++ (w1 ++ (ob ++ (w2 ++ (a ++ (w3 ++ (k ++ (w4 ++ b)))))))) (.between l (.op o) lo hi)
  | btwArr {u l w1 ob o w2 w3 a lo w4 w5 b hi w6} : Rd .prim u l → WS w1 → BetweenOp ob o → WS w2 → WS w3 → Val a lo → WS w4 →
      WS w5 → Val b hi → WS w6 →
      Rd .btw (u ++ (w1 ++ (ob ++ (w2 ++ '[' :: (w3 ++ (a ++ (w4 ++ ',' :: (w5 ++ (b ++ (w6 ++ c!"]")))))))))) (.between l (.op o) lo hi)
  | prdUp {u n} : Rd .btw u n → Rd .prd u n
  | pred {u l w1 ob o w2} : Rd .btw u l → WS w1 → w1 ≠ [] → MatchOp ob o → WS w2 →
      Rd .prd (u ++ (w1 ++ (ob ++ w2))) (.pred l (.op o))
  | cinUp {u n} : Rd .prd u n → Rd .cin u n
  | isIn {u l w1 ob o w2 a n} : Rd .prd u l → WS w1 → InOp ob o → WS w2 → LitArr a n →
      Rd .cin (u ++ (w1 ++ (ob ++ (w2 ++ a)))) (.cmp l (.op o) n)
  | cmpUp {u n} : Rd .cin u n → Rd .cmp u n
  | cmp {u l w1 ob o w2 v r} : Rd .cmp u l → WS w1 → CmpOp ob o → WS w2 → Rd .cin v r →
      Rd .cmp (u ++ (w1 ++ (ob ++ (w2 ++ v)))) (.cmp l (.op o) r)
  | negUp {u n} : Rd .cmp u n → Rd .neg u n
  | neg {w k w1 u n} : WS w → CI c!"not" k → WS w1 → w1 ≠ [] → Rd .cmp u n → Rd .neg (w ++ (k ++ (w1 ++ u))) (.not n)
  | logicUp {u n} : Rd .neg u n → Rd .logic u n
  | logic {u l w1 ob o w2 v r} : Rd .logic u l → WS w1 → LogicOp ob o → WS w2 → Rd .neg v r →
      Rd .logic (u ++ (w1 ++ (ob ++ (w2 ++ v)))) (.logic l (.op o) r)

/-- The whole query: an expression surrounded by blanks and comments. -/
def Query (s : Str) (n : Node) : Prop := ∃ w1 u w2, s = w1 ++ (u ++ w2) ∧ WS w1 ∧ Rd .logic u n ∧ WS w2

/-- A tree without nil anywhere, at any depth. -/
inductive Complete : Node → Prop where
  | int {i} : Complete (.int i)
  | bool {b} : Complete (.bool b)
  | str {s} : Complete (.str s)
  | null : Complete .null
  | arr {l} : (∀ n ∈ l, Complete n) → Complete (.arr l)
  | op {o} : Complete (.op o)
  | ident {n} : Complete (.ident n)
  | ref {l} : Complete (.ref l)
  | pred {l o} : Complete l → Complete o → Complete (.pred l o)
  | cmp {l o r} : Complete l → Complete o → Complete r → Complete (.cmp l o r)
  | logic {l o r} : Complete l → Complete o → Complete r → Complete (.logic l o r)
  | paren {e} : Complete e → Complete (.paren e)
  | not {e} : Complete e → Complete (.not e)
  | between {l o a b} : Complete l → Complete o → Complete a → Complete b → Complete (.between l o a b)
  | func {f l} : (∀ n ∈ l, Complete n) → Complete (.func f l)

/-- Recorded operator names: of any of the operator classes. -/
def OpName (o : Str) : Prop := ∃ u, CmpOp u o ∨ LogicOp u o ∨ InOp u o ∨ BetweenOp u o ∨ MatchOp u o

/-- Literal nodes. -/
def LitNode : Node → Prop
  | .int _ | .bool _ | .str _ | .null => True
  | _ => False

/-- Value nodes: literals and arrays of literals. -/
def ValNode : Node → Prop
  | .arr l => ∀ n ∈ l, LitNode n
  | n => LitNode n

/-- The node is not a bare operator. -/
def NotOp (n : Node) : Prop := ∀ o, n ≠ .op o

/-- Trees whose parts are what they should be, although operators and operands may be confused: values are literals or arrays of literals, names
are identifiers, operators are operators of the language. -/
inductive Fine : Node → Prop where
  | val {n} : ValNode n → Fine n
  | op {o} : OpName o → Fine (.op o)
  | ident {x} : IdText x → Fine (.ident x)
  | ref {l} : (∀ x ∈ l, IdText x) → Fine (.ref l)
  | pred {l o} : Fine l → (∃ u, MatchOp u o) → Fine (.pred l (.op o))
  | cmp {l o r} : Fine l → Fine o → Fine r → Fine (.cmp l o r)
  | logic {l o r} : Fine l → Fine o → Fine r → Fine (.logic l o r)
  | paren {e} : Fine e → Fine (.paren e)
  | not {e} : Fine e → Fine (.not e)
  | between {l o a b} : Fine l → (∃ u, BetweenOp u o) → ValNode a → ValNode b → Fine (.between l (.op o) a b)
  | func {f l} : IdText f → (∀ n ∈ l, Fine n) → Fine (.func f l)

/-! ## Lexical structure -/

/-- Where a left-to-right lexical scan stands. -/
inductive Mode where
  | code | dash | slash | comment | sq | dq
  deriving DecidableEq, Repr

/-- One character of the scan: mode, open brackets (innermost first), has `->` been seen outside strings and comments.
`none` if the text cannot be continued to a well bracketed query. -/
def scanStep : Mode × Str × Bool → Char → Option (Mode × Str × Bool)
  | (.code, st, a), c =>
    if c = '\'' then some (.sq, st, a)
    else if c = '"' then some (.dq, st, a)
    else if c = '-' then some (.dash, st, a)
    else if c = '/' then some (.slash, st, a)
    else if c = '(' ∨ c = '[' then some (.code, c :: st, a)
    else if c = ')' then (match st with | '(' :: st' => some (.code, st', a) | _ => none)
    else if c = ']' then (match st with | '[' :: st' => some (.code, st', a) | _ => none)
    else some (.code, st, a)
  | (.dash, st, a), c => if c = '-' then some (.comment, st, a) else if c = '>' then some (.code, st, true) else none
  | (.slash, st, a), c => if c = '/' then some (.comment, st, a) else none
  | (.comment, st, a), c => if c = '\n' ∨ c = '\r' then some (.code, st, a) else some (.comment, st, a)
  | (.sq, st, a), c => if c = '\'' then some (.code, st, a) else some (.sq, st, a)
  | (.dq, st, a), c => if c = '"' then some (.code, st, a) else some (.dq, st, a)

/-- The scan of a text. -/
def scan : Str → Mode × Str × Bool → Option (Mode × Str × Bool)
  | [], x => some x
  | c :: s, x => match scanStep x c with | none => none | some y => scan s y

/-- All quotes, comments and brackets of the text are closed and properly nested; `a` tells whether it contains `->` outside
strings and comments. -/
def Balanced (s : Str) (a : Bool) : Prop := scan s (.code, [], false) = some (.code, [], a)

end Verif

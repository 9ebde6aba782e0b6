import Verif.Spec.Meaning

/-! # Specification: reading an SQL condition

A reader for the part of SQL that conditions are written in, independent of the translators: characters to words (`run`, `lexSql`), parameters to
values (`bindQ` for `?`, `bindN` for `$n`), words to a tree with the precedence of SQL (`pOr` …; `or` < `and` < `not` < predicates, all binary
connectives grouping to the left).  Where PostgreSQL, MySQL and SQLite disagree on the grouping (chains of comparisons) the reader gives up. -/

namespace Verif

/-- Words of an SQL text: bare words are case-insensitive (kept in lower case), quoted names keep their quotes, `q` is `?`, `num k` is `$k`, `val`
a parameter replaced by its value. -/
inductive SqlTok where
  | lp | rp | comma | q
  | num (k : Nat)
  | val (v : GoVal)
  | word (w : Str)
  | name (x : Str)
  | sym (s : Str)
  deriving DecidableEq, Repr

/-- State of the scanner. -/
inductive LState where
  | idle
  | word (acc : Str)
  | quote (c : Char) (acc : Str)
  | name (acc : Str)
  | dot (acc : Str)
  | num (acc : Str)
  | sym (acc : Str)
  deriving DecidableEq, Repr

/-- Characters of bare words. -/
def wordChar (c : Char) : Bool := c.isAlphanum || c == '_'
/-- Characters of operators. -/
def symChar (c : Char) : Bool := c ∈ c!"<>=!:"
/-- Characters that open and close a quoted name. -/
def quoteChar (c : Char) : Bool := c == '"' || c == '`'

/-- The number written in decimal digits. -/
def decNat (s : Str) : Nat := s.foldl (fun k c => k * 10 + (c.toNat - 48)) 0

/-- The word that ends here; `none` inside a quoted name or after a dot. -/
def flush : LState → Option (List SqlTok)
  | .idle => some []
  | .word acc => some [.word (acc.map Char.toLower)]
  | .name acc => some [.name acc]
  | .num acc => some [.num (decNat acc)]
  | .sym acc => some [.sym acc]
  | .quote .. => none
  | .dot _ => none

/-- A character between words. -/
def stepIdle (c : Char) : Option (List SqlTok × LState) :=
  if c = ' ' then some ([], .idle)
  else if c = '(' then some ([.lp], .idle)
  else if c = ')' then some ([.rp], .idle)
  else if c = ',' then some ([.comma], .idle)
  else if c = '?' then some ([.q], .idle)
  else if c = '$' then some ([], .num [])
  else if quoteChar c then some ([], .quote c [c])
  else if wordChar c then some ([], .word [c])
  else if symChar c then some ([], .sym [c])
  else none

/-- Ends the current word and goes on with the character. -/
def stepNew (st : LState) (c : Char) : Option (List SqlTok × LState) :=
  (flush st).bind fun ts => (stepIdle c).map fun r => (ts ++ r.1, r.2)

/-- One character. -/
def step (st : LState) (c : Char) : Option (List SqlTok × LState) :=
  match st with
  | .word acc => if wordChar c then some ([], .word (acc ++ [c])) else stepNew st c
  | .quote q acc => if c = q then some ([], .name (acc ++ [c])) else some ([], .quote q (acc ++ [c]))
  | .name acc => if c = '.' then some ([], .dot (acc ++ [c])) else if quoteChar c then some ([], .quote c (acc ++ [c])) else stepNew st c
  | .dot acc => if quoteChar c then some ([], .quote c (acc ++ [c])) else none
  | .num acc => if c.isDigit then some ([], .num (acc ++ [c])) else stepNew st c
  | .sym acc => if symChar c then some ([], .sym (acc ++ [c])) else stepNew st c
  | .idle => stepIdle c

/-- All characters. -/
def run : LState → Str → Option (List SqlTok × LState)
  | st, [] => some ([], st)
  | st, c :: s => (step st c).bind fun r => (run r.2 s).map fun r' => (r.1 ++ r'.1, r'.2)

/-- The words of a text. -/
def lexSql (s : Str) : Option (List SqlTok) := (run .idle s).bind fun r => (flush r.2).map fun ts => r.1 ++ ts

/-- Replaces the `?` by the values in order; all values must be used. -/
def bindQ : List SqlTok → List GoVal → Option (List SqlTok)
  | [], [] => some []
  | [], _ => none
  | .q :: _, [] => none
  | .q :: ts, v :: vs => (bindQ ts vs).map (.val v :: ·)
  | t :: ts, vs => (bindQ ts vs).map (t :: ·)

/-- Replaces each `$k` by the value numbered `k`, numbers starting after `base`. -/
def bindN (base : Nat) (vs : List GoVal) : List SqlTok → Option (List SqlTok)
  | [] => some []
  | .num k :: ts => if k ≤ base then none else (vs[k - base - 1]?).bind fun v => (bindN base vs ts).map (.val v :: ·)
  | t :: ts => (bindN base vs ts).map (t :: ·)

/-- SQL conditions. -/
inductive SExpr where
  | val (v : GoVal)
  | name (x : Str)
  | call (f : Str) (l : List SExpr)
  | cmp (o : Str) (x y : SExpr)
  | pred (o : Str) (x : SExpr)
  | between (neg : Bool) (x a b : SExpr)
  | and (x y : SExpr)
  | or (x y : SExpr)
  | not (x : SExpr)
  deriving Repr

/-- The operators written with symbols. -/
def symOps : List (Str × Str) :=
  [(c!"=", c!"eq"), (c!"<>", c!"neq"), (c!"!=", c!"neq"), (c!">", c!"gt"), (c!">=", c!"gte"), (c!"<", c!"lt"), (c!"<=", c!"lte")]

/-- What follows the first operand of a predicate. -/
inductive PKind where
  | cmp (o : Str)
  | set (o : Str)
  | btw (neg : Bool)
  | is (o : Str)

/-- The operator words and symbols. -/
def predOp : List SqlTok → Option (PKind × List SqlTok)
  | .sym s :: ts => (symOps.lookup s).map fun o => (.cmp o, ts)
  | .word w :: ts =>
    if w = c!"like" then some (.cmp c!"like", ts)
    else if w = c!"in" then some (.set c!"in", ts)
    else if w = c!"between" then some (.btw false, ts)
    else if w = c!"not" then
      match ts with
      | .word w' :: ts =>
        if w' = c!"like" then some (.cmp c!"not like", ts)
        else if w' = c!"in" then some (.set c!"not in", ts)
        else if w' = c!"between" then some (.btw true, ts)
        else none
      | _ => none
    else if w = c!"is" then
      match ts with
      | .word w' :: ts =>
        if w' = c!"null" ∨ w' = c!"true" ∨ w' = c!"false" then some (.is (c!"is " ++ w'), ts)
        else if w' = c!"not" then
          match ts with
          | .word w'' :: ts => if w'' = c!"null" ∨ w'' = c!"true" ∨ w'' = c!"false" then some (.is (c!"is not " ++ w''), ts) else none
          | _ => none
        else none
      | _ => none
    else none
  | _ => none

/-- A cast of a value to its own type is the value. -/
def castOk : GoVal → Str → Bool
  | .int _, w => w == c!"int"
  | .bool _, w => w == c!"bool"
  | _, _ => false

/-- A parameter, possibly with a cast, or null. -/
def pVal : List SqlTok → Option (GoVal × List SqlTok)
  | .val v :: .sym s :: .word w :: ts => if s = c!"::" then (if castOk v w then some (v, ts) else none) else some (v, .sym s :: .word w :: ts)
  | .val v :: ts => some (v, ts)
  | .word w :: ts => if w = c!"null" then some (.nil, ts) else none
  | _ => none

/-- The values of a parenthesised list, after the parenthesis; not empty. -/
def pVals : Nat → List SqlTok → Option (List GoVal × List SqlTok)
  | 0, _ => none
  | f + 1, ts => (pVal ts).bind fun r =>
    match r.2 with
    | .comma :: ts => (pVals f ts).map fun r' => (r.1 :: r'.1, r'.2)
    | .rp :: ts => some ([r.1], ts)
    | _ => none

/-- The right side of `in`: a list in parentheses or one parameter that is a list. -/
def pSet (f : Nat) : List SqlTok → Option (GoVal × List SqlTok)
  | .val (.slice l) :: ts => some (.slice l, ts)
  | .lp :: ts => (pVals f ts).map fun r => (.slice r.1, r.2)
  | _ => none

/-- A comparison must not be followed by another operator, except `is …` which applies to the comparison. -/
def endCmp (e : SExpr) (ts : List SqlTok) : Option (SExpr × List SqlTok) :=
  match predOp ts with
  | none => some (e, ts)
  | some (.is o, ts') => if (predOp ts').isSome then none else some (.pred o e, ts')
  | some _ => none

/-- The other predicates must not be followed by another operator. -/
def endPred (e : SExpr) (ts : List SqlTok) : Option (SExpr × List SqlTok) := if (predOp ts).isSome then none else some (e, ts)

mutual
/-- Disjunctions; the number bounds the depth of the recursion and is otherwise irrelevant. -/
def pOr : Nat → List SqlTok → Option (SExpr × List SqlTok)
  | 0, _ => none
  | f + 1, ts => (pAnd f ts).bind fun r => orTail f r.1 r.2
/-- The rest of a disjunction. -/
def orTail : Nat → SExpr → List SqlTok → Option (SExpr × List SqlTok)
  | 0, _, _ => none
  | f + 1, x, ts =>
    match ts with
    | .word w :: ts' => if w = c!"or" then (pAnd f ts').bind fun r => orTail f (.or x r.1) r.2 else some (x, ts)
    | ts => some (x, ts)
/-- Conjunctions. -/
def pAnd : Nat → List SqlTok → Option (SExpr × List SqlTok)
  | 0, _ => none
  | f + 1, ts => (pNot f ts).bind fun r => andTail f r.1 r.2
/-- The rest of a conjunction. -/
def andTail : Nat → SExpr → List SqlTok → Option (SExpr × List SqlTok)
  | 0, _, _ => none
  | f + 1, x, ts =>
    match ts with
    | .word w :: ts' => if w = c!"and" then (pNot f ts').bind fun r => andTail f (.and x r.1) r.2 else some (x, ts)
    | ts => some (x, ts)
/-- Negations. -/
def pNot : Nat → List SqlTok → Option (SExpr × List SqlTok)
  | 0, _ => none
  | f + 1, ts =>
    match ts with
    | .word w :: ts' => if w = c!"not" then (pNot f ts').map fun r => (.not r.1, r.2) else pPred f ts
    | ts => pPred f ts
/-- Predicates. -/
def pPred : Nat → List SqlTok → Option (SExpr × List SqlTok)
  | 0, _ => none
  | f + 1, ts => (pPrim f ts).bind fun r =>
    match predOp r.2 with
    | none => some r
    | some (.cmp o, ts) => (pPrim f ts).bind fun r' => endCmp (.cmp o r.1 r'.1) r'.2
    | some (.set o, ts) => (pSet f ts).bind fun r' => endCmp (.cmp o r.1 (.val r'.1)) r'.2
    | some (.is o, ts) => endPred (.pred o r.1) ts
    | some (.btw neg, ts) => (pPrim f ts).bind fun r' =>
      match r'.2 with
      | .word w :: ts => if w = c!"and" then (pPrim f ts).bind fun r'' => endPred (.between neg r.1 r'.1 r''.1) r''.2 else none
      | _ => none
/-- Operands. -/
def pPrim : Nat → List SqlTok → Option (SExpr × List SqlTok)
  | 0, _ => none
  | f + 1, ts =>
    match ts with
    | .lp :: ts => (pOr f ts).bind fun r =>
      match r.2 with
      | .rp :: ts => some (r.1, ts)
      | _ => none
    | .name x :: ts => some (.name x, ts)
    | .word w :: .lp :: .rp :: ts => some (.call w [], ts)
    | .word w :: .lp :: ts => (pArgs f ts).map fun r => (.call w r.1, r.2)
    | ts => (pVal ts).map fun r => (.val r.1, r.2)
/-- The arguments of a call, at least one, after the parenthesis. -/
def pArgs : Nat → List SqlTok → Option (List SExpr × List SqlTok)
  | 0, _ => none
  | f + 1, ts => (pOr f ts).bind fun r =>
    match r.2 with
    | .comma :: ts => (pArgs f ts).map fun r' => (r.1 :: r'.1, r'.2)
    | .rp :: ts => some ([r.1], ts)
    | _ => none
end

/-- The words are read as the condition `e`. -/
def Reads (ts : List SqlTok) (e : SExpr) : Prop := ∃ f, pOr f ts = some (e, [])

/-- The text with `?` parameters is read as `e`. -/
def ReadsQ (s : Str) (vs : List GoVal) (e : SExpr) : Prop := ∃ ts us, lexSql s = some ts ∧ bindQ ts vs = some us ∧ Reads us e

/-- The text with parameters `$(base+1)`, … is read as `e`. -/
def ReadsN (base : Nat) (s : Str) (vs : List GoVal) (e : SExpr) : Prop := ∃ ts us, lexSql s = some ts ∧ bindN base vs ts = some us ∧ Reads us e

mutual
/-- The meaning of a condition; names mean what the interpretation says about them (as written, with quotes). -/
def evalS {D : Type} (I : Interp D) : SExpr → D
  | .val v => I.const v
  | .name x => I.field x
  | .call f l => I.call f (evalSL I l)
  | .cmp o x y => I.cmp o (evalS I x) (evalS I y)
  | .pred o x => I.pred o (evalS I x)
  | .between neg x a b =>
    let w := I.and (I.cmp c!"gte" (evalS I x) (evalS I a)) (I.cmp c!"lte" (evalS I x) (evalS I b))
    if neg then I.not w else w
  | .and x y => I.and (evalS I x) (evalS I y)
  | .or x y => I.or (evalS I x) (evalS I y)
  | .not x => I.not (evalS I x)
/-- The meanings of a list of conditions. -/
def evalSL {D : Type} (I : Interp D) : List SExpr → List D
  | [] => []
  | x :: l => evalS I x :: evalSL I l
end

end Verif

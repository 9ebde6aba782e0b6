import Verif.Chars

/-!
# Parsing expressions, as compiled by `peg -switch` into /repo/miniquery/miniquery.peg.go

`PExp` is a deep embedding of the expression forms that occur in the generated recogniser.  Three semantics:

* `exec`   the generated code itself: a rune buffer with the end sentinel, a mutable `position` and `tokenIndex`, a
           token array that is overwritten while backtracking, and the `max` token used for error messages;
* `denote` a functional semantics on the remaining input, which returns the *events* (text captures and actions) of
           the successful derivation;
* `Big`    an inductive big-step relation, used for inversion.
-/

namespace Verif

/-- The rules of the grammar: /repo/miniquery/miniquery.peg.go:19-52 (`ruleUnknown` is never used). -/
inductive Rule where
  | Grammar | Expression | LogicExpression | NotExpression | CompareExpression | CompareInExpression
  | PredicateExpression | BetweenExpression | PrimaryExpression | ArgumentList | Argument | Reference
  | IdentifierReference | JsonReference | Identifier | Compare | Logic | Match | Value | Array | Literal
  | Integer | Boolean | Null | String | SpaceComment | sp | sp1 | Comment | Space | EndOfLine | EndOfFile
  deriving DecidableEq, Repr

/-- Parsing expressions.  `sw cs a b` is the `switch buffer[position]` form produced by `-switch`:
if the current rune is one of `cs` run `a`, otherwise `b` (never both). -/
inductive PExp where
  | eps
  | any
  | chr (c : Char)
  | rng (lo hi : Char)
  | seq (a b : PExp)
  | alt (a b : PExp)
  | star (a : PExp)
  | opt (a : PExp)
  | notP (a : PExp)
  | call (r : Rule)
  | txt (a : PExp)
  | act (n : Nat)
  | sw (cs : List Char) (a b : PExp)
  deriving DecidableEq, Repr

/-! ## Low level: the generated code -/

/-- Kind of a token: a rule, `rulePegText`, or `ruleActionN`; /repo/miniquery/miniquery.peg.go:19-84. -/
inductive TokKind where
  | rule (r : Rule)
  | text
  | act (n : Nat)
  deriving DecidableEq, Repr

/-- `token32`, /repo/miniquery/miniquery.peg.go:153-156 (positions are unbounded here; the code uses uint32, see `Word32`). -/
structure Tok where
  kind : TokKind
  b : Nat
  e : Nat
  deriving DecidableEq, Repr

/-- The variables shared by the rule closures: `position`, `tokenIndex`, `tree`, `max`;
/repo/miniquery/miniquery.peg.go:450-454,474. -/
structure St where
  pos : Nat
  ti : Nat
  tree : List Tok
  max : Tok
  deriving DecidableEq, Repr

/-- Outcome of a piece of generated code: fell through, jumped to the failure label (with whatever the variables hold
at that moment), read the buffer out of range, or did not terminate. -/
inductive Out where
  | ok (st : St)
  | fail (st : St)
  | panic
  | div
  deriving DecidableEq, Repr

/-- `endSymbol`, /repo/miniquery/miniquery.peg.go:14. -/
def endSymbol : Nat := 1114112

/-- `p.buffer` after `reset`: /repo/miniquery/miniquery.peg.go:465-468.  A decoded rune is never `endSymbol`, so the
sentinel is always appended. -/
def mkBuf (s : Str) : List Nat := s.map Char.toNat ++ [endSymbol]

/-- `tokens32.Add` and the closure `add`: /repo/miniquery/miniquery.peg.go:249-256, 489-495. -/
def addTok (k : TokKind) (begin : Nat) (st : St) : St :=
  let tok : Tok := ⟨k, begin, st.pos⟩
  { st with
    tree := if st.ti ≥ st.tree.length then st.tree ++ [tok] else st.tree.set st.ti tok
    ti := st.ti + 1
    max := if begin ≠ st.pos ∧ st.pos > st.max.e then tok else st.max }

/-- The loop compiled from `e*`: save, run, on failure restore and leave; e.g. /repo/miniquery/miniquery.peg.go:570-585. -/
def execStar (p : St → Out) : Nat → St → Out
  | 0, _ => .div
  | n + 1, st =>
    match p st with
    | .ok st' => execStar p n st'
    | .fail st' => .ok { st' with pos := st.pos, ti := st.ti }
    | .panic => .panic
    | .div => .div

/-- The code compiled from each expression form.  `env r` is the call `_rules[r]()`.
`chr`: lines 611-614; `rng`: 1422-1425; `any` (matchDot): 497-503; `alt`: 599-606; `star`: 570-585; `opt`: 866-879;
`notP`: 1367-1417; `txt` (`<...>`): 716-834; `act`: 3150-3155; `sw`: 1533-1564. -/
def exec (buf : List Nat) (env : Rule → St → Out) : PExp → St → Out
  | .eps, st => .ok st
  | .any, st =>
    match buf[st.pos]? with
    | none => .panic
    | some x => if x ≠ endSymbol then .ok { st with pos := st.pos + 1 } else .fail st
  | .chr c, st =>
    match buf[st.pos]? with
    | none => .panic
    | some x => if x ≠ c.toNat then .fail st else .ok { st with pos := st.pos + 1 }
  | .rng lo hi, st =>
    match buf[st.pos]? with
    | none => .panic
    | some x => if x < lo.toNat ∨ x > hi.toNat then .fail st else .ok { st with pos := st.pos + 1 }
  | .seq a b, st =>
    match exec buf env a st with
    | .ok st' => exec buf env b st'
    | .fail st' => .fail st'
    | .panic => .panic
    | .div => .div
  | .alt a b, st =>
    match exec buf env a st with
    | .ok st' => .ok st'
    | .fail st' => exec buf env b { st' with pos := st.pos, ti := st.ti }
    | .panic => .panic
    | .div => .div
  | .star a, st => execStar (exec buf env a) (buf.length - st.pos) st
  | .opt a, st =>
    match exec buf env a st with
    | .ok st' => .ok st'
    | .fail st' => .ok { st' with pos := st.pos, ti := st.ti }
    | .panic => .panic
    | .div => .div
  | .notP a, st =>
    match exec buf env a st with
    | .ok st' => .fail st'
    | .fail st' => .ok { st' with pos := st.pos, ti := st.ti }
    | .panic => .panic
    | .div => .div
  | .call r, st => env r st
  | .txt a, st =>
    match exec buf env a st with
    | .ok st' => .ok (addTok .text st.pos st')
    | .fail st' => .fail st'
    | .panic => .panic
    | .div => .div
  | .act n, st => .ok (addTok (.act n) st.pos st)
  | .sw cs a b, st =>
    match buf[st.pos]? with
    | none => .panic
    | some x => if x ∈ cs.map Char.toNat then exec buf env a st else exec buf env b st

/-- The rule functions `_rules[r]`: run the body; on success add the rule's token, on failure restore
`position, tokenIndex` and return false; e.g. /repo/miniquery/miniquery.peg.go:548-561.
The first argument bounds the call depth; running out of it is `div`. -/
def execN (buf : List Nat) (G : Rule → PExp) : Nat → Rule → St → Out
  | 0, _, _ => .div
  | n + 1, r, st =>
    match exec buf (execN buf G n) (G r) st with
    | .ok st' => .ok (addTok (.rule r) st.pos st')
    | .fail st' => .fail { st' with pos := st.pos, ti := st.ti }
    | .panic => .panic
    | .div => .div

/-! ## Functional semantics -/

/-- What `Execute` gets to see of a token: a captured text or an action. -/
inductive Ev where
  | text (s : Str)
  | act (n : Nat)
  deriving DecidableEq, Repr

/-- Result of recognising a prefix of the input. -/
inductive Res where
  | ok (evs : List Ev) (rest : Str)
  | fail
  | div
  deriving DecidableEq, Repr

/-- Greedy repetition. -/
def starLoop (p : Str → Res) : Nat → Str → Res
  | 0, _ => .div
  | n + 1, s =>
    match p s with
    | .fail => .ok [] s
    | .div => .div
    | .ok e1 r =>
      match starLoop p n r with
      | .ok e2 r2 => .ok (e1 ++ e2) r2
      | .fail => .fail
      | .div => .div

/-- Functional semantics of parsing expressions on the remaining input. -/
def denote (env : Rule → Str → Res) : PExp → Str → Res
  | .eps, s => .ok [] s
  | .any, s => match s with | [] => .fail | _ :: t => .ok [] t
  | .chr c, s => match s with | [] => .fail | x :: t => if x = c then .ok [] t else .fail
  | .rng lo hi, s =>
    match s with | [] => .fail | x :: t => if lo.toNat ≤ x.toNat ∧ x.toNat ≤ hi.toNat then .ok [] t else .fail
  | .seq a b, s =>
    match denote env a s with
    | .fail => .fail
    | .div => .div
    | .ok e1 r =>
      match denote env b r with
      | .ok e2 r2 => .ok (e1 ++ e2) r2
      | .fail => .fail
      | .div => .div
  | .alt a b, s =>
    match denote env a s with
    | .ok e r => .ok e r
    | .fail => denote env b s
    | .div => .div
  | .star a, s => starLoop (denote env a) (s.length + 1) s
  | .opt a, s =>
    match denote env a s with
    | .ok e r => .ok e r
    | .fail => .ok [] s
    | .div => .div
  | .notP a, s =>
    match denote env a s with
    | .ok _ _ => .fail
    | .fail => .ok [] s
    | .div => .div
  | .call r, s => env r s
  | .txt a, s =>
    match denote env a s with
    | .ok e r => .ok (e ++ [.text (s.take (s.length - r.length))]) r
    | .fail => .fail
    | .div => .div
  | .act n, s => .ok [.act n] s
  | .sw cs a b, s =>
    match s with
    | [] => denote env b []
    | x :: t => if x ∈ cs then denote env a (x :: t) else denote env b (x :: t)

/-- Functional semantics of rules, with bounded call depth. -/
def denoteN (G : Rule → PExp) : Nat → Rule → Str → Res
  | 0, _, _ => .div
  | n + 1, r, s => denote (denoteN G n) (G r) s

/-! ## Big-step relation -/

/-- `Big G e s (some (evs, rest))`: `e` succeeds on `s` leaving `rest`; `Big G e s none`: `e` fails on `s`. -/
inductive Big (G : Rule → PExp) : PExp → Str → Option (List Ev × Str) → Prop where
  | eps {s} : Big G .eps s (some ([], s))
  | anyOk {c s} : Big G .any (c :: s) (some ([], s))
  | anyFail : Big G .any [] none
  | chrOk {c s} : Big G (.chr c) (c :: s) (some ([], s))
  | chrNil {c} : Big G (.chr c) [] none
  | chrFail {c x s} : x ≠ c → Big G (.chr c) (x :: s) none
  | rngOk {lo hi x s} : lo.toNat ≤ x.toNat → x.toNat ≤ hi.toNat → Big G (.rng lo hi) (x :: s) (some ([], s))
  | rngNil {lo hi} : Big G (.rng lo hi) [] none
  | rngFail {lo hi x s} : ¬(lo.toNat ≤ x.toNat ∧ x.toNat ≤ hi.toNat) → Big G (.rng lo hi) (x :: s) none
  | seqOk {a b s e1 r1 e2 r2} : Big G a s (some (e1, r1)) → Big G b r1 (some (e2, r2)) →
      Big G (.seq a b) s (some (e1 ++ e2, r2))
  | seqFail1 {a b s} : Big G a s none → Big G (.seq a b) s none
  | seqFail2 {a b s e1 r1} : Big G a s (some (e1, r1)) → Big G b r1 none → Big G (.seq a b) s none
  | alt1 {a b s x} : Big G a s (some x) → Big G (.alt a b) s (some x)
  | alt2 {a b s x} : Big G a s none → Big G b s x → Big G (.alt a b) s x
  | starNil {a s} : Big G a s none → Big G (.star a) s (some ([], s))
  | starCons {a s e1 r1 e2 r2} : Big G a s (some (e1, r1)) → Big G (.star a) r1 (some (e2, r2)) →
      Big G (.star a) s (some (e1 ++ e2, r2))
  | optSome {a s x} : Big G a s (some x) → Big G (.opt a) s (some x)
  | optNone {a s} : Big G a s none → Big G (.opt a) s (some ([], s))
  | notFail {a s x} : Big G a s (some x) → Big G (.notP a) s none
  | notOk {a s} : Big G a s none → Big G (.notP a) s (some ([], s))
  | call {r s x} : Big G (G r) s x → Big G (.call r) s x
  | txtOk {a s e r} : Big G a s (some (e, r)) →
      Big G (.txt a) s (some (e ++ [.text (s.take (s.length - r.length))], r))
  | txtFail {a s} : Big G a s none → Big G (.txt a) s none
  | act {n s} : Big G (.act n) s (some ([.act n], s))
  | swIn {cs a b c s x} : c ∈ cs → Big G a (c :: s) x → Big G (.sw cs a b) (c :: s) x
  | swOut {cs a b c s x} : c ∉ cs → Big G b (c :: s) x → Big G (.sw cs a b) (c :: s) x
  | swNil {cs a b x} : Big G b [] x → Big G (.sw cs a b) [] x

end Verif

import Verif.Parse

/-! # Parser objects: tokens, syntax trees, reuse (/repo/miniquery/miniquery.peg.go) -/

namespace Verif

/-- `node32`, /repo/miniquery/miniquery.peg.go:162-165.  Simplification: the list linked by `next` that starts at `up` is a list of children. -/
inductive N32 where
  | mk (tok : Tok) (up : List N32)

/-- The token of a node. -/
def N32.tok : N32 → Tok
  | .mk t _ => t

/-- The inner loop of `AST`, /repo/miniquery/miniquery.peg.go:224-228: stack, children collected so far; returns the children and the rest of
the stack. -/
def popInto (t : Tok) : List N32 → List N32 → List N32 × List N32
  | [], up => (up, [])
  | n :: stack, up => if n.tok.b ≥ t.b ∧ n.tok.e ≤ t.e then popInto t stack (n :: up) else (up, n :: stack)

/-- The loop body of `AST`, /repo/miniquery/miniquery.peg.go:219-230. -/
def astStep (stack : List N32) (t : Tok) : List N32 :=
  if t.b = t.e then stack else .mk t (popInto t stack []).1 :: (popInto t stack []).2

/-- `AST`, /repo/miniquery/miniquery.peg.go:212-235; `none` is nil. -/
def ast (toks : List Tok) : Option N32 := (toks.foldl astStep []).head?

/-- A line of a printed syntax tree: indentation, rule, text (before quoting). -/
abbrev Line := Nat × TokKind × Str

mutual
/-- One node printed, then its children: the body of the loop of `print`, /repo/miniquery/miniquery.peg.go:170-185.  `none` is the panic of a slice
out of range.  Simplification: the text is not quoted, colours are left out. -/
def printN (s : Str) : Nat → N32 → Option (List Line)
  | d, .mk t up =>
    if t.b ≤ t.e ∧ t.e ≤ s.length then
      match printL s (d + 1) up with
      | none => none
      | some ls => some ((d, t.kind, (s.drop t.b).take (t.e - t.b)) :: ls)
    else none
/-- The loop over `next`. -/
def printL (s : Str) : Nat → List N32 → Option (List Line)
  | _, [] => some []
  | d, n :: ns =>
    match printN s d n, printL s d ns with
    | some a, some b => some (a ++ b)
    | _, _ => none
end

/-- `PrintSyntaxTree`, `WriteSyntaxTree`, /repo/miniquery/miniquery.peg.go:237-247, 342-358 for the tokens `toks` and the query `s`; printing nil
prints nothing. -/
def printTree (s : Str) (toks : List Tok) : Option (List Line) :=
  match ast toks with
  | none => some []
  | some n => printN s 0 n

/-- What `p.Parse()` leaves behind: on success the trimmed tokens (`Tokens()`), on a syntax error the reported token and the untrimmed token array;
in both cases the array that the closure keeps for the next run. -/
inductive PegOut where
  | ok (toks : List Tok) (tree : List Tok)
  | err (max : Tok) (tree : List Tok)
  | panic
  | div
  deriving Repr, DecidableEq

/-- `p.Buffer = s; p.Reset(); p.Parse()`, /repo/miniquery/miniquery.peg.go:461-487, of a parser whose token array holds `tree0` from earlier
runs (empty after `Init`).  Reset clears `max`, `position`, `tokenIndex` but keeps the array. -/
def pegParse (s : Str) (tree0 : List Tok) : PegOut :=
  match execN (mkBuf s) G (depthBound s.length) .Grammar { initSt with tree := tree0 } with
  | .div => .div
  | .panic => .panic
  | .fail st => .err st.max st.tree
  | .ok st => if st.tree.length < st.ti then .panic else .ok (st.tree.take st.ti) st.tree

/-- What a parser object keeps from one query to the next: the token array and the embedded `Tree`. -/
structure Peg where
  toks : List Tok := []
  tree : Tree := {}

/-- One query on an existing parser object: Buffer, Reset, Parse, Execute, Errors, Pop, as in /repo/miniquery/parse.go:3-16 except for the
creation of the object. -/
def Peg.query (p : Peg) (s : Str) : ParseRes × Peg :=
  match pegParse s p.toks with
  | .div => (.div, p)
  | .panic => (.panic, p)
  | .err m tr => (.err (.syntax m.b m.e), { p with toks := tr })
  | .ok toks tr =>
    if ∀ t ∈ toks, t.b ≤ t.e ∧ t.e ≤ s.length then
      match runEvs [] (toks.filterMap (evOf s)) p.tree with
      | none => (.panic, { p with toks := tr })
      | some t =>
        match t.errors with
        | e :: _ => (.err e, { toks := tr, tree := t })
        | [] => (.ok t.pop.1, { toks := tr, tree := t.pop.2 })
    else (.panic, { p with toks := tr })

end Verif

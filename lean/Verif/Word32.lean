import Verif.Parse

/-!
# The recogniser with 32-bit counters

`position`, `tokenIndex` and the positions of tokens are `uint32` in the generated code (/repo/miniquery/miniquery.peg.go:153-156, 452): counting wraps
around at 2^32.  `Peg.exec` counts without bound.  Here is the same code with the increment as
a parameter.
-/

namespace Verif

/-- `x++` for a `uint32`. -/
def inc32 (x : Nat) : Nat := (x + 1) % 4294967296

/-- `tokens32.Add` and the closure `add` with counters increased by `inc`: /repo/miniquery/miniquery.peg.go:249-256, 489-495. -/
def addTok32 (inc : Nat → Nat) (k : TokKind) (begin : Nat) (st : St) : St :=
  let tok : Tok := ⟨k, begin, st.pos⟩
  { st with
    tree := if st.ti ≥ st.tree.length then st.tree ++ [tok] else st.tree.set st.ti tok
    ti := inc st.ti
    max := if begin ≠ st.pos ∧ st.pos > st.max.e then tok else st.max }

/-- The code compiled from each expression form with counters increased by `inc`; the lines are those cited at `exec`. -/
def exec32 (inc : Nat → Nat) (buf : List Nat) (env : Rule → St → Out) : PExp → St → Out
  | .eps, st => .ok st
  | .any, st =>
    match buf[st.pos]? with
    | none => .panic
    | some x => if x ≠ endSymbol then .ok { st with pos := inc st.pos } else .fail st
  | .chr c, st =>
    match buf[st.pos]? with
    | none => .panic
    | some x => if x ≠ c.toNat then .fail st else .ok { st with pos := inc st.pos }
  | .rng lo hi, st =>
    match buf[st.pos]? with
    | none => .panic
    | some x => if x < lo.toNat ∨ x > hi.toNat then .fail st else .ok { st with pos := inc st.pos }
  | .seq a b, st =>
    match exec32 inc buf env a st with
    | .ok st' => exec32 inc buf env b st'
    | .fail st' => .fail st'
    | .panic => .panic
    | .div => .div
  | .alt a b, st =>
    match exec32 inc buf env a st with
    | .ok st' => .ok st'
    | .fail st' => exec32 inc buf env b { st' with pos := st.pos, ti := st.ti }
    | .panic => .panic
    | .div => .div
  | .star a, st => execStar (exec32 inc buf env a) (buf.length - st.pos) st
  | .opt a, st =>
    match exec32 inc buf env a st with
    | .ok st' => .ok st'
    | .fail st' => .ok { st' with pos := st.pos, ti := st.ti }
    | .panic => .panic
    | .div => .div
  | .notP a, st =>
    match exec32 inc buf env a st with
    | .ok st' => .fail st'
    | .fail st' => .ok { st' with pos := st.pos, ti := st.ti }
    | .panic => .panic
    | .div => .div
  | .call r, st => env r st
  | .txt a, st =>
    match exec32 inc buf env a st with
    | .ok st' => .ok (addTok32 inc .text st.pos st')
    | .fail st' => .fail st'
    | .panic => .panic
    | .div => .div
  | .act n, st => .ok (addTok32 inc (.act n) st.pos st)
  | .sw cs a b, st =>
    match buf[st.pos]? with
    | none => .panic
    | some x => if x ∈ cs.map Char.toNat then exec32 inc buf env a st else exec32 inc buf env b st

/-- The rule functions with counters increased by `inc`, cited at `execN`. -/
def execN32 (inc : Nat → Nat) (buf : List Nat) (G : Rule → PExp) : Nat → Rule → St → Out
  | 0, _, _ => .div
  | n + 1, r, st =>
    match exec32 inc buf (execN32 inc buf G n) (G r) st with
    | .ok st' => .ok (addTok32 inc (.rule r) st.pos st')
    | .fail st' => .fail { st' with pos := st.pos, ti := st.ti }
    | .panic => .panic
    | .div => .div

/-- `Parse` with 32-bit counters: /repo/miniquery/parse.go:3-16, with `p.Parse` (/repo/miniquery/miniquery.peg.go:475-487). -/
def parse32 (s : Str) : ParseRes :=
  match execN32 inc32 (mkBuf s) G (depthBound s.length) .Grammar initSt with
  | .div => .div
  | .panic => .panic
  | .fail st => .err (.syntax st.max.b st.max.e)
  | .ok st =>
    if st.tree.length < st.ti then .panic
    else
      match execute s (st.tree.take st.ti) with
      | none => .panic
      | some t =>
        match t.errors with
        | e :: _ => .err e
        | [] => .ok t.pop.1

end Verif

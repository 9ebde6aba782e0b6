import Verif.Parse

/-! # Printing of syntax errors (/repo/miniquery/miniquery.peg.go:282-340) -/

namespace Verif

/-- A map from positions to (line, symbol): `textPositionMap`, /repo/miniquery/miniquery.peg.go:282-286. -/
abbrev PosMap := List (Nat × (Nat × Nat))

/-- The loop of `translatePositions`, /repo/miniquery/miniquery.peg.go:292-308: rest of the buffer, index `i`, `line`, `symbol`, the positions
from `j` on, the map so far.  `none` is the index panic of `positions[j]`. -/
def trLoop : List Nat → Nat → Nat → Nat → List Nat → PosMap → Option PosMap
  | [], _, _, _, _, m => some m
  | c :: buf, i, line, sym, ps, m =>
    let line' := if c = 10 then line + 1 else line
    let sym' := if c = 10 then 0 else sym + 1
    match ps with
    | [] => none
    | p :: ps =>
      if i = p then
        match ps.dropWhile (· == i) with
        | [] => some ((p, (line', sym')) :: m)
        | q :: qs => trLoop buf (i + 1) line' sym' (q :: qs) ((p, (line', sym')) :: m)
      else trLoop buf (i + 1) line' sym' (p :: ps) m

/-- `translatePositions`, /repo/miniquery/miniquery.peg.go:288-311, for two positions (the only call, line 325, passes begin and end). -/
def translatePositions (buf : List Nat) (b e : Nat) : Option PosMap :=
  trLoop buf 0 1 0 (if b ≤ e then [b, e] else [e, b]) []

/-- Lookup with Go's zero value. -/
def PosMap.get (m : PosMap) (p : Nat) : Nat × Nat := match m.lookup p with | some v => v | none => (0, 0)

/-- What `parseError.Error` prints (/repo/miniquery/miniquery.peg.go:318-340): line and symbol of both ends and the text between; `none` is a
panic (slice out of range).  Simplification: the fixed words and the rule name around them are left out; the text is not quoted. -/
def errorReport (s : Str) (b e : Nat) : Option ((Nat × Nat) × (Nat × Nat) × List Nat) :=
  match translatePositions (mkBuf s) b e with
  | none => none
  | some m => if b ≤ e ∧ e ≤ (mkBuf s).length then some (m.get b, m.get e, ((mkBuf s).drop b).take (e - b)) else none

end Verif

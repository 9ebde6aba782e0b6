import Verif.Spec.PegFile

/-!
# The statements of the generated recogniser

The rule functions of /repo/miniquery/miniquery.peg.go:521-3371 are written in a handful of statement forms.  This module gives these forms an abstract
syntax, a notation that reads the Go text, and a meaning as steps of a machine.  The text itself is in `GoCode`.
-/

namespace Verif.Go

/-- The simple statements.
Of the names `positionN`, `tokenIndexN`, `lN` only the number is kept; the argument of `rune` is a Go character literal. -/
inductive Op where
  /-- `positionN, tokenIndexN := position, tokenIndex`, e.g. /repo/miniquery/miniquery.peg.go:525 -/
  | save (n : Nat)
  /-- `positionN := position`, e.g. line 527 -/
  | mark (n : Nat)
  /-- `position, tokenIndex = positionN, tokenIndexN`, e.g. line 544 -/
  | restore (n : Nat)
  /-- `if !_rules[r]() { goto l }`, e.g. lines 528-530 -/
  | call (r : TokKind) (l : Nat)
  /-- `if buffer[position] != rune('c') { goto l }`, e.g. lines 611-613 -/
  | chr (c : Char) (l : Nat)
  /-- `if c := buffer[position]; c < rune('a') || c > rune('z') { goto l }`, e.g. lines 1422-1424 -/
  | rng (lo hi : Char) (l : Nat)
  /-- `if !matchDot() { goto l }`, e.g. lines 3135-3137 -/
  | dot (l : Nat)
  /-- `position++`, e.g. line 614 -/
  | inc
  /-- `goto l`, e.g. line 581 -/
  | goto (l : Nat)
  /-- `l:`, e.g. line 543 -/
  | label (l : Nat)
  /-- `add(r, positionN)`, e.g. line 540 -/
  | add (r : TokKind) (n : Nat)
  /-- `add(r, position)`, e.g. line 3153 -/
  | addHere (r : TokKind)
  /-- `return true`, `return false`, e.g. lines 542, 545 -/
  | ret (b : Bool)
  /-- `break`, which leaves the `switch`, e.g. line 1700 -/
  | brk
  deriving DecidableEq, Repr

/-- Statement lists.  `alts` of a `switch` is a chain of `case`s that ends in `dflt`; a `switch` is e.g. /repo/miniquery/miniquery.peg.go:1439-1460. -/
inductive Code where
  | done
  | op (i : Op) (k : Code)
  | block (b k : Code)
  | switch (alts k : Code)
  | case (cs : List Char) (b rest : Code)
  | dflt (b : Code)
  deriving DecidableEq, Repr

end Verif.Go

/-! ## Notation for Go text

Its keywords are known only where the namespace `Verif.GoText` is open. -/

namespace Verif.GoText

open Verif.Go

declare_syntax_cat gostm
declare_syntax_cat gocase
scoped syntax ident ", " ident " := " ident ", " ident : gostm
scoped syntax ident " := " ident : gostm
scoped syntax ident ", " ident " = " ident ", " ident : gostm
scoped syntax "if " "!" ident "[" ident "]" "(" ")" "{" "goto " ident "}" : gostm
scoped syntax "if " "!" ident "(" ")" "{" "goto " ident "}" : gostm
scoped syntax "if " ident "[" ident "]" " != " ident "(" char ")" "{" "goto " ident "}" : gostm
scoped syntax "if " ident " := " ident "[" ident "]" "; " ident " < " ident "(" char ")" " || " ident " > " ident "(" char ")" "{" "goto " ident "}" : gostm
scoped syntax ident "++" : gostm
scoped syntax "goto " ident : gostm
scoped syntax ident ":" : gostm
scoped syntax ident "(" ident ", " ident ")" : gostm
scoped syntax "return " ident : gostm
scoped syntax "break" : gostm
scoped syntax "{" gostm* "}" : gostm
scoped syntax "switch " ident "[" ident "]" "{" gocase* "}" : gostm
scoped syntax "case " char,+ ":" gostm* : gocase
scoped syntax "default" ":" gostm* : gocase
scoped syntax (name := gofunc) "func" "(" ")" ident "{" gostm* "}" : term
scoped syntax (name := gostms) "gostms% " gostm* : term
scoped syntax (name := gocases) "gocases% " gocase* : term

open Lean in
/-- The number of a numbered Go name with this prefix. -/
def numOf (pre : String) (x : TSyntax `ident) : MacroM (TSyntax `num) := do
  let s := x.getId.toString (escape := false)
  unless s.startsWith pre do Macro.throwErrorAt x s!"expected {pre}"
  match (s.drop pre.length).toNat? with
  | some n => return quote n
  | none => Macro.throwErrorAt x s!"expected {pre} with a number"

open Lean in
/-- Demands that a Go name is the given one. -/
def isName (s : String) (x : TSyntax `ident) : MacroM Unit := do
  unless x.getId.toString (escape := false) == s do Macro.throwErrorAt x s!"expected {s}"

open Lean in
/-- The constant `ruleX` as a kind of token. -/
def ruleOf (x : TSyntax `ident) : MacroM (TSyntax `term) := do
  let s := x.getId.toString (escape := false)
  unless s.startsWith "rule" do Macro.throwErrorAt x "expected a rule"
  let r := (s.drop 4).toString
  if r == "PegText" then `(TokKind.text)
  else if r == "_" then `(TokKind.rule Rule.sp)
  else if r == "__" then `(TokKind.rule Rule.sp1)
  else if r.startsWith "Action" then
    match (r.drop 6).toNat? with
    | some n => `(TokKind.act $(quote n))
    | none => Macro.throwErrorAt x "expected an action"
  else `(TokKind.rule $(mkIdent (`Verif.Rule ++ .mkSimple r)))

open Lean in
macro_rules
  | `(gostms% ) => `(Code.done)
  | `(gostms% $a:ident, $b:ident := $c:ident, $d:ident $ss:gostm*) => do
    let n ← numOf "position" a
    let m ← numOf "tokenIndex" b
    unless n.getNat == m.getNat do Macro.throwErrorAt b "other number"
    isName "position" c; isName "tokenIndex" d
    `(Code.op (.save $n) (gostms% $ss:gostm*))
  | `(gostms% $a:ident := $c:ident $ss:gostm*) => do
    let n ← numOf "position" a
    isName "position" c
    `(Code.op (.mark $n) (gostms% $ss:gostm*))
  | `(gostms% $c:ident, $d:ident = $a:ident, $b:ident $ss:gostm*) => do
    let n ← numOf "position" a
    let m ← numOf "tokenIndex" b
    unless n.getNat == m.getNat do Macro.throwErrorAt b "other number"
    isName "position" c; isName "tokenIndex" d
    `(Code.op (.restore $n) (gostms% $ss:gostm*))
  | `(gostms% if !$f:ident[$r:ident]() { goto $l:ident } $ss:gostm*) => do
    isName "_rules" f
    `(Code.op (.call $(← ruleOf r) $(← numOf "l" l)) (gostms% $ss:gostm*))
  | `(gostms% if !$f:ident() { goto $l:ident } $ss:gostm*) => do
    isName "matchDot" f
    `(Code.op (.dot $(← numOf "l" l)) (gostms% $ss:gostm*))
  | `(gostms% if $b:ident[$p:ident] != $r:ident($c:char) { goto $l:ident } $ss:gostm*) => do
    isName "buffer" b; isName "position" p; isName "rune" r
    `(Code.op (.chr $c $(← numOf "l" l)) (gostms% $ss:gostm*))
  | `(gostms% if $x:ident := $b:ident[$p:ident]; $y:ident < $r:ident($c:char) || $z:ident > $q:ident($d:char) { goto $l:ident } $ss:gostm*) => do
    isName "buffer" b; isName "position" p; isName "rune" r; isName "rune" q; isName "c" x; isName "c" y; isName "c" z
    `(Code.op (.rng $c $d $(← numOf "l" l)) (gostms% $ss:gostm*))
  | `(gostms% $p:ident++ $ss:gostm*) => do
    isName "position" p
    `(Code.op .inc (gostms% $ss:gostm*))
  | `(gostms% goto $l:ident $ss:gostm*) => do `(Code.op (.goto $(← numOf "l" l)) (gostms% $ss:gostm*))
  | `(gostms% $l:ident: $ss:gostm*) => do `(Code.op (.label $(← numOf "l" l)) (gostms% $ss:gostm*))
  | `(gostms% $f:ident($r:ident, $p:ident) $ss:gostm*) => do
    isName "add" f
    if p.getId == `position then `(Code.op (.addHere $(← ruleOf r)) (gostms% $ss:gostm*))
    else `(Code.op (.add $(← ruleOf r) $(← numOf "position" p)) (gostms% $ss:gostm*))
  | `(gostms% return $b:ident $ss:gostm*) => do
    if b.getId == `true then `(Code.op (.ret true) (gostms% $ss:gostm*))
    else
      isName "false" b
      `(Code.op (.ret false) (gostms% $ss:gostm*))
  | `(gostms% break $ss:gostm*) => `(Code.op .brk (gostms% $ss:gostm*))
  | `(gostms% { $bs:gostm* } $ss:gostm*) => `(Code.block (gostms% $bs:gostm*) (gostms% $ss:gostm*))
  | `(gostms% switch $b:ident[$p:ident] { $cs:gocase* } $ss:gostm*) => do
    isName "buffer" b; isName "position" p
    `(Code.switch (gocases% $cs:gocase*) (gostms% $ss:gostm*))

open Lean in
macro_rules
  | `(gocases% case $cs:char,* : $bs:gostm* $ds:gocase*) => do
    let cs' : Array Term := cs.getElems.map fun c => ⟨c.raw⟩
    `(Code.case [$cs',*] (gostms% $bs:gostm*) (gocases% $ds:gocase*))
  | `(gocases% default: $bs:gostm*) => `(Code.dflt (gostms% $bs:gostm*))

open Lean in
macro_rules
  | `(func() $b:ident { $ss:gostm* }) => do
    isName "bool" b
    `(gostms% $ss:gostm*)

declare_syntax_cat goexec
scoped syntax "case " ident ":" ident "(" (ident)? ")" : goexec
scoped syntax "goexecs% " goexec* : term

open Lean in
/-- One case of the loop of `Execute`: the action, the called method, and whether `text` is passed. -/
def execCase : TSyntax `goexec → MacroM Term
  | `(goexec| case $r:ident: $f:ident()) => do
    let m ← methName f
    `(($(← ruleOf r), $m, false))
  | `(goexec| case $r:ident: $f:ident($x:ident)) => do
    isName "text" x
    let m ← methName f
    `(($(← ruleOf r), $m, true))
  | _ => Macro.throwUnsupported
where
  methName (f : TSyntax `ident) : MacroM Term := do
    match f.getId with
    | .str (.str .anonymous "p") m => return mkIdent (`Verif.Meth ++ .mkSimple m)
    | _ => Macro.throwErrorAt f "expected a method of p"

open Lean in
macro_rules
  | `(goexecs% $cs:goexec*) => do
    let ts : Array Term ← cs.mapM execCase
    `([$ts,*])

end Verif.GoText



/-!
Text is modelled as a list of Unicode scalar values.  The recogniser of the repository works on
`[]rune(Buffer)` (/repo/miniquery/miniquery.peg.go:465), so a Go string is identified with its decoded runes;
the UTF-8 decoding itself (invalid bytes become U+FFFD) is outside the model.
-/

namespace Verif

/-- A Go string, seen as its sequence of runes. -/
abbrev Str := List Char

open Lean in
/-- `c!"abc"` is the literal list `['a', 'b', 'c']`. -/
macro:max "c!" s:str : term => do
  let nil ← `(([] : List Char))
  s.getString.toList.foldrM (fun c (acc : TSyntax `term) => `(List.cons $(Syntax.mkCharLit c) $acc)) nil

/-- Turn text into a Lean string, for display only. -/
def Str.show (s : Str) : String := String.ofList s

end Verif

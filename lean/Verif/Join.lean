import Verif.Parse

/-! # Join (/repo/miniquery/join.go) -/

namespace Verif

/-- One iteration of the loop of `Join`, /repo/miniquery/join.go:13-23; the first argument is the content of `sb`. -/
def joinStep (sb v : Str) : Str :=
  if goTrim v = [] then sb
  else (if sb.length ≠ 0 then sb ++ c!" and " else sb) ++ c!"(" ++ v ++ c!")"

/-- `Join`: /repo/miniquery/join.go:5-25 -/
def join : List Str → Str
  | [] => []
  | [s] => s
  | ss => ss.foldl joinStep []

end Verif

import Verif.Parse

/-! # Parsing on a stack of limited size -/

namespace Verif

/-- `Parse` (/repo/miniquery/parse.go:3-16) on a stack that has room for `d` nested calls of rule functions; `.div` is a stack overflow, which ends a
Go program.  Simplification: all calls of rule functions take the same room; what `Execute` and the methods of `Tree` call is not counted, they do not
call each other recursively. -/
def parseDeep (d : Nat) (s : Str) : ParseRes :=
  match execN (mkBuf s) G d .Grammar initSt with
  | .div => .div
  | .panic => .panic
  | .fail st => .err (.syntax st.max.b st.max.e)
  | .ok st =>
    if st.tree.length < st.ti then .panic
    else
      match execute s (st.tree.take st.ti) with
      | none => .panic
      | some t =>
        match t.errors with
        | e :: _ => .err e
        | [] => .ok t.pop.1

end Verif

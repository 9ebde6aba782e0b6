import Verif.Spec.Lang
import Verif.Build

/-! # Specification: the Go value written by a literal -/

namespace Verif

/-- The literal `u` of a query denotes the Go value `v`. -/
inductive Written : Str → GoVal → Prop where
  | int {k : Nat} : k ≤ maxInt → Written (Nat.toDigits 10 k) (.int k)
  | tru {u} : u = c!"true" ∨ u = c!"TRUE" → Written u (.bool true)
  | fls {u} : u = c!"false" ∨ u = c!"FALSE" → Written u (.bool false)
  | null {u} : u = c!"null" ∨ u = c!"NULL" → Written u .nil
  | str {q s} : q = '\'' ∨ q = '"' → q ∉ s → Written (q :: (s ++ [q])) (.str s)

/-- Literals separated by commas, with blanks and comments around the commas, denote a list of values. -/
inductive WrittenList : Str → List GoVal → Prop where
  | one {u v} : Written u v → WrittenList u [v]
  | more {u vs w1 w2 t v} : WrittenList u vs → WS w1 → WS w2 → Written t v → WrittenList (u ++ (w1 ++ ',' :: (w2 ++ t))) (vs ++ [v])

end Verif

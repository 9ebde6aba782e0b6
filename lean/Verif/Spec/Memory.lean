import Verif.Heap

/-! # Specification: how much memory trees take -/

namespace Verif

/-- What is assumed of `append`: when it moves a full slice it makes it longer by a quarter at least, and at most about three times as long.  Go's
run time doubles short slices and adds a quarter and 192 to long ones, and then rounds up. -/
def Growth (grow : Nat → Nat) : Prop := ∀ n, n ≤ 4 * (grow n + 1) ∧ grow n ≤ 2 * n + 8

/-- Go's rule, before rounding. -/
def goGrow (n : Nat) : Nat := if n < 256 then n - 1 else (n + 768) / 4 - 1

/-- The characters of the texts that were made for a node.  The name of a call is the text of the identifier's node. -/
def Cell.letters (c : Cell) : Nat :=
  match c.type with
  | .function => 0
  | _ => c.str.length + c.operation.length + c.name.length

/-- The nodes in memory, the texts that references refer to, and the places of all arrays, used or not. -/
def Mem.words (m : Mem) : Nat := m.cells.length + (m.cells.map fun c => c.names.length).sum + (m.arrays.map List.length).sum

/-- The characters in memory. -/
def Mem.letters (m : Mem) : Nat := (m.cells.map Cell.letters).sum

end Verif

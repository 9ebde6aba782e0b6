import Verif.Heap
import Verif.Spec.Leaves

/-! # Specification: what a pointer stands for -/

namespace Verif

/-- A part of memory: a node or an array. -/
inductive Block where
  | cell (i : Nat)
  | arr (i : Nat)
  deriving DecidableEq, Repr

/-- `p` points to the node `c`. -/
def Mem.At (m : Mem) (p : Ptr) (i : Nat) (c : Cell) : Prop := p = some i ∧ m.cells[i]? = some c

mutual
/-- Reading memory from the pointer `p` on gives the tree, and the nodes and arrays read on the way are those of the list, each as often as it is met.
The fields that a node of a type does not use are zero. -/
def Den (m : Mem) : Node → Ptr → List Block → Prop
  | .nil, p, F => p = none ∧ F = []
  | .int k, p, F => ∃ i, m.At p i { type := .value, valueType := .int, int := k } ∧ F = [.cell i]
  | .bool b, p, F => ∃ i, m.At p i { type := .value, valueType := .bool, bool := b } ∧ F = [.cell i]
  | .str s, p, F => ∃ i, m.At p i { type := .value, valueType := .string, str := s } ∧ F = [.cell i]
  | .null, p, F => ∃ i, m.At p i { type := .value, valueType := .null } ∧ F = [.cell i]
  | .arr l, p, F => ∃ i s G, m.At p i { type := .value, valueType := .array, array := s } ∧ s.arr < m.arrays.length ∧ DenL m l (m.read s) G ∧
      F = .cell i :: .arr s.arr :: G
  | .op o, p, F => ∃ i, m.At p i { type := .operation, operation := o } ∧ F = [.cell i]
  | .ident x, p, F => ∃ i, m.At p i { type := .identifier, name := x } ∧ F = [.cell i]
  | .ref l, p, F => ∃ i, m.At p i { type := .reference, names := l } ∧ F = [.cell i]
  | .pred l o, p, F => ∃ i pl po G H, m.At p i { type := .predicates, left := pl, op := po } ∧ Den m l pl G ∧ Den m o po H ∧ F = .cell i :: (G ++ H)
  | .cmp l o r, p, F => ∃ i pl po pr G H K, m.At p i { type := .compare, left := pl, op := po, right := pr } ∧
      Den m l pl G ∧ Den m o po H ∧ Den m r pr K ∧ F = .cell i :: (G ++ H ++ K)
  | .logic l o r, p, F => ∃ i pl po pr G H K, m.At p i { type := .logic, left := pl, op := po, right := pr } ∧
      Den m l pl G ∧ Den m o po H ∧ Den m r pr K ∧ F = .cell i :: (G ++ H ++ K)
  | .paren e, p, F => ∃ i pe G, m.At p i { type := .parentheses, expression := pe } ∧ Den m e pe G ∧ F = .cell i :: G
  | .not e, p, F => ∃ i pe G, m.At p i { type := .not, expression := pe } ∧ Den m e pe G ∧ F = .cell i :: G
  | .between l o a b, p, F => ∃ i pl po s x y G H K L, m.At p i { type := .between, left := pl, op := po, params := s } ∧
      Den m l pl G ∧ Den m o po H ∧ s.arr < m.arrays.length ∧ m.read s = [x, y] ∧ Den m a x K ∧ Den m b y L ∧
      F = .cell i :: .arr s.arr :: (G ++ H ++ K ++ L)
  | .func f l, p, F => ∃ i s G, m.At p i { type := .function, name := f, params := s } ∧ s.arr < m.arrays.length ∧ DenL m l (m.read s) G ∧
      F = .cell i :: .arr s.arr :: G
/-- The same for a list. -/
def DenL (m : Mem) : List Node → List Ptr → List Block → Prop
  | [], ps, F => ps = [] ∧ F = []
  | n :: ns, ps, F => ∃ p qs G H, ps = p :: qs ∧ Den m n p G ∧ DenL m ns qs H ∧ F = G ++ H
end

/-- Memory has the same content there. -/
def Mem.Same (m m' : Mem) : Block → Prop
  | .cell i => m'.cells[i]? = m.cells[i]?
  | .arr i => m'.arrays[i]? = m.arrays[i]?

/-- There is such a node or array. -/
def Mem.Has (m : Mem) : Block → Prop
  | .cell i => i < m.cells.length
  | .arr i => i < m.arrays.length

/-- Answers in memory stand for answers by value: a pointer for its tree, everything else for itself. -/
def Answers (m : Mem) : List ParseRes → List HRes → List Block → Prop
  | [], hs, F => hs = [] ∧ F = []
  | .ok n :: l, hs, F => ∃ p hl G H, hs = .ok p :: hl ∧ Den m n p G ∧ Answers m l hl H ∧ F = G ++ H
  | .err e :: l, hs, F => ∃ hl, hs = .err e :: hl ∧ Answers m l hl F
  | .panic :: l, hs, F => ∃ hl, hs = .panic :: hl ∧ Answers m l hl F
  | .div :: l, hs, F => ∃ hl, hs = .div :: hl ∧ Answers m l hl F

mutual
/-- The tree without the texts of its identifiers. -/
def noIdent : Node → Node
  | .ident _ => .ident []
  | .arr l => .arr (noIdentL l)
  | .func f l => .func f (noIdentL l)
  | .pred l o => .pred (noIdent l) (noIdent o)
  | .cmp l o r => .cmp (noIdent l) (noIdent o) (noIdent r)
  | .logic l o r => .logic (noIdent l) (noIdent o) (noIdent r)
  | .paren e => .paren (noIdent e)
  | .not e => .not (noIdent e)
  | .between l o a b => .between (noIdent l) (noIdent o) (noIdent a) (noIdent b)
  | n => n
/-- The same for a list. -/
def noIdentL : List Node → List Node
  | [] => []
  | n :: ns => noIdent n :: noIdentL ns
end

/-- `n'` is `n` with one identifier `x` replaced by `y`. -/
def Renamed (x y : Str) (n n' : Node) : Prop :=
  noIdent n' = noIdent n ∧ ∃ a b, atoms n = a ++ .ident x :: b ∧ atoms n' = a ++ .ident y :: b

/-- The same for lists. -/
def RenamedL (x y : Str) (ns ns' : List Node) : Prop :=
  noIdentL ns' = noIdentL ns ∧ ∃ a b, atomsL ns = a ++ .ident x :: b ∧ atomsL ns' = a ++ .ident y :: b

end Verif

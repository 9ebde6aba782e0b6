import Verif.Spec.Lang

/-! # Specification: the names occurring in a tree -/

namespace Verif

mutual
/-- The names with which columns, relations and functions of a tree begin. -/
def heads : Node → List Str
  | .ident x => [x]
  | .ref l => l.take 1
  | .func f ps => f :: headsL ps
  | .arr l => headsL l
  | .pred l o => heads l ++ heads o
  | .cmp l o r => heads l ++ heads o ++ heads r
  | .logic l o r => heads l ++ heads o ++ heads r
  | .paren e => heads e
  | .not e => heads e
  | .between l o a b => heads l ++ heads o ++ heads a ++ heads b
  | _ => []
/-- The same for a list of trees. -/
def headsL : List Node → List Str
  | [] => []
  | n :: ns => heads n ++ headsL ns
end

theorem headsL_append (a b : List Node) : headsL (a ++ b) = headsL a ++ headsL b := by
  induction a with
  | nil => rfl
  | cons n a ih => simp [headsL, ih]

mutual
/-- All names of a tree in reading order. -/
def names : Node → List Str
  | .ident x => [x]
  | .ref l => l
  | .func f ps => f :: namesL ps
  | .arr l => namesL l
  | .pred l o => names l ++ names o
  | .cmp l o r => names l ++ names o ++ names r
  | .logic l o r => names l ++ names o ++ names r
  | .paren e => names e
  | .not e => names e
  | .between l o a b => names l ++ names o ++ names a ++ names b
  | _ => []
/-- The same for a list of trees. -/
def namesL : List Node → List Str
  | [] => []
  | n :: ns => names n ++ namesL ns
end

theorem namesL_append (a b : List Node) : namesL (a ++ b) = namesL a ++ namesL b := by
  induction a with
  | nil => rfl
  | cons n a ih => simp [namesL, ih]

/-- Text that is not a name: blanks and comments, literals, operator words, punctuation. -/
inductive Gap : Str → Prop where
  | ws {u} : WS u → Gap u
  | lit {u n} : Lit u n → Gap u
  | word {w u} : w ∈ [c!"and", c!"or", c!"not", c!"in", c!"like", c!"gt", c!"lt", c!"gte", c!"lte", c!"eq", c!"neq", c!"is", c!"null", c!"true",
      c!"false", c!"between", c!"isnull", c!"notnull"] → CI w u → Gap u
  | punct {c} : c ∈ c!"()[],.<>=!&|" → Gap [c]

/-- `Weave s xs`: the text `s` consists of the names `xs`, in this order, and of text that is not a name. -/
inductive Weave : Str → List Str → Prop where
  | nil : Weave [] []
  | gap {g s xs} : Gap g → Weave s xs → Weave (g ++ s) xs
  | name {x s xs} : IdText x → Weave s xs → Weave (x ++ s) (x :: xs)

end Verif

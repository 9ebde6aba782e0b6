import Verif.Spec.Lang

/-! # Specification: queries with the same layout up to blanks and comments -/

namespace Verif

/-- Blanks without comments, at least one. -/
def BlankRun (w : Str) : Prop := w ≠ [] ∧ ∀ c ∈ w, c ∈ blanks

/-- Blanks and comments, at least one. -/
def WS1 (w : Str) : Prop := w ≠ [] ∧ WS w

/-- Separators that differ in blanks only: both are blanks without comments, or they are equal. -/
def BlankSep (w w' : Str) : Prop := (BlankRun w ∧ BlankRun w') ∨ (WS1 w ∧ w = w')

/-- Any two separators. -/
def Seps (w w' : Str) : Prop := WS1 w ∧ WS1 w'

/-- `Layout B s s'`: the two texts consist of the same characters and strings, separated at the same places by separators related by `B`.  The
strings can be in either kind of quotes.  A `-` or `/` of the text itself must not be followed by the same character, it would start a comment. -/
inductive Layout (B : Str → Str → Prop) : Str → Str → Prop where
  | nil : Layout B [] []
  | char {c s s'} : c ∉ blanks → c ≠ '\'' → c ≠ '"' → (c = '-' ∨ c = '/' → s.head? ≠ some c ∧ s'.head? ≠ some c) → Layout B s s' →
      Layout B (c :: s) (c :: s')
  | quoted {q q' b s s'} : q = '\'' ∨ q = '"' → q' = '\'' ∨ q' = '"' → q ∉ b → q' ∉ b → Layout B s s' →
      Layout B (q :: (b ++ q :: s)) (q' :: (b ++ q' :: s'))
  | sep {w w' s s'} : B w w' → Layout B s s' → Layout B (w ++ s) (w' ++ s')

/-- The same for the text of an operator: equal except for the separators between its words. -/
inductive Respaced (B : Str → Str → Prop) : Str → Str → Prop where
  | nil : Respaced B [] []
  | char {c s s'} : Respaced B s s' → Respaced B (c :: s) (c :: s')
  | sep {w w' s s'} : B w w' → Respaced B s s' → Respaced B (w ++ s) (w' ++ s')

mutual
/-- Trees that are equal except for the names of operators, which are related by `R`. -/
inductive SameOps (R : Str → Str → Prop) : Node → Node → Prop where
  | nil : SameOps R .nil .nil
  | op {o o'} : R o o' → SameOps R (.op o) (.op o')
  | int {i} : SameOps R (.int i) (.int i)
  | bool {a} : SameOps R (.bool a) (.bool a)
  | str {s} : SameOps R (.str s) (.str s)
  | null : SameOps R .null .null
  | arr {l l'} : SameOpsL R l l' → SameOps R (.arr l) (.arr l')
  | ident {x} : SameOps R (.ident x) (.ident x)
  | ref {l} : SameOps R (.ref l) (.ref l)
  | paren {e e'} : SameOps R e e' → SameOps R (.paren e) (.paren e')
  | not {e e'} : SameOps R e e' → SameOps R (.not e) (.not e')
  | func {f l l'} : SameOpsL R l l' → SameOps R (.func f l) (.func f l')
  | between {l l' o o' a a' b b'} : SameOps R l l' → SameOps R o o' → SameOps R a a' → SameOps R b b' → SameOps R (.between l o a b) (.between l' o' a' b')
  | pred {l l' o o'} : SameOps R l l' → SameOps R o o' → SameOps R (.pred l o) (.pred l' o')
  | cmp {l l' o o' r r'} : SameOps R l l' → SameOps R o o' → SameOps R r r' → SameOps R (.cmp l o r) (.cmp l' o' r')
  | logic {l l' o o' r r'} : SameOps R l l' → SameOps R o o' → SameOps R r r' → SameOps R (.logic l o r) (.logic l' o' r')
/-- The same for lists of trees. -/
inductive SameOpsL (R : Str → Str → Prop) : List Node → List Node → Prop where
  | nil : SameOpsL R [] []
  | cons {n m l l'} : SameOps R n m → SameOpsL R l l' → SameOpsL R (n :: l) (m :: l')
end

mutual
/-- The operator names of a tree. -/
def opsOf : Node → List Str
  | .op o => [o]
  | .arr l => opsOfL l
  | .pred l o => opsOf l ++ opsOf o
  | .cmp l o r => opsOf l ++ (opsOf o ++ opsOf r)
  | .logic l o r => opsOf l ++ (opsOf o ++ opsOf r)
  | .paren e => opsOf e
  | .not e => opsOf e
  | .between l o a b => opsOf l ++ (opsOf o ++ (opsOf a ++ opsOf b))
  | .func _ l => opsOfL l
  | _ => []
/-- The same for lists of trees. -/
def opsOfL : List Node → List Str
  | [] => []
  | n :: l => opsOf n ++ opsOfL l
end

/-- No comment stands between the words of an operator. -/
def CommentsOutside (n : Node) : Prop := ∀ o ∈ opsOf n, ¬ c!"--" <:+: o ∧ ¬ c!"//" <:+: o

instance (n : Node) : Decidable (CommentsOutside n) := inferInstanceAs (Decidable (∀ o ∈ opsOf n, _))

end Verif

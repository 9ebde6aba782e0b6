import Verif.Spec.Layout

/-! # Specification: queries that differ in the case of letters only -/

namespace Verif

/-- Equal up to the case of the letters `a` to `z`. -/
def SameLetters (s s' : Str) : Prop := s.map Char.toLower = s'.map Char.toLower

instance (s s' : Str) : Decidable (SameLetters s s') := inferInstanceAs (Decidable (_ = _))

/-- The keywords that are known in the listed spellings only. -/
def fixedWords : List Str :=
  [c!"between", c!"isnull", c!"notnull", c!"is", c!"null", c!"NULL", c!"true", c!"TRUE", c!"false", c!"FALSE"]

/-- The text begins with `is not`. -/
def IsNot (t : Str) : Prop := ∃ w u, WS1 w ∧ t = c!"is" ++ (w ++ (c!"not" ++ u))

/-- The texts have the fixed keywords at the same places, and also `is not`. -/
def FixedKept (s s' : Str) : Prop :=
  ∀ i, (∀ w ∈ fixedWords, w <+: s.drop i ↔ w <+: s'.drop i) ∧ (IsNot (s.drop i) ↔ IsNot (s'.drop i))

/-- The operators that are written as one word and known in any letter case (`gte` and `lte` stand in the grammar, but see C11). -/
def freeWords : List Str :=
  [c!"and", c!"or", c!"not", c!"in", c!"like", c!"eq", c!"neq", c!"gt", c!"lt", c!"gte", c!"lte"]

/-- The text does not go on with a letter, digit or underscore. -/
def WordEnd (s : Str) : Prop := ∀ c t, s = c :: t → ¬ IdTail c

/-- `s'` is `s`, except that words of `freeWords` can be in another letter case.  Words are maximal runs of letters, digits and underscores; words
inside strings and comments are treated in the same way. -/
inductive Recased : Str → Str → Prop where
  | nil : Recased [] []
  | other {c s s'} : ¬ IdTail c → Recased s s' → Recased (c :: s) (c :: s')
  | word {w s s'} : w ≠ [] → (∀ c ∈ w, IdTail c) → WordEnd s → Recased s s' → Recased (w ++ s) (w ++ s')
  | free {w u u' s s'} : w ∈ freeWords → CI w u → CI w u' → WordEnd s → Recased s s' → Recased (u ++ s) (u' ++ s')

/-- `is not` stands at the same places: after `is`, the word `not` must be in small letters. -/
def IsNotKept (s s' : Str) : Prop := ∀ i, IsNot (s.drop i) ↔ IsNot (s'.drop i)

/-- Lists of texts, related one by one. -/
inductive EachText (N : Str → Str → Prop) : List Str → List Str → Prop where
  | nil : EachText N [] []
  | cons {x x' l l'} : N x x' → EachText N l l' → EachText N (x :: l) (x' :: l')

mutual
/-- Trees that are equal except for the names, which are related by `N`, and the string literals, which are related by `S`. -/
inductive SameTexts (N S : Str → Str → Prop) : Node → Node → Prop where
  | nil : SameTexts N S .nil .nil
  | op {o} : SameTexts N S (.op o) (.op o)
  | int {i} : SameTexts N S (.int i) (.int i)
  | bool {a} : SameTexts N S (.bool a) (.bool a)
  | str {s s'} : S s s' → SameTexts N S (.str s) (.str s')
  | null : SameTexts N S .null .null
  | arr {l l'} : SameTextsL N S l l' → SameTexts N S (.arr l) (.arr l')
  | ident {x x'} : N x x' → SameTexts N S (.ident x) (.ident x')
  | ref {l l'} : EachText N l l' → SameTexts N S (.ref l) (.ref l')
  | paren {e e'} : SameTexts N S e e' → SameTexts N S (.paren e) (.paren e')
  | not {e e'} : SameTexts N S e e' → SameTexts N S (.not e) (.not e')
  | func {f f' l l'} : N f f' → SameTextsL N S l l' → SameTexts N S (.func f l) (.func f' l')
  | between {l l' o o' a a' b b'} : SameTexts N S l l' → SameTexts N S o o' → SameTexts N S a a' → SameTexts N S b b' →
      SameTexts N S (.between l o a b) (.between l' o' a' b')
  | pred {l l' o o'} : SameTexts N S l l' → SameTexts N S o o' → SameTexts N S (.pred l o) (.pred l' o')
  | cmp {l l' o o' r r'} : SameTexts N S l l' → SameTexts N S o o' → SameTexts N S r r' → SameTexts N S (.cmp l o r) (.cmp l' o' r')
  | logic {l l' o o' r r'} : SameTexts N S l l' → SameTexts N S o o' → SameTexts N S r r' → SameTexts N S (.logic l o r) (.logic l' o' r')
/-- The same for lists of trees. -/
inductive SameTextsL (N S : Str → Str → Prop) : List Node → List Node → Prop where
  | nil : SameTextsL N S [] []
  | cons {n m l l'} : SameTexts N S n m → SameTextsL N S l l' → SameTextsL N S (n :: l) (m :: l')
end

end Verif

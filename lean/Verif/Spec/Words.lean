import Verif.Parse
import Verif.Spec.Case

/-! # Specification: queries that differ in numbers, names and strings only -/

namespace Verif

/-- What can stand next in a query: an operand, an operator, or (where this is not determined by the text before in a simple way) either. -/
inductive Next where
  | operand | operator | either
  deriving DecidableEq, Repr

/-- The words that are literals. -/
def valueWords : List Str := [c!"true", c!"false", c!"null", c!"TRUE", c!"FALSE", c!"NULL"]

/-- The operators that are words and have an operand to the right. -/
def opWords : List Str := [c!"and", c!"or", c!"in", c!"like", c!"gt", c!"lt", c!"eq", c!"neq", c!"between"]

/-- A name that is read as a name where it stands: it is an identifier that does not begin with a literal word and, unless an operand is expected
there, does not begin with an operator (`order_id` begins with `or`). -/
def NameFits (b : Next) (x : Str) : Prop :=
  IdText x ∧ (∀ k ∈ valueWords, ¬ k <+: x) ∧ (b ≠ .operand → ∀ k ∈ c!"is" :: opWords, ¬ k <+: x.map Char.toLower)

/-- What can stand next after a sign. -/
def afterSign (c : Char) : Next :=
  if c ∈ c!"=<>([,&|." then .operand else if c ∈ c!")]" then .operator else .either

/-- `Refill N I S b s s'`: `s'` is the query text `s`, except that names, numbers and quoted texts are replaced by others; replaced names are related by
`N`, numbers by `I` and the texts between quotes by `S`.  `b`: what can stand at the beginning of the texts. -/
inductive Refill (N : Str → Str → Prop) (I : Nat → Nat → Prop) (S : Str → Str → Prop) : Next → Str → Str → Prop where
  | nil {b} : Refill N I S b [] []
  | blank {b c s s'} : c ∈ blanks → Refill N I S b s s' → Refill N I S b (c :: s) (c :: s')
  | comment {b o t e s s'} : o = c!"--" ∨ o = c!"//" → (∀ c ∈ t, c ≠ '\n' ∧ c ≠ '\r') → e = '\n' ∨ e = '\r' → Refill N I S b s s' →
      Refill N I S b (o ++ (t ++ e :: s)) (o ++ (t ++ e :: s'))
  | sign {b c s s'} : ¬ IdTail c → c ∉ blanks → c ≠ '\'' → c ≠ '"' → (c = '-' ∨ c = '/' → s.head? ≠ some c ∧ s'.head? ≠ some c) →
      Refill N I S (afterSign c) s s' → Refill N I S b (c :: s) (c :: s')
  /-- A quoted text. -/
  | quoted {b q v v' s s'} : q = '\'' ∨ q = '"' → q ∉ v → q ∉ v' → S v v' → Refill N I S .operator s s' →
      Refill N I S b (q :: (v ++ q :: s)) (q :: (v' ++ q :: s'))
  /-- A number. -/
  | number {b k k' s s'} : I k k' → WordEnd s → Refill N I S .operator s s' → Refill N I S b (Nat.toDigits 10 k ++ s) (Nat.toDigits 10 k' ++ s')
  /-- A name. -/
  | name {b x x' s s'} : N x x' → NameFits b x → NameFits b x' → WordEnd s → Refill N I S .operator s s' → Refill N I S b (x ++ s) (x' ++ s')
  /-- A literal word. -/
  | value {b w s s'} : w ∈ valueWords → WordEnd s → Refill N I S .operator s s' → Refill N I S b (w ++ s) (w ++ s')
  /-- An operator. -/
  | op {k w s s'} : k ∈ opWords → CI k w → WordEnd s → Refill N I S .operand s s' → Refill N I S .operator (w ++ s) (w ++ s')
  /-- `not` keeps what is expected: `not x`, `x not in`. -/
  | neg {b w s s'} : CI c!"not" w → WordEnd s → Refill N I S b s s' → Refill N I S b (w ++ s) (w ++ s')
  /-- `is` is followed by `null`, `true` or `false`. -/
  | is {s s'} : WordEnd s → Refill N I S .operator s s' → Refill N I S .operator (c!"is" ++ s) (c!"is" ++ s')
  /-- Any other run of letters, digits and underscores. -/
  | word {b w s s'} : w ≠ [] → (∀ c ∈ w, IdTail c) → WordEnd s → Refill N I S .either s s' → Refill N I S b (w ++ s) (w ++ s')

mutual
/-- Trees that are equal except for the names, the numbers and the strings, which are related by `N`, `I` and `S`. -/
inductive SameTree (N : Str → Str → Prop) (I : Nat → Nat → Prop) (S : Str → Str → Prop) : Node → Node → Prop where
  | nil : SameTree N I S .nil .nil
  | op {o} : SameTree N I S (.op o) (.op o)
  | int {i j : Nat} : I i j → SameTree N I S (.int i) (.int j)
  | bool {a} : SameTree N I S (.bool a) (.bool a)
  | str {s s'} : S s s' → SameTree N I S (.str s) (.str s')
  | null : SameTree N I S .null .null
  | arr {l l'} : SameTreeL N I S l l' → SameTree N I S (.arr l) (.arr l')
  | ident {x x'} : N x x' → SameTree N I S (.ident x) (.ident x')
  | ref {l l'} : EachText N l l' → SameTree N I S (.ref l) (.ref l')
  | paren {e e'} : SameTree N I S e e' → SameTree N I S (.paren e) (.paren e')
  | not {e e'} : SameTree N I S e e' → SameTree N I S (.not e) (.not e')
  | func {f f' l l'} : N f f' → SameTreeL N I S l l' → SameTree N I S (.func f l) (.func f' l')
  | between {l l' o o' a a' b b'} : SameTree N I S l l' → SameTree N I S o o' → SameTree N I S a a' → SameTree N I S b b' →
      SameTree N I S (.between l o a b) (.between l' o' a' b')
  | pred {l l' o o'} : SameTree N I S l l' → SameTree N I S o o' → SameTree N I S (.pred l o) (.pred l' o')
  | cmp {l l' o o' r r'} : SameTree N I S l l' → SameTree N I S o o' → SameTree N I S r r' → SameTree N I S (.cmp l o r) (.cmp l' o' r')
  | logic {l l' o o' r r'} : SameTree N I S l l' → SameTree N I S o o' → SameTree N I S r r' → SameTree N I S (.logic l o r) (.logic l' o' r')
/-- The same for lists of trees. -/
inductive SameTreeL (N : Str → Str → Prop) (I : Nat → Nat → Prop) (S : Str → Str → Prop) : List Node → List Node → Prop where
  | nil : SameTreeL N I S [] []
  | cons {n m l l'} : SameTree N I S n m → SameTreeL N I S l l' → SameTreeL N I S (n :: l) (m :: l')
end

/-- Each relation holds for unchanged texts. -/
structure Kept (N : Str → Str → Prop) (I : Nat → Nat → Prop) (S : Str → Str → Prop) : Prop where
  names : ∀ x, N x x
  ints : ∀ k, I k k
  strs : ∀ x, S x x

/-- Numbers that are replaced by others are in range. -/
def InRange (I : Nat → Nat → Prop) : Prop := ∀ k k', I k k' → k = k' ∨ (k ≤ maxInt ∧ k' ≤ maxInt)

/-- Both trees are the same up to names, numbers and strings, or both texts are rejected with a syntax error (the positions differ), or both with the same
other error. -/
def SameResult (N : Str → Str → Prop) (I : Nat → Nat → Prop) (S : Str → Str → Prop) : ParseRes → ParseRes → Prop
  | .ok n, .ok n' => SameTree N I S n n'
  | .err (.syntax _ _), .err (.syntax _ _) => True
  | .err e, .err e' => e = e'
  | _, _ => False

end Verif

import Verif.Spec.Inert

/-! # Specification: what may stand outside of strings and comments -/

namespace Verif

/-- The characters that stand for themselves outside of strings and comments. -/
def singles : Str := c!" \t\n\r_.,()[]<>="

/-- The characters that occur in pairs only: `!=`, `&&`, `||`, `->`. -/
def markPairs : List (Char × Char) := [('!', '='), ('&', '&'), ('|', '|'), ('-', '>')]

/-- Letters and digits of ASCII. -/
def AsciiAlnum (c : Char) : Prop := (97 ≤ c.toNat ∧ c.toNat ≤ 122) ∨ (65 ≤ c.toNat ∧ c.toNat ≤ 90) ∨ (48 ≤ c.toNat ∧ c.toNat ≤ 57)

instance (c : Char) : Decidable (AsciiAlnum c) := inferInstanceAs (Decidable (_ ∨ _))

/-- Texts that consist of ASCII letters and digits, `singles`, `markPairs`, strings in either kind of quotes, and comments. -/
inductive Lexed : Str → Prop where
  | nil : Lexed []
  | single {c s} : AsciiAlnum c ∨ c ∈ singles → Lexed s → Lexed (c :: s)
  | pair {a b s} : (a, b) ∈ markPairs → Lexed s → Lexed (a :: b :: s)
  | str {q b s} : q = '\'' ∨ q = '"' → q ∉ b → Lexed s → Lexed (q :: (b ++ q :: s))
  | comment {o b e s} : o = c!"--" ∨ o = c!"//" → (∀ c ∈ b, c ≠ '\n' ∧ c ≠ '\r') → e = '\n' ∨ e = '\r' → Lexed s → Lexed (o ++ (b ++ e :: s))

/-- Every character that can stand, or begin a string or comment, outside of strings and comments. -/
def outer : Str := singles ++ c!"!&|-/'\""

end Verif

import Verif.Spec.Lang

/-! # Specification: a place for a quoted value -/

namespace Verif

/-- What a reader of the query text is in after one more character: plain text, a string in either kind of quotes, a comment, or
after the first character of what may become a comment. -/
def modeStep : Mode → Char → Mode
  | .comment, c => if c = '\n' ∨ c = '\r' then .code else .comment
  | .sq, c => if c = '\'' then .code else .sq
  | .dq, c => if c = '"' then .code else .dq
  | σ, c =>
    if c = '\'' then .sq
    else if c = '"' then .dq
    else if c = '-' then (if σ = .dash then .comment else .dash)
    else if c = '/' then (if σ = .slash then .comment else .slash)
    else .code

/-- What a reader is in after the text. -/
def modeFrom (σ : Mode) (s : Str) : Mode := s.foldl modeStep σ

/-- What a reader is in after the text, from the beginning of a query. -/
def modeAfter (s : Str) : Mode := modeFrom .code s

/-- A reader of the text never gets into a comment. -/
def commentless : Mode → Str → Bool
  | .comment, _ => false
  | _, [] => true
  | σ, c :: s => commentless (modeStep σ c) s

/-- The query contains no comment; `--` and `//` inside strings are no comments. -/
def NoComment (q : Str) : Prop := commentless .code q = true

instance (q : Str) : Decidable (NoComment q) := inferInstanceAs (Decidable (_ = _))

mutual
/-- The tree with the string `m` replaced by `v` wherever it is a literal. -/
def putStr (m v : Str) : Node → Node
  | .str s => .str (if s = m then v else s)
  | .arr l => .arr (putStrL m v l)
  | .pred l o => .pred (putStr m v l) (putStr m v o)
  | .cmp l o r => .cmp (putStr m v l) (putStr m v o) (putStr m v r)
  | .logic l o r => .logic (putStr m v l) (putStr m v o) (putStr m v r)
  | .paren e => .paren (putStr m v e)
  | .not e => .not (putStr m v e)
  | .between l o a b => .between (putStr m v l) (putStr m v o) (putStr m v a) (putStr m v b)
  | .func f l => .func f (putStrL m v l)
  | n => n
/-- The same for a list of trees. -/
def putStrL (m v : Str) : List Node → List Node
  | [] => []
  | n :: l => putStr m v n :: putStrL m v l
end

end Verif

import Verif.Spec.Lang

/-!
# Specification: clearly spaced queries

`Sp l u n` is the unambiguous part of the language: the text `u` is spelled so that only one reading is possible.  Blanks and
comments are allowed everywhere, any letter case for `and or in not like gt lt eq neq`, trailing commas, both kinds of quotes
and brackets; a word operator must not touch a preceding word.
-/

namespace Verif

/-- A non-empty run of blanks. -/
def Blanks (s : Str) : Prop := s ≠ [] ∧ ∀ c ∈ s, c ∈ blanks

/-- Comparison operators. -/
inductive CmpW : Str → Str → Prop where
  | sym {u o} : (u, o) ∈ [(c!">=", c!"gte"), (c!"<=", c!"lte"), (c!"==", c!"eq"), (c!"<", c!"lt"), (c!"=", c!"eq"),
      (c!">", c!"gt"), (c!"!=", c!"neq")] → CmpW u o
  | word {w u} : w ∈ [c!"gt", c!"lt", c!"eq", c!"neq", c!"like"] → CI w u → CmpW u w
  | notLike {a s b} : CI c!"not" a → Blanks s → CI c!"like" b → CmpW (a ++ (s ++ b)) c!"not like"

/-- Membership operators. -/
inductive InW : Str → Str → Prop where
  | inn {u} : CI c!"in" u → InW u c!"in"
  | notIn {a s b} : CI c!"not" a → Blanks s → CI c!"in" b → InW (a ++ (s ++ b)) c!"not in"

/-- Range operators. -/
inductive BetweenW : Str → Str → Prop where
  | btw : BetweenW c!"between" c!"between"
  | notBtw {a s} : CI c!"not" a → Blanks s → BetweenW (a ++ (s ++ c!"between")) c!"not between"

/-- Predicate operators. -/
inductive MatchW : Str → Str → Prop where
  | isnull : MatchW c!"isnull" c!"is null"
  | notnull : MatchW c!"notnull" c!"is not null"
  | is {s w} : Blanks s → w ∈ [c!"null", c!"true", c!"false"] → MatchW (c!"is" ++ (s ++ w)) (c!"is " ++ w)
  | isNot {s s' w} : Blanks s → Blanks s' → w ∈ [c!"null", c!"true", c!"false"] →
      MatchW (c!"is" ++ (s ++ (c!"not" ++ (s' ++ w)))) (c!"is not " ++ w)

/-- The text `x` written after `u` and the blanks `w` does not continue a word of `u`. -/
def Apart (u w x : Str) : Prop := w = [] → ∀ p c d t, u = p ++ [c] → x = d :: t → IdTail c → ¬ IdTail d

/-- A bracketed pair of bounds `[a, b]`, with blanks. -/
def pairT (w3 a w4 w5 b w6 : Str) : Str := '[' :: (w3 ++ (a ++ (w4 ++ ',' :: (w5 ++ (b ++ (w6 ++ c!"]"))))))

/-- `Sp l u n`: the text `u`, at precedence level `l`, is a clear spelling of the tree `n`. -/
inductive Sp : Lvl → Str → Node → Prop where
  | lit {u n} : Lit u n → Sp .prim u n
  | arr {t n} : LitArr ('[' :: t) n → Sp .prim ('[' :: t) n
  | tupleEmpty {w} : WS w → Sp .prim ('(' :: (w ++ c!")")) (.arr [])
  | tuple {w u ns w1 t w2} : WS w → LitItems u ns → WS w1 → t = [] ∨ t = c!"," → 2 ≤ ns.length ∨ t = c!"," → WS w2 →
      Sp .prim ('(' :: (w ++ (u ++ (w1 ++ (t ++ (w2 ++ c!")")))))) (.arr ns)
  | name {u n} : Name u n → KwFree u → Sp .prim u n
  | paren {w1 u w2 n} : WS w1 → Sp .logic u n → WS w2 → Sp .prim ('(' :: (w1 ++ (u ++ (w2 ++ c!")")))) (.paren n)
  | range {w u l w1 ob o w2 w3 a lo w4 w5 b hi w6 w7} : WS w → Sp .prim u l → WS w1 → BetweenW ob o → Apart u w1 ob → WS w2 → WS w3 → Val a lo →
      WS w4 → WS w5 → Val b hi → WS w6 → WS w7 →
      Sp .prim ('(' :: (w ++ ((u ++ (w1 ++ (ob ++ (w2 ++ pairT w3 a w4 w5 b w6)))) ++ (w7 ++ c!")")))) (.paren (.between l (.op o) lo hi))
  | func {f u ns} : IdText f → KwFree f → Sp .args u (.arr ns) → Sp .prim (f ++ '(' :: (u ++ c!")")) (.func f ns)
  | argOne {u n} : Sp .logic u n → Sp .args1 u (.arr [n])
  | argMore {u ns w1 w2 v n} : Sp .args1 u (.arr ns) → WS w1 → WS w2 → Sp .logic v n →
      Sp .args1 (u ++ (w1 ++ ',' :: (w2 ++ v))) (.arr (ns ++ [n]))
  | argsNone {w} : WS w → Sp .args w (.arr [])
  | argsSome {w u ns w1 t w2} : WS w → Sp .args1 u (.arr ns) → WS w1 → t = [] ∨ t = c!"," → WS w2 →
      Sp .args (w ++ (u ++ (w1 ++ (t ++ w2)))) (.arr ns)
  | btwUp {u n} : Sp .prim u n → Sp .btw u n
  | btw {u l w1 ob o w2 a lo w3 k w4 b hi} : Sp .prim u l → WS w1 → BetweenW ob o → Apart u w1 ob → WS w2 → Val a lo → WS w3 →
      CI c!"and" k → WS w4 → Val b hi →
      Sp .btw (u ++ (w1 ++ (ob ++ (w2 ++ (a ++ (w3 ++ (k ++ (w4 ++ b)))))))) (.between l (.op o) lo hi)
  | prdUp {u n} : Sp .btw u n → Sp .prd u n
  | pred {u l w1 ob o} : Sp .btw u l → WS w1 → w1 ≠ [] → MatchW ob o → Sp .prd (u ++ (w1 ++ ob)) (.pred l (.op o))
  | cinUp {u n} : Sp .prd u n → Sp .cin u n
  | isIn {u l w1 ob o w2 a n} : Sp .prd u l → WS w1 → InW ob o → Apart u w1 ob → WS w2 → LitArr a n →
      Sp .cin (u ++ (w1 ++ (ob ++ (w2 ++ a)))) (.cmp l (.op o) n)
  | cmpUp {u n} : Sp .cin u n → Sp .cmp u n
  | cmp {u l w1 ob o w2 v r} : Sp .cmp u l → WS w1 → CmpW ob o → Apart u w1 ob → WS w2 → Sp .cin v r →
      Sp .cmp (u ++ (w1 ++ (ob ++ (w2 ++ v)))) (.cmp l (.op o) r)
  | negUp {u n} : Sp .cmp u n → Sp .neg u n
  | neg {k w1 u n} : CI c!"not" k → WS w1 → w1 ≠ [] → Sp .cmp u n → Sp .neg (k ++ (w1 ++ u)) (.not n)
  | logicUp {u n} : Sp .neg u n → Sp .logic u n
  | logic {u l w1 ob o w2 v r} : Sp .logic u l → WS w1 → LogicOp ob o → Apart u w1 ob → WS w2 → Sp .neg v r →
      Sp .logic (u ++ (w1 ++ (ob ++ (w2 ++ v)))) (.logic l (.op o) r)

/-- A bracketed range standing alone. -/
inductive SpRange : Str → Node → Prop where
  | mk {u l w1 ob o w2 w3 a lo w4 w5 b hi w6} : Sp .prim u l → WS w1 → BetweenW ob o → Apart u w1 ob → WS w2 → WS w3 → Val a lo →
      WS w4 → WS w5 → Val b hi → WS w6 → SpRange (u ++ (w1 ++ (ob ++ (w2 ++ pairT w3 a w4 w5 b w6)))) (.between l (.op o) lo hi)

/-- A clearly spaced query, surrounded by blanks and comments. -/
def Spaced (s : Str) (n : Node) : Prop := ∃ w1 u w2, s = w1 ++ (u ++ w2) ∧ WS w1 ∧ (Sp .logic u n ∨ SpRange u n) ∧ WS w2

end Verif

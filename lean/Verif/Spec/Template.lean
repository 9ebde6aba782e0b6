import Verif.Spec.Spaced

/-!
# Specification: queries put together from queries

An application writes the frame (`tenant = 7 and (…)`) and puts text that it did not write itself between the parentheses.
`Tpl` is `Sp` (see `Spec/Spaced`) with two more cases, for the places where such a text stands.
-/

namespace Verif

/-- `Tpl H l u n`: the text `u`, at precedence level `l`, is a clear spelling of the tree `n` in which foreign queries may stand between
parentheses or as the only argument of a call.  `H q n`: the foreign query `q` stands for the tree `n`. -/
inductive Tpl (H : Str → Node → Prop) : Lvl → Str → Node → Prop where
  | hole {q n} : H q n → Tpl H .prim ('(' :: (q ++ c!")")) (.paren n)
  | argHole {q n} : H q n → Tpl H .args q (.arr [n])
  | lit {u n} : Lit u n → Tpl H .prim u n
  | arr {t n} : LitArr ('[' :: t) n → Tpl H .prim ('[' :: t) n
  | tupleEmpty {w} : WS w → Tpl H .prim ('(' :: (w ++ c!")")) (.arr [])
  | tuple {w u ns w1 t w2} : WS w → LitItems u ns → WS w1 → t = [] ∨ t = c!"," → 2 ≤ ns.length ∨ t = c!"," → WS w2 →
      Tpl H .prim ('(' :: (w ++ (u ++ (w1 ++ (t ++ (w2 ++ c!")")))))) (.arr ns)
  | name {u n} : Name u n → KwFree u → Tpl H .prim u n
  | paren {w1 u w2 n} : WS w1 → Tpl H .logic u n → WS w2 → Tpl H .prim ('(' :: (w1 ++ (u ++ (w2 ++ c!")")))) (.paren n)
  | range {w u l w1 ob o w2 w3 a lo w4 w5 b hi w6 w7} : WS w → Tpl H .prim u l → WS w1 → BetweenW ob o → Apart u w1 ob → WS w2 → WS w3 → Val a lo →
      WS w4 → WS w5 → Val b hi → WS w6 → WS w7 →
      Tpl H .prim ('(' :: (w ++ ((u ++ (w1 ++ (ob ++ (w2 ++ pairT w3 a w4 w5 b w6)))) ++ (w7 ++ c!")")))) (.paren (.between l (.op o) lo hi))
  | func {f u ns} : IdText f → KwFree f → Tpl H .args u (.arr ns) → Tpl H .prim (f ++ '(' :: (u ++ c!")")) (.func f ns)
  | argOne {u n} : Tpl H .logic u n → Tpl H .args1 u (.arr [n])
  | argMore {u ns w1 w2 v n} : Tpl H .args1 u (.arr ns) → WS w1 → WS w2 → Tpl H .logic v n →
      Tpl H .args1 (u ++ (w1 ++ ',' :: (w2 ++ v))) (.arr (ns ++ [n]))
  | argsNone {w} : WS w → Tpl H .args w (.arr [])
  | argsSome {w u ns w1 t w2} : WS w → Tpl H .args1 u (.arr ns) → WS w1 → t = [] ∨ t = c!"," → WS w2 →
      Tpl H .args (w ++ (u ++ (w1 ++ (t ++ w2)))) (.arr ns)
  | btwUp {u n} : Tpl H .prim u n → Tpl H .btw u n
  | btw {u l w1 ob o w2 a lo w3 k w4 b hi} : Tpl H .prim u l → WS w1 → BetweenW ob o → Apart u w1 ob → WS w2 → Val a lo → WS w3 →
      CI c!"and" k → WS w4 → Val b hi →
      Tpl H .btw (u ++ (w1 ++ (ob ++ (w2 ++ (a ++ (w3 ++ (k ++ (w4 ++ b)))))))) (.between l (.op o) lo hi)
  | prdUp {u n} : Tpl H .btw u n → Tpl H .prd u n
  | pred {u l w1 ob o} : Tpl H .btw u l → WS w1 → w1 ≠ [] → MatchW ob o → Tpl H .prd (u ++ (w1 ++ ob)) (.pred l (.op o))
  | cinUp {u n} : Tpl H .prd u n → Tpl H .cin u n
  | isIn {u l w1 ob o w2 a n} : Tpl H .prd u l → WS w1 → InW ob o → Apart u w1 ob → WS w2 → LitArr a n →
      Tpl H .cin (u ++ (w1 ++ (ob ++ (w2 ++ a)))) (.cmp l (.op o) n)
  | cmpUp {u n} : Tpl H .cin u n → Tpl H .cmp u n
  | cmp {u l w1 ob o w2 v r} : Tpl H .cmp u l → WS w1 → CmpW ob o → Apart u w1 ob → WS w2 → Tpl H .cin v r →
      Tpl H .cmp (u ++ (w1 ++ (ob ++ (w2 ++ v)))) (.cmp l (.op o) r)
  | negUp {u n} : Tpl H .cmp u n → Tpl H .neg u n
  | neg {k w1 u n} : CI c!"not" k → WS w1 → w1 ≠ [] → Tpl H .cmp u n → Tpl H .neg (k ++ (w1 ++ u)) (.not n)
  | logicUp {u n} : Tpl H .neg u n → Tpl H .logic u n
  | logic {u l w1 ob o w2 v r} : Tpl H .logic u l → WS w1 → LogicOp ob o → Apart u w1 ob → WS w2 → Tpl H .neg v r →
      Tpl H .logic (u ++ (w1 ++ (ob ++ (w2 ++ v)))) (.logic l (.op o) r)

/-- A bracketed range standing alone. -/
inductive TplRange (H : Str → Node → Prop) : Str → Node → Prop where
  | mk {u l w1 ob o w2 w3 a lo w4 w5 b hi w6} : Tpl H .prim u l → WS w1 → BetweenW ob o → Apart u w1 ob → WS w2 → WS w3 → Val a lo →
      WS w4 → WS w5 → Val b hi → WS w6 → TplRange H (u ++ (w1 ++ (ob ++ (w2 ++ pairT w3 a w4 w5 b w6)))) (.between l (.op o) lo hi)

/-- A whole template, surrounded by blanks and comments. -/
def Filled (H : Str → Node → Prop) (s : Str) (n : Node) : Prop := ∃ w1 u w2, s = w1 ++ (u ++ w2) ∧ WS w1 ∧ (Tpl H .logic u n ∨ TplRange H u n) ∧ WS w2

/-- An operand of a frame: clearly written, or any text at all, with its quotes, comments and brackets closed and without `->`, between
parentheses.  The predicate tells what its node may be. -/
inductive Operand (W : Str → Node → Prop) : Str → (Node → Prop) → Prop where
  | clear {u n} : Sp .neg u n → Operand W u (· = n)
  | any {q} : Balanced q false → Operand W ('(' :: (q ++ c!")")) (W q)

/-- A frame: operands with logic operators between them, and the trees it may stand for. -/
inductive Frame (W : Str → Node → Prop) : Str → (Node → Prop) → Prop where
  | one {u P} : Operand W u P → Frame W u P
  | more {u P w1 ob o w2 v Q} : Frame W u P → WS w1 → LogicOp ob o → Apart u w1 ob → WS w2 → Operand W v Q →
      Frame W (u ++ (w1 ++ (ob ++ (w2 ++ v)))) (fun n => ∃ l r, n = .logic l (.op o) r ∧ P l ∧ Q r)

end Verif

import Verif.EntSQL
import Verif.Spec.Meaning
import Verif.Spec.Lang
import Verif.Spec.Shape
import Verif.Spec.Sql

/-! # Specification: what the ent SQL translator should accept and bind -/

namespace Verif

/-- The numbers of the placeholders `$n` in a text, in order. -/
def marks : Str → List Nat
  | [] => []
  | c :: s => if c = '$' then decNat (s.takeWhile Char.isDigit) :: marks s else marks s

/-- The operators that have an SQL counterpart in ent's operator table. -/
def sqlOps : List Str := [c!"eq", c!"neq", c!"gt", c!"gte", c!"lt", c!"lte", c!"in", c!"not in", c!"like", c!"is null", c!"is not null"]

/-- The argument carries the name `x`: a name, or (an oversight of the translator) a call. -/
inductive Called : Node → Str → Prop where
  | ident {x} : x ≠ [] → Called (.ident x) x
  | call {x ps} : x ≠ [] → Called (.func x ps) x

/-- Trees that state something about a row, or a call; no names, no literals. -/
inductive Condition : Node → Prop where
  | paren {e} : Condition (.paren e)
  | not {e} : Condition (.not e)
  | call {f ps} : Condition (.func f ps)
  | between {l o a b} : Condition (.between l o a b)
  | pred {l o} : Condition (.pred l o)
  | cmp {l o r} : Condition (.cmp l o r)
  | logic {l o r} : Condition (.logic l o r)

/-- Trees that can be expressed, for the schema node `nd`. -/
inductive Good (edges : Nat → List (Str × SEdge)) : Option Nat → Node → Prop where
  | val {nd n} : ValNode n → Good edges nd n
  | ident {nd x} : Good edges nd (.ident x)
  | paren {nd e} : Good edges nd e → Good edges nd (.paren e)
  | not {nd e} : Good edges nd e → Good edges nd (.not e)
  | date {nd p ps} : Good edges nd p → Good edges nd (.func c!"date" (p :: ps))
  | has {t p x e} : Called p x → (edges t).lookup x = some e → Good edges (some t) (.func c!"has_edge" [p])
  | hasWith {t p x e c} : Called p x → (edges t).lookup x = some e → Condition c → Good edges (some e.to) c →
      Good edges (some t) (.func c!"has_edge" [p, c])
  | between {nd l o a b} : Good edges nd l → ValNode a → ValNode b → Good edges nd (.between l (.op o) a b)
  | pred {nd l o} : Good edges nd l → o ∈ sqlOps → Good edges nd (.pred l (.op o))
  | cmp {nd l o r} : Good edges nd l → o ∈ sqlOps ++ [c!"not like", c!"and", c!"or"] → Good edges nd r → Good edges nd (.cmp l (.op o) r)
  | logic {nd l o r} : Good edges nd l → o ∈ sqlOps ++ [c!"not like", c!"and", c!"or"] → Good edges nd r → Good edges nd (.logic l (.op o) r)

mutual
/-- The values of a tree in the order they are written: all literals, those of a range's left side twice, without nulls; but with `cast`, nulls
outside arrays are bound like other values. -/
def binds (cast : Bool) : Node → List GoVal
  | .int i => [.int i]
  | .bool b => [.bool b]
  | .str s => [.str s]
  | .null => if cast then [.nil] else []
  | .arr l => (l.map litVal).filter fun v => v ≠ .nil
  | .paren e => binds cast e
  | .not e => binds cast e
  | .func f ps => if f = c!"date" then binds1 cast ps else if f = c!"has_edge" then binds2 cast ps else []
  | .between l _ a b => binds cast l ++ binds cast a ++ binds cast l ++ binds cast b
  | .pred l _ => binds cast l
  | .cmp l _ r => binds cast l ++ binds cast r
  | .logic l _ r => binds cast l ++ binds cast r
  | _ => []
/-- The values of the first argument. -/
def binds1 (cast : Bool) : List Node → List GoVal
  | [] => []
  | n :: _ => binds cast n
/-- The values of the second argument. -/
def binds2 (cast : Bool) : List Node → List GoVal
  | [] => []
  | _ :: l => binds1 cast l
end

mutual
/-- Equal trees up to the values of literals; the types of literals are the same. -/
inductive SameUp : Node → Node → Prop where
  | nil : SameUp .nil .nil
  | op {o} : SameUp (.op o) (.op o)
  | int {i j} : SameUp (.int i) (.int j)
  | bool {a b} : SameUp (.bool a) (.bool b)
  | str {s t} : SameUp (.str s) (.str t)
  | null : SameUp .null .null
  | arr {l l'} : SameUpL l l' → SameUp (.arr l) (.arr l')
  | ident {x} : SameUp (.ident x) (.ident x)
  | ref {l} : SameUp (.ref l) (.ref l)
  | paren {e e'} : SameUp e e' → SameUp (.paren e) (.paren e')
  | not {e e'} : SameUp e e' → SameUp (.not e) (.not e')
  | func {f l l'} : SameUpL l l' → SameUp (.func f l) (.func f l')
  | between {l l' o o' a a' b b'} : SameUp l l' → SameUp o o' → SameUp a a' → SameUp b b' → SameUp (.between l o a b) (.between l' o' a' b')
  | pred {l l' o o'} : SameUp l l' → SameUp o o' → SameUp (.pred l o) (.pred l' o')
  | cmp {l l' o o' r r'} : SameUp l l' → SameUp o o' → SameUp r r' → SameUp (.cmp l o r) (.cmp l' o' r')
  | logic {l l' o o' r r'} : SameUp l l' → SameUp o o' → SameUp r r' → SameUp (.logic l o r) (.logic l' o' r')
/-- The same for lists of trees. -/
inductive SameUpL : List Node → List Node → Prop where
  | nil : SameUpL [] []
  | cons {n m l l'} : SameUp n m → SameUpL l l' → SameUpL (n :: l) (m :: l')
end

/-- A builder as made by a caller: nothing written yet, `k` parameters in the statement so far. -/
def SB.fresh (dialect : Str) (k : Nat) (node : Option Nat) (q : Str) : SB := { query := q, node := node, mb := { own := { dialect := dialect, total := k } } }

/-- The text returned, if `Query` returns. -/
def QRes.text : QRes → Option Str
  | .ret s _ => some s
  | .panic => none

/-- Calling `Query` again and again: what the last of `n + 1` calls returns. -/
def sQueryN (E : SEnv) : Nat → SB → QRes
  | 0, b => (sQuery E b).1
  | n + 1, b => sQueryN E n (sQuery E b).2

/-- The cast written after a placeholder. -/
def castOf (dialect : Str) : GoType → Str
  | .int => if dialect = c!"postgres" then c!"::int" else []
  | .bool => if dialect = c!"postgres" then c!"::bool" else []
  | .float64 => if dialect = c!"postgres" then c!"::double precision" else []
  | .other => []

/-- The cast that postgres needs for a literal. -/
def litCast : Node → Str
  | .int _ => c!"::int"
  | .bool _ => c!"::bool"
  | _ => []

/-- What the translator may write besides names, edge predicates and parameters. -/
def entSqlWords : List Str :=
  [c!"(", c!")", c!", ", c!"NULL", c!"NOT ", c!"DATE(", c!" AND ", c!" OR ", c!" = ", c!" <> ", c!" > ", c!" >= ", c!" < ", c!" <= ", c!" IN ",
   c!" NOT IN ", c!" LIKE ", c!" NOT LIKE ", c!" IS NULL", c!" IS NOT NULL"]

/-- No edge predicate in the tree has a condition. -/
def NoEdgeCondition (n : Node) : Prop := ∀ p c, ¬ Sub (.func c!"has_edge" [p, c]) n

end Verif

import Verif.Spec.EntSQL
import Verif.EntQL
import Verif.Props.Gorm

/-! # Specification: the parts of a query that a translator cannot translate -/

namespace Verif

/-- What a tree asks of a schema. -/
inductive Use where
  | column (x : Str)
  | path (l : List Str)
  | call (f : Str)

mutual
/-- What a tree asks for, in reading order. -/
def uses : Node → List Use
  | .ident x => [.column x]
  | .ref l => [.path l]
  | .func f ps => .call f :: usesL ps
  | .pred l o => uses l ++ uses o
  | .cmp l o r => uses l ++ uses o ++ uses r
  | .logic l o r => uses l ++ uses o ++ uses r
  | .paren e => uses e
  | .not e => uses e
  | .between l o a b => uses l ++ uses o ++ uses a ++ uses b
  | _ => []
/-- The same for a list of trees. -/
def usesL : List Node → List Use
  | [] => []
  | n :: l => uses n ++ usesL l
end

/-- The schema cannot answer; the error says why. -/
inductive Fault (s : GSchema) (fold : Str → Str → Bool) : Use → GErr → Prop where
  | column {x} : (∀ d, ¬ Resolves fold s.table x d) → Fault s fold (.column x) (.fieldNotFound x)
  | relation {r c} : s.rel r = none → Fault s fold (.path [r, c]) (.relationNotFound r)
  | relationColumn {r c t} : s.rel r = some t → (∀ d, ¬ Resolves fold t c d) → Fault s fold (.path [r, c]) (.relationFieldNotFound r c)
  | deep {l} : l.length ≠ 2 → Fault s fold (.path l) .oneLevel
  | call {f} : f ≠ c!"date" → Fault s fold (.call f) (.unsupported f)

/-- The error is about the first part that is at fault. -/
def FirstFault (s : GSchema) (fold : Str → Str → Bool) (us : List Use) (e : GErr) : Prop :=
  ∃ a u b, us = a ++ u :: b ∧ (∀ v ∈ a, ∀ e', ¬ Fault s fold v e') ∧ Fault s fold u e

/-- The texts an error quotes. -/
def GErr.names : GErr → List Str
  | .fieldNotFound x => [x]
  | .relationNotFound r => [r]
  | .relationFieldNotFound r c => [r, c]
  | .oneLevel => []
  | .unsupported f => [f]

/-- `m` is a part of `n` that is translated; `nd` is the schema node for `n`, `nd'` the one for `m` (the condition of an edge is about its target). -/
inductive PartOf (edges : Nat → List (Str × SEdge)) : Option Nat → Node → Option Nat → Node → Prop where
  | refl {nd n} : PartOf edges nd n nd n
  | paren {nd e nd' m} : PartOf edges nd e nd' m → PartOf edges nd (.paren e) nd' m
  | not {nd e nd' m} : PartOf edges nd e nd' m → PartOf edges nd (.not e) nd' m
  | date {nd p ps nd' m} : PartOf edges nd p nd' m → PartOf edges nd (.func c!"date" (p :: ps)) nd' m
  | edge {t p x e c nd' m} : Called p x → (edges t).lookup x = some e → PartOf edges (some e.to) c nd' m →
      PartOf edges (some t) (.func c!"has_edge" [p, c]) nd' m
  | rangeOf {nd l o a b nd' m} : PartOf edges nd l nd' m → PartOf edges nd (.between l o a b) nd' m
  | rangeLow {nd l o a b nd' m} : PartOf edges nd a nd' m → PartOf edges nd (.between l o a b) nd' m
  | rangeHigh {nd l o a b nd' m} : PartOf edges nd b nd' m → PartOf edges nd (.between l o a b) nd' m
  | pred {nd l o nd' m} : PartOf edges nd l nd' m → PartOf edges nd (.pred l o) nd' m
  | cmpLeft {nd l o r nd' m} : PartOf edges nd l nd' m → PartOf edges nd (.cmp l o r) nd' m
  | cmpRight {nd l o r nd' m} : PartOf edges nd r nd' m → PartOf edges nd (.cmp l o r) nd' m
  | logicLeft {nd l o r nd' m} : PartOf edges nd l nd' m → PartOf edges nd (.logic l o r) nd' m
  | logicRight {nd l o r nd' m} : PartOf edges nd r nd' m → PartOf edges nd (.logic l o r) nd' m

/-- The operator of a comparison or chain: its name, nothing if an operand stands in its place (only with `->`). -/
def opText : Node → Str
  | .op o => o
  | _ => []

/-- The ent SQL translator has nothing to write for this part; the error says why. -/
inductive SFault (edges : Nat → List (Str × SEdge)) : Option Nat → Node → SErr → Prop where
  | op {nd o} : SFault edges nd (.op o) (.opNode o)
  | path {nd l} : SFault edges nd (.ref l) .invalidType
  | call {nd f ps} : f ∉ [c!"date", c!"has_edge"] → SFault edges nd (.func f ps) (.unsupported f)
  | pred {nd l o} : opText o ∉ sqlOps → SFault edges nd (.pred l o) (.predOp (opText o))
  | cmp {nd l o r} : opText o ∉ sqlOps ++ [c!"not like", c!"and", c!"or"] → SFault edges nd (.cmp l o r) (.unexpectedOp (opText o))
  | logic {nd l o r} : opText o ∉ sqlOps ++ [c!"not like", c!"and", c!"or"] → SFault edges nd (.logic l o r) (.unexpectedOp (opText o))
  | edgeNone {nd} : SFault edges nd (.func c!"has_edge" []) .edgeParams
  | edgeUnnamed {nd p ps} : (∀ x, ¬ Called p x) → SFault edges nd (.func c!"has_edge" (p :: ps)) .edgeParams
  | edgeMany {nd p c c' ps} : SFault edges nd (.func c!"has_edge" (p :: c :: c' :: ps)) .edgeParams
  | edgeUnknown {t p x ps} : Called p x → (edges t).lookup x = none → SFault edges (some t) (.func c!"has_edge" (p :: ps)) (.noEdge x)
  | edgeCondition {nd p c} : ¬ Condition c → SFault edges nd (.func c!"has_edge" [p, c]) (.edgeCond c)

/-- The operators that entql has. -/
def entqlNames : List Str := [c!"and", c!"or", c!"not", c!"eq", c!"neq", c!"gt", c!"gte", c!"lt", c!"lte", c!"in", c!"not in"]

/-- The entql translator has nothing for this part; the error says why. -/
inductive EFault : Node → EErr → Prop where
  | op {o} : EFault (.op o) (.opNode o)
  | path {l} : EFault (.ref l) .invalidType
  | cmp {l o r} : opText o ∉ entqlNames → EFault (.cmp l o r) (.unexpectedOp (opText o))
  | logic {l o r} : opText o ∉ entqlNames → EFault (.logic l o r) (.unexpectedOp (opText o))

end Verif

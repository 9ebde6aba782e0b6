import Verif.Gorm
import Verif.EntSQL

/-!
# Printing and translating on a stack of limited size

The functions that walk through a finished tree call themselves.  Here they have room for a given number of such calls that are open at once; `none` is a
stack overflow, which ends a Go program and cannot be recovered from.  Simplification: only calls of the walking function by itself are counted.  The helpers
it calls in between (`buildValue`, `visitFunction`, the closures of ent) are counted with it, and so is the first call of `Value` that it makes; the calls that
`Value` makes of itself are counted.
-/

namespace Verif

/-- `Node.Value`, /repo/miniquery/node.go:57-77, with room for `d` calls. -/
def valueDeep : Nat → Node → Option (Option GoVal)
  | 0, _ => none
  | d + 1, .arr l => (valueList (valueDeep d) l).map fun r => r.map .slice
  | _ + 1, n => some (value n)
where
  /-- The loop of /repo/miniquery/node.go:71-73. -/
  valueList (self : Node → Option (Option GoVal)) : List Node → Option (Option (List GoVal))
    | [] => some (some [])
    | n :: l =>
      match self n with
      | none => none
      | some none => some none
      | some (some v) => (valueList self l).map fun r => r.map (v :: ·)

/-- One writing after the other: the second does not happen if the first overflows or panics. -/
def catDeep (a b : Option (Option Str)) : Option (Option Str) :=
  match a with
  | none => none
  | some none => some none
  | some (some x) => b.map fun r => r.map (x ++ ·)

/-- The comma separated lists of /repo/miniquery/node.go:182-187 and 204-209. -/
def buildList (self : Node → Option (Option Str)) : List Node → Option (Option Str)
  | [] => some (some [])
  | [n] => self n
  | n :: m :: l => catDeep (self n) (catDeep (some (some c!",")) (buildList self (m :: l)))

/-- The closure `visit` of `Build`, /repo/miniquery/node.go:143-194, with room for `d` calls. -/
def buildDeepN (P : Char → Bool) (root : Str) : Nat → Node → Option (Option Str)
  | 0, _ => none
  | d + 1, n =>
    let self := buildDeepN P root d
    let w := fun s : Str => (some (some s) : Option (Option Str))
    match n with
    | .nil => some none
    | .not e => catDeep (w c!"not ") (self e)
    | .between l o a b => catDeep (self l) (catDeep (w c!" ") (catDeep (self o) (catDeep (w c!" ") (catDeep (self a) (catDeep (w c!" and ") (self b))))))
    | .pred l o => catDeep (self l) (catDeep (w c!" ") (self o))
    | .logic l o r => catDeep (self l) (catDeep (w c!" ") (catDeep (self o) (match r with | .nil => w [] | r => catDeep (w c!" ") (self r))))
    | .cmp l o r => catDeep (self l) (catDeep (w c!" ") (catDeep (self o) (match r with | .nil => w [] | r => catDeep (w c!" ") (self r))))
    | .paren e => catDeep (w c!"(") (catDeep (self e) (w c!")"))
    | .func _ ps => catDeep (w (root ++ c!"(")) (catDeep (buildList self ps) (w c!")"))
    | .arr l => catDeep (w c!"[") (catDeep (buildList self l) (w c!"]"))
    | .op o => w (printPretty o)
    | .ident x => w x
    | .ref names => w (goJoinDots names)
    | .str s => w (quote P s)
    | .int i => w (fmtInt i)
    | .bool b => w (if b then c!"true" else c!"false")
    | .null => w c!"null"

/-- `Build`, /repo/miniquery/node.go:140-197, with room for `d` calls of its closure. -/
def buildDeep (P : Char → Bool) (d : Nat) (n : Node) : Option (Option Str) := buildDeepN P (rootName n) d n

/-- The loop of /repo/miniquery/node.go:129-132. -/
def strList (self : Node → Option (Option Str)) : List Node → Option (Option Str)
  | [] => some (some [])
  | n :: l => catDeep (some (some c!",")) (catDeep (self n) (strList self l))

/-- `Node.String`, /repo/miniquery/node.go:91-138, with room for `d` calls.  Simplification: what `fmt.Fprint` calls is not counted. -/
def strDeep : Nat → Node → Option (Option Str)
  | 0, _ => none
  | d + 1, n =>
    let self := strDeep d
    let w := fun s : Str => (some (some s) : Option (Option Str))
    match n with
    | .nil => some none
    | .between _ _ a b => catDeep (w c!"between(") (catDeep (self a) (catDeep (w c!",") (catDeep (self b) (w c!")"))))
    | .pred _ _ => w c!"predicates()"
    | .logic l o r =>
      catDeep (w c!"logic(") (catDeep (self o) (catDeep (w c!",") (catDeep (self l) (catDeep (w c!",") (catDeep (self r) (w c!")"))))))
    | .cmp l o r =>
      catDeep (w c!"compare(") (catDeep (self l) (catDeep (w c!",") (catDeep (self o) (catDeep (w c!",") (catDeep (self r) (w c!")"))))))
    | .paren e => catDeep (w c!"parentheses(") (catDeep (self e) (w c!")"))
    | .not e => catDeep (w c!"not(") (catDeep (self e) (w c!")"))
    | .op o => w (c!"operation(" ++ o ++ c!")")
    | .ident x => w (c!"identifier(" ++ x ++ c!")")
    | .ref l => w (c!"reference(" ++ goJoinDots l ++ c!")")
    | .func f ps => catDeep (w (c!"function(" ++ f)) (catDeep (strList self ps) (w c!")"))
    | n => (valueDeep (d + 1) n).map fun r => r.map fun v => c!"value(" ++ fmtVal v ++ c!")"

/-- `if err == nil { … }` -/
def gThen (r : Option GRes) (f : GSt → Option GRes) : Option GRes :=
  match r with
  | none => none
  | some (.ok st) => f st
  | some r => some r

/-- The loop of `visitFunction`, /repo/gormq/miniquery.go:216-220. -/
def gList (self : Node → GSt → Option GRes) : List Node → GSt → Option GRes
  | [], st => some (.ok st)
  | n :: l, st => gThen (self n st) fun st => gList self l st

/-- `visit` of the gorm translator, /repo/gormq/miniquery.go:150-207, with room for `d` calls. -/
def gormDeep (E : GEnv) : Nat → Node → GSt → Option GRes
  | 0, _, _ => none
  | d + 1, n, st =>
    let self := gormDeep E d
    let bin := fun l o r => match r with
      | .nil => gThen (self l st) fun st => self o (st.write c!" ")
      | r => gThen (gThen (self l st) fun st => self o (st.write c!" ")) fun st => self r (st.write c!" ")
    match n with
    | .nil => some .panic
    | .op o => some (.ok (st.write (normalizeSQL o)))
    | .ident x => some (gIdent E x st)
    | .ref l => some (gRef E l st)
    | .paren e => (self e (st.write c!"(")).map fun r => r.alsoWrite c!")"
    | .not e => self e (st.write c!"not ")
    | .func f ps =>
      if f = c!"date" then gThen (gList self ps ((st.write f).write c!"(")) fun st => some (.ok (st.write c!")")) else some (.err (.unsupported f) st)
    | .between l o a b =>
      gThen (gThen (gThen (self l st) fun st => self o (st.write c!" ")) fun st => self a (st.write c!" ")) fun st => self b (st.write c!" and ")
    | .pred l o => gThen (self l st) fun st => self o (st.write c!" ")
    | .cmp l o r => bin l o r
    | .logic l o r => bin l o r
    | n => (valueDeep (d + 1) n).map fun v => match v with
      | none => .panic
      | some v => .ok { st.write c!"?" with vals := st.vals ++ [v] }

/-- `if err == nil { … }` -/
def eThen (r : Option ERes) (f : List EExpr → Option ERes) : Option ERes :=
  match r with
  | none => none
  | some (.ok st) => f st
  | some r => some r

/-- `visit` of the entql translator, /repo/entmq/entql.go:65-153, with room for `d` calls. -/
def entqlDeep : Nat → Node → List EExpr → Option ERes
  | 0, _, _ => none
  | d + 1, n, st =>
    let self := entqlDeep d
    match n with
    | .nil => some .panic
    | .op o => some (.err (.opNode o) st)
    | .ident x => some (.ok (.field x :: st))
    | .ref _ => some (.err .invalidType st)
    | .paren e => self e st
    | .not e => (self e st).map eNot
    | .func _ _ => some (.ok st)
    | .between l o a b => eThen (eThen (eThen (self l st) fun st => self a st) fun st => self b st) fun st => some (eBetween o st)
    | .pred _ _ => some .panic
    | .cmp l o r => eThen (eThen (self l st) fun st => self r st) fun st => some (eBin o st)
    | .logic l o r => eThen (eThen (self l st) fun st => self r st) fun st => some (eBin o st)
    | n => (valueDeep (d + 1) n).map fun v => match v with
      | none => .panic
      | some v => .ok (.val v :: st)

/-- `if err == nil { … }` -/
def sThen (r : Option SRes) (f : MB → Option SRes) : Option SRes :=
  match r with
  | none => none
  | some (.ok mb) => f mb
  | some r => some r

/-- `has_edge`, /repo/entmq/entsql.go:96-152. -/
def edgeDeep (E : SEnv) (node : Option Nat) (ps : List Node) (inner : Nat → MB → Option SRes) (mb : MB) : Option SRes :=
  match ps with
  | [] => some (.err .edgeParams mb)
  | p :: rest =>
    if nodeName p = [] then some (.err .edgeParams mb)
    else match node with
      | none => some .panic
      | some t =>
        match (E.edges t).lookup (nodeName p) with
        | none => some (.err (.noEdge (nodeName p)) mb)
        | some e =>
          match rest with
          | [] => some (.ok (mb.join (e.has mb.own.dialect) [] []))
          | [c] =>
            if isExpression c then (inner e.to { own := { dialect := mb.own.dialect, total := mb.own.total } }).map (joinEdge E e mb)
            else some (.err (.edgeCond c) mb)
          | _ => some (.err .edgeParams mb)

/-- Comparison and logic nodes, /repo/entmq/entsql.go:186-209. -/
def binDeep (left : Option SRes) (o : Node) (right : MB → Option SRes) : Option SRes :=
  match left with
  | none => none
  | some .panic => some .panic
  | some left =>
    match operation o with
    | none => some .panic
    | some op =>
      match binText op with
      | none =>
        match left with
        | .ok mb => some (.err (.unexpectedOp op) mb)
        | .err _ mb => some (.err (.unexpectedOp op) mb)
        | .panic => some .panic
      | some t => sThen (some (left.also (MB.write t))) right

/-- `visit` of the ent SQL translator, /repo/entmq/entsql.go:45-214, with room for `d` calls; `node` is `mb.Node`. -/
def entsqlDeep (E : SEnv) : Nat → Option Nat → Node → MB → Option SRes
  | 0, _, _, _ => none
  | d + 1, node, n, mb =>
    let self := entsqlDeep E d
    let first := fun node (ps : List Node) mb => match ps with | [] => some .panic | n :: _ => self node n mb
    match n with
    | .nil => some .panic
    | .op o => some (.err (.opNode o) mb)
    | .ident x => some (.ok (mb.put fun b => b.write (E.ident b.dialect x)))
    | .ref _ => some (.err .invalidType mb)
    | .paren e => (self node e (mb.write c!"(")).map fun r => r.also (MB.write c!")")
    | .not e => self node e (mb.write c!"NOT ")
    | .func f ps =>
      if f = c!"date" then (first node ps (mb.write c!"DATE(")).map fun r => r.also (MB.write c!")")
      else if f = c!"has_edge" then edgeDeep E node ps (fun t mb' => first (some t) ps.tail mb') mb
      else some (.err (.unsupported f) mb)
    | .between l o a b =>
      match operation o with
      | none => some .panic
      | some op =>
        let lo := if op = c!"not between" then c!" < " else c!" >= "
        let ro := if op = c!"not between" then c!" > " else c!" <= "
        sThen (sThen (sThen (self node l mb) fun mb => self node a (mb.write lo)) fun mb => self node l (mb.write c!" AND "))
          fun mb => self node b (mb.write ro)
    | .pred l o =>
      match operation o with
      | none => some .panic
      | some op =>
        match entsqlOps.lookup op with
        | none => some (.err (.predOp op) mb)
        | some t => (self node l mb).map fun r => r.also (MB.write t)
    | .cmp l o r => binDeep (self node l mb) o fun mb => self node r mb
    | .logic l o r => binDeep (self node l mb) o fun mb => self node r mb
    | n => (valueDeep (d + 1) n).map fun v => match v with
      | none => .panic
      | some (.slice l) => .ok (((mb.write c!"(").put (Bld.argList l)).write c!")")
      | some v => .ok (mb.put (Bld.arg (if E.cast then .cast v else .plain v)))

end Verif

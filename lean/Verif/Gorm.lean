import Verif.Build
import Verif.Join

/-! # The gorm translator (/repo/gormq/miniquery.go) -/

namespace Verif

/-- The parts of gorm's `schema.Schema` that are read (/repo/gormq/miniquery.go:228-241): the key set of `FieldsByDBName`, the map
`FieldsByName` (to `DBName`), the slice `Fields` (pairs `Name`, `DBName`). -/
structure Table where
  byDB : Str → Bool
  byName : Str → Option Str
  fields : List (Str × Str)

/-- A schema with the map `Relationships.Relations`, each relation represented by its `FieldSchema` (/repo/gormq/miniquery.go:77-84). -/
structure GSchema where
  table : Table
  rel : Str → Option Table

/-- What the query builder is given from outside: the schema, `db.QuoteTo` (/repo/gormq/miniquery.go:61-63), `strings.EqualFold` (236). -/
structure GEnv where
  schema : GSchema
  quote : Str → Str
  fold : Str → Str → Bool

/-- `getDBName`, /repo/gormq/miniquery.go:228-241; `none` is the result `(name, false)`. -/
def getDBName (fold : Str → Str → Bool) (t : Table) (name : Str) : Option Str :=
  if t.byDB name then some name
  else match t.byName name with
    | some d => some d
    | none => (t.fields.find? fun f => fold f.1 name).map Prod.snd

/-- Errors of the translation; the message texts of /repo/gormq/miniquery.go:72, 79, 85, 116, 204, 223 are represented by constructors. -/
inductive GErr where
  | fieldNotFound (s : Str)
  | relationNotFound (s : Str)
  | relationFieldNotFound (s f : Str)
  | oneLevel
  | unsupported (f : Str)
  deriving DecidableEq, Repr

/-- The mutable variables of `WireMiniQuery`: `buf`, `vals`, `joined` (/repo/gormq/miniquery.go:58-60), and the calls of `db.Joins` (88).
Simplification: the map `joined` is the list of its appended pairs, in the order they were appended. -/
structure GSt where
  buf : Str := []
  vals : List GoVal := []
  joined : List (Str × Str) := []
  joins : List Str := []
  deriving DecidableEq, Repr

/-- Outcome of a visit; an error leaves the state as it was at that moment. -/
inductive GRes where
  | ok (st : GSt)
  | err (e : GErr) (st : GSt)
  | panic
  deriving DecidableEq, Repr

/-- `buf.WriteString`. -/
def GSt.write (st : GSt) (s : Str) : GSt := { st with buf := st.buf ++ s }

/-- `if err == nil { … }` -/
def GRes.andThen : GRes → (GSt → GRes) → GRes
  | .ok st, f => f st
  | r, _ => r

/-- Writing that happens whether or not there was an error (/repo/gormq/miniquery.go:169). -/
def GRes.alsoWrite : GRes → Str → GRes
  | .ok st, s => .ok (st.write s)
  | .err e st, s => .err e (st.write s)
  | .panic, _ => .panic

/-- The map `normalize`, /repo/gormq/miniquery.go:250-259. -/
def sqlNormalize : List (Str × Str) :=
  [(c!"gt", c!">"), (c!"gte", c!">="), (c!"eq", c!"="), (c!"neq", c!"<>"), (c!"lt", c!"<"), (c!"lte", c!"<="), (c!"and", c!"and"), (c!"or", c!"or")]

/-- `normalizeSQL`, /repo/gormq/miniquery.go:243-248 -/
def normalizeSQL (s : Str) : Str := match sqlNormalize.lookup s with | some v => v | none => s

/-- `visitIdentifier` with the closure `mapName`, /repo/gormq/miniquery.go:128-148, 69-75. -/
def gIdent (E : GEnv) (x : Str) (st : GSt) : GRes :=
  match getDBName E.fold E.schema.table x with
  | none => .err (.fieldNotFound x) st
  | some d => .ok (st.write (E.quote d))

/-- The closure `join`, /repo/gormq/miniquery.go:76-94, and the quoting of its result (122-124). -/
def gJoin (E : GEnv) (s f : Str) (st : GSt) : GRes :=
  match E.schema.rel s with
  | none => .err (.relationNotFound s) st
  | some t =>
    match getDBName E.fold t f with
    | none => .err (.relationFieldNotFound s f) st
    | some d =>
      let st1 := if st.joined.any (fun p => p.1 == s) then st else { st with joins := st.joins ++ [s] }
      let st2 := { st1 with joined := st1.joined ++ [(s, d)] }
      .ok (st2.write (E.quote (s ++ c!"." ++ d)))

/-- `visitReference`, /repo/gormq/miniquery.go:114-126 -/
def gRef (E : GEnv) : List Str → GSt → GRes
  | [s, f], st => gJoin E s f st
  | _, st => .err .oneLevel st

/-- The case of a value node, /repo/gormq/miniquery.go:158-161. -/
def gVal (n : Node) (st : GSt) : GRes :=
  match value n with
  | none => .panic
  | some v => .ok { st.write c!"?" with vals := st.vals ++ [v] }

mutual
/-- `visit`, /repo/gormq/miniquery.go:150-207; a nil node is a nil dereference.  The default case (204) does not occur, as every node type has
a case. -/
def gvisit (E : GEnv) : Node → GSt → GRes
  | .nil, _ => .panic
  | .op o, st => .ok (st.write (normalizeSQL o))
  | .int i, st => gVal (.int i) st
  | .bool b, st => gVal (.bool b) st
  | .str s, st => gVal (.str s) st
  | .null, st => gVal .null st
  | .arr l, st => gVal (.arr l) st
  | .ident x, st => gIdent E x st
  | .ref l, st => gRef E l st
  | .paren e, st => (gvisit E e (st.write c!"(")).alsoWrite c!")"
  | .not e, st => gvisit E e (st.write c!"not ")
  | .func f ps, st =>
    if f = c!"date" then (gvisitL E ps ((st.write f).write c!"(")).andThen fun st => .ok (st.write c!")") else .err (.unsupported f) st
  | .between l o a b, st =>
    (((gvisit E l st).andThen fun st => gvisit E o (st.write c!" ")).andThen fun st => gvisit E a (st.write c!" ")).andThen
      fun st => gvisit E b (st.write c!" and ")
  | .pred l o, st => (gvisit E l st).andThen fun st => gvisit E o (st.write c!" ")
  | .cmp l o r, st =>
    match r with
    | .nil => (gvisit E l st).andThen fun st => gvisit E o (st.write c!" ")
    | r => ((gvisit E l st).andThen fun st => gvisit E o (st.write c!" ")).andThen fun st => gvisit E r (st.write c!" ")
  | .logic l o r, st =>
    match r with
    | .nil => (gvisit E l st).andThen fun st => gvisit E o (st.write c!" ")
    | r => ((gvisit E l st).andThen fun st => gvisit E o (st.write c!" ")).andThen fun st => gvisit E r (st.write c!" ")
/-- The loop of `visitFunction`, /repo/gormq/miniquery.go:216-220. -/
def gvisitL (E : GEnv) : List Node → GSt → GRes
  | [], st => .ok st
  | n :: l, st => (gvisit E n st).andThen fun st => gvisitL E l st
end

/-- What `WireMiniQuery` records as error (/repo/gormq/miniquery.go:49, 55, 99). -/
inductive DbErr where
  | parse (e : Err)
  | schema
  | build (e : GErr)
  deriving DecidableEq, Repr

/-- The part of `*gorm.DB` that is written: errors added, relations joined, conditions added, in order.  Simplification: `Joins`, `Where`
and `AddError` only append (gorm copies the statement, which is not observable here). -/
structure Db where
  errors : List DbErr := []
  joins : List Str := []
  wheres : List (Str × List GoVal) := []
  deriving DecidableEq, Repr

/-- Outcome of `WireMiniQuery`. -/
inductive WRes where
  | ok (db : Db)
  | panic
  deriving DecidableEq, Repr

/-- `WireMiniQuery`, /repo/gormq/miniquery.go:43-104; `schema` is the result of `GetOrParseSchema` (22-34, 53), `none` an error.
A parser panic or divergence would be one here too. -/
def wire (schema : Option GSchema) (quote : Str → Str) (fold : Str → Str → Bool) (db : Db) (q : Str) : WRes :=
  if q = [] then .ok db
  else match parse q with
    | .panic => .panic
    | .div => .panic
    | .err e => .ok { db with errors := db.errors ++ [.parse e] }
    | .ok n =>
      match schema with
      | none => .ok { db with errors := db.errors ++ [.schema] }
      | some s =>
        match gvisit ⟨s, quote, fold⟩ n {} with
        | .panic => .panic
        | .err e st => .ok { db with joins := db.joins ++ st.joins, errors := db.errors ++ [.build e] }
        | .ok st => .ok { db with joins := db.joins ++ st.joins, wheres := db.wheres ++ [(st.buf, st.vals)] }

/-- `MiniQuery.Scope`, /repo/gormq/miniquery.go:18-20 -/
def scope (schema : Option GSchema) (quote : Str → Str) (fold : Str → Str → Bool) (db : Db) (qs : List Str) : WRes :=
  wire schema quote fold db (join qs)

/-- `db.Statement`, as far as `GetOrParseSchema` uses it: the field `Schema`, and the field `Model`, represented by the schema that `stat.Parse`
would find for it (`some none` if it would fail).  Simplification: a failing `Parse` leaves `Schema` nil. -/
structure Stmt where
  schema : Option GSchema := none
  model : Option (Option GSchema) := none

/-- Errors of `GetOrParseSchema`. -/
inductive SchemaErr where
  | missingModel
  | parse

/-- `GetOrParseSchema`, /repo/gormq/miniquery.go:22-34; returns also the statement, whose field `Schema` is set by `stat.Parse`. -/
def getOrParseSchema (st : Stmt) : Except SchemaErr GSchema × Stmt :=
  match st.schema with
  | some s => (.ok s, st)
  | none =>
    match st.model with
    | none => (.error .missingModel, st)
    | some none => (.error .parse, st)
    | some (some s) => (.ok s, { st with schema := some s })

/-- `WireMiniQuery` on a statement, /repo/gormq/miniquery.go:43-104: the schema is only looked for once the query has been parsed (45, 53). -/
def wireStmt (quote : Str → Str) (fold : Str → Str → Bool) (st : Stmt) (db : Db) (q : Str) : WRes × Stmt :=
  if q = [] then (.ok db, st)
  else match parse q with
    | .ok _ =>
      match getOrParseSchema st with
      | (.ok s, st') => (wire (some s) quote fold db q, st')
      | (.error _, st') => (wire none quote fold db q, st')
    | _ => (wire none quote fold db q, st)

/-- Several scopes `ApplyMiniQuery(q)` (/repo/gormq/miniquery.go:37-41) run one after another on a statement.  Simplification: gorm clones the
statement between scopes; the clone has the same fields. -/
def wireAll (quote : Str → Str) (fold : Str → Str → Bool) : Stmt → Db → List Str → WRes × Stmt
  | st, db, [] => (.ok db, st)
  | st, db, q :: qs =>
    match wireStmt quote fold st db q with
    | (.ok db', st') => wireAll quote fold st' db' qs
    | (.panic, st') => (.panic, st')

end Verif

import Verif.Mini.Mq
import Verif.Mini.GormProg
import Verif.Gorm

/-!
# The package gormq as a program

`gq` is the program made of the text of /repo/gormq/miniquery.go and of the types and constants of /repo/miniquery/node.go; `gqLib` is what the calls do that
leave the file: the functions of the package miniquery (run as the program `mq`), gorm, and the Go library.
-/

namespace Verif.Mini
open Verif

/-- What another package sees of the declarations of the package miniquery: its types and, with the name of the package, its constants. -/
def exported : List Decl → List Decl
  | [] => []
  | .val x e :: ds => .val (c!"miniquery." ++ x) e :: exported ds
  | .struct x fs :: ds => .struct x fs :: exported ds
  | .alias x t :: ds => .alias x t :: exported ds
  | _ :: ds => exported ds

/-- The package gormq. -/
def gq : Prog where
  decls := gormDecls ++ exported nodeDecls
  cells := [c!"strings.Builder"]

/-- A `schema.Schema`, as far as it is read: the maps `FieldsByDBName` and `FieldsByName`, the slice `Fields` (pairs `Name`, `DBName`). -/
structure FTable where
  db : List Str
  named : List (Str × Str)
  fields : List (Str × Str)

/-- The lookups of a schema. -/
def FTable.table (t : FTable) : Table where
  byDB s := t.db.contains s
  byName s := t.named.lookup s
  fields := t.fields

/-- A schema with its relations. -/
structure FSchema where
  table : FTable
  rels : List (Str × FTable)

/-- The lookups of a schema with its relations. -/
def FSchema.schema (s : FSchema) : GSchema where
  table := s.table.table
  rel x := (s.rels.lookup x).map FTable.table

/-- A `*schema.Field`. -/
def fieldVal (f : Str × Str) : Val := .obj c!"schema.Field" [(c!"Name", .str f.1), (c!"DBName", .str f.2)]

/-- The fields of a `*schema.Schema` without its relations. -/
def tableFields (t : FTable) : List (Str × Val) :=
  [(c!"FieldsByDBName", .map .nil (t.db.map fun k => (k, fieldVal (k, k)))),
   (c!"FieldsByName", .map .nil (t.named.map fun kv => (kv.1, fieldVal kv))),
   (c!"Fields", .slice (t.fields.map fieldVal))]

/-- The schema of a relation.  Relations of relations are not read. -/
def tableVal (t : FTable) : Val := .obj c!"schema.Schema" (tableFields t)

/-- A `*schema.Schema`. -/
def schemaVal (s : FSchema) : Val :=
  .obj c!"schema.Schema" (tableFields s.table ++
    [(c!"Relationships", .obj c!"schema.Relationships" [(c!"Relations", .map .nil (s.rels.map fun kv => (kv.1, .obj c!"schema.Relationship" [(c!"FieldSchema", tableVal kv.2)])))])])

/-- The error that a call of a library function makes. -/
def errCall (f fmt : Str) (args : List Val) : Val := .obj f [(c!"format", .str fmt), (c!"args", .slice args)]

/-- The errors of the translation. -/
def gErrVal : GErr → Val
  | .fieldNotFound s => errCall c!"fmt.Errorf" c!"field not found: %q" [.str s]
  | .relationNotFound s => errCall c!"fmt.Errorf" c!"relation not found: %q" [.str s]
  | .relationFieldNotFound s f => errCall c!"fmt.Errorf" c!"relation field not found: %q.%q" [.str s, .str f]
  | .oneLevel => errCall c!"errors.New" c!"only support join one level" []
  | .unsupported f => errCall c!"fmt.Errorf" c!"unsupported function: %q" [.str f]

/-- A text with its arguments, as given to `Where`. -/
def condVal (c : Str × List GoVal) : Val := .obj c!"condition" [(c!"text", .str c.1), (c!"args", .slice (goVals c.2))]

/-- A condition from its text and arguments. -/
def mkCond (s : Str) (vs : List Val) : Val := .obj c!"condition" [(c!"text", .str s), (c!"args", .slice vs)]

/-- A `gorm.DB`: whether `Joins` and `Where` work on a copy of it (the field `clone` of gorm), its statement, and what was added to it. -/
def mkDb (cl : Bool) (st : Val) (es js ws : List Val) : Val :=
  .obj c!"gorm.DB" [(c!"clone", .bool cl), (c!"Statement", st), (c!"errors", .slice es), (c!"joins", .slice js), (c!"wheres", .slice ws)]

/-- The parts of a `gorm.DB`. -/
structure DbParts where
  cl : Bool
  st : Val
  es : List Val
  js : List Val
  ws : List Val

/-- The parts of a value that is a `gorm.DB`. -/
def dbParts : Val → Option DbParts
  | .obj _ [(_, .bool cl), (_, st), (_, .slice es), (_, .slice js), (_, .slice ws)] => some ⟨cl, st, es, js, ws⟩
  | _ => none

/-- Changes a `gorm.DB`, or a copy of it. -/
def chain (h : Heap) (d : Nat) (cl : Bool) (v : Val) : Vals := if cl then .ok ([.ptr h.next], h.alloc v) else .ok ([.ptr d], h.put d v)

/-- A statement: its schema, and its model, represented by what `Parse` finds for it. -/
structure FStmt where
  schema : Option FSchema := none
  model : Option (Option FSchema) := none

/-- The statement of the model. -/
def FStmt.stmt (s : FStmt) : Verif.Stmt := ⟨s.schema.map FSchema.schema, s.model.map fun m => m.map FSchema.schema⟩

/-- A schema or nil. -/
def schemaOrNil : Option FSchema → Val
  | none => .nil
  | some s => schemaVal s

/-- A model or nil. -/
def modelVal : Option (Option FSchema) → Val
  | none => .nil
  | some none => .obj c!"model" []
  | some (some s) => .obj c!"model" [(c!"schema", schemaVal s)]

/-- A `gorm.Statement`. -/
def stmtVal (s : FStmt) : Val := .obj c!"gorm.Statement" [(c!"Schema", schemaOrNil s.schema), (c!"Model", modelVal s.model)]

/-- gorm, the Go library, and the package miniquery.  `Q` is `strconv.IsPrint`, `N` a bound on the depth of calls in the package miniquery, `fold` is
`strings.EqualFold`, `quote` what `QuoteTo` writes.  `AddError` changes the `DB` it is called on; so do `Joins` and `Where`, or they return a changed copy, for which they do not
copy again (gorm's `getInstance`).  Simplification: the copy shares the statement.  `Parse` of a statement finds the schema that the model value carries, or
fails. -/
def gqLib (Q : Char → Bool) (N : Nat) (fold : Str → Str → Bool) (quote : Str → Str) : Lib := fun x args h =>
  if x = c!"miniquery.Parse" then call mq (mqLib Q) N (.fn c!"Parse") args h
  else if x = c!"miniquery.Join" then call mq (mqLib Q) N (.fn c!"Join") args h
  else if x = c!"Node.Value" then match args with | v :: args => call mq (mqLib Q) N (.meth v c!"Value") args h | _ => .stuck
  else if x = c!"fmt.Errorf" then match args with | .str f :: args => .ok ([errCall x f args], h) | _ => .stuck
  else if x = c!"errors.New" then match args with | .str f :: args => .ok ([errCall x f args], h) | _ => .stuck
  else if x = c!"errors.Errorf" then match args with | .str f :: args => .ok ([errCall x f args], h) | _ => .stuck
  else if x = c!"strings.EqualFold" then match args with | [.str a, .str b] => yes (fold a b) h | _ => .stuck
  else if x = c!"gorm.DB.AddError" then
    match args with
    | [.ptr d, e] => match dbParts (h.mem d) with | some p => .ok ([e], h.put d (mkDb p.cl p.st (p.es ++ [e]) p.js p.ws)) | none => .stuck
    | _ => .stuck
  else if x = c!"gorm.DB.Joins" then
    match args with
    | [.ptr d, .str s] => match dbParts (h.mem d) with | some p => chain h d p.cl (mkDb false p.st p.es (p.js ++ [.str s]) p.ws) | none => .stuck
    | _ => .stuck
  else if x = c!"gorm.DB.Where" then
    match args with
    | .ptr d :: .str s :: vs => match dbParts (h.mem d) with | some p => chain h d p.cl (mkDb false p.st p.es p.js (p.ws ++ [mkCond s vs])) | none => .stuck
    | _ => .stuck
  else if x = c!"gorm.DB.QuoteTo" then
    match args with
    | [_, .ptr a, .str s] => .ok ([], h.put a (bufVal (bufText h a ++ quote s)))
    | _ => .stuck
  else if x = c!"gorm.Statement.Parse" then
    match args with
    | [.ptr b, .obj _ [(_, s)]] => .ok ([.nil], h.put b (.obj c!"gorm.Statement" [(c!"Schema", s), (c!"Model", .obj c!"model" [(c!"schema", s)])]))
    | [.ptr _, .obj _ []] => .ok ([errCall x c!"unsupported data type" []], h)
    | _ => .stuck
  else if x = c!"strings.Builder.WriteString" ∨ x = c!"strings.Builder.WriteRune" ∨ x = c!"strings.Builder.String" then mqLib Q x args h
  else .stuck

end Verif.Mini

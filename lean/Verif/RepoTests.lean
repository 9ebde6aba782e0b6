import Verif.Ast
import Verif.Build
import Verif.Join
import Verif.Gorm
import Verif.EntQL
import Verif.EntSQL

/-!
# The model against the repository's own tests

No property is proved here.  Every expectation of the test files of /repo that concerns modelled code is evaluated in the model, so that a model
that differs from the code in one of these cases does not build.
-/

namespace Verif.RepoTests

/-- A stand-in for `strconv.IsPrint`: the printable ASCII characters. -/
def ascii (c : Char) : Bool := 32 ≤ c.toNat && c.toNat ≤ 126

/-! ## /repo/miniquery/parser_test.go -/

/-- `TestParseFunc`, lines 12-16 -/
example : parse c!"1" = .ok (.int 1) ∧ value (.int 1) = some (.int 1) := by decide +kernel

/-- What the loop of `TestParsing` asserts of a query (lines 80-99): it is accepted, no error is recorded, nothing but the returned node was on the
stack, and the text that `Build` prints for it is accepted. -/
def roundTrips (s : Str) : Bool :=
  match Peg.query {} s with
  | (.ok n, p) =>
    p.tree.errors = [] && p.tree.stack.length = 0 &&
      match build ascii n with
      | some t => match parse t with | .ok _ => true | _ => false
      | none => false
  | _ => false

/-- `TestRareCase`, lines 18-37 -/
example : roundTrips c!"a in (1)" = true ∧
    (match parse c!"a in (1)" with | .ok n => build ascii n | _ => none) = some c!"a in [1]" := by decide +kernel

/-! `TestParsing`, lines 39-79 -/

example : roundTrips c!"1=1 and a >= 1" = true := by decide +kernel
example : roundTrips c!"1=1 AND a >= 1" = true := by decide +kernel
example : roundTrips c!" ( a like '%hello%' ) " = true := by decide +kernel
example : roundTrips c!"1=1 or 1=2 or 1=3 " = true := by decide +kernel
example : roundTrips c!"(1=1) or( 1=2 )or( 1=3)or(1=3 ) " = true := by decide +kernel
example : roundTrips c!"a=b or a=0" = true := by decide +kernel
example : roundTrips c!"a is  not    null" = true := by decide +kernel
example : roundTrips c!"a is      null and a = true" = true := by decide +kernel
example : roundTrips c!"1 in [0,1,2,3,4] and b >= 2 or c not in []" = true := by decide +kernel
example : roundTrips c!"1 in [ 0 , 1 , 2 , 3 , 4 ]" = true := by decide +kernel
example : roundTrips c!"a in (\"a\", \"b\"  ,\"c\")" = true := by decide +kernel
example : roundTrips c!"a in (1)" = true := by decide +kernel
example : roundTrips c!"a between 12 and 15 or b not between 67 and 78" = true := by decide +kernel
example : roundTrips c!"not true" = true := by decide +kernel
example : roundTrips c!"not true or not 1 > 2" = true := by decide +kernel
example : roundTrips c!"a is  true and b is  not false" = true := by decide +kernel
example : roundTrips c!"owned = true" = true := by decide +kernel
example : roundTrips c!"a between 1 and 2" = true := by decide +kernel
example : roundTrips c!"a between [1,2]" = true := by decide +kernel
example : roundTrips c!"a()" = true := by decide +kernel
example : roundTrips c!"func(123)" = true := by decide +kernel
example : roundTrips c!"func(1,2,3,4,5,)" = true := by decide +kernel
example : roundTrips c!"func(0,true,false,null,'a',\"bc\")" = true := by decide +kernel
example : roundTrips c!"func(['a',1,3])" = true := by decide +kernel
example : roundTrips c!"date(a) = func(123)" = true := by decide +kernel
example : roundTrips c!"null == NULL" = true := by decide +kernel
example : roundTrips c!"func(a)" = true := by decide +kernel
example : roundTrips c!"func(a,b)" = true := by decide +kernel
example : roundTrips c!"func( a , b )" = true := by decide +kernel
example : roundTrips c!"func(a,name==1)" = true := by decide +kernel
example : roundTrips c!"func( a, name == 1 )" = true := by decide +kernel
example : roundTrips c!"func( a, name in (1,2,3) )" = true := by decide +kernel
example : roundTrips c!"func( a, name in ('a','b') )" = true := by decide +kernel
example : roundTrips c!"date('2021-05-12T00:00:00+08:00')" = true := by decide +kernel
example : roundTrips c!"profile.age > 10" = true := by decide +kernel

/-- `TestParse`, lines 103-115 -/
example : (match (Peg.query {} c!"a > 1 and  (  b != 2 or name like '%wener%') or ( age == 0 )").1 with | .ok _ => true | _ => false) = true := by
  decide +kernel

/-! ## /repo/miniquery/join_test.go -/

/-- `TestJoin`, lines 9-13 -/
example : join [] = c!"" ∧ join [c!"1=1"] = c!"1=1" ∧ join [c!"1=1", c!"2=2"] = c!"(1=1) and (2=2)" := by decide +kernel

/-! ## /repo/entmq/entql_test.go -/

mutual
/-- How package entql prints a value (as JSON), as far as the tests need it. -/
def valText : GoVal → Str
  | .nil => c!"null"
  | .int i => fmtInt i
  | .bool b => if b then c!"true" else c!"false"
  | .str s => quote ascii s
  | .slice l => c!"[" ++ valTexts l ++ c!"]"
/-- The elements of a slice. -/
def valTexts : List GoVal → Str
  | [] => []
  | [v] => valText v
  | v :: w :: l => valText v ++ c!"," ++ valTexts (w :: l)
end

/-- How package entql prints an operator. -/
def opText : EOp → Str
  | .and => c!"&&" | .or => c!"||" | .not => c!"!" | .eq => c!"==" | .neq => c!"!=" | .gt => c!">" | .gte => c!">=" | .lt => c!"<" | .lte => c!"<="
  | .in_ => c!"in" | .notIn => c!"not in"

/-- How package entql prints an expression. -/
def exprText : EExpr → Str
  | .val v => valText v
  | .field x => x
  | .un o x => opText o ++ c!"(" ++ exprText x ++ c!")"
  | .bin o x y => exprText x ++ c!" " ++ opText o ++ c!" " ++ exprText y

/-- `TestQLBuilder`, lines 51-69 -/
example : ∀ t ∈ [
    (c!"a>10", c!"a > 10"),
    (c!"a between 1 and 3", c!"a >= 1 && a <= 3"),
    (c!"a not between 1 and 3", c!"a < 1 && a > 3"),
    (c!"true and false", c!"true && false"),
    (c!"a in [1 , 2 , 3]", c!"a in [1,2,3]")],
    (match (eBuild t.1 []).1 with | .pred p => some (exprText p) | _ => none) = some t.2 := by decide +kernel

/-! ## /repo/entmq/entsql_test.go -/

/-- `xstrings.ToSnakeCase` for the names that occur in the tests. -/
def snake (x : Str) : Str :=
  if x = c!"ID" then c!"id" else if x = c!"activityType" then c!"activity_type" else x

/-- The surroundings of the tests: postgres quotes, no schema, `DisableTypeCasting`. -/
def testEnv : SEnv := { ident := fun _ x => c!"\"" ++ snake x ++ c!"\"", edges := fun _ => [], cast := false }

/-- What a test of `TestEntSQL` asserts of a query: the text, the arguments, no error. -/
def answers (q e : Str) (args : List GoVal) : Prop :=
  (match sQuery testEnv { query := q, mb := { own := { dialect := c!"postgres" } } } with
    | (.ret t a, b) => some (t, a.map SArg.bound, b.failed)
    | _ => none) = some (e, args, false)

instance (q e : Str) (args : List GoVal) : Decidable (answers q e args) := by unfold answers; infer_instance

/-! `TestEntSQL`, lines 12-41 -/

example : answers c!"1=1" c!"$1 = $2" [.int 1, .int 1] := by decide +kernel
example : answers c!"b < 0 and (a>0 and a > 10)" c!"\"b\" < $1 AND (\"a\" > $2 AND \"a\" > $3)" [.int 0, .int 0, .int 10] := by decide +kernel
example : answers c!"a not between 1 and 3" c!"\"a\" < $1 AND \"a\" > $2" [.int 1, .int 3] := by decide +kernel
example : answers c!"a between 1 and 3" c!"\"a\" >= $1 AND \"a\" <= $2" [.int 1, .int 3] := by decide +kernel
example : answers c!"a not like   \"%A%\"" c!"\"a\" NOT LIKE $1" [.str c!"%A%"] := by decide +kernel
example : answers c!"a > 1" c!"\"a\" > $1" [.int 1] := by decide +kernel
example : answers c!"a is   null" c!"\"a\" IS NULL" [] := by decide +kernel
example : answers c!"a is   null and b is  not  null" c!"\"a\" IS NULL AND \"b\" IS NOT NULL" [] := by decide +kernel
example : answers c!"a in [1,2,3]" c!"\"a\" IN ($1, $2, $3)" [.int 1, .int 2, .int 3] := by decide +kernel
example : answers c!"ID is   null" c!"\"id\" IS NULL" [] := by decide +kernel
example : answers c!"(activityType in ('PhoneCall'))" c!"(\"activity_type\" IN ($1))" [.str c!"PhoneCall"] := by decide +kernel
example : answers c!"date(\"2019-01-01 12:12\")" c!"DATE($1)" [.str c!"2019-01-01 12:12"] := by decide +kernel
example : answers c!"date(a)" c!"DATE(\"a\")" [] := by decide +kernel

/-! ## /repo/gormq/miniquery_test.go -/

/-- `strings.EqualFold` on ASCII names. -/
def foldEq (x y : Str) : Bool := goLower x == goLower y

/-- The columns gorm derives for the fields of a table. -/
def table (cols : List (Str × Str)) : Table where
  byDB x := cols.any fun p => p.2 == x
  byName x := cols.lookup x
  fields := cols

/-- The schema of `User`, lines 91-106; the field `Profile` has no column. -/
def user : GSchema where
  table := table [(c!"ID", c!"id"), (c!"CreatedAt", c!"created_at"), (c!"UpdatedAt", c!"updated_at"), (c!"Username", c!"username"),
    (c!"FullName", c!"full_name"), (c!"ProfileID", c!"profile_id"), (c!"Profile", c!"")]
  rel x := if x = c!"Profile" then some (table [(c!"ID", c!"id"), (c!"CreatedAt", c!"created_at"), (c!"UpdatedAt", c!"updated_at"), (c!"Age", c!"age")])
    else none

/-- `QuoteTo` of the sqlite dialect: backquotes around each part of a dotted name. -/
def backquote (x : Str) : Str := c!"`" ++ x.flatMap (fun c => if c = '.' then c!"`.`" else [c]) ++ c!"`"

/-- `TestQueryBuild`, lines 35-82: queries with the expected condition and values. -/
example : ∀ t ∈ ([
    (c!"Profile.AGE > 1", c!"`Profile`.`age` > ?", [.int 1]),
    (c!"Username = 'wener' and fullName is not null", c!"`username` = ? and `full_name` is not null", [.str c!"wener"]),
    (c!"2021 = date(CreatedAt)", c!"? = date(`created_at`)", [.int 2021])] : List (Str × Str × List GoVal)),
    (match scope (some user) backquote foldEq {} [t.1] with | .ok db => some (db.errors, db.wheres) | _ => none) =
      some ([], [(t.2.1, t.2.2)]) := by decide +kernel

/-- The queries of `TestQueryBuild` that are only expected to be accepted, and the first query of the test. -/
example : ∀ q ∈ [c!"1=1", c!"2021 > 0", c!"1=2", c!"2021 between 1 and 2"],
    (match scope (some user) backquote foldEq {} [q] with | .ok db => decide (db.errors = []) && db.wheres.length == 1 | _ => false) = true := by decide +kernel

/-- The query of `TestQueryBuild` that is expected to be rejected. -/
example : (match scope (some user) backquote foldEq {} [c!"2021 between 1 and"] with | .ok db => db.errors.length == 1 && db.wheres.length == 0 | _ => false) = true := by
  decide +kernel

/-- The query of /repo/README.md:28-29 (the alias `Profile__age` of its comment is not what the code writes, see lines 46-48 of the test). -/
example : (match scope (some user) backquote foldEq {} [c!"username=\"wener\" && Profile.age > 18"] with
    | .ok db => some (db.errors, db.joins, db.wheres)
    | _ => none) = some ([], [c!"Profile"], [(c!"`username` = ? and `Profile`.`age` > ?", [.str c!"wener", .int 18])]) := by decide +kernel

end Verif.RepoTests

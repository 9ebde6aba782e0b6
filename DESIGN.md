# Formal model of wenerme/go-miniquery in Lean 4

The properties are in `properties.jsonl` (C01 …). `MANIFEST.json` says which theorems stand for which property. Theorem names begin with
the property; `_partial` means that part of the statement is missing (the doc comment says what), `_refuted` means that the code
violates the statement and the theorem exhibits the violation.

## Trusted base

* **Lean 4.33.0's kernel**, and its three standard axioms `propext`, `Classical.choice`, `Quot.sound`. No other axiom, no `sorry`,
  no `native_decide`, no `bv_decide`, no `implemented_by`, no `unsafe`. The axioms of every theorem of the manifest are listed at the end.
  Concrete evaluations use `decide +kernel` or `rfl`: they are done by the kernel.
* **The reading of the Go source.** There is no mechanical link between /repo and the model. Each definition of the model cites the file and
  lines it transcribes, and says what it simplifies. The grammar is read twice, once from `miniquery.peg` (`Spec/PegFile`; `C54_text` checks it against the text of the file, which `PegText` contains) and
  once from the generated Go functions (`Grammar`); C54 proves that the two readings agree, so a slip in one of them would show. C77 proves the second reading correct against the
  text of the Go functions, which `GoCode` contains line by line; what is trusted there is the notation (`Go`) and the machine (`GoRun`).
* **The specifications** (`Spec/*`), which say what the properties mean. They do not mention the model's functions.
* **Code outside the repository.** Where a property depends on it, it is a parameter of the theorem with the assumption spelled out, or a definition:
  * Go library, as definitions: `strings.ToLower/ToUpper/TrimSpace/Join`, the class `\s` of `regexp`, `strconv.Atoi` (64 bit), `strconv.ParseBool`,
    `fmt` with `%q` and `%v` for the value types that occur. `strconv.IsPrint` is a parameter (`P`).
    `ToLower` beyond ASCII (reachable only in comments inside operators) is an `opaque` constant (`unicodeLower`) of an inhabited structure type: the
    theorems use only the fields of that structure. This is not an axiom: the type has an element (the identity), and the kernel checks it.
  * gorm, as parameters: the schema (`GSchema`: columns, fields, relations), `QuoteTo` (`quote`), `strings.EqualFold` (`fold`).
    `Where`, `Joins`, `AddError` add to a statement (`Db`). `Statement.Parse` sets the schema or fails (`GStmt`).
  * ent, as definitions: `sql.Builder` with `WriteString`, `Arg`, `Args`, `WriteOp`, `Pad`, `Join`, `AddError`, `Total` numbering. They are written
    from the documented behaviour, the source of ent is not in the sandbox. As parameters: `Ident` with `ToSnakeCase` (`E.ident`),
    the text around an edge condition (`E.edges`), whether errors of an edge condition reach the outer builder (`E.surf`).
    `entql` constructors are the data type `QE`.

## What is modelled

| Go | Lean |
|----|------|
| miniquery.peg (all rules and actions) | `Spec/PegFile.grammarFile` |
| miniquery.peg.go: 32 rule functions, `add`, `Add`, `matchDot`, backtracking on position, token index and token array, `max` | `Grammar.G` run by `Peg.exec` |
| miniquery.peg: the text of the file | `PegText` (the text, and a reader of its notation); `C54_text` proves that `Spec/PegFile.grammarFile` is what it says |
| miniquery.peg.go: the text of all rule and action functions, `_rules`, the `pegRule` constants, the cases of `Execute` | `GoCode` (the text, read by the notation of `Go`), run by `GoRun.Runs`; C77 proves that `Grammar.G` run by `Peg.exec` does the same |
| miniquery.peg.go: the `uint32` counters | `Word32` (`parse32`); C67 relates it to `parse`, which counts without bound |
| miniquery.peg.go: `Init`, `reset`, `parse`, `Execute` with all 30 actions | `Parse` (`initSt`, `runEvs`, `parse`), `Ast` (`pegParse`, `Peg.query`) for reused objects |
| miniquery.peg.go: `Tokens`, `Trim`, `AST`, `print`, `PrintSyntaxTree`, `PrettyPrintSyntaxTree`, `WriteSyntaxTree`, `SprintSyntaxTree`, `token32.String`, `tokens32.Print`, `rul3s`, `Pretty` | `Ast`, `Msg` |
| Go runtime: `[]rune(string)`, `string([]rune)` as used by miniquery.peg.go:175, 367, 465 | `Utf8`, `Props/Bytes.parseBytes` |
| miniquery.peg.go: `translatePositions`, `parseError.Error` | `ErrPos`, `Msg` (text) |
| tree.go: every method but `AddFloat`; `NormalizeOperation` | `Node` |
| node.go: `Node`, `Value`, `IsValue`, `IsExpression`, `String`, `Build`, `buildValue`, `printPretty` | `Node`, `Build` |
| parse.go, join.go, visitor.go: everything | `Parse`, `Join`, `Visitor` |
| gormq/miniquery.go: everything | `Gorm`, `GormMsg`, `ErrText` (texts of errors) |
| entmq/entql.go: everything | `EntQL`, `ErrText` |
| entmq/entsql.go, entsql_util.go: everything | `EntSQL`, `ErrText` |

Errors are values; their texts are given by functions (`Msg`, `GormMsg`, `ErrText`). Panics (nil dereference, index or slice out of range, failed type assertion) and divergence are
explicit outcomes.

## What is not modelled

* Outside `Utf8` (C58) a query is its list of runes (`[]rune(Buffer)`); `Utf8` models the conversions between bytes and runes.
* The size of stack frames and the garbage collector; stack overflow is modelled as a limit on nested calls, of rule functions for `Parse` (`Deep`) and of the function that walks through the tree for printing and translating (`Stack`). Nodes and lists are values, except in `Heap`, where `tree.go` works on memory with pointers and shared arrays; `Names`, `Errors`, `marks` and strings are values there too.
* `AddFloat` (called by nothing); C92 runs its text for any function in place of `strconv.ParseFloat`.
* Capacities of slices: a slice expression panics beyond the length (in Go: beyond the capacity). This matters only for the message of an error, or the syntax tree of tokens, that is kept until its parser object has a shorter query (C49, C50, C87).
* The name of the rule in the text of a syntax error before any token was recorded (`Unknown`).
* The error `invalid function exp` (tree.go:84, 94, never returned by `Parse`), how gorm and ent join several errors, the log message at entql.go:58-60, the test files, what gorm, ent and the databases do with the conditions beyond what is listed above.

## Layers

1. `Chars`, `Peg`, `PegThms`, `PegExec`: parsing expressions with three semantics: the machine with mutable state as generated (`exec`),
   a function (`denote`), a big-step relation (`Big`); refinement between them; termination by an analysis of which rules can succeed
   without consuming input.
2. `Grammar`, `Node`, `Parse`, `Eff`, `ParseThms`: rules, actions, stack effects (no action panics, one node remains).
3. `Spec/Lang` (ambiguous declarative grammar) with `Sound`, `Sound2`, `Soundness`: what is accepted reads as its tree.
   `Spec/Spaced` (clear spellings) with `First`, `Fwd`–`Fwd6`, `Range`, `Complete`: what is clearly spelled is accepted as it reads.
   `Ext`, `Chain`: a bracket analysis of the grammar, for `Join`. `Spec/PegFile`, `PegFileThms`: the grammar file.
   `Steps` (a step counter beside `exec`, and its relation `Run`), `StepsLin` (which rules take linear time), `StepsBound`, `StepsChain`,
   `StepsTree`, `StepsHead`, `StepsLocal`, `StepsTails`, `StepsPrim`, `StepsLinear`: how much work the recogniser does. A step is one construct of the generated code; appending a token counts as one step.
4. `Build`, `BuildThms`, `Spec/Print`, `Spec/Values`, `Visitor`, `Join`, `Ast`, `Tokens`, `ErrPos`, `Trace`, `Msg`, `MsgThms`, `Utf8`, `Pieces`, `Trail`, `RoundTrip`, `PlainAll`, `NoComment`, `Spec/Template`, `Template`, `Guard`, `Spec/Deriv`, `DerivThms`, `Spec/Inert`, `InertThms`, `Spec/Layout`, `LayoutThms`, `Spec/Size`, `SizeThms`, `SizeGorm`, `SizeEnt`, `Spec/Leaves`, `LeafThms`, `Heap`, `Spec/Heap`, `HeapThms`, `Spec/Memory`, `MemoryThms`, `Deep`, `Spec/Deep`, `DeepThms`, `Stack`, `Spec/Stack`, `StackThms`, `Spec/Faults`, `GormMsg`, `ErrText`, `Word32`, `Word32Thms`: printing, bytes, provenance, visiting, tokens, error positions.
5. `Gorm`, `EntQL`, `EntSQL` with `*Thms`: the translators. `Spec/Emit`, `Spec/Names`, `Spec/EntQL`, `Spec/EntSQL`: what they may take from a tree.
6. `Spec/Meaning` (meaning of a tree under any interpretation), `Spec/Sql` (an SQL reader: characters, words, bound parameters, expression with SQL's
   precedences), `Spec/Group`, `SqlGrammar`, `SqlThms`, `GormSqlThms`, `EntSQLRead`: the conditions, read as SQL, mean the tree.
7. `Mini/*`: a language like Go (`Ast`), a reader for it (`Read`), an interpreter (`Eval`: local variables, variables shared by function literals, memory, panics, a bound on
   the depth of calls), the text of the files (`Text`, copied line by line), what the text says (`*Prog`, checked in `Texts` by running the reader in the kernel), the library (`Mq`), and
   for each function a theorem that running it gives what the model of layers 2 and 4 says (`TreeRun` … `BuildTop`; `VisitorRun`, `VisitorInit`; `GormRun` … `GormDone` for gormq, on top of `Gq`, its library; `EqVisit`, `EqTop` for entql.go, on top of `Eq`; `SqRun` … `SqTop` for entsql.go and entsql_util.go, on top of `Sq`). Trusted there: that `Eval` is what Go does with the
   constructs that occur, and `mqLib`, `gqLib`, `eqLib` and `sqLib` what the library, gorm, entql and ent's SQL builder do. A struct that no file changes after its creation is a value; `Tree`, `MiniQueryPeg` and `strings.Builder` live in memory.
8. `Gen/*`: a second language, reader and interpreter, for the support code of miniquery.peg.go (closures, slices in memory, pointers into structs); `Lib` (what it calls), `*Run` (runs of its functions), `Session` (programs that use a parser object).
9. `Props/*`: the property theorems, each with a concrete case.

## Plan per property

| id | model | proof |
|----|-------|-------|
| C01 | exec + Execute + Parse with explicit panic/divergence outcomes | PEG well-foundedness analysis (nullability, rank), refinement exec->denote, stack-effect invariant |
| C02 | Node with explicit nil | stack-effect invariant: every popped slot is filled |
| C03 | token array of exec | refinement: executed events = events of the successful derivation |
| C04 | independent scanner (quotes, comments, bracket depth) | static bracket analysis of the grammar, induction over derivations |
| C05 | WF predicate on Node | inversion of derivations, induction on length |
| C06 | Build, Parse | forward derivations with follow sets, induction on trees |
| C07 | Build, Parse | false in general (escapes, nested function names, comments in operators): witnesses + partial via C05+C06; without `->` exact characterisation by counting backslashes and calls |
| C08 | Atoi model | forward derivation for digit strings |
| C09 | AddString | forward derivation |
| C10 | NormalizeOperation | induction over blanks / letter cases |
| C11 | Compare rule | false for gte, lte, <>: general refutation; positive theorem for the others |
| C12 | LogicExpression/CompareExpression | chain theorem by induction on the chain |
| C13 | `_` rule | derivation surgery in front; behind, induction on derivations with a static analysis of what can follow the end of the text (`Trail`) |
| C14 | Identifier/Literal | false: general refutation for every suffix |
| C15 | Join | right-extension theorem for the recogniser via bracket analysis |
| C16 | Join | false: witness; partial = C15 |
| C17 | JsonReference | false: general refutation; partial for queries without arrow |
| C18-C26 | gorm visitor over a small writer monad | induction on trees; C24-C26 have refutations |
| C27-C34 | entsql visitor + ent Builder model | induction on trees; C30-C33 have refutations |
| C35-C39 | entql visitor with explicit stack and panics | induction on trees; C36-C38 have refutations |
| C40 | FormatParam | case analysis over an infinite value type |
| C41-C42 | Visitor, String | refutations + characterisation |
| C43 | all three translators | all mean the regrouped tree; witnesses of disagreement |
| C44 | translatePositions, max token, parseError.Error | induction over the buffer; trace of all tokens ever added; read-back of the message |
| C45 | Value | induction |
| C46 | getDBName | case analysis over all schemas |
| C47 | entsql writer | induction on trees: every piece written is one of a fixed list |
| C48 | recogniser | forward derivations for every spelling of `Spec/Spaced` |
| C49 | AST over the token array | tokens of a derivation form a forest; induction over derivations |
| C50 | parser object with left-over state | machine run is independent of the old token array; history induction |
| C51-C53 | WireMiniQuery on statements, Scope | C15 + C20-C25; induction over the list of queries |
| C54 | grammar file with Ford's semantics | pointwise implementation relation, induction on input length and rule rank |
| C55 | WireMiniQuery | induction on trees over partial runs |
| C56 | recogniser, step counter | cost relation, static linear-cost analysis, amortised bound with a potential per character, induction on length |
| C57 | print, token32.String | prefix-free codes: quoted runes, names, indentation; injectivity of preorder with depths |
| C58 | decoderune, encoderune, Execute | RFC 3629 table as specification; invariant of the operand stack over all actions |
| C59 | PrimaryExpression, ArgumentList | completeness with holes (`Template`); inversion of matches in front of a closing parenthesis, each operand matches or the chain gets stuck (`Guard`) |
| C60 | Execute, Atoi, ParseBool, PopFunction | rule induction on derivations: each rule records exactly the errors of its Integer tokens |
| C61 | rule functions, Add | the machine writes the tokens of a derivation (`Spec/Deriv`); derivations are unique |
| C62 | rule functions, Execute | two runs in lock step on texts that differ in one quoted value; a static check that every rule keeps to the lexical modes |
| C63 | rule functions, Execute, AddOperation | two runs in lock step on texts with different blanks; operator names do not depend on the blanks in them |
| C64 | rule functions, Execute, AddOperation | the same lock step with comments; witness of a comment inside an operator |
| C65 | rule functions, Execute, tree.go, gormq visit | static cost of the grammar, induction over trees |
| C66 | entsql and entql visit | induction over trees; a family of nested ranges as witness |
| C67 | 32-bit counters | lock step of two recognisers, invariant: tokens ≤ 8 · position + a static bound per rule |
| C68 | tree.go, Execute on memory | the list program simulated on a heap of blocks; a separation invariant kept by every operation |
| C69 | gormq visit, error texts | rule induction on trees: the visit stops at the first use that does not resolve |
| C70 | entsql and entql visit | induction over trees; an independent relation says which parts are reached and which have no translation |
| C71 | tree.go, Execute on memory | amortised bound: each node pays for its place on the stack, its copies, and the moves of the stack |
| C72 | rule functions with bounded call depth | potential: rank of the rule + 10 per parenthesis open or still to be nested + arrows; static check of all calls against the analysis `ana`; lower bound by the chain of first calls |
| C73 | texts of the errors of Parse, gormq and entmq | characters of quoted texts; prefixes without quotation marks make texts readable |
| C74 | two runs of the grammar on texts that differ in the kind of quotes | the relation of C63 with two quotation marks |
| C75 | two runs of the grammar on texts that differ in the case of letters | lock step of the runs; static check that every literal of the grammar is known in both cases or is a fixed keyword |
| C76 | characters read by the rules | static check of the grammar: characters it tests for; places between the pieces of a text |
| C77 | the Go text itself, run by a machine with gotos | a checker finds the compiled shape of each expression in each function; soundness of the shapes by induction; determinism of the machine |
| C78 | the walking functions with bounded call depth | one relation between limited and unlimited runs (enough, same, needed) that sequencing preserves; induction on the room |
| C79 | printed text | a recoding of strings that can be done on text and on trees turns every printed text into one that C06 covers; refuted for nested calls, comments in operators, `->` |
| C80 | replaced parts | the grammar file run on both texts at once: a type of every rule (what is due before and after it) is checked once, the simulation follows from it |
| C81 | text of the files, interpreter | symbolic execution of each function by rewriting; loops as folds; recursion by induction on the depth of the tree |
| C82 | visitor.go, interpreter of C81 | symbolic execution; the six tests of Init as one step lemma |
| C83 | gormq/miniquery.go, interpreter of C81 | symbolic execution; visit by induction on trees, for any callbacks that behave like the ones of WireMiniQuery; then the closures of WireMiniQuery, with an invariant on memory |
| C84 | entmq/entql.go, interpreter of C81 | symbolic execution; visit by induction on trees, the stack of the builder being the stack of the model; ApplyEntQL by induction on the list of queries |
| C85 | entmq/entsql.go and entsql_util.go, interpreter of C81 | symbolic execution, one theorem per clause of visit and one per statement of has_edge; visit by induction on the depth of trees, for all builders at once, since an edge condition is visited by another builder; memory split into the builders and the rest |
| C86 | all texts, interpreter of C81 | theorems of C81 to C85 composed with C05, C06, C15, C18, C20 to C25, C32, C35 to C37, C48; trees, values and predicates are determined by the values of the interpreter that represent them (injectivity by induction) |
| C87 | the support code of miniquery.peg.go, interpreter of `Gen` | symbolic execution statement by statement; an invariant that relates memory to the state of the recogniser and keeps arrays and errors; nodes of syntax trees in intervals of addresses, the loops of AST and print by induction on tokens; induction on the sequence of calls |
| C88 | the texts of C81 and C87 | composition of C81, C87, C50, C60 and C44 |
| C89 | the text of C87, rule functions by number | the invariant of C87 with any rule to start with; the recogniser agrees with the declarative semantics for every rule |
| C90 | the text of C87, with assignments to the field Pretty between calls | the invariant of C87 keeps under the assignment; what the model does to its state does not depend on Pretty |
| C91 | the text of C87, each assignment and call a step of its own | an invariant between steps that holds the variables of the recogniser; refinement of the recogniser from any position by the declarative semantics |
| C92 | tree.go, interpreter of C81, each exported method but AddFloat a call of its own; AddFloat over any function in place of strconv.ParseFloat | one run lemma per method on any tree; induction on the sequence of calls; mutual induction on nodes and lists of nodes for postorder |
| C93 | tree.go and Execute, interpreter of C81; Init and Parse of the object as library functions, also on a used object | what the actions of a query do in every context (Eff); induction on the list of queries |

## Where the code violates the expected property

Each item is a theorem named `…_refuted` (or a characterisation that implies it).

* Parser: `<>`, `gte`, `lte` are never recognised (C11). Names beginning with `not`, `null`, `true`, `false` are unusable (C14). `x -> y` keeps only
  the last name and leaves operands on the stack (C17). `between [a, b] and c` is read as the other form of range (C48).
  Bytes that are not UTF-8 are stored as U+FFFD (C58). `BETWEEN`, `IS NULL`, `is NOT null` are rejected and `True` is a name, although `AND` and
  `LIKE` are operators (C75).
* Printing: strings with escapes of `%q` are not read back, nested calls are printed with the outer name (C07); `String` of predicates
  loses the operator (C42). A reused parser object keeps errors of earlier queries (C50), printing after a failed parse can panic (C49), and so can printing an error after its parser object has moved on to a shorter query (C50).
* `Join`: an entry that is no query of its own can close the parentheses of its neighbour (C16, C51).
* Visitor: `Init` has no effect on its receiver; calls are dispatched to the callback for ranges (C41).
* gorm: comments inside operators reach the SQL text (C18, C24); `and` and `or` have equal precedence in the tree but not in SQL (C25); arguments of
  calls are run together (C26); joins made before an error remain (C55); relation fields resolve to the empty column (C46);
  a relation used by two queries is joined twice (C52).
* entql: `not` is dropped (C36), `not between` is never true (C35), panics on `is null` and bare names, nil for calls (C37), operands left by a
  failed `Build` are returned by the next (C38).
* entsql: `not between` is never true (C31), precedence (C32), `null` is bound as a parameter and numbering splits over two builders (C27),
  errors of edge conditions (C29), panics of `date()` and `has_edge` without schema node (C30), a second `Query` doubles the text (C33), a call
  is accepted as the name of an edge (C34).
* The translators disagree with each other wherever exactly one of them has one of these faults (C43).

## Model against the repository's tests

`Verif/RepoTests.lean` evaluates in the model every expectation of the test files of /repo that concerns modelled code (parser, Join, Build, entql,
entsql, gorm), and the example of the README. The build fails if the model answers differently. The tests were read as text, not run.

## Mutation tests

`seeded/LOG.jsonl` has one line for every wrong variant of the model that was tried in a scratch copy: the definition, the edit, the claim that it
breaks, the theorems that no longer hold, and the theorems that were tightened because they still held. Where an edited text was only run
beside the original and no theorem was rebuilt, `failed` is empty and `failed_inferred` names the theorems expected to fail.

## Axioms of each theorem

“All three” stands for `propext`, `Classical.choice`, `Quot.sound`.

| id | status | axioms: theorems |
|----|--------|------------------|
| C01 | proved | all three: `C01_parse_total`, `C01_rules_total` |
| C02 | proved | all three: `C02_complete_tree` |
| C03 | proved | all three: `C03_only_successful_derivation`, `C03_parse_runs_derivation` |
| C04 | proved | all three: `C04_accepted_balanced` |
| C05 | proved | all three: `C05_accepted_grammatical`, `C05_stratified` |
| C08 | proved | all three: `C08_integer_exact`, `C08_integer_operand`, `C08_accepted_literal` |
| C09 | proved | all three: `C09_single_quoted`, `C09_double_quoted`, `C09_string_operand` |
| C10 | proved | all three: `C10_compare`, `C10_logic`, `C10_in`, `C10_between`, `C10_predicate`, `C10_idempotent` |
| C11 | partial | all three: `C11_comparisons_partial`, `C11_ltgt_refuted`, `C11_gte_lte_refuted` |
| C12 | proved | all three: `C12_logic_chain`, `C12_compare_chain`, `C12_paren_chain`, `C12_left_nested` |
| C13 | proved | all three: `C13_leading_blanks`, `C13_accepted`, `C13_trailing_blanks`, `C13_trailing_accepted`, `C13_trailing_any`, `C13_trailing_iff`, `C13_surrounding` |
| C14 | partial | all three: `C14_keyword_prefix_refuted`, `C14_not_prefix_refuted`, `C14_names_partial` |
| C15 | partial | all three: `C15_join_partial`, `C15_join_trivial`; `propext`, `Quot.sound`: `C15_arrow_refuted` |
| C16 | partial | all three: `C16_join_truth_partial`, `C16_rejected_entries_partial`; `propext`, `Quot.sound`: `C16_injection_refuted` |
| C17 | partial | all three: `C17_account`, `C17_complete_partial`, `C17_suffix`, `C17_names_kept_partial`, `C17_path_dropped_refuted`; `propext`, `Quot.sound`: `C17_arrow_refuted` |
| C06 | proved | all three: `C06_build_parse` |
| C07 | partial | all three: `C07_printed`, `C07_round_trip_partial`, `C07_round_trip_iff`, `C07_string_literal`, `C07_nested_call_refuted`; `propext`, `Quot.sound`: `C07_quote_refuted` |
| C41 | partial | `propext`: `C41_init_refuted`, `C41_function_refuted`, `C41_function_ignored`, `C41_traversal_partial` |
| C42 | partial | all three: `C42_string_partial`; `propext`, `Quot.sound`: `C42_array`; `propext`: `C42_string_lossy_refuted` |
| C44 | proved | all three: `C44_error_report`, `C44_recognised`, `C44_reported`, `C44_message`, `C44_message_lines`, `C44_message_faithful`; `propext`, `Quot.sound`: `C44_farthest` |
| C45 | proved | all three: `C45_written`, `C45_written_array`; `propext`, `Quot.sound`: `C45_value` |
| C18 | partial | all three: `C18_values`, `C18_placeholders_partial`, `C18_query_partial`, `C18_no_fewer`; `propext`, `Quot.sound`: `C18_comment_refuted` |
| C19 | proved | all three: `C19_same_condition`; `propext`, `Quot.sound`: `C19_same_text` |
| C20 | proved | all three: `C20_accepts_iff`, `C20_names_known` |
| C21 | proved | all three: `C21_joins`, `C21_joined_once` |
| C22 | proved | all three: `C22_fails_closed` |
| C23 | proved | all three: `C23_only_date`, `C20_accepts_iff` |
| C24 | partial | all three: `C24_made`, `C24_vocabulary_partial`, `C24_vocabulary_ops`; `propext`, `Quot.sound`: `C24_comment_refuted` |
| C26 | partial | `propext`, `Quot.sound`: `C26_arguments_refuted`, `C26_run_together`, `C26_one_argument_partial` |
| C46 | partial | `propext`, `Quot.sound`: `C46_quoted_partial`, `C46_relation_field_refuted`; none: `C46_columns_partial` |
| C35 | partial | all three: `C35_ignoring_not_partial`, `C35_meaning_partial`, `C35_not_between_refuted`; `propext`, `Quot.sound`: `C35_not_refuted`, `C35_comment_refuted` |
| C36 | partial | all three: `C36_not_refuted`, `C36_negFree` |
| C37 | partial | all three: `C37_predicate_partial`, `C37_no_panic_partial`, `C37_unsupported`; `propext`, `Quot.sound`: `C37_nil`, `C37_syntax`, `C37_dropped_refuted`, `C37_panic_refuted` |
| C38 | partial | `propext`, `Quot.sound`: `C38_history_partial`, `C38_supported_partial`, `C38_refuted` |
| C39 | proved | `propext`, `Quot.sound`: `C39_prefix`, `C39_done` |
| C25 | partial | all three: `C25_regrouped_partial`, `C25_meaning_partial`; `propext`, `Quot.sound`: `C25_precedence_refuted`, `C25_is_refuted`, `C25_unreadable_refuted`, `quotesNames_example` |
| C43 | partial | all three: `C43_agree_partial`, `C43_sql_agree_partial`, `C43_ent_agree_partial`; `propext`, `Quot.sound`: `C43_sql_not_between_refuted`, `C43_precedence_refuted`, `C43_not_refuted`, `C43_not_between_refuted` |
| C27 | partial | all three: `C27_numbered`, `C27_question_marks`; `propext`, `Quot.sound`: `C27_arguments`, `C27_null_refuted`, `C27_two_builders_refuted`; `propext`: `exE_noMarks` |
| C28 | proved | `propext`, `Quot.sound`: `C28_values_apart` |
| C29 | partial | all three: `C29_accepted_iff`, `C29_error_or_text_partial`; `propext`, `Quot.sound`: `C29_syntax`, `C29_edge_condition_refuted` |
| C30 | partial | all three: `C30_no_panic_partial`; `propext`, `Quot.sound`: `C30_refuted` |
| C33 | partial | `propext`, `Quot.sound`: `C33_second_call`, `C33_refuted`, `C33_rejected_partial` |
| C34 | partial | all three: `C34_accepted_iff`; `propext`, `Quot.sound`: `C34_target`, `C34_call_refuted` |
| C40 | proved | `propext`, `Quot.sound`: `C40_bound`; `propext`: `C40_format` |
| C47 | proved | all three: `C47_vocabulary` |
| C31 | partial | all three: `C31_refuted`, `C31_exclusive_partial`; `propext`, `Quot.sound`: `C31_comment_refuted` |
| C32 | partial | all three: `C32_regrouped_partial`, `C32_meaning_partial`; `propext`, `Quot.sound`: `C32_precedence_refuted`, `C32_not_between_refuted`, `C32_arguments_refuted`, `C32_array_refuted` |
| C48 | partial | all three: `C48_accepted`, `C48_unique`, `C48_range`, `C48_range_forms`; `propext`, `Quot.sound`: `C48_range_then_and_refuted` |
| C49 | partial | all three: `C49_tree`, `C49_print`, `C49_print_failed_partial`; `propext`, `Quot.sound`: `C49_print_stale_refuted` |
| C50 | partial | all three: `C50_tokens`, `C50_query`, `C50_history_partial`; `propext`, `Quot.sound`: `C50_errors_kept_refuted`, `C50_error_kept_refuted` |
| C51 | partial | all three: `C51_scope_partial`, `C51_rejected_partial`, `C51_meaning_partial`; `propext`, `Quot.sound`: `C51_injection_refuted`, `C51_blank_refuted` |
| C52 | partial | all three: `C52_sequence`; `propext`, `Quot.sound`: `C52_joined_twice_refuted` |
| C53 | proved | all three: `C53_no_schema`, `C53_resolved_kept` |
| C54 | proved | all three: `C54_file_total`, `C54_rules`, `C54_parse`, `C54_syntax_error`; `propext`, `Quot.sound`: `C54_text` |
| C55 | partial | all three: `C55_rejected_partial`, `C55_no_reference_partial`; `propext`, `Quot.sound`: `C55_joins_refuted` |
| C56 | proved | all three: `C56_steps`, `C56_short`, `C56_tokens`, `C56_at_least` |
| C57 | proved | all three: `C57_tree`, `C57_query`, `C57_colour`, `C57_tokens` |
| C58 | partial | all three: `C58_single_quoted`, `C58_double_quoted`, `C58_pieces_partial`, `C58_provenance`, `C58_ascii`, `C58_distinct_partial`; `propext`, `Quot.sound`: `C58_invalid_refuted` |
| C59 | partial | all three: `C59_embed_partial`, `C59_frame_partial`, `C59_guard_partial`; `propext`, `Quot.sound`: `C59_refuted` |
| C60 | proved | all three: `C60_first`, `C60_texts`, `C60_errors` |
| C61 | proved | all three: `C61_derivation`, `C61_unique` |
| C62 | proved | all three: `C62_value`, `C62_prepared`, `C62_gorm`, `C62_entsql`; `propext`, `Quot.sound`: `C62_quote_needed` |
| C63 | proved | all three: `C63_blanks`, `C63_place`, `C63_covers` |
| C64 | partial | all three: `C64_comments_partial`, `C64_place_partial`; `propext`, `Quot.sound`: `C64_refuted` |
| C65 | proved | all three: `C65_tree`, `C65_depth`, `C65_gorm` |
| C66 | partial | all three: `C66_general`, `C66_sql_partial`, `C66_entql_partial`, `C66_refuted`, `C66_entql_refuted` |
| C67 | proved | all three: `C67_counters`, `C67_tokens`, `C67_reuse`; `propext`, `Quot.sound`: `C67_wrap_refuted` |
| C68 | proved | all three: `C68_parse`, `C68_history`, `C68_rename` |
| C69 | proved | all three: `C69_first`, `C69_written`, `C69_text` |
| C70 | proved | all three: `C70_entql`; `propext`, `Quot.sound`: `C70_sql` |
| C71 | proved | all three: `C71_parse`, `C71_history`; `propext`, `Quot.sound`: `goGrow_growth` |
| C72 | proved | all three: `C72_depth`, `C72_same`, `C72_flat`, `C72_needed` |
| C73 | proved | all three: `C73_parse`, `C73_range`, `C73_gorm`, `C73_build`, `C73_apply`, `C73_which`, `C73_sql`, `C73_written`, `C73_sql_text` |
| C74 | proved | all three: `C74_quotes` |
| C75 | partial | all three: `C75_operators_partial`, `C75_letters`; `propext`, `Quot.sound`: `C75_refuted` |
| C76 | proved | all three: `C76_lexed`, `C76_rejected`, `C76_pairs` |
| C77 | proved | all three: `C77_functions`, `C77_rules`, `C77_parse`, `C77_rejects`; `propext`, `Quot.sound`: `C77_actions`, `C77_execute` |
| C78 | proved | all three: `C78_build`, `C78_string`, `C78_gorm`, `C78_entsql`, `C78_entql`, `C78_linear`, `C78_chain` |
| C79 | partial | all three: `C79_trees_partial`, `C79_key_partial`, `C79_comment_refuted`; `propext`, `Quot.sound`: `C79_arrow_refuted`; `propext`: `C79_calls_refuted` |
| C80 | proved | all three: `C80_syntax`, `C80_tree`, `C80_all`, `C80_number`, `C80_name`, `C80_operand`, `C80_first`, `C80_gorm`, `C80_entsql`; `propext`, `Quot.sound`: `C80_refuted` |
| C81 | proved | all three: `C81_parse`, `C81_join`, `C81_build`, `C81_string`, `C81_normalize`; `propext`, `Quot.sound`: `C81_value`, `C81_tests`; `propext`: `C81_program` |
| C82 | proved | `propext`, `Quot.sound`: `C82_dispatch`, `C82_reference`, `C82_total`, `C82_init`, `C82_init_useless` |
| C83 | proved | all three: `C83_wire`, `C83_scope`, `C83_name`, `C83_normalize`, `C83_outcome`; `propext`, `Quot.sound`: `C83_apply`, `C83_schema`; `propext`: `C83_program` |
| C84 | proved | all three: `C84_builder`, `C84_build`, `C84_apply`, `C84_predicate`, `C84_not`; `propext`: `C84_program` |
| C85 | proved | all three: `C85_query`, `C85_numbered`, `C85_no_panic`, `C85_panic`, `C85_again`; `propext`, `Quot.sound`: `C85_format`, `C85_value`; `propext`: `C85_program` |
| C86 | proved | all three: `C86_decides`, `C86_sound`, `C86_clear`, `C86_round_trip`, `C86_join`, `C86_gorm_closed`, `C86_gorm_parts`, `C86_gorm_means`, `C86_entql_builds`, `C86_entql_means`, `C86_entql_not`, `C86_entsql_means` |
| C87 | proved | all three: `C87_uses`, `C87_bound`, `C87_memory`, `C87_options`, `C87_no_panic`, `C87_tree`, `C87_init`; `propext`, `Quot.sound`: `C87_add`, `C87_dot`; `propext`: `C87_program` |
| C88 | proved | all three: `C88_agree`, `C88_syntax` |
| C89 | proved | all three: `C89_rule`, `C89_default`, `C89_panic` |
| C90 | proved | all three: `C90_each`, `C90_colour` |
| C91 | proved | all three: `C91_steps`, `C91_twice`, `C91_scan`, `C91_buffer`; `propext`, `Quot.sound`: `C91_depth` |
| C92 | proved | all three: `C92_calls`, `C92_builds`; `propext`, `Quot.sound`: `C92_panic`, `C92_errors`, `C92_stack`, `C92_float` |
| C93 | proved | all three: `C93_feeds`, `C93_trees`, `C93_stale`, `C93_again` |

{"id": "C01", "title": "Parse is total", "statement": "For every string, Parse returns: it never loops forever and never panics (no out-of-range buffer read, no pop of an empty mark stack, no negative slice length). The outcome is either a node or an error.", "quantifier": "every finite sequence of runes given to Parse", "why_tests_cant": "Tests sample a few dozen strings; an endless loop or an index panic could hide behind any nesting depth, unterminated string, or odd prefix.", "anchors": ["miniquery/parse.go:Parse", "miniquery/miniquery.peg.go:Init", "miniquery/tree.go:PopMark", "miniquery/tree.go:popMarked"]}
{"id": "C02", "title": "A successful Parse returns a complete tree", "statement": "If Parse returns no error, the returned node is not nil and no node reachable from it is nil, so walking the tree cannot dereference nil.", "quantifier": "every input on which Parse succeeds", "why_tests_cant": "The tree is assembled by popping a stack that may be empty; only an argument over all token sequences shows it never underflows.", "anchors": ["miniquery/parse.go:Parse", "miniquery/tree.go:Pop", "miniquery/tree.go:PopLogic", "miniquery/tree.go:PopCompare", "miniquery/tree.go:PopBetween"]}
{"id": "C03", "title": "Abandoned parse branches leave no trace", "statement": "The actions executed after a successful parse are exactly those of the derivation that succeeded: tokens written by alternatives that were tried and abandoned are never executed, although they are written into the same token buffer.", "quantifier": "every input, every backtracking history of the recogniser", "why_tests_cant": "The token buffer is overwritten in place and trimmed at the end; a stale token would only show for particular backtracking patterns.", "anchors": ["miniquery/miniquery.peg.go:tokens32.Add", "miniquery/miniquery.peg.go:tokens32.Trim", "miniquery/miniquery.peg.go:Execute"]}
{"id": "C04", "title": "Accepted queries are lexically closed and balanced", "statement": "If Parse accepts a query then, outside string literals and comments, its parentheses/brackets are balanced (never close more than were opened, all closed at the end), every string literal is closed and every comment is terminated by a line end.", "quantifier": "every accepted input", "why_tests_cant": "A filter that is accepted with an open quote or bracket could swallow text appended later; the set of inputs is infinite.", "anchors": ["miniquery/miniquery.peg", "miniquery/miniquery.peg.go", "miniquery/parse.go:Parse"]}
{"id": "C05", "title": "Accepted queries yield grammatical trees", "statement": "For every accepted query without the '->' operator, the tree obeys the documented operator stratification: logic over not over comparison over in over is-predicate over between over primary, every operator slot holds an operation node of the right class, array elements are literals, between has exactly two value bounds. Nothing is left over: the whole query is represented by the one returned tree.", "quantifier": "every accepted input without '->'", "why_tests_cant": "Stack-machine construction could attach an operand to the wrong operator for some nesting; unbounded nesting cannot be tested.", "anchors": ["miniquery/miniquery.peg", "miniquery/tree.go", "miniquery/node.go:Node"]}
{"id": "C06", "title": "Build is a right inverse of Parse", "statement": "Parsing the text that Build prints for a tree gives back exactly that tree, for every grammatical tree whose string literals need no escaping and which calls a function only at the root.", "quantifier": "all grammatical trees of any size", "why_tests_cant": "Tests only check that a few printed trees parse without error, not that they parse to the same tree.", "anchors": ["miniquery/node.go:Build", "miniquery/parse.go:Parse", "miniquery/node.go:printPretty"]}
{"id": "C07", "title": "Build round-trips every tree Parse can return", "statement": "For every accepted query q, Parse(Build(Parse(q))) returns the same tree as Parse(q).", "quantifier": "every accepted input", "why_tests_cant": "It quantifies over all trees; the tests check absence of an error only.", "anchors": ["miniquery/node.go:Build", "miniquery/node.go:buildValue"]}
{"id": "C08", "title": "Integer literals are exact or rejected", "statement": "A digit string without leading zero parses to the integer with exactly that decimal value if it fits a 64-bit int and otherwise Parse returns an error: no literal is silently truncated, wrapped or saturated.", "quantifier": "every digit string of any length", "why_tests_cant": "The range of digit strings is unbounded and the interesting boundary is at 2^63.", "anchors": ["miniquery/tree.go:AddInteger", "miniquery/miniquery.peg.go:ruleInteger"]}
{"id": "C09", "title": "String literals are taken verbatim", "statement": "For every text without a single (double) quote, the single- (double-) quoted literal of that text parses to a string node whose value is that text, rune for rune: no escape processing, no trimming, no case folding.", "quantifier": "every rune sequence not containing the delimiter", "why_tests_cant": "Unbounded contents, including backslashes, newlines, comment markers, keywords.", "anchors": ["miniquery/tree.go:AddString", "miniquery/miniquery.peg.go:ruleString"]}
{"id": "C10", "title": "Operator spellings are normalised", "statement": "Every accepted spelling of an operator gives the documented operation name: symbols, words in any letter case, multi-word operators with any run of blanks between words; normalising an already normalised name changes nothing.", "quantifier": "every spelling: letter cases times runs of blanks of any length", "why_tests_cant": "Infinitely many spellings for the multi-word operators.", "anchors": ["miniquery/tree.go:NormalizeOperation", "miniquery/tree.go:AddCompare", "miniquery/tree.go:AddLogic", "miniquery/tree.go:AddMatch"]}
{"id": "C11", "title": "The documented comparison words all work", "statement": "Each comparison listed in the grammar (>=, <=, ==, !=, >, <, <>, =, gt, lt, gte, lte, eq, neq, like, not like) can be used between two operands and means what it says.", "quantifier": "every pair of operands", "why_tests_cant": "PEG ordered choice can make a listed alternative unreachable for all inputs; a test can only show it fails for some.", "anchors": ["miniquery/miniquery.peg:Compare", "miniquery/miniquery.peg.go:ruleCompare"]}
{"id": "C12", "title": "Logic and comparison chains associate to the left with one precedence", "statement": "For any number of operands, a chain o1 op1 o2 op2 ... parses to the left-nested tree, and and/or have the same precedence; the same holds for comparison chains.", "quantifier": "chains of every length over all operands and operators", "why_tests_cant": "Tests use chains of two or three operands.", "anchors": ["miniquery/miniquery.peg.go:ruleLogicExpression", "miniquery/miniquery.peg.go:ruleCompareExpression", "miniquery/tree.go:PopLogic"]}
{"id": "C13", "title": "Surrounding blanks and comments do not change the result", "statement": "Adding or removing blanks or complete comments before a query, or after a query that does not end inside a string or comment (nor with a lone - or /, with which a comment may begin), changes nothing in what Parse returns except positions in a syntax error.", "quantifier": "every query, every run of blanks and comments, before and after", "why_tests_cant": "Unbounded combination of prefix, query and suffix; many alternatives of the recogniser look at the end of the input.", "anchors": ["miniquery/miniquery.peg.go:rule_", "miniquery/miniquery.peg.go:ruleComment", "miniquery/miniquery.peg.go:ruleGrammar"]}
{"id": "C14", "title": "Names that merely start with a keyword are usable as columns", "statement": "An identifier that starts with not/null/true/false but is a different word (notes, nullable, trueness, ...) can be used as a column name.", "quantifier": "every suffix after the keyword", "why_tests_cant": "All suffixes must be covered; a counterexample family is infinite.", "anchors": ["miniquery/miniquery.peg:Identifier", "miniquery/miniquery.peg:PrimaryExpression", "miniquery/miniquery.peg.go:ruleIdentifier", "miniquery/miniquery.peg.go:ruleLiteral"]}
{"id": "C15", "title": "Join means conjunction", "statement": "If every (non blank) query in a list parses on its own, then Join of the list parses, to the left-nested and-chain of the parenthesised trees of the queries, in order: none of the queries can influence how another is read.", "quantifier": "every list of queries of any length and content that parse individually", "why_tests_cant": "PEG recognition is context sensitive on the right; that a query is read the same in front of ')' as at end of input is a claim about all queries.", "anchors": ["miniquery/join.go:Join", "miniquery/parse.go:Parse", "gormq/miniquery.go:MiniQuery.Scope"]}
{"id": "C16", "title": "Join never widens a filter", "statement": "Rows accepted by Join(qs) are accepted by each q: a query in the list cannot cancel another one, in particular a query that would be rejected alone does not change the meaning of the rest.", "quantifier": "every list of strings", "why_tests_cant": "An attacker chooses the string.", "anchors": ["miniquery/join.go:Join"]}
{"id": "C17", "title": "Nothing of an accepted query is silently dropped", "statement": "Every identifier written in an accepted query occurs in the returned tree.", "quantifier": "every accepted query", "why_tests_cant": "Whether some grammar path forgets a node is a question about all derivations.", "anchors": ["miniquery/miniquery.peg:JsonReference", "miniquery/tree.go:AddName", "miniquery/parse.go:Parse"]}
{"id": "C18", "title": "gorm: one placeholder per literal, in order", "statement": "The condition handed to gorm contains exactly as many '?' as values, and the values are the literals of the query in reading order (an array literal counts as one value).", "quantifier": "every accepted query on every schema whose quoted names contain no '?'", "why_tests_cant": "A single shift silently binds values to the wrong columns; depends on the whole tree.", "anchors": ["gormq/miniquery.go:queryBuilder.visit", "gormq/miniquery.go:WireMiniQuery"]}
{"id": "C19", "title": "gorm: literal values never reach the SQL text", "statement": "Two queries whose trees differ only in literal values (numbers, strings, booleans, nulls, array contents) give the same SQL text: values travel only as bound parameters.", "quantifier": "all pairs of trees equal up to literals, all schemas", "why_tests_cant": "A non-interference claim relates pairs of executions over unbounded values.", "anchors": ["gormq/miniquery.go:queryBuilder.visit"]}
{"id": "C20", "title": "gorm: only columns known to the schema are referenced", "statement": "Every column name that is quoted into the condition was resolved against the model's schema (or the related model's schema for Rel.col); an unknown name makes the whole query fail.", "quantifier": "every query and schema", "why_tests_cant": "Needs all trees: any node kind might smuggle a raw name.", "anchors": ["gormq/miniquery.go:getDBName", "gormq/miniquery.go:visitIdentifier", "gormq/miniquery.go:visitReference"]}
{"id": "C21", "title": "gorm: each referenced relation is joined exactly once", "statement": "On success the relations joined are exactly those referenced, each joined once, in order of first reference, whatever the number of references.", "quantifier": "every query, any number and order of references", "why_tests_cant": "Depends on the visiting history through the joined map.", "anchors": ["gormq/miniquery.go:WireMiniQuery"]}
{"id": "C22", "title": "gorm: a bad query fails closed", "statement": "WireMiniQuery either leaves the statement alone (empty query), or adds exactly one condition, or records an error and adds no condition; there is no query for which the filter is dropped without an error.", "quantifier": "every query string and schema", "why_tests_cant": "Silent loss of a filter is a security bug and may need any tree shape.", "anchors": ["gormq/miniquery.go:WireMiniQuery", "gormq/miniquery.go:GetOrParseSchema"]}
{"id": "C23", "title": "gorm: only whitelisted functions reach SQL", "statement": "If the condition is produced, every function call in the query is date; any other function name is an error.", "quantifier": "every tree", "why_tests_cant": "Nested calls at any depth.", "anchors": ["gormq/miniquery.go:visitFunction"]}
{"id": "C24", "title": "gorm: SQL text is made of fixed vocabulary", "statement": "The condition consists only of: '?', quoted schema names, parentheses, blanks, not, date(, and the fixed operator words; no part of the query text is copied into SQL.", "quantifier": "every accepted query", "why_tests_cant": "Safety against arbitrary attacker text.", "anchors": ["gormq/miniquery.go:queryBuilder.visit", "gormq/miniquery.go:normalizeSQL", "miniquery/tree.go:NormalizeOperation"]}
{"id": "C25", "title": "gorm: the condition means what the tree means", "statement": "Read with standard SQL operator precedence, the emitted condition denotes the same truth value as the tree returned by Parse, for every assignment of column values and interpretation of comparisons.", "quantifier": "every query, every row", "why_tests_cant": "Precedence mistakes show only for particular nestings.", "anchors": ["gormq/miniquery.go:queryBuilder.visit", "miniquery/miniquery.peg.go:ruleLogicExpression"]}
{"id": "C26", "title": "gorm: function arguments stay separate", "statement": "A call with several arguments is emitted with its arguments separated (or rejected).", "quantifier": "every argument list", "why_tests_cant": "Any arity.", "anchors": ["gormq/miniquery.go:visitFunction"]}
{"id": "C27", "title": "entsql: parameters are numbered 1..n in order", "statement": "For postgres the placeholders in the SQL are $k+1..$k+n in order of appearance, n being the number of arguments returned, k the number of parameters already in the statement; arguments are the non-null literals in emission order.", "quantifier": "every query tree the builder accepts, every starting count", "why_tests_cant": "Off-by-one for some nesting binds wrong values.", "anchors": ["entmq/entsql.go:visit", "entmq/entsql_util.go:FormatParam"]}
{"id": "C28", "title": "entsql: literal values never reach the SQL text", "statement": "Two trees that differ only in non-null literal values of the same type give the same SQL text.", "quantifier": "all pairs of trees equal up to literals", "why_tests_cant": "Relates pairs of executions over unbounded values.", "anchors": ["entmq/entsql.go:visit", "entmq/entsql_util.go"]}
{"id": "C29", "title": "entsql: an error yields no SQL", "statement": "If the query is rejected, Query returns the empty string and no arguments and Err() is non-nil; if it returns SQL no error was recorded.", "quantifier": "every query string", "why_tests_cant": "Every error path must be covered.", "anchors": ["entmq/entsql.go:Query", "entmq/entsql.go:visit"]}
{"id": "C30", "title": "entsql: Query never panics on user input", "statement": "For every query string Query returns normally.", "quantifier": "every query string", "why_tests_cant": "Panics hide in unusual trees.", "anchors": ["entmq/entsql.go:visit"]}
{"id": "C31", "title": "entsql: not between is the complement of between", "statement": "The SQL emitted for x not between a and b is true exactly when that for x between a and b is false (for non-null operands).", "quantifier": "all operands and orderings", "why_tests_cant": "The claim ranges over all values.", "anchors": ["entmq/entsql.go:visit"]}
{"id": "C32", "title": "entsql: the SQL means what the tree means", "statement": "Read with standard SQL precedence the emitted SQL denotes the truth value of the tree.", "quantifier": "every supported query, every row", "why_tests_cant": "Precedence mistakes show only for particular nestings.", "anchors": ["entmq/entsql.go:visit"]}
{"id": "C33", "title": "entsql: Query can be repeated", "statement": "Calling Query again on the same builder returns the same SQL and arguments.", "quantifier": "any number of calls", "why_tests_cant": "History property.", "anchors": ["entmq/entsql.go:Query"]}
{"id": "C34", "title": "entsql: has_edge accepts only known edges and well formed conditions", "statement": "has_edge succeeds only when the first argument names an edge of the current schema node, there are at most two arguments and the second, if any, is an expression; the condition is resolved against the edge's target node.", "quantifier": "every argument list and schema", "why_tests_cant": "All arities, nestings and schemas.", "anchors": ["entmq/entsql.go:visit"]}
{"id": "C35", "title": "entql: the predicate means what the tree means", "statement": "The entql predicate built from a query evaluates to the tree's truth value.", "quantifier": "every supported query, every row", "why_tests_cant": "Unbounded nesting.", "anchors": ["entmq/entql.go:visit"]}
{"id": "C36", "title": "entql: negation is preserved", "statement": "The predicate built for not q is the negation of the one built for q.", "quantifier": "every q", "why_tests_cant": "All q.", "anchors": ["entmq/entql.go:visit"]}
{"id": "C37", "title": "entql: Build never panics and never drops the filter", "statement": "For every query string Build returns a non-nil predicate or an error (nil predicate only for the empty query).", "quantifier": "every query string", "why_tests_cant": "Panics and nil predicates hide in unusual trees.", "anchors": ["entmq/entql.go:Build", "entmq/entql.go:visit"]}
{"id": "C38", "title": "entql: a builder has no memory", "statement": "Build's result depends only on the current Query, not on earlier Build calls on the same builder.", "quantifier": "every history of Build calls", "why_tests_cant": "History property.", "anchors": ["entmq/entql.go:MiniQLToEntQLBuilder"]}
{"id": "C39", "title": "ApplyEntQL applies a prefix", "statement": "ApplyEntQL adds, in order, exactly the predicates of the queries before the first failing one, and reports an error iff some query fails.", "quantifier": "every list of queries", "why_tests_cant": "Lists of any length.", "anchors": ["entmq/entql.go:ApplyEntQL", "entmq/entql.go:BuildEntQL"]}
{"id": "C40", "title": "Postgres casts depend on the value type only", "statement": "FormatParam appends a cast exactly for int, bool and float values on postgres and leaves the placeholder alone otherwise; the bound value is unchanged.", "quantifier": "every value, placeholder and dialect", "why_tests_cant": "Value domain is infinite.", "anchors": ["entmq/entsql_util.go:FormatParam"]}
{"id": "C41", "title": "Visitor.Init installs defaults", "statement": "After Init every callback of a visitor is callable and Visit reaches every child of a node.", "quantifier": "every visitor configuration and node", "why_tests_cant": "All configurations.", "anchors": ["miniquery/visitor.go:Init", "miniquery/visitor.go:Visit"]}
{"id": "C42", "title": "Node.String distinguishes predicates", "statement": "The debug string of a predicate or between node shows its operator and left operand.", "quantifier": "all nodes", "why_tests_cant": "Universally lossy output cannot be shown by examples.", "anchors": ["miniquery/node.go:String"]}
{"id": "C43", "title": "Backends agree", "statement": "For a query accepted by two of the translators (gorm, entql, ent SQL), the two results select the same rows.", "quantifier": "every pair of translators, every query accepted by both, every row", "why_tests_cant": "Relates two translators over all trees.", "anchors": ["gormq/miniquery.go", "entmq/entql.go", "entmq/entsql.go"]}
{"id": "C44", "title": "Parse errors point into the query", "statement": "The error of a failed Parse can always be printed without panicking, and its line/symbol numbers are the true position of the farthest token reached (the first such token of the whole parse); the message always has three lines, no text of the query can add lines or control characters to it, and equal messages mean equal positions and texts.", "quantifier": "every rejected input", "why_tests_cant": "Every position and line layout.", "anchors": ["miniquery/miniquery.peg.go:translatePositions", "miniquery/miniquery.peg.go:parseError.Error"]}
{"id": "C45", "title": "Value returns the literal", "statement": "Node.Value of a literal node is the Go value written in the query; of an array node the slice of its elements' values in order.", "quantifier": "every array of every length", "why_tests_cant": "Unbounded arrays.", "anchors": ["miniquery/node.go:Value"]}
{"id": "C46", "title": "gorm: a resolved name is a column", "statement": "Every name that is quoted into a condition is the name of a column of the model's table.", "quantifier": "every query and schema", "why_tests_cant": "Name resolution goes through three tables whose interplay depends on the schema.", "anchors": ["gormq/miniquery.go:getDBName"]}
{"id": "C47", "title": "entsql: fixed vocabulary", "statement": "The SQL returned by Query consists only of a fixed list of keywords and operators, of what ent writes for a column name or an edge, and of parameter placeholders; no other text of the query reaches it.", "quantifier": "every query string, schema and dialect", "why_tests_cant": "An injection needs one unusual query among infinitely many.", "anchors": ["entmq/entsql.go:visit", "entmq/entsql.go:entsqlOpMap"]}
{"id": "C48", "title": "Clearly written queries are accepted", "statement": "Every query written in the plain style of the documentation (operands, comparisons, in, between, is, not, and/or, parentheses, calls, arrays, with blanks or complete comments between the words) is accepted, and means the one tree its writing stands for; this includes the bracketed range 'x between [a, b]'.", "quantifier": "every query of the plain style, of any size, with any spacing", "why_tests_cant": "Acceptance by an ordered-choice grammar is decided by backtracking over the whole text; tests accept finitely many texts.", "anchors": ["miniquery/miniquery.peg", "miniquery/miniquery.peg.go:ruleGrammar", "miniquery/miniquery.peg.go:ruleBetweenExpression", "miniquery/parse.go:Parse"]}
{"id": "C49", "title": "The syntax tree is a tree of the query", "statement": "After an accepted query AST() is one tree whose root is the whole query; children lie inside their parent, side by side and in order; every node is a piece of the query that the named rule recognises, and no non-empty token is lost. PrintSyntaxTree never panics.", "quantifier": "every query string, and every parser object with any history", "why_tests_cant": "Tokens of abandoned alternatives must be overwritten or trimmed in every backtracking history.", "anchors": ["miniquery/miniquery.peg.go:AST", "miniquery/miniquery.peg.go:Add", "miniquery/miniquery.peg.go:print", "miniquery/miniquery.peg.go:PrintSyntaxTree"]}
{"id": "C50", "title": "A parser object can be reused", "statement": "Setting Buffer, calling Reset and running a query again on the same MiniQueryPeg gives the result of a fresh Parse, whatever was run before.", "quantifier": "every sequence of queries", "why_tests_cant": "A property of histories: stale tokens, marks, operands and errors of earlier runs.", "anchors": ["miniquery/miniquery.peg.go:Reset", "miniquery/miniquery.peg.go:Init", "miniquery/tree.go:Tree", "miniquery/parse.go:Parse"]}
{"id": "C51", "title": "gorm: Scope is the conjunction of its queries", "statement": "MiniQuery.Scope adds one condition, the parenthesised conditions of the non-blank queries joined by 'and', with their values in order and every relation joined once; read as SQL it means the conjunction of the separate conditions; if a query of the list would be rejected on its own, no condition is added and an error is recorded.", "quantifier": "every list of queries, schema and statement", "why_tests_cant": "Lists of any length and queries of any shape; an unparenthesised 'or' in one entry would weaken the others.", "anchors": ["gormq/miniquery.go:Scope", "miniquery/join.go:Join", "gormq/miniquery.go:WireMiniQuery"]}
{"id": "C52", "title": "gorm: queries applied one after another do not influence each other", "statement": "Each ApplyMiniQuery adds to the statement what it adds to a fresh statement, in order, and applying a list of queries one by one joins what Scope would join.", "quantifier": "every sequence of queries and statement", "why_tests_cant": "A property of histories.", "anchors": ["gormq/miniquery.go:ApplyMiniQuery", "gormq/miniquery.go:WireMiniQuery"]}
{"id": "C53", "title": "gorm: without a schema nothing is filtered silently", "statement": "On a statement without schema and model, or with a model that cannot be read, every query that is not empty records an error and adds no condition; once found, the schema stays the same for later queries.", "quantifier": "every sequence of queries", "why_tests_cant": "Every history of statements and queries.", "anchors": ["gormq/miniquery.go:GetOrParseSchema", "gormq/miniquery.go:WireMiniQuery"]}
{"id": "C54", "title": "The generated parser implements the grammar file", "statement": "miniquery.peg.go recognises exactly what miniquery.peg describes: every rule function matches, on every text, the prefix that the file's rule matches under the textbook meaning of parsing expressions (or fails when it fails), with the same captured texts and the same calls in the same order; Parse accepts exactly the texts of the file's first rule and returns the node its calls build.", "quantifier": "every rule, every input, every state of the parser", "why_tests_cant": "The generator reorders alternatives into switches and the generated file may be stale; agreement has to hold for all inputs.", "anchors": ["miniquery/miniquery.peg", "miniquery/miniquery.peg.go:Init", "miniquery/miniquery.peg.go:Execute"]}
{"id": "C55", "title": "gorm: a rejected query leaves the statement alone", "statement": "If WireMiniQuery records an error, the statement is otherwise unchanged: no condition and no join is added.", "quantifier": "every query, schema and statement", "why_tests_cant": "The place of the failure in the query decides what has been done before.", "anchors": ["gormq/miniquery.go:WireMiniQuery", "gormq/miniquery.go:visitReference"]}
{"id": "C56", "title": "Parsing takes linear work", "statement": "On every text, accepted or rejected, Parse makes at most a constant times the length of the text many recogniser steps (tests of a rune, rule calls, loop turns, saves and restores, tokens written), and the token buffer holds at most that many tokens; no nesting, repetition, comment or unfinished string makes backtracking add up to more.", "quantifier": "every input of any length and nesting depth", "why_tests_cant": "Superlinear backtracking shows only on inputs of a particular shape; a test measures single inputs.", "anchors": ["miniquery/miniquery.peg", "miniquery/miniquery.peg.go:Init", "miniquery/miniquery.peg.go:Add", "miniquery/parse.go:Parse"]}
{"id": "C57", "title": "Printed trees and token lists are faithful", "statement": "The text of PrintSyntaxTree, WriteSyntaxTree, SprintSyntaxTree and of the token list can be read back: equal texts come from equal trees (same rules, same pieces of the query, same nesting) and equal tokens, so no text inside a query can imitate structure; two accepted queries with the same printed tree are the same query; Pretty adds only colour sequences.", "quantifier": "every query, token list and history, coloured or not", "why_tests_cant": "Injectivity ranges over pairs of inputs with arbitrary characters.", "anchors": ["miniquery/miniquery.peg.go:print", "miniquery/miniquery.peg.go:PrintSyntaxTree", "miniquery/miniquery.peg.go:SprintSyntaxTree", "miniquery/miniquery.peg.go:token32.String", "miniquery/miniquery.peg.go:tokens32.Print", "miniquery/miniquery.peg.go:Pretty"]}
{"id": "C58", "title": "Texts reach the tree byte for byte", "statement": "Every name and string of the returned tree is, byte for byte, a piece of the query, a quoted string is exactly the bytes between the quotes, every operator, integer and boolean is the reading of a piece of the query; no malformed byte sequence is ever read as an ASCII character (quote, operator, letter).", "quantifier": "every byte string", "why_tests_cant": "All byte sequences, including overlong, truncated and otherwise malformed ones.", "anchors": ["miniquery/miniquery.peg.go:Init", "miniquery/miniquery.peg.go:Execute", "miniquery/tree.go:AddString", "miniquery/tree.go:AddName"]}
{"id": "C59", "title": "Queries can be embedded in queries", "statement": "An accepted query put between parentheses, or as the only argument of a call, at any place of a plainly written query is read there as its own tree and does not influence how the text around it is read. Whatever text is put between the parentheses, accepted or not, with its quotes, comments and brackets closed, cannot change how the other operands of an and/or chain are read: a guard such as 'tenant = 7 and (...)' cannot be weakened.", "quantifier": "every query, every place of every plainly written frame, any number of embedded texts", "why_tests_cant": "An application concatenates its own conditions with text of its users; one text that is read across its parentheses is enough to break the guard.", "anchors": ["miniquery/miniquery.peg", "miniquery/miniquery.peg.go:rulePrimaryExpression", "miniquery/miniquery.peg.go:ruleArgumentList", "miniquery/parse.go:Parse"]}
{"id": "C60", "title": "The errors of Parse", "statement": "Parse fails in two ways only: with a syntax error, exactly when the recogniser rejects the text, or, for an accepted text, with the range error of the first integer (from the left) that does not fit in 64 bits, naming that integer's digits; no other conversion error and no 'invalid function' error ever comes out, and an accepted text whose integers fit gives no error.", "quantifier": "every input", "why_tests_cant": "Which error is reported depends on every action run over the whole text.", "anchors": ["miniquery/parse.go:Parse", "miniquery/tree.go:AddInteger", "miniquery/tree.go:AddBoolean", "miniquery/tree.go:PopFunction"]}
{"id": "C61", "title": "Tokens() is the derivation of the query", "statement": "The tokens that the generated parser publishes for an accepted query are exactly those of the query's one derivation from the first rule of the grammar: one token for every rule, capture and action used, parts before the whole, from left to right, with their true positions, none of an abandoned alternative; a text with such a derivation is accepted.", "quantifier": "every input, and every parser object with any history", "why_tests_cant": "Abandoned alternatives leave tokens in the buffer in unboundedly many histories.", "anchors": ["miniquery/miniquery.peg.go:Tokens", "miniquery/miniquery.peg.go:Add", "miniquery/miniquery.peg.go:Init"]}
{"id": "C62", "title": "A quoted value is inert", "statement": "What stands between two quotes, at a place of a query that is not inside a string or comment, is a value and nothing else: whatever text without that quote is put there, the query is accepted or rejected alike, the trees of two such queries differ in that one literal only, and the SQL texts made from them by gorm and ent are the same. A query with a quoted place is a prepared query.", "quantifier": "every text before and after the place, every two values, both kinds of quotes", "why_tests_cant": "Relates pairs of parses over all values and all surrounding texts; one value that is read as syntax is an injection.", "anchors": ["miniquery/miniquery.peg", "miniquery/miniquery.peg.go:ruleString", "miniquery/miniquery.peg.go:ruleComment", "miniquery/tree.go:AddString", "miniquery/parse.go:Parse"]}
{"id": "C63", "title": "Blanks between words do not matter", "statement": "Outside strings and comments any run of blanks (spaces, tabs, line breaks) can be replaced by any other non-empty run, also inside operators of several words: Parse returns the same tree or the same error, or rejects both texts, whatever stands before and after.", "quantifier": "every query text, accepted or not, every place and every run of blanks", "why_tests_cant": "Two runs on texts of different lengths, over all texts and places; the blanks of an operator end up in the captured text that names it.", "anchors": ["miniquery/miniquery.peg.go:Init", "miniquery/miniquery.peg", "miniquery/tree.go:AddOperation"]}
{"id": "C64", "title": "Comments count as blanks", "statement": "Outside strings a run of blanks can be replaced by a complete comment and a comment by another one: the query is accepted or rejected alike and its tree is the same.", "quantifier": "every query text, every place and every comment", "why_tests_cant": "All texts and all comments; the comment may contain quotes, brackets and operators.", "anchors": ["miniquery/miniquery.peg.go:Init", "miniquery/miniquery.peg", "miniquery/tree.go:AddOperation"]}
{"id": "C65", "title": "Trees and conditions are not larger than the query", "statement": "The tree that Parse returns (its nodes and the texts in them), its depth, and the condition, values and joins that gorm gets for it grow at most in proportion to the length of the query: a short query cannot cause a large condition.", "quantifier": "every query and schema", "why_tests_cant": "An amplification shows only on queries of a particular shape and size; a test sees single queries.", "anchors": ["miniquery/tree.go", "gormq/miniquery.go:visit", "gormq/miniquery.go:WireMiniQuery"]}
{"id": "C66", "title": "ent: translations are not larger than the query", "statement": "The SQL and arguments of the ent SQL builder and the predicate of the entql builder grow at most in proportion to the length of the query.", "quantifier": "every query, schema and dialect", "why_tests_cant": "An amplification shows only on queries of a particular shape and size; a test sees single queries.", "anchors": ["entmq/entsql.go:visit", "entmq/entql.go:visit"]}
{"id": "C67", "title": "The 32-bit counters do not wrap", "statement": "Parse counts positions and tokens in 32-bit numbers. For every query of at most 536,870,910 characters (8 times the length plus 9 below 2^32) no counter wraps around, and Parse gives what it would give with unbounded counters; the token buffer never holds more than 8 tokens per character and 9 more, and that of a parser object that is used again never more than this for the longest query.", "quantifier": "every query text of that length, accepted or rejected", "why_tests_cant": "Needs queries of hundreds of megabytes, and the number of tokens depends on the shape of the query and on abandoned branches.", "anchors": ["miniquery/miniquery.peg.go:tokens32.Add", "miniquery/miniquery.peg.go:Init", "miniquery/miniquery.peg.go:token32"]}
{"id": "C68", "title": "Trees share nothing and are never overwritten", "statement": "No node and no list of a tree that Parse returns is shared: not inside the tree, not with another tree from the same parser object, and not with the parser's stack. Later queries on the same object change nothing in trees returned before, and giving a node of a tree another name changes that tree in that one place only.", "quantifier": "every query, every sequence of queries on one parser object, and every way in which append grows its arrays", "why_tests_cant": "Aliasing shows only when the capacity of the stack's array happens to leave room, in some later query; a test sees one history and one allocator.", "anchors": ["miniquery/tree.go:Push", "miniquery/tree.go:Pop", "miniquery/tree.go:popMarked", "miniquery/tree.go:PopFunction", "miniquery/tree.go:PopBetween", "miniquery/parse.go:Parse"]}
{"id": "C69", "title": "gorm: the error names the first name at fault", "statement": "If a query parses but refers to something the schema does not have, the recorded error is about the first such thing in reading order (unknown column, unknown relation, unknown column of a relation, path of another length than two, unsupported function), it quotes the name as it is written in the query, and different errors have different texts.", "quantifier": "every query and schema", "why_tests_cant": "Which of many faults is reported depends on the order of visits in trees of any shape.", "anchors": ["gormq/miniquery.go:WireMiniQuery", "gormq/miniquery.go:visitReference", "gormq/miniquery.go:visitIdentifier", "gormq/miniquery.go:visitFunction"]}
{"id": "C70", "title": "ent: every error is about a part of the query that cannot be translated", "statement": "An error of the ent SQL builder or of the entql builder is the syntax error of the query, or there is a part of the query, reached by the translation, that has no translation, and the error names that part's function, operator or edge. Errors of conditions inside has_edge are about parts of that condition, judged by the edge's target.", "quantifier": "every query, schema and dialect; for entql every content of the builder's stack", "why_tests_cant": "An error may be passed on, replaced or masked at every level of a tree.", "anchors": ["entmq/entsql.go:visit", "entmq/entql.go:visit", "entmq/entql.go:Build"]}
{"id": "C71", "title": "The memory Parse takes is proportional to the query", "statement": "The nodes, list places and texts that parsing puts into memory, counting everything made on the way and never given back, are together at most proportional to the length of the text, accepted or not; for a parser object that is used again, to the length of all its texts.", "quantifier": "every text and every sequence of texts, every growth rule of append that adds a quarter at least and about two thirds of the result at most", "why_tests_cant": "Copies of lists and of the stack are made at every level of nesting; whether they add up shows only for unboundedly large queries.", "anchors": ["miniquery/tree.go:Push", "miniquery/tree.go:popMarked", "miniquery/tree.go:PopIdentifierReference", "miniquery/tree.go:PopBetween", "miniquery/parse.go:Parse"]}
{"id": "C72", "title": "Parse needs stack for nested parentheses and for the arrows of one path, not for the length of the query", "statement": "Parse(s) returns its result on every stack that has room for 10 nested calls per parenthesis open at once outside of strings and comments, 1 per arrow of the longest path a->b->..., and 15 more; a query without '(' and '>' needs 15 however long it is. On a smaller stack the outcome is a stack overflow or the same result, never another one. There is no limit of its own: a query beginning with j parentheses and a path of k arrows, well formed or not, overflows every stack with room for at most 8j+k+1 calls.", "quantifier": "for all query texts and all stack sizes", "why_tests_cant": "A test tries a few depths on the machine it runs on; that length alone never matters, and that depth always does in the end, concern all texts and all stacks. A stack overflow cannot be recovered from in Go, so callers must know what to limit.", "anchors": ["miniquery/miniquery.peg.go:521-3148", "miniquery/parse.go:3-16"]}
{"id": "C73", "title": "Errors of Parse, gorm and ent can be logged and tell what failed", "statement": "Every error that Parse, WireMiniQuery, BuildEntQL, ApplyEntQL and the ent SQL builder report for a query has a text; whatever the query contains, the text is one line of printable characters, except for a syntax error, which has exactly three line ends. Functions, edges and integers that an error quotes stand in the query as quoted; equal texts of the ent SQL builder come from equal errors; the text of a failing BuildEntQL or ApplyEntQL determines the query that failed, and for ApplyEntQL that is the first failing one, all before it having been applied.", "quantifier": "every query, schema, dialect and list of queries; IsPrint any predicate true of printable ASCII and of the characters of the messages and false of newline", "why_tests_cant": "Log injection needs only one character that is not escaped in one message; tests try a few characters in a few messages.", "anchors": ["miniquery/parse.go:Parse", "gormq/miniquery.go:WireMiniQuery", "entmq/entql.go:BuildEntQL", "entmq/entql.go:ApplyEntQL", "entmq/entsql.go:Query"]}
{"id": "C74", "title": "Both kinds of quotes mean the same", "statement": "A text that contains neither quotation mark means the same in single and in double quotes: replacing '...' by \"...\" at a place outside strings and comments gives the same tree or the same error, or both texts are rejected as not well formed, whatever stands before and after.", "quantifier": "every text before, between and after the quotes, accepted or not", "why_tests_cant": "All texts and all places; the generated parser has separate code for the two kinds of strings, at several places.", "anchors": ["miniquery/miniquery.peg.go:ruleString", "miniquery/miniquery.peg.go:Init", "miniquery/miniquery.peg", "miniquery/tree.go:AddString"]}
{"id": "C75", "title": "Keywords are known in any letter case", "statement": "Writing the keywords and word operators of a query in another letter case does not change the tree; texts that differ only in the case of letters give trees that differ only in the case of names and strings, or fail alike.", "quantifier": "every pair of texts that differ in the case of letters", "why_tests_cant": "Two runs over all pairs of texts; the generated parser tests every letter of every keyword separately, in both cases or in one.", "anchors": ["miniquery/miniquery.peg.go:Init", "miniquery/miniquery.peg", "miniquery/tree.go:AddOperation"]}
{"id": "C76", "title": "Outside strings and comments only plain ASCII", "statement": "A query that is not rejected as not well formed consists of ASCII letters and digits, the marks _ . , ( ) [ ] < > =, blanks, the pairs != && || ->, quoted strings and comments. Any other character (semicolon, backslash, backtick, control and non-ASCII characters, lone - or /, so also negative numbers) outside strings and comments makes Parse fail, whatever stands before and after.", "quantifier": "every text and every place in it", "why_tests_cant": "A lookalike or control character accepted at one place among infinitely many texts is enough for a surprise; tests try a few.", "anchors": ["miniquery/miniquery.peg.go:Init", "miniquery/miniquery.peg"]}
{"id": "C77", "title": "The generated code does what the grammar says, statement by statement", "statement": "Each rule function of miniquery.peg.go, run as written (its assignments, tests, gotos, labels, switches and breaks), returns on every buffer and in every state, in exactly one way: true at the end of what the rule of the grammar file matches, with the tokens of its captures and calls added; false with position and token index restored if the rule fails. No function reads past the end of the buffer or runs forever, the table of functions and the list of rule constants agree, and Execute calls for each action the method named in the grammar.", "quantifier": "every rule function, every text, every state of the shared variables", "why_tests_cant": "A wrong jump or a clobbered saved position in 2600 lines of gotos shows only on particular inputs and backtracking histories.", "anchors": ["miniquery/miniquery.peg.go:Init", "miniquery/miniquery.peg.go:Execute", "miniquery/miniquery.peg.go:pegRule"]}
{"id": "C78", "title": "Printing and translating need stack for the depth of the tree", "statement": "Build, String and the three translators give on a limited stack the result they give on an unlimited one, or overflow. Room for as many nested calls as the tree is deep is enough, hence five calls per character of the query; Build overflows with any less, and so does a gorm translation that succeeds. A chain of k operators and/or takes more than k nested calls in all of them, although parsing it takes 15 whatever its length.", "quantifier": "every accepted query, every schema, dialect and starting state, every stack size", "why_tests_cant": "A stack overflow cannot be recovered from in Go and shows only for queries too long for a test; that parsing succeeds does not mean that the tree can be used on the same stack.", "anchors": ["miniquery/node.go:String", "miniquery/node.go:Build", "gormq/miniquery.go:visit", "entmq/entsql.go:visit", "entmq/entql.go:visit"]}
{"id": "C79", "title": "The printed text of a query identifies it", "statement": "Two accepted queries for which Build prints the same text have the same tree, so that the text can be used as a key of a cache or a log.", "quantifier": "every pair of accepted queries, whatever their strings contain; any notion of printable character", "why_tests_cant": "A collision needs two queries at once; tests compare the text of one query with an expected text.", "anchors": ["miniquery/node.go:Build", "miniquery/node.go:buildValue", "miniquery/node.go:printPretty"]}
{"id": "C80", "title": "Other numbers, names and strings do not change how a query is read", "statement": "If in a query numbers are replaced by other numbers in the range of int, quoted texts by other texts without that quote, and names by other names, at any number of places at once, then both queries are rejected as not well formed or both are not; if one gives a tree, the other gives the same tree with the replaced parts exchanged; other errors are the same. If only numbers and strings are replaced, gorm and the ent SQL builder produce the same text. Names that are exchanged must not begin with true, false or null, and, unless an operand is due where they stand, not with an operator word: truex is not read as a name, and a order_id is read as a or der_id.", "quantifier": "every pair of texts related in this way, accepted or not; every relation between the replaced parts", "why_tests_cant": "Prepared queries are tested with a few values; a parser that looks at the first letters of words may read one name among all others differently.", "anchors": ["miniquery/miniquery.peg.go:Init", "miniquery/miniquery.peg", "miniquery/tree.go:AddInteger", "miniquery/tree.go:AddIdentifier", "miniquery/tree.go:AddString", "gormq/miniquery.go:WireMiniQuery", "entmq/entsql.go:Query"]}
{"id": "C81", "title": "The hand-written files of package miniquery, run as written, do what the model says", "statement": "The text of tree.go, parse.go, join.go, node.go and of Execute, read as a Go program and run statement by statement, returns for every argument what the model of these functions returns: Parse the tree or the error, Join, Build and String the text, Value the value, IsValue, IsExpression and NormalizeOperation their result; Build, String and Value panic exactly on the trees with nil nodes on which the model says so, Parse never does, and no call changes memory of its caller.", "quantifier": "every query text, every list of texts, every tree; every state of memory; every bound on the depth of calls that is large enough for the tree", "why_tests_cant": "It is the transcription of the code that all other claims rest on; a test of the code says nothing about a transcription of it, and reading both side by side overlooks what the author overlooked.", "anchors": ["miniquery/tree.go:1-274", "miniquery/parse.go:1-16", "miniquery/join.go:1-25", "miniquery/node.go:1-266", "miniquery/miniquery.peg.go:360-433"]}
{"id": "C82", "title": "visitor.go, run as written, hands each node to its callback", "statement": "The text of visitor.go, run statement by statement: Visit calls the callback for the type of the node exactly once, with the same context and node, and returns what it returns (function nodes go to BetweenExpression, references to no callback but an error); it panics if that callback is nil. Init changes nothing that its caller can see, so that v.Init() followed by v.Visit(ctx, n) still panics for a callback that was not set.", "quantifier": "every visitor, context, node and state of memory; callbacks are any function values", "why_tests_cant": "Tests try visitors with some callbacks set; that Init works on a copy shows only for callbacks that no test leaves out.", "anchors": ["miniquery/visitor.go:Visit", "miniquery/visitor.go:Init"]}
{"id": "C83", "title": "The file of gormq, run as written, does what the model says", "statement": "The text of gormq/miniquery.go, read as a Go program and run statement by statement on top of the files of package miniquery run as written, does for every query and every schema what the model says: WireMiniQuery returns a gorm.DB with the errors, joins and conditions that it had and behind them those of the model, in the DB that it was given or, where gorm works on a copy, in a copy, and then the given DB stays as it was; the statement has the schema of the model; nothing else in memory changes and nothing panics. MiniQuery.Scope does this for the joined queries, the function returned by ApplyMiniQuery whenever it is called; GetOrParseSchema, getDBName and normalizeSQL return what their models return. A query that is not empty adds exactly one condition that is not empty or exactly one error.", "quantifier": "every query text, every schema with its relations, every statement, every state of memory and of the given gorm.DB; every quoting and case folding; every bound on the depth of calls that is large enough for the length of the query", "why_tests_cant": "The closures of WireMiniQuery share variables and replace the DB while the tree is being visited; whether the right DB gets the condition depends on the query, and a test of the code says nothing about a model of it.", "anchors": ["gormq/miniquery.go:WireMiniQuery", "gormq/miniquery.go:visit", "gormq/miniquery.go:Scope", "gormq/miniquery.go:ApplyMiniQuery", "gormq/miniquery.go:GetOrParseSchema", "gormq/miniquery.go:getDBName", "gormq/miniquery.go:normalizeSQL"]}
{"id": "C84", "title": "entql.go, run as written, does what the model says", "statement": "The text of entmq/entql.go, read as a Go program and run statement by statement on top of the files of package miniquery run as written: Build of a builder, new or used before, returns the predicate or error of the model, leaves the stack of the model in the builder and changes nothing else; BuildEntQL returns the predicate, nothing, or the error of the model with its text around it; ApplyEntQL calls Where with the predicates of the model in order, stops at the first query that fails and returns its error with its text around it. Each panics exactly where the model says so. BuildEntQL returns a predicate exactly for the supported conditions, and for a query that reads as not e it returns the predicate of e: the not is lost.", "quantifier": "every query text, every list of queries, every stack of a used builder, every state of memory; every bound on the depth of calls that is large enough for the length of the queries", "why_tests_cant": "The stack of the builder is shared by all clauses of visit and survives errors; what a test sees after one query says nothing about the next one, and a test of the code says nothing about a model of it.", "anchors": ["entmq/entql.go:Build", "entmq/entql.go:visit", "entmq/entql.go:push", "entmq/entql.go:pop", "entmq/entql.go:BuildEntQL", "entmq/entql.go:ApplyEntQL"]}
{"id": "C85", "title": "entsql.go and entsql_util.go, run as written, do what the model says", "statement": "The texts of entmq/entsql.go and entmq/entsql_util.go, read as a Go program and run statement by statement on top of the files of package miniquery run as written: Query of a builder, new or used before, for any schema of nodes and edges, returns the text and arguments of the model, leaves the text, arguments, errors and tree of the model in the builder, changes no other memory that was in use and panics exactly where the model does; this includes conditions on edges, which ent runs by calling back into the file, nested to any depth. FormatParam returns what the model says and argWithCast keeps the value. So on postgres the placeholders that Query returns are numbered consecutively from the count before, one for each argument; Query returns if the query has no date() without arguments and there is a schema node or no has_edge, and panics on date() and on has_edge without a node; a second call of Query without errors returns the text of the first with more behind it, and all arguments twice.", "quantifier": "every query text, every schema, every dialect, every count of arguments before, every state of memory; every text that ent writes for identifiers and edges; both answers to whether errors of edge conditions reach the outer builder; every bound on the depth of calls that is large enough for the length of the query", "why_tests_cant": "A condition on an edge is written by another builder that ent runs from a closure, at a time that the file does not show; a test sees one nesting of one schema, and a test of the code says nothing about a model of it.", "anchors": ["entmq/entsql.go:Query", "entmq/entsql.go:visit", "entmq/entsql_util.go:FormatParam", "entmq/entsql_util.go:argWithCast", "entmq/entsql_util.go:Value"]}
{"id": "C86", "title": "From a query to SQL or a predicate, through the files run as written", "statement": "The files, run statement by statement: Parse returns one tree or an error, never both; a tree that it returns for a query with no arrow reads as the query in the declarative grammar, and a clearly spelled query gives the tree that it spells; Parse of what Build prints for a printable tree of the grammar returns that tree; Join of queries with no arrow gives a text that Parse reads as their conjunction. For a query that is not empty, WireMiniQuery adds one condition, and then Parse accepts the query, or one error and no condition. If it adds a condition: its arguments are what Value returns for the literals of the tree that Parse returns, in order; the joins are the relations referred to, each once, in order; every name and reference is known to the schema; date is the only function; there are at least as many placeholders as arguments, and as many if there is no comment; and for queries with no arrow, no comment inside an operator, comparisons of plain operands and calls of one argument, the condition read as SQL means, for every row, the tree regrouped by the precedence of SQL, and the tree itself if no and follows an or outside parentheses. The same holds of the text and arguments that Query of the ent SQL builder returns without an error, for trees of plain operands in which arrays stand only after in and are not empty, no range is negated, and date of one argument is the only call. BuildEntQL returns a predicate exactly if the tree is a supported condition; the predicate means the tree if there is no negation and no not between, and for not e it is the one for e.", "quantifier": "every query, every schema, every statement, every memory, every quoting, every interpretation of values and operators, every bound on the depth of calls that is large enough", "why_tests_cant": "The promises go through five files and three packages; a test fixes one query, one schema and one row, and cannot tell what a text means on the others.", "anchors": ["miniquery/parse.go:Parse", "miniquery/node.go:Build", "miniquery/join.go:Join", "gormq/miniquery.go:WireMiniQuery", "entmq/entql.go:BuildEntQL", "entmq/entsql.go:Query"]}
{"id": "C87", "title": "The parser object does what the model says, as written in the generated file", "statement": "Reading the text of the support code of miniquery.peg.go as a program and running it: Init leaves the state in which recognition starts; add and matchDot do to the variables of Init what the model of the recogniser does to its state; and a program that makes a parser object, calls Init, and then, in any order and any number of times, gives it queries (Buffer, Reset, Parse with or without a rule, Tokens), prints its tokens (Print), prints the syntax tree (PrintSyntaxTree) or gets it as a text (SprintSyntaxTree), and reads the message of the last error (Error), sees the tokens, errors, texts and panics that the model says. Queries never panic, the message of the query that just failed can always be read, and after a query that was accepted the syntax tree can always be printed: it begins with the whole query, and the text that SprintSyntaxTree returns is the printed one without colours. The options of Init: Size changes nothing that can be seen, but panics on a negative size; the last Pretty decides about colours.", "quantifier": "for every query, every sequence of such calls, both values of Pretty, every set of printable characters, and every bound on the depth of calls that is large enough", "why_tests_cant": "The support code works with closures over shared variables, slices that are appended to or overwritten, an embedded struct that is copied, and state that stays from one query to the next; tests try single queries on new objects.", "anchors": ["miniquery/miniquery.peg.go:Init", "miniquery/miniquery.peg.go:Parse", "miniquery/miniquery.peg.go:Reset", "miniquery/miniquery.peg.go:tokens32", "miniquery/miniquery.peg.go:parseError.Error", "miniquery/miniquery.peg.go:translatePositions"]}
{"id": "C88", "title": "Parse and parser objects agree, as written", "statement": "Running the texts: a parser object (miniquery.peg.go), whatever queries it was given before, refuses exactly the queries for which Parse (parse.go) returns a syntax error. The message that Error gives then names the lines and columns of the place that is in this error, and quotes the text there. Every other query has tokens on the object, and Parse returns a tree for it, or the error that an integer written in the query does not fit in 64 bits.", "quantifier": "for every query, every sequence of earlier queries on the same object, both values of Pretty, every set of printable characters, every memory, and every bound on the depth of calls that is large enough", "why_tests_cant": "The two ways to recognise a query go through different files, and a parser object carries state from one query to the next; tests compare them on a few queries at most.", "anchors": ["miniquery/parse.go:Parse", "miniquery/miniquery.peg.go:Parse", "miniquery/miniquery.peg.go:Reset", "miniquery/miniquery.peg.go:parseError.Error"]}
{"id": "C89", "title": "Parse of a parser object with a rule, as written", "statement": "Running the text of miniquery.peg.go: Parse of a parser object with the number of a rule of the grammar accepts a query if and only if this rule of the grammar file matches a beginning of it; what follows is ignored. The last token is the rule itself with the part of the query that it matches, the captures and actions among the tokens are those of the match, and all tokens are inside the query. If the rule does not match, the message of the error can be read and names a place inside the query. Rule 1 is what Parse starts with without a number. Parse panics exactly for the numbers below 1, above 63, and 36.", "quantifier": "for every rule, every query, every sequence of earlier queries on the same object with or without a rule, both values of Pretty, every set of printable characters, and every bound on the depth of calls that is large enough", "why_tests_cant": "The optional argument selects one of 64 functions in a table with two empty places; tests and package miniquery itself never pass it.", "anchors": ["miniquery/miniquery.peg.go:Parse", "miniquery/miniquery.peg.go:Init", "miniquery/miniquery.peg.go:rules"]}
{"id": "C90", "title": "The field Pretty of a parser object, as written", "statement": "Running the text of miniquery.peg.go: a program may assign to the field Pretty of a parser object at any time between its calls. Whether a call panics, and which tokens and errors it gives, do not depend on the field; each answer is the one that an object made with that value gives at this place. Messages of errors and printed syntax trees with their colour sequences removed are those of an object with Pretty off.", "quantifier": "for every query, every sequence of calls and of values of the field between them, every set of printable characters without the escape character, and every bound on the depth of calls that is large enough", "why_tests_cant": "The field is read at the time of the call, in two functions, one of which belongs to errors made earlier; a test fixes the values and the order of calls.", "anchors": ["miniquery/miniquery.peg.go:Pretty", "miniquery/miniquery.peg.go:parseError.Error", "miniquery/miniquery.peg.go:PrintSyntaxTree"]}
{"id": "C91", "title": "A parser object step by step, as written", "statement": "Running the text of miniquery.peg.go: a program may set Buffer and Pretty and call Reset, Parse with or without a rule, Tokens, Print, Error, PrintSyntaxTree and SprintSyntaxTree of a parser object in any order, and sees what the model says. In particular: Parse again without a Reset returns an error for every query, also for one that was accepted. Parse with rules, without a Reset in between, reads a text piece by piece: each rule is tried where the last one that matched ended, and is accepted if and only if the grammar file has it there. A text assigned to Buffer changes no answer before Reset other than printed syntax trees.", "quantifier": "for every sequence of such steps, every text, every list of rules, every set of printable characters, and every bound on the depth of calls that is large enough", "why_tests_cant": "The position, the tokens and the rune buffer are variables that only Reset sets back; tests call Reset, or use a new object, before each Parse.", "anchors": ["miniquery/miniquery.peg.go:Parse", "miniquery/miniquery.peg.go:Reset", "miniquery/miniquery.peg.go:Init", "miniquery/miniquery.peg.go:Buffer"]}
{"id": "C92", "title": "The methods of Tree in any order, as written", "statement": "Running the text of tree.go: a program may call the exported methods of Tree other than AddFloat in any order on any tree, and sees the results and the tree that the model says. A call panics exactly when it asks for a mark and there is none, when it asks for the nodes above a mark that lies above the stack, or when it asks for the names of nodes one of which is nil. Errors are only added, at the end, at most one by a call. A call takes a fixed number of nodes from the stack (or those above the last mark), fewer if there are fewer, puts one or none on it, and leaves what is below. The calls of a node in postorder put exactly that node on the stack and leave the rest of the tree as it was. AddFloat puts a node with the value that strconv.ParseFloat returns on the stack and records its error, whatever they are.", "quantifier": "for every sequence of calls with any arguments, every tree, every node, every memory, and every bound on the depth of calls of at least four", "why_tests_cant": "The parser calls the methods only in the orders the grammar allows, so branches such as those of PopFunction for a missing name or array run in no test of the parser; a test of the methods fixes one order and one stack.", "anchors": ["miniquery/tree.go:Push", "miniquery/tree.go:Pop", "miniquery/tree.go:PopFunction", "miniquery/tree.go:PopIdentifierReference", "miniquery/tree.go:popMarked", "miniquery/tree.go:AddError"]}
{"id": "C93", "title": "One parser object and one Tree for many queries, as written", "statement": "Running the text of tree.go and of Execute: a program may keep one parser object with its Tree and give it query after query (set Buffer, call Init and Parse, and Execute if Parse returns nil). No call panics. Each query that Parse accepts adds its nodes on top of the stack, the tree that the function Parse returns for it topmost, and its errors at the end of Errors; a query with a syntax error adds nothing. Nothing is ever removed: after queries that the function Parse accepts, and in which no -> occurs outside strings and comments and which do not end inside a comment, the stack has exactly their trees, in order, above what was there; an error of one query stays the first in Errors whatever queries follow, so a program that returns Errors[0] would reject all later queries. Calling Execute again adds the same nodes and errors again.", "quantifier": "for every list of queries, every tree at the start, every memory, every set of printable characters, and every bound on the depth of calls of at least six", "why_tests_cant": "Parse of the package makes a new object and a new Tree for each query; tests of the package never share them, and a test of sharing fixes the queries and their order.", "anchors": ["miniquery/parse.go:Parse", "miniquery/miniquery.peg.go:Execute", "miniquery/tree.go:Tree"]}

{
 "claims": [
  {
   "property": "C01",
   "status": "proved",
   "theorems": [
    "Verif.C01_parse_total",
    "Verif.C01_rules_total"
   ],
   "note": ""
  },
  {
   "property": "C02",
   "status": "proved",
   "theorems": [
    "Verif.C02_complete_tree"
   ],
   "note": ""
  },
  {
   "property": "C03",
   "status": "proved",
   "theorems": [
    "Verif.C03_only_successful_derivation",
    "Verif.C03_parse_runs_derivation"
   ],
   "note": ""
  },
  {
   "property": "C04",
   "status": "proved",
   "theorems": [
    "Verif.C04_accepted_balanced"
   ],
   "note": ""
  },
  {
   "property": "C05",
   "status": "proved",
   "theorems": [
    "Verif.C05_accepted_grammatical",
    "Verif.C05_stratified"
   ],
   "note": ""
  },
  {
   "property": "C08",
   "status": "proved",
   "theorems": [
    "Verif.C08_integer_exact",
    "Verif.C08_integer_operand",
    "Verif.C08_accepted_literal"
   ],
   "note": ""
  },
  {
   "property": "C09",
   "status": "proved",
   "theorems": [
    "Verif.C09_single_quoted",
    "Verif.C09_double_quoted",
    "Verif.C09_string_operand"
   ],
   "note": ""
  },
  {
   "property": "C10",
   "status": "proved",
   "theorems": [
    "Verif.C10_compare",
    "Verif.C10_logic",
    "Verif.C10_in",
    "Verif.C10_between",
    "Verif.C10_predicate",
    "Verif.C10_idempotent"
   ],
   "note": ""
  },
  {
   "property": "C11",
   "status": "partial",
   "theorems": [
    "Verif.C11_comparisons_partial",
    "Verif.C11_ltgt_refuted",
    "Verif.C11_gte_lte_refuted"
   ],
   "note": "The code violates the full claim: the spellings <>, gte and lte are unreachable (refuted by concrete and general witnesses); all other listed comparisons are proved for every pair of clearly spelled operands."
  },
  {
   "property": "C12",
   "status": "proved",
   "theorems": [
    "Verif.C12_logic_chain",
    "Verif.C12_compare_chain",
    "Verif.C12_paren_chain",
    "Verif.C12_left_nested"
   ],
   "note": "Operands are clearly spelled texts, or any accepted query in parentheses."
  },
  {
   "property": "C13",
   "status": "proved",
   "theorems": [
    "Verif.C13_leading_blanks",
    "Verif.C13_accepted",
    "Verif.C13_trailing_blanks",
    "Verif.C13_trailing_accepted",
    "Verif.C13_trailing_any",
    "Verif.C13_trailing_iff",
    "Verif.C13_surrounding"
   ],
   "note": "Blanks in front: every query. Blanks behind: every text, accepted or not, that does not end inside a string or comment or with a lone - or / (C13_trailing_any; both conditions are shown to be needed). Syntax errors agree up to the reported positions, which move with the blanks."
  },
  {
   "property": "C14",
   "status": "partial",
   "theorems": [
    "Verif.C14_keyword_prefix_refuted",
    "Verif.C14_not_prefix_refuted",
    "Verif.C14_names_partial"
   ],
   "note": "The code violates the full claim: no name starting with not/null/true/false/NULL/TRUE/FALSE can begin a column; proved usable for every other name."
  },
  {
   "property": "C15",
   "status": "partial",
   "theorems": [
    "Verif.C15_join_partial",
    "Verif.C15_join_trivial",
    "Verif.C15_arrow_refuted"
   ],
   "note": "False when a query contains ->, shown by a witness; proved for all lists of queries without it."
  },
  {
   "property": "C16",
   "status": "partial",
   "theorems": [
    "Verif.C16_join_truth_partial",
    "Verif.C16_rejected_entries_partial",
    "Verif.C16_injection_refuted"
   ],
   "note": "False when an entry has an unclosed bracket, shown by a witness. Proved for entries that parse alone and contain no ->, and, with entries that are rejected alone among them, for entries whose quotes, comments and brackets are closed."
  },
  {
   "property": "C17",
   "status": "partial",
   "theorems": [
    "Verif.C17_account",
    "Verif.C17_complete_partial",
    "Verif.C17_suffix",
    "Verif.C17_names_kept_partial",
    "Verif.C17_arrow_refuted",
    "Verif.C17_path_dropped_refuted"
   ],
   "note": "False with ->: every path p->...->b that opens a query is dropped, the query is read as one on b. For all accepted queries: every name, operator and literal written is a leaf of the tree or of one of the dropped trees, in order, and exactly one tree is dropped per arrow outside function arguments; without such arrows nothing is dropped."
  },
  {
   "property": "C06",
   "status": "proved",
   "theorems": [
    "Verif.C06_build_parse"
   ],
   "note": "Fit P spells out the exceptions: string literals that %q prints unescaped (P = unicode.IsPrint as parameter), no operator from opNames outside the grammar, functions only at the root, non-negative ints."
  },
  {
   "property": "C07",
   "status": "partial",
   "theorems": [
    "Verif.C07_printed",
    "Verif.C07_round_trip_partial",
    "Verif.C07_round_trip_iff",
    "Verif.C07_string_literal",
    "Verif.C07_quote_refuted",
    "Verif.C07_nested_call_refuted"
   ],
   "note": "False in full: escapes printed by %q are not understood by the parser and nested calls are printed with the root's name; both refuted with general witnesses. Partial holds for every accepted query whose tree satisfies Fit; C07_round_trip_iff shows that for queries without -> these are exactly the ones that round-trip."
  },
  {
   "property": "C41",
   "status": "partial",
   "theorems": [
    "Verif.C41_init_refuted",
    "Verif.C41_function_refuted",
    "Verif.C41_function_ignored",
    "Verif.C41_traversal_partial"
   ],
   "note": "Init has a value receiver, so it has no effect; function nodes are sent to the between callback and references to nothing. Partial: with defaults installed Visit reaches every leaf of a complete tree without calls/references, in order."
  },
  {
   "property": "C42",
   "status": "partial",
   "theorems": [
    "Verif.C42_string_lossy_refuted",
    "Verif.C42_string_partial",
    "Verif.C42_array"
   ],
   "note": "False for predicate and between nodes (refuted for all of them); partial covers the other nodes of parsed trees."
  },
  {
   "property": "C44",
   "status": "proved",
   "theorems": [
    "Verif.C44_error_report",
    "Verif.C44_farthest",
    "Verif.C44_recognised",
    "Verif.C44_reported",
    "Verif.C44_message",
    "Verif.C44_message_lines",
    "Verif.C44_message_faithful"
   ],
   "note": "Full text of parseError.Error; P is strconv.IsPrint."
  },
  {
   "property": "C45",
   "status": "proved",
   "theorems": [
    "Verif.C45_value",
    "Verif.C45_written",
    "Verif.C45_written_array"
   ],
   "note": ""
  },
  {
   "property": "C18",
   "status": "partial",
   "theorems": [
    "Verif.C18_values",
    "Verif.C18_placeholders_partial",
    "Verif.C18_query_partial",
    "Verif.C18_no_fewer",
    "Verif.C18_comment_refuted"
   ],
   "note": "Values half holds for every accepted query. Placeholder count is false for comments inside multi-word operators (refuted); partial for queries without comments (-- and // inside strings are none), or whose operator names contain no '?'. Assumes quoted names contain no '?'. For every query there are at least as many placeholders as values, and C24_made locates exactly one for each value."
  },
  {
   "property": "C19",
   "status": "proved",
   "theorems": [
    "Verif.C19_same_text",
    "Verif.C19_same_condition"
   ],
   "note": ""
  },
  {
   "property": "C20",
   "status": "proved",
   "theorems": [
    "Verif.C20_accepts_iff",
    "Verif.C20_names_known"
   ],
   "note": "An exact characterisation of acceptance."
  },
  {
   "property": "C21",
   "status": "proved",
   "theorems": [
    "Verif.C21_joins",
    "Verif.C21_joined_once"
   ],
   "note": ""
  },
  {
   "property": "C22",
   "status": "proved",
   "theorems": [
    "Verif.C22_fails_closed"
   ],
   "note": "Assumes that quoting never gives the empty text."
  },
  {
   "property": "C23",
   "status": "proved",
   "theorems": [
    "Verif.C23_only_date",
    "Verif.C20_accepts_iff"
   ],
   "note": ""
  },
  {
   "property": "C24",
   "status": "partial",
   "theorems": [
    "Verif.C24_made",
    "Verif.C24_vocabulary_partial",
    "Verif.C24_vocabulary_ops",
    "Verif.C24_comment_refuted"
   ],
   "note": "False in full: comments inside multi-word operators are copied to SQL. Partial for queries without comments (-- and // inside strings are none), or whose operators are all documented ones. C24_made bounds the damage for every query: vocabulary, one placeholder per value, quoted columns, and copies of blanks and comments of the query - nothing else."
  },
  {
   "property": "C26",
   "status": "partial",
   "theorems": [
    "Verif.C26_arguments_refuted",
    "Verif.C26_run_together",
    "Verif.C26_one_argument_partial"
   ],
   "note": "False: arguments are run together; partial for calls with one argument."
  },
  {
   "property": "C46",
   "status": "partial",
   "theorems": [
    "Verif.C46_columns_partial",
    "Verif.C46_quoted_partial",
    "Verif.C46_relation_field_refuted"
   ],
   "note": "False for fields without column (relations): they resolve to the empty name. Partial for tables all of whose fields have columns: C46_quoted_partial says that then nothing but columns is quoted, as the outcome does not depend on how other names would be quoted."
  },
  {
   "property": "C35",
   "status": "partial",
   "theorems": [
    "Verif.C35_ignoring_not_partial",
    "Verif.C35_meaning_partial",
    "Verif.C35_not_refuted",
    "Verif.C35_not_between_refuted",
    "Verif.C35_comment_refuted"
   ],
   "note": "Refuted as stated: the translator drops every not, turns not between into a conjunction that is never true, and reads not<comment>between as between. Proved: every returned predicate means the tree with negations ignored (arrow-free queries, plain ranges), hence exactly the tree when there is no negation, under every interpretation of names and operators."
  },
  {
   "property": "C36",
   "status": "partial",
   "theorems": [
    "Verif.C36_not_refuted",
    "Verif.C36_negFree"
   ],
   "note": "Refuted for every query: the predicate built for not q is the one built for q; no predicate ever contains a negation."
  },
  {
   "property": "C37",
   "status": "partial",
   "theorems": [
    "Verif.C37_predicate_partial",
    "Verif.C37_no_panic_partial",
    "Verif.C37_nil",
    "Verif.C37_syntax",
    "Verif.C37_unsupported",
    "Verif.C37_dropped_refuted",
    "Verif.C37_panic_refuted"
   ],
   "note": "Refuted as stated (panics for is-predicates, bare names, negated unsupported parts; nil predicate for calls). Proved: exact characterisation of the queries with a predicate and of those with nil; syntax errors are errors; unsupported parts never give a predicate."
  },
  {
   "property": "C38",
   "status": "partial",
   "theorems": [
    "Verif.C38_history_partial",
    "Verif.C38_supported_partial",
    "Verif.C38_refuted"
   ],
   "note": "Refuted as stated: a failed Build leaves operands on the stack that a later Build returns. Proved: histories of traceless calls have no effect, and supported queries are unaffected by any history."
  },
  {
   "property": "C39",
   "status": "proved",
   "theorems": [
    "Verif.C39_prefix",
    "Verif.C39_done"
   ],
   "note": "Panics are reported as a third way to end."
  },
  {
   "property": "C25",
   "status": "partial",
   "theorems": [
    "Verif.C25_regrouped_partial",
    "Verif.C25_meaning_partial",
    "Verif.C25_precedence_refuted",
    "Verif.C25_is_refuted",
    "Verif.C25_unreadable_refuted",
    "Verif.quotesNames_example"
   ],
   "note": "Refuted as stated: and/or have equal precedence in the tree but not in SQL; IS after a comparison applies to the comparison; comments inside operators and -> give text that is not SQL. Proved with an independent SQL reader (Spec/Sql): the condition is read in exactly one way, as the tree with and/or regrouped, hence as the tree itself when no and follows an or; for all interpretations."
  },
  {
   "property": "C43",
   "status": "partial",
   "theorems": [
    "Verif.C43_agree_partial",
    "Verif.C43_sql_agree_partial",
    "Verif.C43_ent_agree_partial",
    "Verif.C43_sql_not_between_refuted",
    "Verif.C43_precedence_refuted",
    "Verif.C43_not_refuted",
    "Verif.C43_not_between_refuted"
   ],
   "note": "Refuted as stated for negation, not between and and-after-or. Proved, pair by pair, for the remaining queries accepted by both translators of the pair (no comments inside operators, no ->); the two SQL translators agree even where and follows or."
  },
  {
   "property": "C27",
   "status": "partial",
   "theorems": [
    "Verif.C27_numbered",
    "Verif.C27_arguments",
    "Verif.C27_question_marks",
    "Verif.exE_noMarks",
    "Verif.C27_null_refuted",
    "Verif.C27_two_builders_refuted"
   ],
   "note": "Numbering proved for every query and starting count (names and edge texts must not contain placeholders), arguments for every tree that can be expressed. Refuted: nulls are bound too (unless casts are disabled), and with a separate SQLBuilder edge predicates go to the other builder and repeat numbers."
  },
  {
   "property": "C28",
   "status": "proved",
   "theorems": [
    "Verif.C28_values_apart"
   ],
   "note": "For every builder state, including a separate SQLBuilder."
  },
  {
   "property": "C29",
   "status": "partial",
   "theorems": [
    "Verif.C29_syntax",
    "Verif.C29_accepted_iff",
    "Verif.C29_error_or_text_partial",
    "Verif.C29_edge_condition_refuted"
   ],
   "note": "Refuted for errors inside the condition of has_edge. Proved: exact characterisation of acceptance; error or text for queries without such conditions."
  },
  {
   "property": "C30",
   "status": "partial",
   "theorems": [
    "Verif.C30_no_panic_partial",
    "Verif.C30_refuted"
   ],
   "note": "date() panics, has_edge panics if the builder has no schema node; no other panics."
  },
  {
   "property": "C33",
   "status": "partial",
   "theorems": [
    "Verif.C33_second_call",
    "Verif.C33_refuted",
    "Verif.C33_rejected_partial"
   ],
   "note": "Refuted for every query that returns text: the second call returns text and arguments twice. Rejected queries stay rejected in any number of calls."
  },
  {
   "property": "C34",
   "status": "partial",
   "theorems": [
    "Verif.C34_accepted_iff",
    "Verif.C34_target",
    "Verif.C34_call_refuted"
   ],
   "note": "Exact characterisation; refuted only in that a call of a function named like an edge is accepted as its name."
  },
  {
   "property": "C40",
   "status": "proved",
   "theorems": [
    "Verif.C40_format",
    "Verif.C40_bound"
   ],
   "note": ""
  },
  {
   "property": "C47",
   "status": "proved",
   "theorems": [
    "Verif.C47_vocabulary"
   ],
   "note": ""
  },
  {
   "property": "C31",
   "status": "partial",
   "theorems": [
    "Verif.C31_refuted",
    "Verif.C31_exclusive_partial",
    "Verif.C31_comment_refuted"
   ],
   "note": "Refuted: for lo <= hi the SQL of 'x not between lo and hi', read by the independent SQL reader, is false in every row, on every dialect and for every parameter offset. Kept: it is never true together with that of between, which is correct. A comment inside the operator turns it into between."
  },
  {
   "property": "C32",
   "status": "partial",
   "theorems": [
    "Verif.C32_regrouped_partial",
    "Verif.C32_meaning_partial",
    "Verif.C32_precedence_refuted",
    "Verif.C32_not_between_refuted",
    "Verif.C32_arguments_refuted",
    "Verif.C32_array_refuted"
   ],
   "note": "The text is read by an independent SQL reader (Spec/Sql.lean), in exactly one way, as the tree with 'and' binding tighter than 'or'; it means the tree itself if no 'and' follows an 'or' unparenthesised. Refuted in general: precedence, negated ranges, further arguments of date, arrays outside 'in', 'in []'. Not covered: texts of edge predicates (not in /repo)."
  },
  {
   "property": "C48",
   "status": "partial",
   "theorems": [
    "Verif.C48_accepted",
    "Verif.C48_unique",
    "Verif.C48_range",
    "Verif.C48_range_forms",
    "Verif.C48_range_then_and_refuted"
   ],
   "note": "Proved for an independent definition of plainly written queries (Spec/Spaced.lean). Refuted for a bracketed range that is followed by 'and': the pair is then taken as the lower bound of the other form."
  },
  {
   "property": "C49",
   "status": "partial",
   "theorems": [
    "Verif.C49_tree",
    "Verif.C49_print",
    "Verif.C49_print_failed_partial",
    "Verif.C49_print_stale_refuted"
   ],
   "note": "Tree and printing proved for every accepted query and any history of the parser object; printing after a rejected query proved for new objects, refuted for reused ones (stale tokens of a longer query)."
  },
  {
   "property": "C50",
   "status": "partial",
   "theorems": [
    "Verif.C50_tokens",
    "Verif.C50_query",
    "Verif.C50_history_partial",
    "Verif.C50_errors_kept_refuted",
    "Verif.C50_error_kept_refuted"
   ],
   "note": "Tokens and syntax errors never depend on the history. Refuted in full: the errors collected by the embedded Tree survive Reset, so after one integer out of range every later query fails. Proved: exact answer of a reused object, and equality with Parse for histories without such a query. Also refuted: an error kept while its object parses a shorter query panics when printed."
  },
  {
   "property": "C51",
   "status": "partial",
   "theorems": [
    "Verif.C51_scope_partial",
    "Verif.C51_rejected_partial",
    "Verif.C51_meaning_partial",
    "Verif.C51_injection_refuted",
    "Verif.C51_blank_refuted"
   ],
   "note": "Proved for queries that parse on their own and contain no '->'; the meaning for queries without comments inside operators whose own text reads as their tree. Refuted in full: an entry that is no query of its own can break out of its parentheses, and a single blank entry is an error while several are ignored."
  },
  {
   "property": "C52",
   "status": "partial",
   "theorems": [
    "Verif.C52_sequence",
    "Verif.C52_joined_twice_refuted"
   ],
   "note": "Independence proved for every sequence. Refuted: a relation used by two separately applied queries is joined twice."
  },
  {
   "property": "C53",
   "status": "proved",
   "theorems": [
    "Verif.C53_no_schema",
    "Verif.C53_resolved_kept"
   ],
   "note": "Model of the statement: Schema and Model fields only; a failing stat.Parse leaves Schema nil."
  },
  {
   "property": "C54",
   "status": "proved",
   "theorems": [
    "Verif.C54_text",
    "Verif.C54_file_total",
    "Verif.C54_rules",
    "Verif.C54_parse",
    "Verif.C54_syntax_error"
   ],
   "note": "The text of miniquery.peg is part of the project (PegText) and C54_text reads it; G transcribes the rule functions of miniquery.peg.go, which C77 checks against their text."
  },
  {
   "property": "C55",
   "status": "partial",
   "theorems": [
    "Verif.C55_rejected_partial",
    "Verif.C55_no_reference_partial",
    "Verif.C55_joins_refuted"
   ],
   "note": "Refuted: relations referred to before the failing place stay joined. Proved: nothing else is left, and nothing at all if the query refers to no relation."
  },
  {
   "property": "C56",
   "status": "proved",
   "theorems": [
    "Verif.C56_steps",
    "Verif.C56_short",
    "Verif.C56_tokens",
    "Verif.C56_at_least"
   ],
   "note": "Steps of the recogniser and tokens; the work of Execute and of the UTF-8 decoding is not counted. Stack depth is bounded by depthBound (C01)."
  },
  {
   "property": "C57",
   "status": "proved",
   "theorems": [
    "Verif.C57_tree",
    "Verif.C57_query",
    "Verif.C57_colour",
    "Verif.C57_tokens"
   ],
   "note": "P is strconv.IsPrint; arbitrary, except that C57_colour needs the escape character to be not printable."
  },
  {
   "property": "C58",
   "status": "partial",
   "theorems": [
    "Verif.C58_single_quoted",
    "Verif.C58_double_quoted",
    "Verif.C58_pieces_partial",
    "Verif.C58_provenance",
    "Verif.C58_ascii",
    "Verif.C58_distinct_partial",
    "Verif.C58_invalid_refuted"
   ],
   "note": "Refuted in full: bytes that are not well-formed UTF-8 are stored as U+FFFD. Proved for well-formed queries; provenance and the ASCII part for all byte strings. Decoder and encoder are those of the Go runtime."
  },
  {
   "property": "C59",
   "status": "partial",
   "theorems": [
    "Verif.C59_embed_partial",
    "Verif.C59_frame_partial",
    "Verif.C59_guard_partial",
    "Verif.C59_refuted"
   ],
   "note": "Refuted in full: a text with an open bracket, or a query with ->, breaks the frame. Proved for all texts without -> whose quotes, comments and brackets are closed."
  },
  {
   "property": "C60",
   "status": "proved",
   "theorems": [
    "Verif.C60_first",
    "Verif.C60_texts",
    "Verif.C60_errors"
   ],
   "note": "Errors as values with the offending text; texts are C73."
  },
  {
   "property": "C61",
   "status": "proved",
   "theorems": [
    "Verif.C61_derivation",
    "Verif.C61_unique"
   ],
   "note": "Derivations are Spec/Deriv: the negative side conditions (an earlier choice does not match) are those of the relation Big."
  },
  {
   "property": "C62",
   "status": "proved",
   "theorems": [
    "Verif.C62_value",
    "Verif.C62_prepared",
    "Verif.C62_gorm",
    "Verif.C62_entsql",
    "Verif.C62_quote_needed"
   ],
   "note": "The place is any where the text before it ends neither in a string nor in a comment (modeAfter); values without the quote around them, since there is no escape for it."
  },
  {
   "property": "C63",
   "status": "proved",
   "theorems": [
    "Verif.C63_blanks",
    "Verif.C63_place",
    "Verif.C63_covers"
   ],
   "note": "Layout relates texts with the same characters and strings separated at the same places; C63_place needs only that the text before the blanks ends neither in a string nor in a comment."
  },
  {
   "property": "C64",
   "status": "partial",
   "theorems": [
    "Verif.C64_comments_partial",
    "Verif.C64_place_partial",
    "Verif.C64_refuted"
   ],
   "note": "Refuted inside operators of several words: the comment becomes part of the operator's name. Proved: acceptance never depends on comments, the trees differ at most in the names of operators, and are equal if no operator name contains '-' or '/'."
  },
  {
   "property": "C65",
   "status": "proved",
   "theorems": [
    "Verif.C65_tree",
    "Verif.C65_depth",
    "Verif.C65_gorm"
   ],
   "note": "Constants: 5 per character of the query; characters of the condition also times the length of the longest quoted column name."
  },
  {
   "property": "C66",
   "status": "partial",
   "theorems": [
    "Verif.C66_general",
    "Verif.C66_sql_partial",
    "Verif.C66_entql_partial",
    "Verif.C66_refuted",
    "Verif.C66_entql_refuted"
   ],
   "note": "Refuted: both builders use the left operand of a range twice, so nested ranges of 18k+1 characters give 2^(k+1)-2 arguments, and predicates of size 2^k. Proved in proportion to the tree with the left operands doubled, and linear if no range stands inside another."
  },
  {
   "property": "C67",
   "status": "proved",
   "theorems": [
    "Verif.C67_counters",
    "Verif.C67_tokens",
    "Verif.C67_reuse",
    "Verif.C67_wrap_refuted"
   ],
   "note": "The bound on the length is part of the claim; without it the claim is false (a text of 2^32 or more blanks makes the recogniser loop for ever)."
  },
  {
   "property": "C68",
   "status": "proved",
   "theorems": [
    "Verif.C68_parse",
    "Verif.C68_history",
    "Verif.C68_rename"
   ],
   "note": "Nodes as cells, slices as array and length, append with an arbitrary growth function; Den reads the tree back from memory and lists what it met, and the list has no repetition."
  },
  {
   "property": "C69",
   "status": "proved",
   "theorems": [
    "Verif.C69_first",
    "Verif.C69_written",
    "Verif.C69_text"
   ],
   "note": "Errors as values; C69_text is about their texts, with P = strconv.IsPrint."
  },
  {
   "property": "C70",
   "status": "proved",
   "theorems": [
    "Verif.C70_sql",
    "Verif.C70_entql"
   ],
   "note": "Errors as values; texts are C73. Whether there is an error is C29 and C37."
  },
  {
   "property": "C71",
   "status": "proved",
   "theorems": [
    "Verif.C71_parse",
    "Verif.C71_history",
    "Verif.goGrow_growth"
   ],
   "note": "Memory as in Heap; the rule of append is a parameter (Growth). The token array is C67."
  },
  {
   "property": "C72",
   "status": "proved",
   "theorems": [
    "Verif.C72_depth",
    "Verif.C72_same",
    "Verif.C72_flat",
    "Verif.C72_needed"
   ],
   "note": "Depth counts nested calls of rule functions, all taken to need the same room. Recursion over the finished tree (visitors, printing) is not counted."
  },
  {
   "property": "C73",
   "status": "proved",
   "theorems": [
    "Verif.C73_parse",
    "Verif.C73_range",
    "Verif.C73_gorm",
    "Verif.C73_build",
    "Verif.C73_apply",
    "Verif.C73_which",
    "Verif.C73_sql",
    "Verif.C73_written",
    "Verif.C73_sql_text"
   ],
   "note": "The text of an error about the model (GetOrParseSchema) is a parameter. How gorm (AddError) and ent (Builder.Err) join several errors is theirs."
  },
  {
   "property": "C74",
   "status": "proved",
   "theorems": [
    "Verif.C74_quotes"
   ],
   "note": "Positions in syntax errors are not compared."
  },
  {
   "property": "C75",
   "status": "partial",
   "theorems": [
    "Verif.C75_refuted",
    "Verif.C75_operators_partial",
    "Verif.C75_letters"
   ],
   "note": "False for between, is, isnull, notnull, the not of is not, null, true and false: other spellings than the listed ones are rejected or read as names (witnesses). Proved for and, or, not, in, like, eq, neq, gt, lt, gte, lte, and for any change of case that leaves the fixed keywords in place."
  },
  {
   "property": "C76",
   "status": "proved",
   "theorems": [
    "Verif.C76_lexed",
    "Verif.C76_rejected",
    "Verif.C76_pairs"
   ],
   "note": ""
  },
  {
   "property": "C77",
   "status": "proved",
   "theorems": [
    "Verif.C77_functions",
    "Verif.C77_actions",
    "Verif.C77_rules",
    "Verif.C77_parse",
    "Verif.C77_rejects",
    "Verif.C77_execute"
   ],
   "note": "The text of the rule functions, of the rule constants and of the cases of Execute is part of the project (GoCode). The closures add and matchDot, and Parse around the functions, are transcribed by hand (addTok, Runs, afterRules)."
  },
  {
   "property": "C78",
   "status": "proved",
   "theorems": [
    "Verif.C78_build",
    "Verif.C78_string",
    "Verif.C78_gorm",
    "Verif.C78_entsql",
    "Verif.C78_entql",
    "Verif.C78_linear",
    "Verif.C78_chain"
   ],
   "note": "Counted are the calls of the walking functions by themselves (Stack.lean says what is counted with them); frames of fmt, gorm and ent are not."
  },
  {
   "property": "C79",
   "status": "partial",
   "theorems": [
    "Verif.C79_trees_partial",
    "Verif.C79_key_partial",
    "Verif.C79_calls_refuted",
    "Verif.C79_comment_refuted",
    "Verif.C79_arrow_refuted"
   ],
   "note": "False as stated: calls below the root are printed without their name (lower(a), upper(a) and (a) print alike), comments inside operators and `->` collide too, each with a witness. Proved without these: equal texts mean equal trees, also when strings are escaped and the text cannot be read back."
  },
  {
   "property": "C80",
   "status": "proved",
   "theorems": [
    "Verif.C80_syntax",
    "Verif.C80_tree",
    "Verif.C80_all",
    "Verif.C80_number",
    "Verif.C80_name",
    "Verif.C80_operand",
    "Verif.C80_first",
    "Verif.C80_gorm",
    "Verif.C80_entsql",
    "Verif.C80_refuted"
   ],
   "note": "Refill lists the pieces of a text and says after which ones an operand is due. C80_all: every accepted query is covered. C80_refuted shows why names must not begin with literals and operators. Positions in syntax errors are not compared."
  },
  {
   "property": "C81",
   "status": "proved",
   "theorems": [
    "Verif.C81_program",
    "Verif.C81_parse",
    "Verif.C81_join",
    "Verif.C81_build",
    "Verif.C81_string",
    "Verif.C81_value",
    "Verif.C81_tests",
    "Verif.C81_normalize"
   ],
   "note": "The text of the files is part of the project (Mini/Text) and is read by readGo in the kernel; the language is run by call (Mini/Eval: values, memory, closures, switches, loops, panics). mqLib says what calls of the Go library do and that Init and Parse of the parser object run the recogniser (C77 ties that to its text). Structs that are never changed after their creation are values. AddFloat, which nothing calls, is not run; visitor.go is C82."
  },
  {
   "property": "C82",
   "status": "proved",
   "theorems": [
    "Verif.C82_dispatch",
    "Verif.C82_reference",
    "Verif.C82_total",
    "Verif.C82_init",
    "Verif.C82_init_useless"
   ],
   "note": "Program and interpreter of C81; the library is arbitrary. C82_init: a callback that is set is a function value (isFunc)."
  },
  {
   "property": "C83",
   "status": "proved",
   "theorems": [
    "Verif.C83_program",
    "Verif.C83_wire",
    "Verif.C83_scope",
    "Verif.C83_apply",
    "Verif.C83_schema",
    "Verif.C83_name",
    "Verif.C83_normalize",
    "Verif.C83_outcome"
   ],
   "note": "Interpreter of C81. gqLib says what gorm does: AddError changes the DB, Joins and Where change it or a copy of it (gorm's clone), QuoteTo writes the quoted name, Parse of a statement finds the schema of its model or fails; a copy shares its statement. Parse, Join and Value are those of the program of C81. C83_outcome: a quoted name is not empty."
  },
  {
   "property": "C84",
   "status": "proved",
   "theorems": [
    "Verif.C84_program",
    "Verif.C84_builder",
    "Verif.C84_build",
    "Verif.C84_apply",
    "Verif.C84_predicate",
    "Verif.C84_not"
   ],
   "note": "Interpreter of C81. eqLib says what the package entql does: F, Not and And make the nodes that their names say, unary and binary expressions are predicates, values and fields are not; errors and Wrapf keep their arguments; logging does nothing; the object given to ApplyEntQL notes the arguments of Where. The variadic argument of ApplyEntQL is a slice. Parse and Value are those of the program of C81."
  },
  {
   "property": "C85",
   "status": "proved",
   "theorems": [
    "Verif.C85_program",
    "Verif.C85_query",
    "Verif.C85_format",
    "Verif.C85_value",
    "Verif.C85_numbered",
    "Verif.C85_no_panic",
    "Verif.C85_panic",
    "Verif.C85_again"
   ],
   "note": "Interpreter of C81. sqLib says what ent does: Builder collects text, arguments and errors and counts arguments, and writes $n on postgres and ? elsewhere; HasNeighbors, HasNeighborsWith, Where and P make predicates; Join of a predicate writes something open before and behind the condition (SPar), running the function literals of entsql.go and Query of the builder that they make. Whether errors of such a condition get to the outer builder is open. An error that is reported by Query and by Err counts once. The embedded Builder is at an address of its own. Reflection on the field where of a selector gives its value. The bounds on N, n, D and k are on the depth of calls."
  },
  {
   "property": "C86",
   "status": "proved",
   "theorems": [
    "Verif.C86_decides",
    "Verif.C86_sound",
    "Verif.C86_clear",
    "Verif.C86_round_trip",
    "Verif.C86_join",
    "Verif.C86_gorm_closed",
    "Verif.C86_gorm_parts",
    "Verif.C86_gorm_means",
    "Verif.C86_entql_builds",
    "Verif.C86_entql_means",
    "Verif.C86_entql_not",
    "Verif.C86_entsql_means"
   ],
   "note": "The model's functions do not occur in the statements, only runs of the texts and specifications (Query, Spaced, Shape, Fit, mean, ReadsQ, evalS, evalE, Sup, ...). What the restrictions on queries leave out is refuted in C25, C32, C35 and C36. Libraries as in C81 to C85."
  },
  {
   "property": "C87",
   "status": "proved",
   "theorems": [
    "Verif.C87_program",
    "Verif.C87_uses",
    "Verif.C87_bound",
    "Verif.C87_memory",
    "Verif.C87_options",
    "Verif.C87_no_panic",
    "Verif.C87_tree",
    "Verif.C87_init",
    "Verif.C87_add",
    "Verif.C87_dot"
   ],
   "note": "supportText is miniquery.peg.go without the numbering of the rules, Execute (C81) and the rule functions (C77); it is read as a program, and the interpreter of Verif/Gen runs it with closures, boxed variables, slices in memory and pointers into structs. Calls of rule functions run the model of the recogniser on the variables of Init and put the tokens into a new array. fmt.Sprintf, fmt.Fprintf, fmt.Println, strings.Builder, strconv.Quote and sort.Ints are given by functions. The bound on loops and calls that is enough (needs) depends on the number of tokens whose syntax tree is printed; 16 for every character of the longest query and 25 more are enough (C87_bound). Slice expressions are checked against the length, not the capacity, so the message of an error, or the syntax tree of tokens, that was kept for a shorter query panics here; the other statements do not depend on this. Of the options of Init, those that the file defines are covered (Pretty, Size); options that a caller writes are not."
  },
  {
   "property": "C88",
   "status": "proved",
   "theorems": [
    "Verif.C88_agree",
    "Verif.C88_syntax"
   ],
   "note": "Both sides are runs of the texts, as in C81 and C87; the two interpreters are different programs, and what ties them is the model of the recogniser. In C81, a syntax error is a value with the two positions of the farthest token."
  },
  {
   "property": "C89",
   "status": "proved",
   "theorems": [
    "Verif.C89_rule",
    "Verif.C89_default",
    "Verif.C89_panic"
   ],
   "note": "Runs of the text as in C87; a rule function runs as the model of the recogniser from that rule (C77 for the functions themselves). The grammar G is that of the grammar file; Big is its declarative semantics."
  },
  {
   "property": "C90",
   "status": "proved",
   "theorems": [
    "Verif.C90_each",
    "Verif.C90_colour"
   ],
   "note": "Runs of the text as in C87. The assignment is that of a field of the object in memory; removing colours is stripColour, as in C57."
  },
  {
   "property": "C91",
   "status": "proved",
   "theorems": [
    "Verif.C91_steps",
    "Verif.C91_twice",
    "Verif.C91_scan",
    "Verif.C91_buffer",
    "Verif.C91_depth"
   ],
   "note": "Runs of the text as in C87, one step at a time; capacities of slices as in C87 (a syntax tree cut from a shorter text panics beyond its length)."
  },
  {
   "property": "C92",
   "status": "proved",
   "theorems": [
    "Verif.C92_calls",
    "Verif.C92_panic",
    "Verif.C92_errors",
    "Verif.C92_stack",
    "Verif.C92_builds",
    "Verif.C92_float"
   ],
   "note": "Runs of the text as in C81. AddFloat has a theorem of its own, for any function in place of strconv.ParseFloat, because the model has no floats."
  },
  {
   "property": "C93",
   "status": "proved",
   "theorems": [
    "Verif.C93_feeds",
    "Verif.C93_trees",
    "Verif.C93_stale",
    "Verif.C93_again"
   ],
   "note": "Execute and the methods of Tree are runs of the text as in C81. Init and Parse of the object are library functions of that interpreter, also on an object used before; C87 and C91 run their text."
  }
 ]
}
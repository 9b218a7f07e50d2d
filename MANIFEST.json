{
 "claims": [
  {
   "property": "C01",
   "status": "proved",
   "theorems": [
    "Pycep.C01_exactly_one_source"
   ],
   "note": ""
  },
  {
   "property": "C02",
   "status": "proved",
   "theorems": [
    "Pycep.C02_triple_quotes",
    "Pycep.C02_count"
   ],
   "note": "C02_count shows that the model's count is the number of non-overlapping occurrences taken left to right (inductive spec Occ)."
  },
  {
   "property": "C03",
   "status": "proved",
   "theorems": [
    "Pycep.C03_file_is_text",
    "Pycep.C03_empty_file"
   ],
   "note": ""
  },
  {
   "property": "C04",
   "status": "proved",
   "theorems": [
    "Pycep.C04_independent_calls"
   ],
   "note": ""
  },
  {
   "property": "C05",
   "status": "proved",
   "theorems": [
    "Pycep.C05_outcomes",
    "Pycep.C05_no_internal_error"
   ],
   "note": ""
  },
  {
   "property": "C06",
   "status": "proved",
   "theorems": [
    "Pycep.C06_tree_and_parse"
   ],
   "note": ""
  },
  {
   "property": "C07",
   "status": "proved",
   "theorems": [
    "Pycep.C07_failing_constructs"
   ],
   "note": ""
  },
  {
   "property": "C08",
   "status": "proved",
   "theorems": [
    "Pycep.C08_shape"
   ],
   "note": ""
  },
  {
   "property": "C09",
   "status": "proved",
   "theorems": [
    "Pycep.C09_plain_data"
   ],
   "note": "The result is a tree of dictionaries, lists and scalars with distinct text keys."
  },
  {
   "property": "C10",
   "status": "proved",
   "theorems": [
    "Pycep.C10_collected"
   ],
   "note": ""
  },
  {
   "property": "C11",
   "status": "proved",
   "theorems": [
    "Pycep.C11_scope"
   ],
   "note": ""
  },
  {
   "property": "C12",
   "status": "partial",
   "theorems": [
    "Pycep.C12_additive_partial",
    "Pycep.C12_counterexample"
   ],
   "note": "For programs that nest resources only directly in bodies of resources: same failure, or both runs succeed and the result with line numbers is the other one with __start_line__/__end_line__ put behind attributes. Fails in general: a nested resource inside a printed value (union member) shows its line entries in the printed text (counterexample). The exact difference for all programs is C55."
  },
  {
   "property": "C13",
   "status": "partial",
   "theorems": [
    "Pycep.C13_lines",
    "Pycep.C13_import_lines",
    "Pycep.C13_nested_partial",
    "Pycep.C13_counterexample"
   ],
   "note": "Proved for top-level declarations and imported names. For nested resources the start line is proved, and the end line if a single line feed follows; otherwise it is wrong (counterexample; exact formula in C53)."
  },
  {
   "property": "C14",
   "status": "proved",
   "theorems": [
    "Pycep.C14_ordered"
   ],
   "note": ""
  },
  {
   "property": "C15",
   "status": "proved",
   "theorems": [
    "Pycep.C15_type_and_version",
    "Pycep.C15_other_literals_fail"
   ],
   "note": ""
  },
  {
   "property": "C16",
   "status": "proved",
   "theorems": [
    "Pycep.C16_classification"
   ],
   "note": ""
  },
  {
   "property": "C17",
   "status": "proved",
   "theorems": [
    "Pycep.C17_components",
    "Pycep.C17_others_fail",
    "Pycep.C17_accepted"
   ],
   "note": ""
  },
  {
   "property": "C18",
   "status": "proved",
   "theorems": [
    "Pycep.C18_public"
   ],
   "note": ""
  },
  {
   "property": "C19",
   "status": "proved",
   "theorems": [
    "Pycep.C19_strings_verbatim"
   ],
   "note": "For every string at every reported place of every accepted program."
  },
  {
   "property": "C20",
   "status": "proved",
   "theorems": [
    "Pycep.C20_identifiers"
   ],
   "note": "For every identifier at every reported place."
  },
  {
   "property": "C21",
   "status": "proved",
   "theorems": [
    "Pycep.C21_multiline"
   ],
   "note": "For every multi-line string at every reported place."
  },
  {
   "property": "C22",
   "status": "proved",
   "theorems": [
    "Pycep.C22_integers",
    "Pycep.C22_long_integers",
    "Pycep.C22_decimal"
   ],
   "note": "Integers of up to 4300 digits; longer ones are shown to be refused."
  },
  {
   "property": "C23",
   "status": "proved",
   "theorems": [
    "Pycep.C23_arrays"
   ],
   "note": "For every array at every reported place."
  },
  {
   "property": "C24",
   "status": "proved",
   "theorems": [
    "Pycep.C24_objects",
    "Pycep.C24_keys"
   ],
   "note": "For every object at every reported place."
  },
  {
   "property": "C25",
   "status": "proved",
   "theorems": [
    "Pycep.C25_array_types"
   ],
   "note": ""
  },
  {
   "property": "C26",
   "status": "proved",
   "theorems": [
    "Pycep.C26_unions",
    "Pycep.C26_injective"
   ],
   "note": ""
  },
  {
   "property": "C27",
   "status": "proved",
   "theorems": [
    "Pycep.C27_function_prefix",
    "Pycep.C27_decorator_prefix",
    "Pycep.C27_calls",
    "Pycep.C27_decorators"
   ],
   "note": ""
  },
  {
   "property": "C28",
   "status": "proved",
   "theorems": [
    "Pycep.C28_unknown_functions",
    "Pycep.C28_unknown_never_fails",
    "Pycep.C28_unknown_decorators"
   ],
   "note": ""
  },
  {
   "property": "C29",
   "status": "proved",
   "theorems": [
    "Pycep.C29_from_one",
    "Pycep.C29_from_two",
    "Pycep.C29_format",
    "Pycep.C29_coalesce"
   ],
   "note": "The accepted argument counts are C30_arities."
  },
  {
   "property": "C30",
   "status": "proved",
   "theorems": [
    "Pycep.C30_arities",
    "Pycep.C30_calls"
   ],
   "note": ""
  },
  {
   "property": "C31",
   "status": "proved",
   "theorems": [
    "Pycep.C31_arguments_unaltered"
   ],
   "note": ""
  },
  {
   "property": "C32",
   "status": "proved",
   "theorems": [
    "Pycep.C32_decorators",
    "Pycep.C32_known"
   ],
   "note": ""
  },
  {
   "property": "C33",
   "status": "proved",
   "theorems": [
    "Pycep.C33_min_max",
    "Pycep.C33_other"
   ],
   "note": ""
  },
  {
   "property": "C34",
   "status": "proved",
   "theorems": [
    "Pycep.C34_nested_resources"
   ],
   "note": ""
  },
  {
   "property": "C35",
   "status": "partial",
   "theorems": [
    "Pycep.C35_nested_partial",
    "Pycep.C35_counterexample"
   ],
   "note": "False in general: of several resources nested in the same body only the last is reported (counterexample proved). Proved when no body has two, and nested resources occur only directly in resource bodies."
  },
  {
   "property": "C36",
   "status": "partial",
   "theorems": [
    "Pycep.C36_no_marker_partial",
    "Pycep.C36_counterexample"
   ],
   "note": "False in general (children inside loops, conditions or plain objects keep the marker; counterexample proved); proved when nested resources occur only directly in resource bodies and the key is not used otherwise."
  },
  {
   "property": "C37",
   "status": "proved",
   "theorems": [
    "Pycep.C37_loops",
    "Pycep.C37_conditions"
   ],
   "note": "For every loop at every reported place; C37_conditions covers every condition without exception."
  },
  {
   "property": "C38",
   "status": "proved",
   "theorems": [
    "Pycep.C38_imports",
    "Pycep.C38_namespaces"
   ],
   "note": ""
  },
  {
   "property": "C39",
   "status": "proved",
   "theorems": [
    "Pycep.C39_functions"
   ],
   "note": ""
  },
  {
   "property": "C40",
   "status": "proved",
   "theorems": [
    "Pycep.C40_lambdas"
   ],
   "note": "For every lambda at every reported place."
  },
  {
   "property": "C41",
   "status": "proved",
   "theorems": [
    "Pycep.C41_operators",
    "Pycep.C41_distinct"
   ],
   "note": "For every operator application at every reported place."
  },
  {
   "property": "C42",
   "status": "proved",
   "theorems": [
    "Pycep.chains_nest_right",
    "Pycep.chain_text",
    "Pycep.C42_values"
   ],
   "note": "chains_nest_right: any layout, any surrounding declarations, any operands (chain as the value of a variable). chain_text: the canonical text of every chain, no hypothesis on the text. C42_values: what is reported for it, key by key."
  },
  {
   "property": "C43",
   "status": "proved",
   "theorems": [
    "Pycep.wrapped_syn",
    "Pycep.brackets_transparent",
    "Pycep.brackets_irrelevant",
    "Pycep.left_operand_brackets"
   ],
   "note": "brackets_irrelevant: for every choice of redundant brackets and ! at all places of a program the outcome of parse is the meaning of the program, which does not depend on the choice. left_operand_brackets: a left operand that is an operator expression is in brackets or ends with !!."
  },
  {
   "property": "C44",
   "status": "partial",
   "theorems": [
    "Pycep.C44_methods_partial",
    "Pycep.C44_counterexample"
   ],
   "note": "False in general: falsy arguments are dropped by the code (counterexample proved; exact rule in C51). Proved for all calls whose arguments are not empty."
  },
  {
   "property": "C45",
   "status": "proved",
   "theorems": [
    "Pycep.C45_lossless",
    "Pycep.C45_lossless_parse"
   ],
   "note": "The accepted text is the concatenation of pieces, each trivia or a token with an allowed text; the tree is a derivation of exactly these tokens."
  },
  {
   "property": "C46",
   "status": "proved",
   "theorems": [
    "Pycep.C46_derivation"
   ],
   "note": "Der is an independent inductive definition of derivations; the tokens that remain in the tree are a subsequence of the tokens of the text."
  },
  {
   "property": "C47",
   "status": "proved",
   "theorems": [
    "Pycep.leading_blanks",
    "Pycep.leading_blanks_file"
   ],
   "note": ""
  },
  {
   "property": "C48",
   "status": "proved",
   "theorems": [
    "Pycep.parse_writes",
    "Pycep.parse_render",
    "Pycep.parse_render_plain",
    "Pycep.writes_unique"
   ],
   "note": "parse_render: with line numbers the outcome is the meaning of the same program with the line numbers of the text. Names may be keywords wherever these are not reserved (C80)."
  },
  {
   "property": "C49",
   "status": "proved",
   "theorems": [
    "Pycep.C49_conditions"
   ],
   "note": "For every condition at every reported place."
  },
  {
   "property": "C50",
   "status": "partial",
   "theorems": [
    "Pycep.C50_resource_id_partial",
    "Pycep.C50_counterexample"
   ],
   "note": "False in general: a type followed by three names is misread (counterexample proved; exact rule in C52)."
  },
  {
   "property": "C51",
   "status": "proved",
   "theorems": [
    "Pycep.C51_methods"
   ],
   "note": "Exact rule, for all argument lists; the broader claim users may expect is C44, which is false of the code."
  },
  {
   "property": "C52",
   "status": "proved",
   "theorems": [
    "Pycep.C52_resource_ids"
   ],
   "note": "Exact rule by number of arguments for all five functions; the claim users may expect is C50, which is false of the code."
  },
  {
   "property": "C53",
   "status": "proved",
   "theorems": [
    "Pycep.C53_nested_lines"
   ],
   "note": "Exact formula for nested resources; that the end line is the true one (C13) is false when more than one line feed follows."
  },
  {
   "property": "C54",
   "status": "proved",
   "theorems": [
    "Pycep.C54_names",
    "Pycep.nestedNames_exist"
   ],
   "note": "Names and order of all sections. Nested resources: for bodies in which the key __child_resource__ is not written by the user (nestedNames_exist gives a sufficient condition). That every nested resource is reported (C35) is false."
  },
  {
   "property": "C55",
   "status": "proved",
   "theorems": [
    "Pycep.C55_line_entries"
   ],
   "note": "Covers all programs except those that write the internal key __child_resource__ in a resource body."
  },
  {
   "property": "C56",
   "status": "proved",
   "theorems": [
    "Pycep.C56_relayout"
   ],
   "note": "'Clearly writes' is the relation Layout (Spec/Layout.lean): it is sufficient for the lexer to find the tokens, not necessary."
  },
  {
   "property": "C57",
   "status": "proved",
   "theorems": [
    "Pycep.C57_typed",
    "Pycep.C57_metadata_untyped"
   ],
   "note": "The published BicepJson omits the section metadata (counterexample proved), so the theorem is about BicepJson with that section. PossibleValue and Any are not looked into."
  },
  {
   "property": "C58",
   "status": "proved",
   "theorems": [
    "Pycep.C58_printed",
    "Pycep.C58_joined_ambiguous",
    "Pycep.C58_example"
   ],
   "note": "literal reads Python literals (strings with escapes, integers, True/False/None, lists, dictionaries) with the blanks that repr writes. Which non-ASCII characters repr escapes is left open by the model (uniPrintable)."
  },
  {
   "property": "C59",
   "status": "proved",
   "theorems": [
    "Pycep.C59_provenance"
   ],
   "note": "Places (Program.At) and pieces (Program.Has) are those of C43-C46; the stretch is a SliceOf of the text, i.e. it starts with its first token and ends with its last."
  },
  {
   "property": "C60",
   "status": "proved",
   "theorems": [
    "Pycep.C60_words",
    "Pycep.C60_items"
   ],
   "note": "Part of the cutting of the text (ExactTiling) that Spells demands in the other claims. The keywords of declarations are not covered: the examples show that they may be glued to the word behind them (varx=1)."
  },
  {
   "property": "C61",
   "status": "proved",
   "theorems": [
    "Pycep.C61_concat",
    "Pycep.C61_plain",
    "Pycep.C61_below"
   ],
   "note": "Stated for clear ways to write programs (as in C48); an example shows two accepted texts for which it fails because a string with an unclosed interpolation goes on in the second text. For a name that is a resource of both texts, one of the two entries is reported."
  },
  {
   "property": "C62",
   "status": "proved",
   "theorems": [
    "Pycep.C62_table",
    "Pycep.C62_conflict",
    "Pycep.C62_unique"
   ],
   "note": "States, look-aheads and conflict resolution of the table, against a textbook definition; the definition determines the table up to the numbers of states."
  },
  {
   "property": "C63",
   "status": "proved",
   "theorems": [
    "Pycep.C63_parse",
    "Pycep.C63_tree",
    "Pycep.C63_place",
    "Pycep.C63_outcome"
   ],
   "note": ""
  },
  {
   "property": "C64",
   "status": "proved",
   "theorems": [
    "Pycep.C64_functions",
    "Pycep.C64_operators",
    "Pycep.C64_lambdas",
    "Pycep.C64_loops",
    "Pycep.C64_decorators"
   ],
   "note": ""
  },
  {
   "property": "C65",
   "status": "proved",
   "theorems": [
    "Pycep.C65_same"
   ],
   "note": "Exclusions (Expr.Faithful) are those of the statement; each is shown to be needed by an example. Data types may look like string literals, therefore they are compared among themselves."
  },
  {
   "property": "C66",
   "status": "proved",
   "theorems": [
    "Pycep.C66_grammar_file",
    "Pycep.C66_same_grammar"
   ],
   "note": "trees without line numbers; which of several trees of an ambiguous token sequence is returned is C41 and C62"
  },
  {
   "property": "C67",
   "status": "proved",
   "theorems": [
    "Pycep.C67_words"
   ],
   "note": "the set of acceptable terminals is that of the LALR(1) state (C62); stated as some function of the tokens before"
  },
  {
   "property": "C68",
   "status": "proved",
   "theorems": [
    "Pycep.C68_same"
   ],
   "note": "Documents that declare no name twice and write nothing the result cannot show; an example for each exclusion shows two such documents with equal results."
  },
  {
   "property": "C69",
   "status": "proved",
   "theorems": [
    "Pycep.C69_order",
    "Pycep.C69_outcome",
    "Pycep.Rearranged.of_perm"
   ],
   "note": "Both documents parsed; if the second is written clearly (C48), success of the first implies success of the second. Without line numbers, which are those of the respective text (C12, C13)."
  },
  {
   "property": "C70",
   "status": "proved",
   "theorems": [
    "Pycep.Sharing.C70_fresh_objects",
    "Pycep.Sharing.C70_memory_irrelevant",
    "Pycep.Sharing.C70_edit_is_local",
    "Pycep.Sharing.C70_results_independent"
   ],
   "note": "For the model of the transformer with objects and changes in place, started in any memory. A call that raises may have changed only objects it made itself; this is not claimed."
  },
  {
   "property": "C71",
   "status": "proved",
   "theorems": [
    "Pycep.C71_tree",
    "Pycep.C71_same_result",
    "Pycep.C71_same_verdict",
    "Pycep.C71_file"
   ],
   "note": "Texts without CR CR LF. The result is the same if the printed tree has no Windows line end, i.e. none stands in a string literal; examples show that both conditions are needed. Exceptions raised by the transformer are covered by C71_same_result."
  },
  {
   "property": "C72",
   "status": "proved",
   "theorems": [
    "Pycep.C72_linear",
    "Pycep.C72_exponential"
   ],
   "note": "Both directions of the statement: the linear bound on the number of values and, for every n, a document with an exponentially long text."
  },
  {
   "property": "C73",
   "status": "proved",
   "theorems": [
    "Pycep.C73_tree_decides",
    "Pycep.C73_alias_None",
    "Pycep.C73_several_lines"
   ],
   "note": "For inputs whose tokens are one line each and without an alias None; two theorems show that both conditions are needed."
  },
  {
   "property": "C74",
   "status": "proved",
   "theorems": [
    "Pycep.C74_accepts",
    "Pycep.C74_accepts_tree",
    "Pycep.C74_outcome",
    "Pycep.C74_expected_more",
    "Pycep.C74_accepts_less"
   ],
   "note": "accepts is sound for every syntax error and complete where the lexer fails; two theorems show that nothing stronger holds for the other sets."
  },
  {
   "property": "C75",
   "status": "proved",
   "theorems": [
    "Pycep.C75_edit",
    "Pycep.C75_plain",
    "Pycep.C75_written",
    "Pycep.C75_accepted",
    "Pycep.C75_lookup",
    "Pycep.C75_keys"
   ],
   "note": "Pieces that are not reported as they are (arguments of methods and decorators, variables of lambdas, members of type unions) are not covered; C75_methods_differ shows why for methods."
  },
  {
   "property": "C76",
   "status": "proved",
   "theorems": [
    "Pycep.C76_possible",
    "Pycep.C76_never",
    "Pycep.C76_parts"
   ],
   "note": "Exact characterisation, both directions."
  },
  {
   "property": "C77",
   "status": "proved",
   "theorems": [
    "Pycep.C77_linear",
    "Pycep.C77_counted",
    "Pycep.C77_parse"
   ],
   "note": "Counts are given by the relation Works, which follows the loop of the modelled engine step by step and is deterministic (C77_counted). Time inside the regular expression engine is not modelled."
  },
  {
   "property": "C78",
   "status": "proved",
   "theorems": [
    "Pycep.C78_tree",
    "Pycep.C78_values",
    "Pycep.C78_deep"
   ],
   "note": "Depth of the recursion is a property of the tree; the limit of the interpreter itself is not modelled."
  },
  {
   "property": "C79",
   "status": "proved",
   "theorems": [
    "Pycep.C79_functions",
    "Pycep.C79_decorators",
    "Pycep.C79_not",
    "Pycep.C79_numbers_differ"
   ],
   "note": "For minValue the equivalence is stated for arguments that are not objects: an object that looks like the representation of a negative number is taken for one."
  },
  {
   "property": "C80",
   "status": "proved",
   "theorems": [
    "Pycep.C80_literals",
    "Pycep.C80_names",
    "Pycep.C80_refs",
    "Pycep.C80_operands",
    "Pycep.C80_keys",
    "Pycep.C80_keys_first"
   ],
   "note": "Names of declarations, references, right operands and keys for all identifiers; literals never become references, for all parsed texts."
  },
  {
   "property": "C81",
   "status": "proved",
   "theorems": [
    "Pycep.C81_written",
    "Pycep.C81_read",
    "Pycep.C81_no_negative"
   ],
   "note": "Which strings can be written is a sufficient condition; some others can be written too (a quote behind a backslash, for example)."
  },
  {
   "property": "C82",
   "status": "proved",
   "theorems": [
    "Pycep.C82_threads"
   ],
   "note": "For every interleaving: a thread is done only with the outcome of its call on a new parser, and is done once it has taken enough steps of its own. Model: a method of the transformer and the building of the tree are single steps."
  },
  {
   "property": "C83",
   "status": "proved",
   "theorems": [
    "Pycep.C83_exactly",
    "Pycep.C83_first",
    "Pycep.C83_plain"
   ],
   "note": "C83_exactly is an equivalence; C83_first says which declaration is named (of several faults in one declaration it does not say which). C83_plain is sufficient, not necessary."
  },
  {
   "property": "C84",
   "status": "proved",
   "theorems": [
    "Pycep.C84_behind",
    "Pycep.C84_last_line"
   ],
   "note": "For clear texts; the examples in Props/Tail.lean show why."
  },
  {
   "property": "C85",
   "status": "proved",
   "theorems": [
    "Pycep.C85_stray",
    "Pycep.C85_rejected",
    "Pycep.C85_first",
    "Pycep.C85_bom",
    "Pycep.C85_begins"
   ],
   "note": "Which characters beyond ASCII are word characters is left to the regular expression engine; the theorems on the first character need no such knowledge."
  },
  {
   "property": "C86",
   "status": "proved",
   "theorems": [
    "Pycep.C86_extents",
    "Pycep.C86_lines",
    "Pycep.C86_rejected"
   ],
   "note": "Inside of an interpolation the pattern of quoted strings accepts any token, so its end is only as definite as that."
  },
  {
   "property": "C87",
   "status": "proved",
   "theorems": [
    "Pycep.C87_string",
    "Pycep.C87_comment"
   ],
   "note": "The hypothesis Quiet says that no string or comment begins in front of the quote or /*."
  },
  {
   "property": "C88",
   "status": "proved",
   "theorems": [
    "Pycep.C88_match",
    "Pycep.C88_plain",
    "Pycep.C88_rejected",
    "Pycep.C88_closing"
   ],
   "note": "C88_plain and C88_rejected speak of the text itself and so need that it has no strings and comments; C88_match covers all texts through the cut of C86."
  },
  {
   "property": "C89",
   "status": "proved",
   "theorems": [
    "Pycep.C89_lines",
    "Pycep.C89_rejected"
   ],
   "note": "C89_rejected assumes that no string or comment begins in front of the line break; C89_lines covers all texts through the cut of C86."
  },
  {
   "property": "C90",
   "status": "proved",
   "theorems": [
    "Pycep.C90_repeated"
   ],
   "note": "Clearly written as in C48; an example beside the theorem shows that a repetition that does not follow directly can change the result."
  },
  {
   "property": "C91",
   "status": "proved",
   "theorems": [
    "Pycep.C91_file",
    "Pycep.C91_invalid",
    "Pycep.C91_success",
    "Pycep.C91_ascii",
    "Pycep.C91_utf16",
    "Pycep.C91_bom",
    "Pycep.decode_iff"
   ],
   "note": "The strict UTF-8 decoder is modelled byte by byte and shown to be the exact inverse of the encoding (decode_iff). That read_text uses it in a UTF-8 locale is part of the trusted base. UnicodeDecodeError and OSError are not distinguished."
  },
  {
   "property": "C92",
   "status": "proved",
   "theorems": [
    "Pycep.C92_header",
    "Pycep.C92_moved"
   ],
   "note": "Clearly written documents (Writes and Program.clear), tidy as in C12. Where resources are nested elsewhere an example shows that lines change inside values."
  },
  {
   "property": "C93",
   "status": "proved",
   "theorems": [
    "Pycep.C93_lines",
    "Pycep.C93_between",
    "Pycep.C93_commented"
   ],
   "note": "Clearly written parts (Writes and Program.clear), the first ending its last line, the second not starting with a line break; the triple quotes of each part are even in number."
  },
  {
   "property": "C94",
   "status": "proved",
   "theorems": [
    "Pycep.C94_overridden",
    "Pycep.C94_commented"
   ],
   "note": "Clearly written parts (Writes and Program.clear) with balanced triple quotes; results compared up to order as in C69."
  },
  {
   "property": "C95",
   "status": "proved",
   "theorems": [
    "Pycep.C95_sections",
    "Pycep.C95_lines",
    "Pycep.C95_same"
   ],
   "note": "The first two for clearly written documents (Writes and Program.clear), the third for all accepted documents."
  }
 ]
}

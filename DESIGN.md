# Formal model of gruebel/pycep

Source under study: `/repo/pycep` (a Bicep parser: text in, JSON-like dictionaries out), read as text.
Model and proofs: Lean 4.33.0 in `lean/`, built with `lake build`.

## What is modelled

The whole path from a text to the returned dictionary, function by function:

| code | model |
| --- | --- |
| `main.py` `BicepParser.parse`, `create_tree`, `_create_tree` | `Verif/Parser.lean`; several calls on one object: `Verif/Session.lean`; calls in several threads: `Verif/Threads.lean` (transformation of a tree taken apart into steps, transformers as objects in a shared memory, any interleaving; a method of the transformer is one step; parsing does not change the Lark object, which is what Lark documents, so it is one step) |
| `validator.py` | `Verif/Parser.lean` (`isValid`) |
| `bicep.lark` terminals, as regular expressions | `Verif/Terminals.lean`, `Verif/Regex.lean` (backtracking matcher with look-ahead, lazy and possessive loops and `(?R)`) |
| `bicep.lark` rules, after Lark's EBNF expansion | `Verif/Grammar.lean` (generated) |
| the text of `bicep.lark`, its statements, regular expressions, terminals, rules and their expansion | `Verif/LarkText.lean` (generated), `Verif/LarkFile.lean`, `Verif/LarkRegex.lean`, `Verif/LarkGrammar.lean`, `Verif/LarkCompile.lean`, `Verif/LarkRules.lean` (generated, checked) |
| Lark's LALR(1) table for that grammar | `Verif/Table.lean` (generated) |
| Lark's contextual lexer | `Verif/Lexer.lean` |
| Lark's LALR driver | `Verif/LR.lean` |
| the exceptions for syntax errors: `LineCounter`, positions, second attempt of the contextual lexer | `Verif/SyntaxError.lean` |
| the sets of acceptable terminals in these exceptions: `expected`, `allowed`, `accepts` | `Verif/Expected.lean` |
| Lark's tree builder (filtering, inlining, placeholders, `?rules`, positions) | `Verif/Tree.lean` |
| `lark.Transformer` and `transformer.py` `BicepToJson` | `Verif/Transformer.lean`, `Verif/ModulePath.lean` |
| `utils.py`, `models.py` | `Verif/Transformer.lean`, `Verif/Py.lean` |
| `rules/functions.py`, `rules/decorators.py` | `Verif/Functions.lean`, `Verif/Decorators.lean` |
| Python values, dicts, `str`, `repr`, `int`, slicing | `Verif/Py.lean` |
| the same transformer, functions and decorators with dictionaries and lists as objects (identity, changes in place) | `Verif/Heap/Basic.lean`, `Functions.lean`, `Decorators.lean`, `Transformer.lean` in `Verif/Heap/` |

`tools/lark_tables.py` derives the BNF rules and the LALR table from the text of `bicep.lark`,
following Lark 1.3 (`load_grammar.py`, `lalr_analysis.py`: LALR(1) look-aheads, shift preferred on
conflicts); `tools/gen_lean.py` writes the two generated modules.  `tools/compare_examples.py`
runs the Lean model on all 125 example files of `/repo/tests` and compares with the stored
expected results: no differences.  (That is a check of the model's fidelity, not a proof.)

The types of `typing.py` are transcribed in `Spec/Typing.lean` (results), `Spec/Published.lean` (expressions: keys),
`Spec/Possible.lean` (values) and `Spec/ArgTypes.lean` (arguments).

Not modelled: columns and byte offsets in trees (they are modelled for syntax errors),
`RecursionError` and `MemoryError`, the grammar cache on disk, the texts of interpreter-generated
error messages, reading files (a path is a name together with the outcome of `read_text()`; of `read_text()` itself the translation of line ends is modelled, in `ReadText.lean`, and decoding from UTF-8, in `ReadBytes.lean`).

## Trusted base

* The Lean kernel, and the axioms `propext`, `Classical.choice`, `Quot.sound`; no other axiom, no
  `sorry`, no `native_decide`, no `bv_decide`.  Finite facts about the generated table are checked
  by the kernel (`decide +kernel`), and are used only as lemmas of theorems about all inputs.
  Every theorem named below depends on these three axioms, except `C22_decimal`,
  `C27_function_prefix` and `C62_unique`, which use `propext` and `Quot.sound` only, and `C76_parts`, which uses
  `propext` only (`#print axioms`).
* The reading of Lark's source (which is not in the sandbox) embodied in the lexer, driver and tree
  builder.  The expansion of the EBNF rules and the translation of terminals by
  `tools/lark_tables.py` are not trusted: C66 and C67 prove that they mean what the text of
  `bicep.lark` (`LarkText.lean`) means; what is trusted there is the meaning of Lark's notation
  (`LarkFile.lean`, `LarkRegex.lean`, `LarkGrammar.lean`, `Spec/Ebnf.lean`), the copy of the few
  lines of Lark's `common.lark` that are imported, and that `LarkText.lean` is a copy of the file
  (`tools/gen_larktext.py`).  The parsing table is not trusted: C62 proves that it is the LALR(1) table of the expanded rules (what is trusted is that
  Lark builds the LALR(1) table, with its documented treatment of conflicts).  The certificates in
  `Past.lean`, `Items.lean` and `Lalr.lean` are not trusted: they are checked by the kernel.
* Non-ASCII behaviour of `\w`, `\d`, `str.isspace`, `str.isprintable` is left open (`opaque`
  constants without equations): theorems hold for every Unicode table.

## Structure of the argument

The specification consists of

* an abstract syntax of Bicep (`Spec/Ast`),
* which sequences of tokens are ways to write a program (`Spec/Syntax`, relation `ProgSyn`), without
  tables or grammar rules,
* how a text is cut into tokens (`Spec/Text`: what every accepted cut satisfies; `Spec/Layout`:
  which texts are written clearly enough to be cut in one way only),
* what a program means (`Spec/Sem`, `Program.val`): a dictionary or an exception, by recursion on the
  abstract syntax, without tokens, trees or callbacks,
* the tables of functions and decorators, the forms of module references and the treatment of nested
  resources, each on its own (`Spec/FunTable`, `Spec/DecoTable`, `Spec/ModuleRef`, `Spec/Nested`).

The main results are

1. *soundness* (`Proofs/EndToEnd`, used by almost all properties): if `parse` returns `v` for a text,
   the text is cut without loss into tokens that spell a program `p` and `v` is the meaning of `p`.
   This is what `Spells` (`Spec/Spells`) says in the statements of the properties.  In this cut
   (`ExactTiling`, `Spec/Extents`, see C86) words and numbers are whole, and strings, comments and line
   ends extend exactly as far as they should.  Which token is taken where several are possible depends on
   what the grammar allows, so `Spells` also says: if the text is a clear way
   to write some program, that program is `p` (by completeness and because different programs have
   different trees, `Proofs/TreeInj`).
   Steps: `RegexSound`, `LexerSound` (tokens have the specified texts and lines), `LRSound` (what the
   driver accepts is a derivation; never stuck; terminates), `SynDef`/`SynRules*` (the tree of a
   derivation is the tree of a program and its tokens spell it; one case per grammar rule), `SemExpr`,
   `SemDecl` (the transformer computes the meaning);
2. *completeness* (`Props/Complete`, `parse_writes`): every clearly written text of a program is
   accepted and its outcome is the meaning of the program.  Steps: `YieldBase`/`Yields*`,
   `SynComplete`, `DeclComplete` (every way to write a program has a derivation in which no rule is
   applied in front of a look-ahead where the table prefers to shift), `LRComplete` with the
   kernel-checked item sets `ItemCheck` (the driver finds every such derivation), `Scan`, `Lex*`
   (the contextual lexer finds the tokens in every state that has a use for them);
3. a *canonical text* for every program, with any redundant brackets (`Spec/Render`, `RenderLayout`,
   `RenderGood`, `RenderSyn`, `Props/Canonical`): completeness is not vacuous for any program.

## Findings

Behaviour of the code that a user would not expect, established while proving (the first group as
theorems named `*_counterexample` or shown in examples beside the theorems):

* Of several resources nested in the same body only the last one is reported (C35).
* A quoted string and a multi-line string cannot stand in this order on one line (C86): in `concat('a b', '''c''')`
  the look-ahead of the quoted string sees the three quotes and refuses. Three quotes in a comment behind a quoted
  string have the same effect. The other order, and different lines, are fine.
* `read_text()` is called without an encoding (C91): with a default encoding other than UTF-8, as on Windows, characters
  outside ASCII in string literals come out as other characters, without an error.
* A file that starts with a byte order mark is always rejected (C85): `read_text()` keeps the mark, and nothing in the
  grammar begins with it.
* Resources nested in loops, conditions or plain objects are not reported, and the internal key
  `__child_resource__` appears in the result (C36).  A user's own key of that name crashes `parse` or
  is taken for a nested resource.
* The end line of a nested resource is too large when blank lines or comments follow it (C13).
* Line numbers of resources nested in a member of a type union appear in the printed text of the
  member, so `add_line_numbers` changes other values there (C12).
* Arguments of method-style calls that are falsy (`0`, `false`, `''`, `[]`, `{}`, `null`) are dropped (C44).
* `resourceId` with a type and three names is misread as a resource group and a type (C50); the third
  name of `tenantResourceId` is dropped.
* All binary operators nest to the right, whatever they are: `a - b - c` is `a - (b - c)`, `a * b + c`
  is `a * (b + c)`, and `!a && b` is `!(a && b)` (C42).  But `a + b!! - c` is `(a + b) - c` (C43).
* `((a))` is a syntax error; `f(,a)` and `[a b]` are accepted, while `[a -b]` is a subtraction.
* `@maxValue(-5)` raises, `@minValue(-x)` reports `''`, `@allowed()` raises; flag decorators drop
  arguments; further arguments of known functions are silently dropped.
* `resourceGroup(x, y)` swaps its arguments only if both are truthy.
* A loop filter `{function: 'abc'}` and an empty `if()` raise errors.
* `with {...}` of an extension is dropped when empty; a namespace import never has line numbers.
* A multi-line string loses a leading line feed but not a leading carriage return and line feed.
* `?`, `!` and `.?` leave no trace in the result.  Quoted keys keep their quotes, so `a` and `'a'` are
  different keys.
* Integers of more than 4300 digits raise `VisitError`.
* Lexing: `varx = 1` is `var x = 1`; a `//` comment in the last line needs a line break behind it;
  `var x = a //* c */ b` without one is a division, with one a comment (C84);
  `a.list[foo(1)]` reads `list` as the name of a list function; `'${a['b']}'` as a key, and a quoted
  string in an interpolation in an unindented array, are cut in the wrong place
  (`[\n'${f('x')}'\n]` gives `['${f(', 'x', ')}']`, with indentation it is right);
  a multi-line string ends at the first `'''`.
* The published type `PossibleValue` is too narrow: `null`, arrays of arrays or of objects or of calls,
  loops without a condition and calls that leave out an optional argument do not have it (C76).
* Parameters of `concat`, `intersection`, `max`, `min`, `union`, `guid`, `uniqueString` and the resource id functions are published as `str`, and the operand of `!` as `bool | str`; numbers, arrays, objects, calls and operators are accepted and reported there (C79), e.g. in `max(1, 2)` or `!empty(x)`.
* `null`, `true` and `false` are literals even behind a dot: `a.null` is reported with `operand_2` `None`, `a.true` with `True` (C80_operands). As keys they are accepted directly behind the brace or a comma (`{ null: 1 }`), but are a syntax error at the beginning of a line (C80_keys, C80_keys_first).
* The condition of a loop is unwrapped if it merely looks like the representation of a call of `if`: an object literal `{function: {type: 'if', parameters: {arg_1: 7}}}` as a condition is reported as `7` (C37, `Props/Loops.lean`).
* Long chains of operators: `a + b + c + ...` and `x.a.b.c...` give a tree with two levels per operator (C78 and its examples), and Lark transforms trees recursively, with about two interpreter frames per level. With the default limit of 1000 frames, `parse` and `create_tree` should therefore fail with `RecursionError` (not modelled) on a chain of a few hundred operators, whereas long arrays, objects and files are harmless.
* Syntax errors: the allowed set of an `UnexpectedCharacters` may name a token that can never stand
  there (`}` after `var x = 1 ~`), the sets of an `UnexpectedToken` may lack one that can (`!` for
  `var x = 1 }`) (C74).
* An expression cannot be continued by an operator at the beginning of a line: `c\n  ? 1\n  : 2` is rejected, although bicep allows it (C89).
* `parse(text='')` raises `TypeError` although an empty file is an empty program.

## Checks against wrong programs

`seeded/LOG.jsonl`: realistic errors put into a scratch copy of the model, with the proofs that broke.
Parts of the model that the specification shares (`getFunction`, `getDecorator`, `classifyModulePath`,
`processChild`, `splitOn`, `loopCondition`, `Val.pyStr`) are pinned down by C15-C18, C27-C34, C37, C51, C52.

## Per property: what is modelled and how it is proved

* **C01 Exactly one input source** (proved). `Parser.parse`/`createTree` by cases on the arguments. Theorems: `C01_exactly_one_source`.
* **C02 Unbalanced triple quotes are rejected up front** (proved). `isValid` related to an independent inductive specification of non-overlapping occurrences. Theorems: `C02_triple_quotes`, `C02_count`.
* **C03 File input equals text input** (proved). Equality of the two branches of `_create_tree`. Theorems: `C03_file_is_text`, `C03_empty_file`.
* **C04 Calls on one parser object are independent** (proved). Sessions as lists of calls over an explicit instance state. Theorems: `C04_independent_calls`.
* **C05 parse is total with a closed set of outcomes** (proved). Safety of the LALR driver by a stack invariant (kernel-checked table facts), termination by a measure, totality of the transformer from soundness. Theorems: `C05_outcomes`, `C05_no_internal_error`.
* **C06 create_tree and parse agree** (proved). By cases, using C05. Theorems: `C06_tree_and_parse`.
* **C07 Only certain constructs can fail after parsing** (proved). Where `Program.val` can be an exception: induction on the abstract syntax. Theorems: `C07_failing_constructs`.
* **C08 Shape of the result** (proved). Invariant of the fold of declarations. Theorems: `C08_shape`.
* **C09 The result is plain JSON data** (proved). Induction on the abstract syntax. Theorems: `C09_plain_data`.
* **C10 Declarations are collected without loss, the last one wins** (proved). Independent specification of the fold; refinement. Theorems: `C10_collected`.
* **C11 Target scope** (proved). From C10. Theorems: `C11_scope`.
* **C12 Line numbers are purely additive** (partial). Relational induction over the two meanings of one program; counterexample. Theorems: `C12_additive_partial`, `C12_counterexample`.
* **C13 Line numbers are the true lines** (partial). Lexer invariant (position and line bookkeeping), tree builder invariant (spans), lifted through the driver; counterexample for nested resources. Theorems: `C13_lines`, `C13_import_lines`, `C13_nested_partial`, `C13_counterexample`.
* **C14 Line ranges of declarations are ordered** (proved). From C13. Theorems: `C14_ordered`.
* **C15 Resource type and API version** (proved). Independent specification of splitting at `@`. Theorems: `C15_type_and_version`, `C15_other_literals_fail`.
* **C16 Module references: classification** (proved). Case analysis on prefixes. Theorems: `C16_classification`.
* **C17 Module references: components** (proved). Correctness of the group matcher against an independent specification, both directions. Theorems: `C17_components`, `C17_others_fail`, `C17_accepted`.
* **C18 Module references: public flag** (proved). From C16 and C17. Theorems: `C18_public`.
* **C19 Quoted strings are verbatim** (proved). Token shape (regex soundness) plus the meaning at every place. Theorems: `C19_strings_verbatim`.
* **C20 Identifiers and string literals stay distinguishable** (proved). The meaning at every place. Theorems: `C20_identifiers`.
* **C21 Multi-line strings** (proved). Token shape plus the meaning at every place. Theorems: `C21_multiline`.
* **C22 Integer literals** (proved). Token shape plus `int`. Theorems: `C22_integers`, `C22_long_integers`, `C22_decimal`.
* **C23 Arrays keep length and order** (proved). The meaning at every place, induction on the list. Theorems: `C23_arrays`.
* **C24 Objects keep their keys, last one wins** (proved). Independent specification of last-wins dictionaries. Theorems: `C24_objects`, `C24_keys`.
* **C25 Array data types** (proved). Induction on the number of suffixes. Theorems: `C25_array_types`.
* **C26 Union data types** (proved). Induction; injectivity. Theorems: `C26_unions`, `C26_injective`.
* **C27 Namespace prefixes do not matter** (proved). All table entries, all argument lists. Theorems: `C27_function_prefix`, `C27_decorator_prefix`, `C27_calls`, `C27_decorators`.
* **C28 Unknown functions and decorators are kept** (proved). Induction on the argument list. Theorems: `C28_unknown_functions`, `C28_unknown_never_fails`, `C28_unknown_decorators`.
* **C29 Variadic functions keep all arguments** (proved). Induction on the argument list. Theorems: `C29_from_one`, `C29_from_two`, `C29_format`, `C29_coalesce`.
* **C30 Function calls: accepted numbers of arguments** (proved). Each function against the table of signatures. Theorems: `C30_arities`, `C30_calls`.
* **C31 Function calls: arguments are reported, not altered** (proved). Each function against the table of signatures. Theorems: `C31_arguments_unaltered`.
* **C32 Decorators of an element** (proved). The meaning at every declaration; table of decorators. Theorems: `C32_decorators`, `C32_known`.
* **C33 minValue and maxValue** (proved). The meaning of decorators plus token shape; also for booleans, quoted digits and negated names, where Python arithmetic on other types shows through. Theorems: `C33_min_max`, `C33_other`.
* **C34 Child resources: name, type, version, dependency** (proved). Induction on the nesting depth. Theorems: `C34_nested_resources`.
* **C35 No nested resource is lost** (partial). False in general (siblings overwrite each other): counterexample plus `_partial` theorem. Theorems: `C35_nested_partial`, `C35_counterexample`.
* **C36 No internal marker in the output** (partial). False in general (loops): counterexample plus `_partial` theorem. Theorems: `C36_no_marker_partial`, `C36_counterexample`.
* **C37 Loops** (proved). The meaning at every place; `C37_conditions` by cases on the value of the condition. Theorems: `C37_loops`, `C37_conditions`.
* **C38 Imports** (proved). Induction on the list of names. Theorems: `C38_imports`, `C38_namespaces`.
* **C39 User-defined functions keep their signature** (proved). Induction on the parameters. Theorems: `C39_functions`.
* **C40 Lambda variables** (proved). Induction on the variables. Theorems: `C40_lambdas`.
* **C41 Operators keep kind and operand order** (proved). Injectivity of the representation. Theorems: `C41_operators`, `C41_distinct`.
* **C42 Operator chains nest to the right** (proved). Completeness (2) for chains of any length, and for their texts. Theorems: `chains_nest_right`, `chain_text`, `C42_values`.
* **C43 Brackets and the non-null assertion are transparent** (proved). Completeness (2) for texts with any choice of redundant brackets and `!`; soundness of the syntax for left operands. Theorems: `wrapped_syn`, `brackets_transparent`, `brackets_irrelevant`, `left_operand_brackets`.
* **C44 Method-style list functions** (partial). False in general (falsy arguments are dropped): counterexample plus `_partial`. Theorems: `C44_methods_partial`, `C44_counterexample`.
* **C45 The lexer is lossless** (proved). Lexer invariant lifted through the driver. Theorems: `C45_lossless`, `C45_lossless_parse`.
* **C46 The parse tree is a derivation of the grammar** (proved). Stack invariant of the driver. Theorems: `C46_derivation`.
* **C47 Leading blanks are irrelevant** (proved). Simulation of the lexer's first step. Theorems: `leading_blanks`, `leading_blanks_file`.
* **C48 Parsing is complete: rendering then parsing gives the meaning of the program** (proved). Completeness (2) and canonical texts (3). `writes_unique`: a text is a clear way to write at most one program, since different programs have different trees (`Program.tree_inj`). Theorems: `parse_writes`, `parse_render`, `parse_render_plain`, `writes_unique`.
* **C49 Conditional deployment** (proved). The meaning at every place. Theorems: `C49_conditions`.
* **C50 resourceId argument forms** (partial). Case analysis and induction on the names; counterexample. Theorems: `C50_resource_id_partial`, `C50_counterexample`.
* **C51 Method-style calls: exactly which arguments are reported** (proved). Induction on the numbered arguments; emptiness of a value characterised through C09. Theorems: `C51_methods`.
* **C52 Functions that build resource ids: roles by number of arguments** (proved). Case analysis on the argument list, induction on the names, via the signature table. Theorems: `C52_resource_ids`.
* **C53 Line numbers of nested resources** (proved). Lexer invariant plus tree builder invariant; the token behind the line breaks is not a line break. Theorems: `C53_nested_lines`.
* **C54 Exactly the declared names are reported, in order** (proved). Induction over declarations: section and name of every entry; nested resources through `Chain`. Theorems: `C54_names`, `nestedNames_exist`.
* **C55 What line numbers change, with nested resources anywhere** (proved). Relation between the two runs, preserved by every function, decorator and rule (mutual induction over programs). Theorems: `C55_line_entries`.
* **C56 The layout of a text does not matter** (proved). Simulation of the LALR engine on two token lists that differ only in places and break texts; the transformer reads only the shape of the tree. Theorems: `C56_relayout`.
* **C57 The result has the published type** (proved). The TypedDicts of typing.py as a small language of types (Spec/Typing.lean); every kind of entry is checked against its type, the collection keeps this. Theorems: `C57_typed`, `C57_metadata_untyped`.
* **C58 Printed values can be read back** (proved). Spec/Literal.lean is an independent reader of Python literals; it inverts `repr` by induction over the value (escapes character by character), and reported values are plain data (C09). Theorems: `C58_printed`, `C58_joined_ambiguous`, `C58_example`.
* **C59 Every reported value comes from one stretch of the text** (proved). Each place of a program is a sub-list of the tokens of the program (infix), by cases over the syntax; the tiling of the text gives the stretch. Theorems: `C59_provenance`.
* **C60 Words and numbers are read as far as they go** (proved). Each accepted token carries the scan that found it; the greedy star of the word terminals gives the end of the word, and a check of all parser states shows that an identifier and a call compete with these keywords wherever they are possible. Theorems: `C60_words`, `C60_items`.
* **C61 A text made of two parts means what the parts mean** (proved). The rules of layout are monotone in the text behind a line end; moving tokens k lines down moves the program (mutual induction over the syntax); a program may be followed by every token a program begins with; entries of both programs are merged section by section. Theorems: `C61_concat`, `C61_plain`, `C61_below`.
* **C62 The parser's decisions are those of the LALR(1) method for the published grammar** (proved). Spec/LALR.lean is the textbook definition (valid items) for any grammar. Items as bit masks: each transition shifts the items, closures are justified step by step; look-aheads: an upper bound closed under propagation and a list of justified steps reaching it; all checked by the kernel and lifted by induction on valid items. Theorems: `C62_table`, `C62_conflict`, `C62_unique`.
* **C63 The place reported for a syntax error is where the text goes wrong** (proved). `SyntaxError.lean` is the lexer and driver with Lark's position counter and the second attempt of the contextual lexer. Refinement of `LR.lean`; invariant: text read = tokens and gaps, counter = place, stack = viable prefix (all symbols of the grammar are productive, valid items give a continuation); a token that fits would have been found (layout completeness) and accepted (determinism of the driver). Theorems: `C63_parse`, `C63_tree`, `C63_place`, `C63_outcome`.
* **C64 Reported expressions have the types published for them** (proved). `Spec/Published.lean` is a transcript of the expression types of `typing.py` (keys only: the types of the values at these keys are those of other expressions; `index` of `Split` is left out, it is never reported). Each signature is compared with the published type of the same function, for all numbers of arguments; operators, lambda expressions, loops and decorators by cases. Theorems: `C64_functions`, `C64_operators`, `C64_lambdas`, `C64_loops`, `C64_decorators`.
* **C65 What is reported determines what was written** (proved). `Spec/Faithful.lean` defines when two pieces of syntax are the same up to writing (`Same`) and which pieces lose nothing (`Faithful`). Induction on syntax in both directions: values of faithful pieces have a shape from which constructor and parts can be read off; the report of a call determines its arguments for every signature (`Proofs/FunInj.lean`). Examples show why each exclusion is needed. Theorems: `C65_same`.
* **C66 Trees follow the grammar file** (proved). `LarkText.lean` is the text of `bicep.lark`, `LarkFile.lean` and `LarkGrammar.lean` read it, `Spec/Ebnf.lean` says which trees a grammar in this notation assigns to tokens. `LarkCompile.lean` models the expansion into plain rules; `Proofs/Ebnf.lean` proves for all grammars that it preserves the trees, in both directions (induction on derivations). The kernel evaluates reading and expansion of the text: the outcome is the table of rules used everywhere else. Theorems: `C66_grammar_file`, `C66_same_grammar`.
* **C67 Words follow the grammar file** (proved). `LarkRegex.lean` reads the regular expressions; the result of each of the fourteen is proved to match like the one the lexer model uses, for every input and continuation. `Spec/LarkWords.lean` describes the cutting of a text by a list of terminals; induction over lexer and driver. Keyword precedence is recomputed from the patterns. Theorems: `C67_words`.
* **C68 The result determines the document** (proved). `Spec/Document.lean` says when two documents are the same (`Program.Same`) and about which nothing is lost (`Program.Faithful`). `Proofs/Document.lean`: what is reported about a declaration determines it, kind by kind, from C65 and the determination of decorators, bodies and module references. `Proofs/Documents.lean`: a result is determined by its sections and they by their entries. Examples show why each exclusion is needed. Theorems: `C68_same`.
* **C69 The order of declarations does not matter unless they compete** (proved). `Spec/Order.lean` defines when declarations compete, rearranging as repeated exchange of neighbours that do not compete, and equality up to order. An exchange leaves the list of entries at every place of the result unchanged, and these lists determine the result up to order (`Props/Order.lean`). That declarations none of which compete may be put into any order is proved from it. The second theorem uses completeness (C48) to get success of one document from that of the other. Theorems: `C69_order`, `C69_outcome`, `Rearranged.of_perm`.
* **C70 The result is made of new objects and shares none** (proved). `Heap/` is a second model of the transformer in which dictionaries and lists are objects in a memory, values are references, and `process_child_resources` pops, stores and appends in place. `Heap/Rep.lean` relates a value in memory to a plain value and lists the objects used; every method is proved to follow its counterpart of the plain model while using no object twice (`Heap/Sim*.lean`), by induction for trees of any size. `Spec/Sharing.lean` states the property by paths into the result. That Python evaluates a display to new objects, inner ones first, is part of the trusted reading of the code, as is the fact that Lark hands each value to one method. Theorems: `Sharing.C70_fresh_objects`, `Sharing.C70_memory_irrelevant`, `Sharing.C70_edit_is_local`, `Sharing.C70_results_independent`.
* **C71 Windows and Unix line ends** (proved). `Spec/LineEnds.lean` defines the Unix form of a text; `ReadText.lean` models universal newlines. `Proofs/LineEnds.lean`: the regular expression of every terminal matches in the Unix form exactly the Unix form of what it matches in the text, for every continuation (a simulation, by induction through loops and nested interpolations), so the lexer cuts both texts alike; `Proofs/LineEndsParse.lean` carries this through the engine, the tree builder, the line numbers and the printed tree. Examples show the two exceptions. Theorems: `C71_tree`, `C71_same_result`, `C71_same_verdict`, `C71_file`.
* **C72 Size of the result** (proved). `Spec/Size.lean` counts values and defines the nested documents. The bound is proved by induction on the concrete syntax (`Proofs/SizeSyn.lean`, `SizeDecl.lean`): what represents a piece of syntax has at most four values per token, with a surcharge for nested resources that pays for the dependency added when they are extracted; every function and decorator reports each argument at most once (`Proofs/Size.lean`); tokens are not empty. For the second part the nested document is the canonical text of a program, so C48 gives its result, and printing a text at least doubles its backslashes. Theorems: `C72_linear`, `C72_exponential`.
* **C73 The printed tree decides the result** (proved). `Proofs/Pretty.lean`: the printed text determines its lines with their indentation, and these determine the tree up to places, types of tokens and leaves that look alike (`Alike`, by induction on trees). `Proofs/PrettyAst.lean` and `PrettyDecl.lean`: trees of programs that are alike in this sense differ in nothing the transformer looks at (mutual induction on the abstract syntax; the rules put tokens and nodes at different places), the only doubtful leaf being an alias `None`. Names of rules and texts of tokens are such that lines can be told apart (from the generated grammar and from C45). Two counterexamples show that the two conditions are needed. Theorems: `C73_tree_decides`, `C73_alias_None`, `C73_several_lines`.
* **C74 What a syntax error accepts instead can stand there** (proved). `Expected.lean` models the sets of the exceptions (`expected`, `allowed`, `InteractiveParser.accepts`), with the reductions that a refused token leaves behind. `Proofs/Expected.lean`: the invariant of the driver without look-ahead is kept by feeding any terminal, so a terminal that is shifted leaves a viable prefix, which C63 shows to be the beginning of something grammatical; completeness where the lexer fails comes from the completeness of the engine (C48), since no reduction has been made yet; a keyword is left out of `allowed` only if an expression that matches it is there. Two counterexamples, one using that braces are balanced in everything the grammar derives. Theorems: `C74_accepts`, `C74_accepts_tree`, `C74_outcome`, `C74_expected_more`, `C74_accepts_less`.
* **C75 An edit of one piece changes the result in one place** (proved). `Spec/Edit.lean` defines programs that differ in one piece (with the place where it is reported) and results that differ in one place. `Proofs/Edit.lean`: induction on the path to the piece, with one case per construct; no function signature reports an argument twice (`report_once`, over the generated signatures), later entries with other keys do not interfere, and extraction of nested resources commutes with the edit. `Proofs/EditOk.lean`: the values of all other pieces exist already, so the edited program has a result if the new piece has a value; this needs the converse of the analysis of nested resources (a chain whose bodies can be reported is extracted without an exception). Not covered are pieces that are not reported as they are: arguments of methods (`C75_methods_differ` shows why) and decorators, variables of lambdas, loops over objects, members of type unions, `depends_on` of nested resources. Theorems: `C75_edit`, `C75_plain`, `C75_written`, `C75_accepted`, `C75_lookup`, `C75_keys`.
* **C76 Where the type published for values is right** (proved). `Spec/Possible.lean` transcribes `PossibleValue` and defines, by recursion on the abstract syntax and with the table of signatures, the expressions whose values have it. `Proofs/Possible.lean`: mutual induction, both directions in each case (last member with a key counts; empty arguments of methods are dropped; `if (c)` as a loop condition is `c`). The value at a place is the value of the piece there (C65). Theorems: `C76_possible`, `C76_never`, `C76_parts`.
* **C77 The work of parsing is linear in the number of tokens** (proved). `Spec/Work.lean` counts tokens and table look-ups (`Works`, one look-up per round of `feed`) and nodes of trees. `Proofs/Work.lean`: amortised analysis. Terminals weigh 5 and nonterminals 0 to 5 (`ntWeights`, a certificate found outside and checked by `decide` against the generated table); a reduction of a non-empty rule lowers the weight of the stack, a reduction of an empty rule is followed by a shift or by acceptance; a self-recursive unit rule (`plus_13 : plus_13`) is in the rule list but no state reduces by it without lowering the rank. Nodes are counted along derivations (`DerL.nodes`). Time inside the regular expression engine is not modelled, so nothing is claimed about it. Theorems: `C77_linear`, `C77_counted`, `C77_parse`.
* **C78 How deep trees and results are nested** (proved). `Spec/Depth.lean` defines the height of trees, the levels of values and the nesting of programs. `Proofs/Depth.lean`: mutual induction on the abstract syntax with both bounds (`Program.height_le`); the tree built by the parser has the same height as the one of the program (`core_height`). `Proofs/DepthVal.lean`: the value of an expression has at most three levels per level of the expression, because operators are reported as `{operator: {type, operands: {...}}}` and calls likewise. `C78_deep` builds the nested arrays explicitly. Theorems: `C78_tree`, `C78_values`, `C78_deep`.
* **C79 Where the types published for arguments are right** (proved). `Spec/ArgTypes.lean` transcribes the types of all parameters (with the lines in typing.py; the table was produced by a script and can be read beside the file) and says which expressions fit them. `Proofs/ArgTypes.lean`: the value of an expression has the type if and only if the expression fits (`ArgTy.fits_iff`, using C76); for every signature, whatever is reported besides arguments (`None` for absent ones, the name `listKeys`) has its type, and arguments it refers to exist (`sound_table`). The decorators are treated one by one. `C79_numbers_differ`: `max(1, 2)` is reported with numbers although `str` is published. Theorems: `C79_functions`, `C79_decorators`, `C79_not`, `C79_numbers_differ`.
* **C80 Which words can be names** (proved). `Proofs/Reserved.lean`: an invariant of the parser run. In every state of the generated table that accepts both `STRING` and one of the three literals, only declarations, aliases, keys and the like can take the `STRING` (`check_lits`, `check_entry`, by evaluation of the table), and the contextual lexer turns the word into the literal wherever the literal is accepted (`nextTok_lit`); so no tree of an expression contains such an identifier (`larkParse_nolit`, `NoLit.has`). For the other direction the texts are canonical texts (C48, whose hypotheses on names were weakened to what is really reserved in each position, `Spec/Layout.lean: reserved`). Theorems: `C80_literals`, `C80_names`, `C80_refs`, `C80_operands`, `C80_keys`, `C80_keys_first`.
* **C81 Data can be written and are read back** (proved). `Spec/Data.lean` defines data as values (`Datum`) and the expressions that are nothing but data (`Expr.isData`). `C81_written`: from a datum an expression with that value is built (numerals from `Nat.digits`, texts as multi-line strings behind a line feed, which is dropped), and its canonical text parses (C48). `C81_read`: induction on the expression. Theorems: `C81_written`, `C81_read`, `C81_no_negative`.
* **C82 Concurrent calls do not disturb each other** (proved). `Verif/Threads.lean` is a machine with a stack of pending work and values for every call and a shared memory of transformers. Invariant: running threads have different transformers (`Threads.Apart`, kept because each call makes its own, `step_apart`). So the view of a thread depends only on the number of its own steps (`run_view`); by induction on the tree, the machine computes what the recursion computes (`reaches_visit`). Theorems: `C82_threads`.
* **C83 Exactly which documents fail after their syntax is accepted** (proved). `Node.Fault`, `Decl.Fault` (`Props/Faults.lean`) say what is at fault, in terms of the syntax and of the values of the argument or condition concerned (`IntText`: what `int()` takes, character by character; `Adoptable`: bodies from which nested resources can be taken). Each method that can raise is shown to raise exactly for its fault (`pyInt_iff`, `minimum_iff`, `condition_err`, `condition_ok`, `deco_fault`, `call_fault`, `adoptable_iff`, `classify_ok`, `typeApi_count`); induction on the syntax carries a failure back to a piece at fault (`Expr.blames` ... `Program.accuses`), and `has_val` carries a fault to a failure. `C83_plain` gives conditions on the syntax alone. Theorems: `C83_exactly`, `C83_first`, `C83_plain`.
* **C84 What stands behind the last declaration does not matter** (proved). `Spec/Idle.lean` defines text of blanks, comments and line ends. The rules of layout still hold when a line end follows (`Layout.tail`), a program may be followed by line ends (`ProgSyn.breaks`), and clear texts mean what they spell (C48). The two examples at the end of `Props/Tail.lean` show that the provisos are needed. Theorems: `C84_behind`, `C84_last_line`.
* **C85 Characters outside strings and comments, and how a document begins** (proved). `Spec/Stray.lean` names the characters. Every text of a token or of something skipped that contains a stray character is a literal or a comment, and none begins with anything but a starter (`TokText.stray`, `TokText.start`, case by case; the fixed texts by evaluation over the table of terminals); induction over the cut of the text. The place of the error comes from C63: what stands in front of it is cut into tokens, so no stray character is there. Theorems: `C85_stray`, `C85_rejected`, `C85_first`, `C85_bom`, `C85_begins`.
* **C86 Where string literals, comments and line ends end** (proved). `Spec/Extents.lean` refines the cut of C60 by where each token and each skipped part ends. For the quoted string the matcher is followed through the units of the pattern, with what `(?R)` may consume as induction hypothesis (`quoted_sound`, `recMatcher_part`); the negative look-ahead gives `NoTriple` (`nlook_triple`). For the others, the pattern is known to match up to the first possible end (C47), matching is a function, so what was matched ends there (`multi_ends`, `skipped_of_match`, `cppnl_ends`). `C86_rejected` follows from where the first quote of a text can stand (`ExactTiling.first_quote`). Inside of `${...}` the pattern takes any token, so the end of an interpolation is only as definite as that. Theorems: `C86_extents`, `C86_lines`, `C86_rejected`.
* **C87 Unclosed strings and comments are rejected** (proved). `Proofs/Adjacent.lean` adds to the cut of C86 that each token was acceptable to the parser directly behind the one in front of it (`larkParse_adjacent`, by induction over the run of the engine); over the tables, neither form of `*` is acceptable behind `/` (`slash_star`). The slash of the first `/*` can only be a division sign or the beginning of a closed comment (`TokText.slash`, `ExactTiling.first_comment`). For strings: a literal begins with the first quote (`Tiling.first_quote`) and has two; the place of the error comes from C63. Theorems: `C87_string`, `C87_comment`.
* **C88 Brackets match** (proved). `Spec/Brackets.lean` says what matching brackets are. On the right hand side of every rule they match (by evaluation over the rules, `check_rules`), and the brackets of a token depend only on its type (`brackets_type`), so by induction over derivations they match in everything the grammar derives (`der_bracketed`). In stretches without quotes and comments the brackets of the tokens are those of the text (`Tiling.brackets`). The place of the error comes from C63: what stands in front of it can be continued to something grammatical. Theorems: `C88_match`, `C88_plain`, `C88_rejected`, `C88_closing`.
* **C89 No line begins with an infix operator** (proved). By evaluation over the states of the parser: a state entered by a line break has no use for a token with such a beginning (`check_breaks`, `break_infix`). Tokens read, in accepted texts and in front of an error, follow each other only as the states allow (`larkParse_adjacent_syn`, `larkRun_adjacent`, by induction over the run). The rest is where the line break of the text can be (`Tiling.no_line`): only in a token of line ends, which takes nothing but line ends. Theorems: `C89_lines`, `C89_rejected`.
* **C90 Repeating a part of a document directly behind itself changes nothing** (proved). The programs of the parts are joined as in C61. Repeating a stretch of entries directly behind itself changes neither the order of first occurrences nor any last value (`collect_again`); this is applied to the declarations themselves, to the imports and to the nested resources, which the transformer collects one after the other (`val_again`). Theorems: `C90_repeated`.
* **C91 The bytes of a file are read as exactly one text** (proved). `decodeUtf8` follows the strict decoder of CPython by the classes of the first byte. `decode_sound` and `decode_char` show that it inverts the encoding of characters (that of the Lean library), by arithmetic on the bytes; the rest is C03 and C85. A finding: since `read_text()` is called without an encoding, a file with characters outside ASCII has another result under another locale (example in `Props/Utf8.lean`). Theorems: `C91_file`, `C91_invalid`, `C91_success`, `C91_ascii`, `C91_utf16`, `C91_bom`, `decode_iff`.
* **C92 Lines put in front of a document move its line numbers, and nothing else** (proved). `Spec/Moved.lean` defines the result with larger line numbers. The program of the longer text is that of the document further down (C61); expressions without nested resources do not change (`stay_expr`), the chains of nested resources are handed upwards with larger lines (`down_processChild`), and collecting commutes with the change (`collect_later`). That no reported line is 0 except for the default scope follows from the tokens of the text (`writes_lines`). Theorems: `C92_header`, `C92_moved`.
* **C93 What comments between declarations say does not matter, and a commented-out line counts as not written** (proved). `writes_between`: idle text behind the first part changes nothing but the number of lines (C84), and the second part then stands further down (C61). With line numbers only the count of line breaks enters the program; without, programs that differ in lines have one value (`Program.bare_val`). `C93_commented` takes `//` and any line as the idle text. An example shows that an odd number of triple quotes in a comment makes the document invalid. Theorems: `C93_lines`, `C93_between`, `C93_commented`.
* **C94 Declarations that are overridden further down can be deleted** (proved). `Spec/Override.lean` says which declarations are overridden, `Spec/Order.lean` (C69) when results are equal up to order. Results whose last entries agree at every place are equal up to order (`reordered_last`); entries of overridden declarations are never the last ones at their places, as own names and imports are in different sections and nested resources are entered behind both (`overridden_last`). An example shows that a nested resource outlives a declaration that alone is overridden. `C94_commented` puts comments in place of the part (C93), so that lines stay; overriding does not depend on lines (`overridden_down`). Theorems: `C94_overridden`, `C94_commented`.
* **C95 The sections of the result are independent of each other** (proved). `Spec/Sections.lean` names the section of every kind of declaration. All entries of a declaration are in its section (`out_sec`), so the entries of the chosen declarations are the entries of the chosen sections, in order (`only_contribs`), and collecting them gives these sections (`collect_only`). Theorems: `C95_sections`, `C95_lines`, `C95_same`.

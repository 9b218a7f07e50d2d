{"id": "C01", "title": "Exactly one input source", "statement": "BicepParser.parse and create_tree raise TypeError (with the documented message) when both a non-empty text and a file_path are given, and when neither is given; an empty text counts as not given. In every other case neither of these two TypeErrors is raised.", "quantifier": "all texts, all paths with any content, both values of add_line_numbers", "why_tests_cant": "Tests try a handful of argument combinations; the claim is about every text and path, including the empty text next to a path.", "anchors": ["pycep/main.py:BicepParser._create_tree"]}
{"id": "C02", "title": "Unbalanced triple quotes are rejected up front", "statement": "If the number of (non-overlapping, left to right) occurrences of ''' in the input is odd, parse and create_tree raise ValueError ('Text is invalid', or '<path> file content is invalid' for a file) whatever the rest of the input is; if it is even this ValueError is never raised.", "quantifier": "all input texts", "why_tests_cant": "The set of texts is infinite and the gate must win over every other error the text may contain.", "anchors": ["pycep/validator.py:BicepValidator", "pycep/main.py:BicepParser._create_tree"]}
{"id": "C03", "title": "File input equals text input", "statement": "For every path whose content is a non-empty text t, parse(file_path=path) and parse(text=t) return the same result or fail with the same error, except that the ValueError of the validity gate names the path. A path with empty content is parsed as an empty program although text='' is refused.", "quantifier": "all paths, contents and both values of add_line_numbers", "why_tests_cant": "Needs equality of two code paths for all contents, including failing ones.", "anchors": ["pycep/main.py:BicepParser._create_tree", "pycep/main.py:BicepParser.parse"]}
{"id": "C04", "title": "Calls on one parser object are independent", "statement": "In any sequence of parse / create_tree calls on one BicepParser, the outcome of each call is the outcome the same call has on a newly built parser: imports, child resources or errors of earlier calls never leak into later results.", "quantifier": "all finite sequences of calls with arbitrary texts", "why_tests_cant": "State leaks depend on histories of unbounded length.", "anchors": ["pycep/main.py:BicepParser.parse", "pycep/transformer.py:BicepToJson.__init__"]}
{"id": "C05", "title": "parse is total with a closed set of outcomes", "statement": "On every input parse terminates and either returns or raises one of: TypeError (arguments), ValueError (validity gate), the exception of reading the file, lark UnexpectedInput, lark VisitError. The LALR driver never runs into a missing goto, an empty stack or an endless chain of reductions, and the transformer has a method for every tree node.", "quantifier": "all input texts", "why_tests_cant": "A crash inside the table-driven parser or an endless loop could hide behind any of infinitely many inputs.", "anchors": ["pycep/main.py:BicepParser.parse", "pycep/bicep.lark", "pycep/transformer.py:BicepToJson"]}
{"id": "C06", "title": "create_tree and parse agree", "statement": "create_tree fails exactly when parse fails before the transformation, with the same error; whenever parse returns, create_tree returns; when create_tree returns, parse either returns or raises VisitError.", "quantifier": "all argument combinations and texts", "why_tests_cant": "Agreement over all inputs of two public entry points.", "anchors": ["pycep/main.py:BicepParser.create_tree", "pycep/main.py:BicepParser.parse"]}
{"id": "C07", "title": "Only certain constructs can fail after parsing", "statement": "If parse raises VisitError, the failing construct is a targetScope, a resource type, a module path, a resource declaration, a decorator, a function call, a loop or an integer literal; every other construct is transformed without error for every text the grammar accepts.", "quantifier": "all input texts accepted by the grammar", "why_tests_cant": "Absence of failures of some fifty callbacks on arbitrarily nested values.", "anchors": ["pycep/transformer.py:BicepToJson"]}
{"id": "C08", "title": "Shape of the result", "statement": "Whenever parse returns, the result is a dictionary whose keys are among globals, imports, extensions, metadata, parameters, variables, outputs, resources, modules, types, functions, without duplicates; globals comes first and contains exactly one entry, scope; every section maps names to dictionaries.", "quantifier": "all input texts accepted by parse, both values of add_line_numbers", "why_tests_cant": "Universally quantified over programs.", "anchors": ["pycep/transformer.py:BicepToJson.start"]}
{"id": "C09", "title": "The result is plain JSON data", "statement": "Whenever parse returns, the result consists only of None, booleans, integers, strings (str or BicepElement), lists and dictionaries with string keys and no duplicate keys; no lark Token, Tree or tuple ever escapes, at any depth.", "quantifier": "all input texts accepted by parse", "why_tests_cant": "An escaping token can hide at any depth of any construct.", "anchors": ["pycep/transformer.py:BicepToJson", "pycep/utils.py"]}
{"id": "C10", "title": "Declarations are collected without loss, the last one wins", "statement": "The result equals folding the declarations, in the order elements of the file, then imports, then extracted child resources, into sections keyed by name where a later declaration with the same section and name replaces the earlier one; in particular each declared name is present in its section and carries the attributes of its last declaration, and no other name is present.", "quantifier": "all input texts accepted by parse", "why_tests_cant": "The number of declarations and the collision pattern are unbounded.", "anchors": ["pycep/transformer.py:BicepToJson.start"]}
{"id": "C11", "title": "Target scope", "statement": "globals.scope.value is always one of resourceGroup, subscription, managementGroup, tenant; it is resourceGroup if the file has no targetScope, otherwise the literal of the last targetScope; a targetScope with any other literal makes parse fail.", "quantifier": "all input texts", "why_tests_cant": "All literals, all positions and repetitions of targetScope.", "anchors": ["pycep/transformer.py:BicepToJson.scope", "pycep/transformer.py:BicepToJson.start", "pycep/transformer.py:VALID_TARGET_SCOPES"]}
{"id": "C12", "title": "Line numbers are purely additive", "statement": "Parsing with add_line_numbers=True succeeds exactly when parsing without succeeds, and the result is the same except for added __start_line__ and __end_line__ entries.", "quantifier": "all input texts", "why_tests_cant": "Relates two runs on every text.", "anchors": ["pycep/transformer.py:BicepToJson", "pycep/main.py:BicepParser.__init__"]}
{"id": "C13", "title": "Line numbers are the true lines", "statement": "For every declaration that carries line numbers there is a contiguous slice of the input, starting with the first and ending with the last character of that declaration, such that __start_line__ is one plus the number of line feeds before the slice and __end_line__ is one plus the number of line feeds up to its end.", "quantifier": "all input texts accepted by parse with add_line_numbers=True", "why_tests_cant": "Needs a relation between arbitrary text and numbers, for arbitrarily many lines, comments and strings containing line feeds.", "anchors": ["pycep/transformer.py:BicepToJson", "pycep/bicep.lark"]}
{"id": "C14", "title": "Line ranges of declarations are ordered", "statement": "The top-level declarations occupy line ranges in file order: each range starts not before the previous one ends, start is not after end, and all lines lie between 1 and the number of lines of the input.", "quantifier": "all input texts accepted by parse", "why_tests_cant": "Unbounded number of declarations and layouts.", "anchors": ["pycep/transformer.py:BicepToJson", "pycep/bicep.lark"]}
{"id": "C15", "title": "Resource type and API version", "statement": "For a resource with type literal 'x' the attributes type and api_version are the texts before and after the single @ of x; if x contains no @ or more than one, parse fails.", "quantifier": "all type literals", "why_tests_cant": "All strings.", "anchors": ["pycep/transformer.py:BicepToJson.type_api_pair", "pycep/transformer.py:BicepToJson.resource"]}
{"id": "C16", "title": "Module references: classification", "statement": "A module reference is classified by its prefix: br: bicep_registry, br/ bicep_registry_alias, ts: template_spec, ts/ template_spec_alias, everything else local with full and path equal to the reference; references with one of the four prefixes are never reported as local, and detail.full is the reference without its prefix.", "quantifier": "all module reference strings", "why_tests_cant": "All strings.", "anchors": ["pycep/transformer.py:BicepToJson.module_path"]}
{"id": "C17", "title": "Module references: components", "statement": "When a registry or template spec reference is accepted, the reported components put together with the separators of that reference form are a prefix of the reference, every component is non-empty and uses only the characters allowed for it; conversely every reference of the documented form is accepted with exactly its components.", "quantifier": "all module reference strings", "why_tests_cant": "Correctness of five backtracking patterns on all strings.", "anchors": ["pycep/transformer.py:BicepToJson.module_path", "pycep/transformer.py:PUBLIC_BICEP_REGISTRY_PATTERN", "pycep/transformer.py:TEMPLATE_SPEC_PATTERN"]}
{"id": "C18", "title": "Module references: public flag", "statement": "public is true exactly for br/public:... and for br:mcr.microsoft.com/..., and in the latter case registry_name is mcr.microsoft.com; for every accepted private registry registry_name is the host label before .azurecr.io and public is false.", "quantifier": "all module reference strings", "why_tests_cant": "All strings.", "anchors": ["pycep/transformer.py:BicepToJson.module_path"]}
{"id": "C19", "title": "Quoted strings are verbatim", "statement": "A single-quoted string is represented by a plain str that consists of exactly the characters between its quotes (escape sequences and interpolations untouched).", "quantifier": "all quoted string literals at every value position", "why_tests_cant": "All literals and positions.", "anchors": ["pycep/utils.py:transform_string_token", "pycep/transformer.py:BicepToJson.string"]}
{"id": "C20", "title": "Identifiers and string literals stay distinguishable", "statement": "In value position an identifier becomes a BicepElement with the identifier's text and a quoted or multi-line string never does.", "quantifier": "all value positions of all accepted texts", "why_tests_cant": "All positions and texts.", "anchors": ["pycep/utils.py:transform_string_token", "pycep/models.py:BicepElement"]}
{"id": "C21", "title": "Multi-line strings", "statement": "A multi-line string is represented by the text between the triple quotes, with one line feed directly after the opening quotes removed and nothing else changed.", "quantifier": "all multi-line literals", "why_tests_cant": "All literals.", "anchors": ["pycep/utils.py:sanitize_multi_line_string_token"]}
{"id": "C22", "title": "Integer literals", "statement": "An integer literal of at most 4300 digits is represented by its decimal value, whatever leading zeros it has; a longer one makes parse fail with VisitError.", "quantifier": "all digit strings", "why_tests_cant": "All digit strings.", "anchors": ["pycep/transformer.py:BicepToJson.int_type", "pycep/bicep.lark:INT"]}
{"id": "C23", "title": "Arrays keep length and order", "statement": "An array literal is represented by a list with exactly one entry per element, in order, each being what the element is on its own.", "quantifier": "all array literals of any length and nesting", "why_tests_cant": "Unbounded length and nesting.", "anchors": ["pycep/transformer.py:BicepToJson.array"]}
{"id": "C24", "title": "Objects keep their keys, last one wins", "statement": "An object literal is represented by a dictionary whose keys are the keys written (a quoted key keeps its quotes) in order of first occurrence, each with the value of its last occurrence.", "quantifier": "all object literals of any size and nesting", "why_tests_cant": "Unbounded size and nesting.", "anchors": ["pycep/transformer.py:BicepToJson.object", "pycep/transformer.py:BicepToJson.pair", "pycep/transformer.py:BicepToJson.key"]}
{"id": "C25", "title": "Array data types", "statement": "A data type followed by n pairs of [] is represented by n nested {type: array, item_type: ...} around the representation of the base, for every n.", "quantifier": "all base types and all n", "why_tests_cant": "All n and bases.", "anchors": ["pycep/transformer.py:BicepToJson.data_type", "pycep/transformer.py:BicepToJson.array_suffix"]}
{"id": "C26", "title": "Union data types", "statement": "A union data type is represented by {type: union, members: [...]} with one member per alternative, at least two, in order; plain named types are their own text; the representation determines the data type (two different data types are never represented alike).", "quantifier": "all data types", "why_tests_cant": "Injectivity over an infinite set.", "anchors": ["pycep/transformer.py:BicepToJson.union_type", "pycep/transformer.py:BicepToJson.base_type"]}
{"id": "C27", "title": "Namespace prefixes do not matter", "statement": "For every function of the table that has a sys. or az. name, calling it with and without the prefix gives the same result for the same arguments, including the same failures; the same holds for decorators and sys.", "quantifier": "all table entries and all argument lists", "why_tests_cant": "All argument lists.", "anchors": ["pycep/rules/functions.py:FUNCTIONS", "pycep/rules/decorators.py:DECORATORS"]}
{"id": "C28", "title": "Unknown functions and decorators are kept", "statement": "A call of a function that is not in the table never fails and is represented by its name and its arguments numbered arg_1..arg_n, in order and complete; an unknown decorator is represented by its name and its argument if present.", "quantifier": "all names outside the tables and all argument lists", "why_tests_cant": "All names and lists.", "anchors": ["pycep/rules/functions.py:unknown_func", "pycep/rules/decorators.py:unknown_deco"]}
{"id": "C29", "title": "Variadic functions keep all arguments", "statement": "concat, intersection, union, min, max (several arguments), coalesce and format keep every argument, in order, under consecutive numbers, for every number of arguments that is accepted; the exact set of accepted numbers of arguments is known for each.", "quantifier": "all argument lists", "why_tests_cant": "Unbounded number of arguments.", "anchors": ["pycep/rules/functions.py"]}
{"id": "C30", "title": "Function calls: accepted numbers of arguments", "statement": "For every function in the table the set of argument counts for which the transformation succeeds is independent of the argument values (apart from the scope functions listed), and is the one stated in the specification table.", "quantifier": "all table functions and all argument lists", "why_tests_cant": "All functions times all argument lists.", "anchors": ["pycep/rules/functions.py:FUNCTIONS"]}
{"id": "C31", "title": "Function calls: arguments are reported, not altered", "statement": "For every function in the table every value reported in parameters is one of the arguments passed or a list/dictionary made of them or a default of the table; no argument value is modified.", "quantifier": "all table functions and all argument lists", "why_tests_cant": "All functions times all argument lists.", "anchors": ["pycep/rules/functions.py:FUNCTIONS"]}
{"id": "C32", "title": "Decorators of an element", "statement": "The decorators attribute of a parameter, variable, output, resource, module, type or function lists exactly the decorators written before it, in order; it is the empty list when there are none.", "quantifier": "all decorated elements", "why_tests_cant": "Unbounded lists.", "anchors": ["pycep/transformer.py:BicepToJson.decorators"]}
{"id": "C33", "title": "minValue and maxValue", "statement": "@minValue(n) and @minValue(-n) report the integers n and -n for every n; @maxValue(n) reports n. @maxValue of true or false reports 1 or 0, and of quoted digits the number they spell; @minValue(-true) reports -1, @minValue(-false) reports 0, and the negation of a name or of a quoted text is reported as an empty text.", "quantifier": "all integers, names and texts", "why_tests_cant": "All integers, and all names and texts.", "anchors": ["pycep/rules/decorators.py:deco_min_val", "pycep/rules/decorators.py:deco_max_val"]}
{"id": "C34", "title": "Child resources: name, type, version, dependency", "statement": "A resource nested in a chain of parent resources of any depth is reported under the names joined by __ , with the types joined by / , the api version of the outermost resource, and with the name of its direct parent appended to its depends_on list.", "quantifier": "all nesting depths, names, types and configs", "why_tests_cant": "Unbounded nesting.", "anchors": ["pycep/transformer.py:BicepToJson.process_child_resource"]}
{"id": "C35", "title": "No nested resource is lost", "statement": "Every resource declared inside another resource's body is reported in the resources section.", "quantifier": "all accepted texts", "why_tests_cant": "Unbounded number and nesting of child resources.", "anchors": ["pycep/transformer.py:BicepToJson.object", "pycep/transformer.py:BicepToJson.process_child_resource"]}
{"id": "C36", "title": "No internal marker in the output", "statement": "The key __child_resource__, used internally to hand child resources upwards, never occurs in a result unless the input itself contains it.", "quantifier": "all accepted texts", "why_tests_cant": "Any depth.", "anchors": ["pycep/transformer.py:BicepToJson.child_resource", "pycep/transformer.py:BicepToJson.process_child_resource"]}
{"id": "C37", "title": "Loops", "statement": "A loop is represented by its kind (array, array with index, object), the names of its variables and its source, the condition and the body; an if(...) filter is represented by the condition inside the parentheses. Any other condition is represented by itself, with one exception: an object literal whose key function holds an object with type 'if' is taken for such a filter, and the value at function.parameters.arg_1 is reported instead of it.", "quantifier": "all loops", "why_tests_cant": "All nested values.", "anchors": ["pycep/transformer.py:BicepToJson.loop", "pycep/transformer.py:BicepToJson.loop_array"]}
{"id": "C38", "title": "Imports", "statement": "import {a, b as c} from 'f' yields one entry per name with file_path f and the alias if given; a wildcard import is reported under *; a namespace import has no attributes.", "quantifier": "all import lists of any length", "why_tests_cant": "Unbounded length.", "anchors": ["pycep/transformer.py:BicepToJson.custom_import", "pycep/transformer.py:BicepToJson.import_alias"]}
{"id": "C39", "title": "User-defined functions keep their signature", "statement": "The args of a user-defined function map each parameter name to its data type, for any number of parameters with distinct names, in order.", "quantifier": "all parameter lists", "why_tests_cant": "Unbounded length.", "anchors": ["pycep/transformer.py:BicepToJson.custom_func"]}
{"id": "C40", "title": "Lambda variables", "statement": "A lambda with n variables (n = 1 or n >= 3) is represented with var_1..var_n in order followed by the expression.", "quantifier": "all lambdas", "why_tests_cant": "Unbounded n.", "anchors": ["pycep/transformer.py:BicepToJson.lambda_expression"]}
{"id": "C41", "title": "Operators keep kind and operand order", "statement": "Each operator is represented with its own type name and its operands in source order; two expressions with different operators or operands are represented differently.", "quantifier": "all operators and operand values", "why_tests_cant": "Injectivity over all operands.", "anchors": ["pycep/transformer.py:BicepToJson.operator"]}
{"id": "C42", "title": "Operator chains nest to the right", "statement": "A chain x1 op1 x2 op2 ... xn of operands (atomic or in brackets) with arbitrary binary operators written as a sign (comparison, arithmetic, logical, coalesce, property and nested-resource accessors) parses to x1 op1 (x2 op2 (... xn)), whatever the operators are; a prefix operator (! or -) applies to the whole rest of the chain.", "quantifier": "all chains of any length over all binary operators", "why_tests_cant": "Unbounded chains times all operator combinations.", "anchors": ["pycep/bicep.lark:operator_comparison", "pycep/bicep.lark:operator_numeric", "pycep/transformer.py:BicepToJson.operator"]}
{"id": "C43", "title": "Brackets and the non-null assertion are transparent", "statement": "Putting brackets around a value, or ! behind it, gives the same representation as the value itself. An operator expression becomes the left operand of another operator only if it is written in brackets or followed by !! (where the first ! belongs to its last operand).", "quantifier": "all expressions", "why_tests_cant": "All expressions.", "anchors": ["pycep/bicep.lark:value_brackets"]}
{"id": "C44", "title": "Method-style list functions", "statement": "x.listFoo(a1, ..., an) reports x, the function name and all arguments in order.", "quantifier": "all argument lists", "why_tests_cant": "Unbounded argument lists.", "anchors": ["pycep/transformer.py:BicepToJson.function_accessor"]}
{"id": "C45", "title": "The lexer is lossless", "statement": "If parse accepts a text, the texts of all tokens and of the skipped blanks and comments, put together in order, are exactly the input: nothing is skipped silently and nothing is read twice.", "quantifier": "all accepted texts", "why_tests_cant": "All texts.", "anchors": ["pycep/bicep.lark", "pycep/main.py:BicepParser._create_tree"]}
{"id": "C46", "title": "The parse tree is a derivation of the grammar", "statement": "Whenever the parser accepts, the tree it builds is a derivation of start in the grammar of bicep.lark and its leaves, from left to right, are the tokens of the text.", "quantifier": "all accepted texts", "why_tests_cant": "Soundness of a table-driven parser with 621 states and 554 resolved conflicts on all inputs.", "anchors": ["pycep/bicep.lark", "pycep/main.py:BicepParser._create_tree"]}
{"id": "C47", "title": "Leading blanks are irrelevant", "statement": "Putting any number of blanks and tabs in front of a non-empty text (or in front of any text in a file) changes neither the result nor the kind of exception, with or without line numbers.", "quantifier": "all texts and all blank prefixes", "why_tests_cant": "Relates infinitely many pairs of texts.", "anchors": ["pycep/bicep.lark:WS_INLINE", "pycep/main.py:BicepParser.parse"]}
{"id": "C48", "title": "Parsing is complete: rendering then parsing gives the meaning of the program", "statement": "For every non-empty program of the specified abstract syntax whose identifiers are not reserved words and whose string literals can be written (declarations, nested expressions, objects, arrays, function calls, operators, loops), parsing its canonical rendering gives exactly the outcome specified for the program: its representation, or the exception that representation is specified to raise. More generally, every clearly written text of a program (any blanks, comments, line breaks, redundant brackets) does. Excluded are filtered loops whose body starts with - or [. No text is a clear way to write two different programs.", "quantifier": "all programs of the abstract syntax, of any size", "why_tests_cant": "Completeness of the parser over an infinite language; tests sample a few dozen programs.", "anchors": ["pycep/bicep.lark", "pycep/transformer.py", "pycep/main.py"]}
{"id": "C49", "title": "Conditional deployment", "statement": "A resource or module with if (c) body has a config made of exactly the condition c and the body; the body is represented as it would be without the condition.", "quantifier": "all conditions and bodies", "why_tests_cant": "All nested values.", "anchors": ["pycep/transformer.py:BicepToJson.deploy_condition"]}
{"id": "C50", "title": "resourceId argument forms", "statement": "resourceId-like functions report resource type and names for every number of names, and recognise the optional subscription id and resource group arguments by their position.", "quantifier": "all argument lists", "why_tests_cant": "Unbounded number of names.", "anchors": ["pycep/rules/functions.py"]}
{"id": "C51", "title": "Method-style calls: exactly which arguments are reported", "statement": "x.f(a1, ..., an) reports x as operand_1, the name f, and, as operand_(i+1), every argument ai that is not represented by something empty (null, false, 0, empty text, list or dictionary); in order and nothing else.", "quantifier": "all accepted texts, all argument lists, every place a value is reported", "why_tests_cant": "Unbounded argument lists with arbitrary values at any depth.", "anchors": ["pycep/transformer.py:BicepToJson.function_accessor"]}
{"id": "C52", "title": "Functions that build resource ids: roles by number of arguments", "statement": "resourceId, subscriptionResourceId, tenantResourceId, managementGroupResourceId and extensionResourceId (also with the prefix az.) report their arguments in roles that depend only on how many there are, as tabulated; resourceId with five or more arguments reports all names; calls shorter than the shortest form make parse fail.", "quantifier": "all accepted texts, all argument lists", "why_tests_cant": "Unbounded number of names and arbitrary argument values.", "anchors": ["pycep/rules/functions.py"]}
{"id": "C53", "title": "Line numbers of nested resources", "statement": "For a reported nested resource __start_line__ is the line of its first character, and __end_line__ is the number of line feeds of the text up to the next token that is not a line break or a comment ended by one; it is the true last line exactly if one line feed lies between.", "quantifier": "all texts accepted with add_line_numbers=True", "why_tests_cant": "Relates arbitrary text, blank lines and comments at any nesting depth to numbers.", "anchors": ["pycep/transformer.py:BicepToJson.child_resource", "pycep/bicep.lark"]}
{"id": "C54", "title": "Exactly the declared names are reported, in order", "statement": "The sections of the result and the names in each section are exactly those of the declarations, then the imported names, then of each resource the chain of its last nested resources, each once and in the order of first occurrence.", "quantifier": "all accepted texts whose resource bodies do not themselves write the key __child_resource__", "why_tests_cant": "Unbounded numbers of declarations with arbitrary repetitions of names.", "anchors": ["pycep/transformer.py:BicepToJson.start", "pycep/transformer.py:BicepToJson.process_child_resource"]}
{"id": "C55", "title": "What line numbers change, with nested resources anywhere", "statement": "With and without add_line_numbers, parse fails in the same way, or succeeds both times and the two results have the same sections, names, keys and values in the same order, except that __start_line__/__end_line__ follow the attributes of entries and the config of nested resources left inside values, and that texts printed from such values (loop sources, lambda variables, unions of types) contain them.", "quantifier": "all texts whose resource bodies do not themselves write the key __child_resource__", "why_tests_cant": "Relates two runs on arbitrary programs with nested resources at any depth and position.", "anchors": ["pycep/transformer.py:BicepToJson", "pycep/main.py:BicepParser.parse"]}
{"id": "C56", "title": "The layout of a text does not matter", "statement": "If a text is accepted, every other text that clearly writes the same tokens, with other spaces, tabs, comments, continuation lines and line breaks between them, is accepted as well; create_tree returns the same tree, and parse without line numbers returns the same result or fails with the same error.", "quantifier": "all accepted texts and all clear layouts of their tokens", "why_tests_cant": "Relates two arbitrary texts; there is no bound on what stands between tokens.", "anchors": ["pycep/main.py:BicepParser.parse", "pycep/main.py:BicepParser.create_tree", "pycep/bicep.lark"]}
{"id": "C57", "title": "The result has the published type", "statement": "A result of parse has the type BicepJson of pycep.typing, extended by a section metadata that the published type lacks: the documented sections only, in each of them entries with exactly the documented required and optional attributes, each attribute of the documented type (decorators, data types, module details, ...; expressions are not looked into).", "quantifier": "all texts accepted by parse whose resource bodies do not themselves write the key __child_resource__; with and without line numbers", "why_tests_cant": "Static type checkers trust the annotation of parse, which is built by untyped dictionary code; tests see finitely many programs.", "anchors": ["pycep/typing.py:BicepJson", "pycep/main.py:BicepParser.parse", "pycep/transformer.py:BicepToJson"]}
{"id": "C58", "title": "Printed values can be read back", "statement": "Where the result holds a value in printed form (the source of a loop over items (...), the variables of a lambda expression, the alternatives of a declared type), a string stands for itself and any other value is a Python literal (ast.literal_eval) of the value that would have been reported in its place; the alternatives of a type are joined by ' | ' in order. The joined text does not say where an alternative ends: 'a' | 'b' and 'a | b' are reported alike.", "quantifier": "all accepted texts", "why_tests_cant": "Quoting and escaping must be right for strings with any characters at any nesting depth.", "anchors": ["pycep/transformer.py:BicepToJson.loop_object", "pycep/transformer.py:BicepToJson.lambda_expression", "pycep/transformer.py:BicepToJson.type_value"]}
{"id": "C59", "title": "Every reported value comes from one stretch of the text", "statement": "Every value in the result, at whatever path, stands for a piece of the program (an expression, loop, loop header, resource or module body, declared type or decorator) that is written in one uninterrupted stretch of the text: cutting exactly that stretch into tokens gives a way of writing the piece, and the value is the representation of the piece. Nothing in the result is assembled from different places of the text.", "quantifier": "all accepted texts, all places in the result", "why_tests_cant": "It relates every path of every result to a position in the text.", "anchors": ["pycep/main.py:BicepParser.parse", "pycep/transformer.py:BicepToJson"]}
{"id": "C60", "title": "Words and numbers are read as far as they go", "statement": "In every accepted text, an identifier in an expression ends where the characters of words end and a number where the digits end; true, false, null and the items of a loop are followed neither by a character of a word nor directly by an opening bracket; < and > are not followed by =. In particular a loop over the members of an object is only reported if the text has something between items and the bracket: a text that writes items( throughout is reported with loops over the result of a function named items only.", "quantifier": "all accepted texts", "why_tests_cant": "The end of a word depends on the state of the parser and on which other terminals are possible there; all combinations of states and following characters matter.", "anchors": ["pycep/bicep.lark:STRING", "pycep/bicep.lark:INT", "pycep/bicep.lark:loop_object", "pycep/transformer.py:BicepToJson.loop_object"]}
{"id": "C61", "title": "A text made of two parts means what the parts mean", "statement": "For two clearly written texts, the first of which ends a line and the second of which does not begin with an empty line, parsing the one behind the other gives what the parts give: every name outside of resources is reported as by the second text if that declares it and as by the first one otherwise; resources only one of them has are reported as by that one; the scope is the one of the second text if it declares one. Line numbers of the second part are those it has behind as many empty lines as the first part has lines; without line numbers these empty lines do not matter. If a part fails with an error of a declaration, the whole fails with that error of the first such part.", "quantifier": "all pairs of clearly written texts, both settings of line numbers", "why_tests_cant": "Joining texts could change how either is cut into tokens or grouped; the claim is about all pairs of texts. It is false for texts that are accepted but not clearly written, and no finite set of texts shows where the border is.", "anchors": ["pycep/main.py:BicepParser.parse", "pycep/bicep.lark:start", "pycep/transformer.py:BicepToJson.start"]}
{"id": "C62", "title": "The parser's decisions are those of the LALR(1) method for the published grammar", "statement": "The automaton behind parse and create_tree is the LALR(1) automaton of the rules of bicep.lark: its states are exactly the sets of places in rules one can be at behind some sequence of symbols; a rule is completed exactly when, behind some sequence of symbols leading to the same state, the rule can be followed by the next token; shifting a token is preferred. Whenever two rules could be completed, exactly one has the highest priority, so constructing a parser never fails with a grammar conflict; this only concerns a subtraction against a negation. Any other automaton with these properties behaves the same.", "quantifier": "all states, tokens and sequences of grammar symbols", "why_tests_cant": "There are infinitely many sequences of symbols, and a look-ahead that is missing or superfluous shows only on the particular texts that reach its state; which texts these are is not apparent from the grammar.", "anchors": ["pycep/bicep.lark", "pycep/main.py:BicepParser.__init__"]}
{"id": "C63", "title": "The place reported for a syntax error is where the text goes wrong", "statement": "When parse or create_tree rejects a text with a syntax error, the exception (UnexpectedToken or UnexpectedCharacters, never a bare EOFError) carries a position of a character of the text, and its line and column are the line and column of that position. The text in front of it consists of tokens that are the beginning of something grammatical; nothing that is skipped (blanks, comments) stands at the position; a token named by the exception stands there, and if it names none, the character there is one with which no token begins by itself; and no token that clearly stands there can continue the tokens in front of it to the tokens of a clearly written program. The only other case is a text that ends too early: then the place is that of the last token, the whole text is the beginning of something grammatical, but not itself a clearly written program.", "quantifier": "all texts that are rejected with a syntax error", "why_tests_cant": "That the tokens in front of the error can be continued, and that no token at the error can, are claims about all continuations; tests can only look at some wrong texts. The line counter is advanced by newline-carrying token types only, so a place may be wrong only behind a particular kind of comment or string.", "anchors": ["pycep/main.py:BicepParser._create_tree", "pycep/main.py:BicepParser.parse", "pycep/bicep.lark"]}
{"id": "C64", "title": "Reported expressions have the types published for them", "statement": "pycep publishes the types of what it reports (pycep.typing). At every place of the result: a call of a known function is {function: {type, parameters}} with the published literal as type and, among its parameters, every required key and no key that is not published; the only calls that do not fit are concat, max, min and format with a single argument (a second key is required) and resourceId with six or more arguments (keys that are not published). A call of any other function has the form of an unknown function. An expression written with an operator has one of the published operator types with its keys. A lambda expression fits exactly if it has at most three variables. Loop heads fit always; loops and conditional bodies fit exactly if their body is represented by a dictionary. Known decorators have the published type, with an argument exactly where one is published.", "quantifier": "all texts that are parsed, and all places of their results", "why_tests_cant": "The keys depend on the function and on the number of arguments; a missing or additional key shows up only for the counts that are tried, and a type checker cannot help because the functions of the code build these dictionaries dynamically or suppress the check.", "anchors": ["pycep/typing.py", "pycep/rules/functions.py", "pycep/rules/decorators.py", "pycep/transformer.py"]}
{"id": "C65", "title": "What is reported determines what was written", "statement": "Take two places of results (of the same or of different documents and parsers) where expressions, loops, loop heads or data types are reported. If nothing is lost about either of them, the values found there are equal if and only if the same thing was written, up to the way numerals and string literals are written and prefixes of known functions: same operators, same names, same order of operands, arguments, members and variables, all the way down. Things are lost only about: objects with a repeated key or nested resources, or with exactly the keys of something else (function; operator; type and detail; loop_type, condition and config); calls of known functions with arguments that are not reported or null; empty arguments of method-style calls; lambda variables and objects of loops that are not identifiers; loop conditions not written if(...), or null. Data types are compared with data types only.", "quantifier": "all pairs of parsed texts and all pairs of places in their results", "why_tests_cant": "It is a statement about all pairs of expressions of any depth: tests compare the result with an expected value, but cannot show that no other expression is reported in the same way.", "anchors": ["pycep/transformer.py", "pycep/rules/functions.py"]}
{"id": "C66", "title": "Trees follow the grammar file", "statement": "Read the grammar file of the package as it is written (alternatives, groups, `?`, `*`, `+`, `~m..n`, `[...]`, `?rules`, `_rules`, `!rules`, `->` names, strings and regular expressions in rules). The tree that create_tree prints and that parse interprets is one that this file assigns to the tokens of the text; and the rules the parser works with assign exactly those trees to a sequence of tokens that the file assigns to it.", "quantifier": "all texts and paths; all sequences of tokens and all trees", "why_tests_cant": "Tests use sample documents; that the expansion of the grammar into plain rules neither adds nor loses a way of writing something concerns every sequence of tokens.", "anchors": ["pycep/bicep.lark", "pycep/main.py"]}
{"id": "C67", "title": "Words follow the grammar file", "statement": "An accepted text is cut into words as the terminals of the grammar file say: at every place the terminals acceptable there are tried in the order of priority, greatest length of a match, length of the pattern and name, without the strings that an acceptable regular expression covers; the first that matches takes its word; a keyword takes precedence over the more general terminal that matched it; words of %ignore terminals are dropped; the others are, in order and with their lines, the tokens from which the grammar file builds the tree. Which terminals are acceptable depends only on the tokens before.", "quantifier": "all texts and paths", "why_tests_cant": "Whether a word is a keyword, a name, a function or part of a string depends on its surroundings; tests sample a few of the unboundedly many.", "anchors": ["pycep/bicep.lark", "pycep/main.py"]}
{"id": "C68", "title": "The result determines the document", "statement": "Take two documents in which no name is declared twice in a section and in which nothing is written that the result cannot show (nested resources, unions in type declarations, arguments of secure/sealed/export, minValue and maxValue with something else than a number, repeated keys and parameters, keys that imitate other constructs). Parsed with the same setting of add_line_numbers, their results are equal if and only if they are the same document: the same declarations of each kind in the same order, with the same decorators, types, references and values; the kinds in the same order; the same imports and the same target scope; and, with line numbers, the same lines. How declarations of different kinds are interleaved, how imports are distributed over statements, quoting, sys./az. prefixes, an explicit null default and an empty extension configuration do not matter, and nothing else is lost.", "quantifier": "all pairs of texts or files, both settings of add_line_numbers", "why_tests_cant": "That no two different documents ever collide, and no two equal ones differ, is a statement about all pairs of documents.", "anchors": ["pycep/transformer.py", "pycep/main.py"]}
{"id": "C69", "title": "The order of declarations does not matter unless they compete", "statement": "Two documents that consist of the same declarations in a different order have the same result, parsed without line numbers, up to the order of the sections and of the names in a section (so the dictionaries are equal in Python), provided no two declarations that compete for a name have changed places. Declarations compete if they declare the same kind of thing under the same name, import the same name, both set the target scope, or contain nested resources that are reported under the same name. If one of the documents can be parsed, so can the other.", "quantifier": "all pairs of texts or files made of the same declarations, every order", "why_tests_cant": "There are factorially many orders of the declarations of every document; tests try a handful.", "anchors": ["pycep/transformer.py", "pycep/main.py"]}
{"id": "C70", "title": "The result is made of new objects and shares none", "statement": "Every dictionary and list in the result of parse is a new object: none existed before the call, no two places of the result hold the same object, and a call that returns has changed no object that existed before. So code that edits the result in place at some path sees the edit at that path and below it and nowhere else, and results of different calls can be edited independently of each other, although the parser itself edits nested resources in place while it works. The objects that already exist have no influence on whether parse succeeds or on its errors.", "quantifier": "all texts and files, all sets of objects existing before the call, all paths into the result, all edits, all pairs of calls", "why_tests_cant": "Tests compare results with ==, which does not see that two places hold the same object; and there is no bound on the number of places that could share one.", "anchors": ["pycep/transformer.py", "pycep/main.py", "pycep/rules/functions.py", "pycep/rules/decorators.py"]}
{"id": "C71", "title": "Windows and Unix line ends", "statement": "A document with Windows line ends (CR LF) is parsed like the same document with Unix line ends (LF): create_tree prints the same tree up to the line ends inside string literals, a text is rejected with the same exception in both forms, and if no string literal contains a Windows line end, parse gives the same result, line numbers included. So a file with Windows line ends, which read_text translates on reading, gives the result its characters give when passed as text. The text must not have a carriage return directly before a Windows line end (such a text is rejected in one form and accepted in the other), and line ends inside string literals do matter: the first one of a multi-line string is dropped only if it is a Unix one.", "quantifier": "all texts without CR CR LF; for files all texts whose carriage returns all belong to Windows line ends; both parser configurations", "why_tests_cant": "Line ends occur in every layout position of the grammar (white space, comments, separators, strings, continuation of expressions), and the lexer decides per position which terminals may match; tests only cover a few files, nearly all with one kind of line end.", "anchors": ["pycep/bicep.lark", "pycep/main.py", "pycep/transformer.py", "pycep/validator.py"]}
{"id": "C72", "title": "Size of the result", "statement": "The number of values in a result (dictionaries, lists and leaves at all depths) is at most four times the number of characters of the document, plus six: no construct makes the parser copy a part of the result into several places. The length of single texts has no such bound: the variables of a lambda expression are reported as their printed form, so with lambda expressions nested in the variable position the printed forms are printed again and their backslashes double at every level. For every n there is a document of 9n+48 characters whose result contains a text of at least 2^n characters.", "quantifier": "all inputs that parse; all n; both parser configurations", "why_tests_cant": "It is a statement about growth: each test checks one document of one size, and the exponential case needs an input no example uses.", "anchors": ["pycep/transformer.py", "pycep/rules/functions.py", "pycep/rules/decorators.py"]}
{"id": "C73", "title": "The printed tree decides the result", "statement": "If create_tree returns the same text for two inputs, parse without line numbers has the same outcome for both, result or exception. This holds for inputs in which no string literal goes over several lines and no alias is called None. Both exceptions are real: an alias None is printed like an absent alias, and a string literal over several lines can be printed exactly like two declarations.", "quantifier": "all pairs of inputs (texts or files) accepted by create_tree, of any size", "why_tests_cant": "It relates pairs of inputs: a confusion needs two documents made for each other, and the printed form mixes names of rules, texts of tokens and indentation without quoting.", "anchors": ["pycep/main.py:BicepParser.create_tree", "pycep/main.py:BicepParser.parse", "pycep/bicep.lark"]}
{"id": "C74", "title": "What a syntax error accepts instead can stand there", "statement": "When parse or create_tree rejects a text with a syntax error, every terminal that the exception says would be accepted instead (accepts) can follow the tokens in front of the error: with a token of this kind they are still the beginning of something grammatical, and if the end is accepted they are grammatical. If the lexer found no acceptable token (always so for UnexpectedCharacters), every terminal that follows these tokens in some clearly written program is accepted. Everything accepted is also in the expected (or allowed) set, apart from the end of the text and keywords for which a more general terminal is named. Two natural further claims fail: the allowed set of UnexpectedCharacters may name a token that can never stand there, and the sets of an UnexpectedToken may lack one that can.", "quantifier": "all texts that are rejected with a syntax error, and all terminals", "why_tests_cant": "That a terminal can follow is a claim about the existence of a continuation, and that none is missing one about all continuations of all programs; tests can only compare the sets of some wrong texts with an expectation.", "anchors": ["pycep/main.py:BicepParser._create_tree", "pycep/main.py:BicepParser.parse", "pycep/bicep.lark"]}
{"id": "C75", "title": "An edit of one piece changes the result in one place", "statement": "If two accepted documents differ only in one piece of a declaration that counts (an element of an array, a value in an object, an argument of a function, an operand, a branch, part of a loop or condition, a default value, a type, a decorator, a body or a piece of a body, also inside nested resources, and at any depth), then the two results have the same keys in the same order and the same values everywhere except at the one place where this piece is reported, and there each has the value of its own piece. Moreover, an edit is refused only because of the new piece: if the old document is accepted and the new piece has a value, the new document is accepted.", "quantifier": "all pairs of documents that differ in one piece, at any depth, with and without line numbers", "why_tests_cant": "It is a claim about all pairs of documents and about everything else in the result; a test compares two results for one pair, and a value that leaks to another place shows only for particular documents.", "anchors": ["pycep/main.py:BicepParser.parse", "pycep/transformer.py:BicepToJson", "pycep/rules/functions.py", "pycep/rules/decorators.py"]}
{"id": "C76", "title": "Where the type published for values is right", "statement": "pycep.typing publishes PossibleValue (bool | int | str | list[bool | int | str] | dict[str, PossibleValue]) as the type of values. At every place of the result where an expression, a loop or a body is reported, the value has this type exactly if: it is not null and no null is reported inside (a null argument of a method-style call is not reported, and of several members with the same key only the last counts); every element of every array is a literal other than null or an identifier; every loop has a condition; and no optional argument of a known function is left out. Where a null, an array with any other element, or a loop without condition is reported, no value around it has the published type.", "quantifier": "all texts that are parsed, and all places of their results", "why_tests_cant": "Type checkers trust the annotation, and the values are built by untyped code; an exact characterisation over all expressions is a claim about infinitely many programs of any depth.", "anchors": ["pycep/typing.py", "pycep/main.py:BicepParser.parse", "pycep/transformer.py:BicepToJson", "pycep/rules/functions.py"]}
{"id": "C77", "title": "The work of parsing is linear in the number of tokens", "statement": "For every text, accepted or refused, the parser shifts at most as many tokens as the text has characters, consults its table at most seven times per shifted token and twice more, and never loops. The tree it builds has at most five nodes per token and one more. So no document makes the parser proper take time out of proportion to its length. (Time spent inside the regular expression engine on one token is not claimed.)", "quantifier": "all texts", "why_tests_cant": "A bound on the work is a claim about all inputs, in particular about long and unusual ones; a test measures one input. A cycle of reductions in the table would hang only on the inputs that reach it.", "anchors": ["pycep/main.py:BicepParser.parse", "pycep/bicep.lark"]}
{"id": "C78", "title": "How deep trees and results are nested", "statement": "The tree that parse hands to its transformer is between one and two times as deep as the document is nested, plus one level: the depth does not depend on how many declarations, members, elements or arguments there are, but each operator or accessor of a chain adds to it. Wherever an expression, a loop or a body is reported, its value has at most three levels of dictionaries and lists per level of nesting. There is no bound that holds for all documents: for every n, a document of 4n + 12 characters yields a value with n levels and a tree with more than n. So code that walks trees or results recursively needs a stack in proportion to the nesting of the document, and no more.", "quantifier": "all texts that are parsed, all places of their results, all depths", "why_tests_cant": "A test fixes a document and so a depth; the claim relates the depth of tree and result to the nesting of every document.", "anchors": ["pycep/bicep.lark", "pycep/main.py:BicepParser.parse", "pycep/main.py:BicepParser.create_tree", "pycep/transformer.py:BicepToJson"]}
{"id": "C79", "title": "Where the types published for arguments are right", "statement": "pycep.typing publishes a type for every parameter of every known function, for the operand of ! and for the arguments of decorators. What is reported about a call has the published type, including the types of its parameters, exactly if the number of arguments is one the type has room for and every reported argument fits the type of its key: a text or an identifier where str is published, an expression as in C76 where PossibleValue is, null only where None is allowed. An optional argument that is left out is reported as None only where the type allows it. The operand of ! has its type exactly if it is true, false, a text or an identifier. The arguments of batchSize, minLength and maxLength have their type (int) exactly if they are written as non-negative integers (or booleans), of minValue also if negative, of maxValue always; of allowed exactly if it is an array of literals and identifiers, of description if a text or identifier, of metadata if it is no literal, identifier or array.", "quantifier": "all texts that are parsed, and all calls, negations and decorators in them", "why_tests_cant": "Static type checkers take the annotations on trust; whether they are right depends on every possible argument of 66 functions and 8 decorators.", "anchors": ["pycep/typing.py", "pycep/rules/functions.py", "pycep/rules/decorators.py", "pycep/transformer.py:BicepToJson"]}
{"id": "C80", "title": "Which words can be names", "statement": "Every identifier, also a keyword such as type, for, resource or null, can name a declaration of each kind, and the declaration is reported under it, otherwise independently of the name. As a value, every word except null, true and false is a reference to the element of that name, also if it is a keyword; null, true and false are always the values None, True and False, also behind an operator or a dot, and never references. As a key at the beginning of a line of an object, every word except null, true and false is allowed and reported as written, and these three are syntax errors.", "quantifier": "all identifiers, all kinds of declarations, all operators written as a sign; all texts that are parsed, for the claim that references are never null, true or false", "why_tests_cant": "Whether a word is a keyword depends on what the parser can accept where it stands, so it takes all words in all positions; tests try a few.", "anchors": ["pycep/bicep.lark", "pycep/parser.py:BicepParser.parse", "pycep/transformer.py:BicepToJson"]}
{"id": "C81", "title": "Data can be written and are read back", "statement": "Every datum made of None, booleans, integers from 0 to 10^4300 - 1, strings that contain no triple quotes and do not end with a quote, references, lists and dictionaries (whose keys are identifiers other than for, null, true, false, or quoted strings) is the reported value of some expression: there is a text such that parse(text)['variables']['y']['value'] is the datum. Conversely, wherever an expression without operators, calls, lambdas, loops and nested resources is reported, the report is such a datum (with arbitrary strings): every number is non-negative with at most 4300 digits, keys are identifiers or quoted strings, and no key occurs twice. No expression at all is reported as a negative number.", "quantifier": "all data; all expressions in all texts that are parsed", "why_tests_cant": "All finite trees of data, with strings of any characters, cannot be enumerated.", "anchors": ["pycep/bicep.lark", "pycep/transformer.py:BicepToJson"]}
{"id": "C82", "title": "Concurrent calls do not disturb each other", "statement": "When parse and create_tree are called from several threads, on one shared BicepParser or on several, each call ends with exactly the outcome (result or exception) it would have alone on a newly built parser, in every interleaving of the threads; and each call ends after a number of its own steps that depends only on its own argument, whatever the other threads do.", "quantifier": "all lists of calls on all parsers, all interleavings of their steps, all documents", "why_tests_cant": "Interleavings are chosen by the scheduler: a test sees a few of them, and a race between two calls may need a particular one.", "anchors": ["pycep/main.py:BicepParser.parse", "pycep/main.py:BicepParser.create_tree", "pycep/transformer.py:BicepToJson.__init__"]}
{"id": "C83", "title": "Exactly which documents fail after their syntax is accepted", "statement": "A document for which create_tree succeeds is parsed exactly if nothing in it is at fault, and otherwise parse raises a VisitError that names a construct at fault, in the first declaration of the document that has one. At fault are: a numeral of more than 4300 digits; a call of a known function with a number of arguments it does not accept; a decorator other than a flag without an argument; a @maxValue whose argument is not something Python's int() takes; a @minValue whose argument looks like a negation of something that cannot be negated; a loop condition that looks like a call without being one, or if() without argument; an unknown target scope; a resource type without exactly one @; an invalid module reference; and a resource body from which nested resources cannot be taken (an ordinary member under the reserved key, or depends_on of a nested resource that is not a list). In particular documents avoiding these by their syntax alone never fail. All of this with line numbers and without.", "quantifier": "all texts accepted by create_tree, all parsers", "why_tests_cant": "A test shows that some documents fail and others do not; that a list of reasons for failure is complete is a statement about all documents.", "anchors": ["pycep/main.py:BicepParser.parse", "pycep/transformer.py:BicepToJson", "pycep/functions.py", "pycep/decorators.py"]}
{"id": "C84", "title": "What stands behind the last declaration does not matter", "statement": "Whether the last line of a clearly written document ends with a line break, and how many empty lines, blanks and comments follow it, makes no difference: parse gives the same result with the same line numbers, or the same error. Two provisos, shown to be needed: a // comment in the last line must be followed by a line break (otherwise the document is rejected), and the document must be clear (a document may be accepted in which a division sign and a /* comment stand together as //*, and with a line break behind it this is read as a comment). Triple quotes in the comments count for the check of balance (C02).", "quantifier": "all clearly written documents, all idle text behind them, parsers with and without line numbers", "why_tests_cant": "The lexer reads the last token of a line with look-ahead at what follows, and the parser's decision whether a declaration is complete depends on the next token; that neither changes any outcome is a statement about all documents.", "anchors": ["pycep/bicep.lark:1-10", "pycep/main.py:BicepParser.parse"]}
{"id": "C85", "title": "Characters outside strings and comments, and how a document begins", "statement": "In an accepted document every character other than word characters, blanks, tabs, line ends and !%&()*+,-./:<=>?@[]{|}~ (so every quote, #, $, ;, backslash, ^, backquote, no-break space, typographic quote, ...) stands in a comment or in a string literal of the program. A document in which nothing begins a string or comment is rejected as a syntax error if it contains such a character, and the reported position is not behind it. A document whose first character cannot begin anything is rejected with UnexpectedCharacters at line 1, column 1, unless the check of triple quotes fails first; in particular every file that starts with a byte order mark is rejected, whatever follows. An accepted document is either only blanks, comments and line ends, or goes on behind these with @ or with the keyword of a declaration.", "quantifier": "all documents, from text or file", "why_tests_cant": "That no combination of tokens lets a stray character through is a statement about all documents and all terminals; a test can only try some characters at some places.", "anchors": ["pycep/bicep.lark:171-191", "pycep/main.py:BicepParser._create_tree"]}
{"id": "C86", "title": "Where string literals, comments and line ends end", "statement": "An accepted document can be cut into the tokens of its program such that everything extends exactly as far as it should: a quoted string contains no quote except behind a backslash or inside ${...}; a multi-line string ends with the first three quotes behind its opening ones; a # comment goes to the end of its line; a block comment ends with the first */; blanks and line ends are taken as far as they go; words and numbers are whole. No three quotes stand between the beginning of a quoted string and the end of that line, so a multi-line string behind a quoted string always begins on a later line. A document whose first string is a quoted string other than a plain name is rejected if three quotes follow on the same line, even inside a comment.", "quantifier": "all documents, from text or file", "why_tests_cant": "That a comment or literal never swallows too much or ends too early depends on every text that may follow it; a test fixes one such text.", "anchors": ["pycep/bicep.lark:171-191", "pycep/bicep.lark:178", "pycep/bicep.lark:181"]}
{"id": "C87", "title": "Unclosed strings and comments are rejected", "statement": "A document in which a quote opens a string that no later quote closes is rejected with UnexpectedInput, and the reported position is not behind that quote. A document in which /* opens a comment that no later */ closes is never accepted (and is rejected with UnexpectedInput, at a position not behind the asterisk, when its multi-line quotes are balanced): the slash is never read as a division sign and the asterisk never as an operator, so the rest of the document is never silently read as code or dropped as comment.", "quantifier": "all documents with an unclosed first string or comment, whatever precedes and follows it, from text or file", "why_tests_cant": "Both / and * are operators of the language, so whether an unclosed comment could be read as an expression depends on every possible surrounding text and parser state; tests try a few.", "anchors": ["pycep/bicep.lark:171-191", "pycep/bicep.lark:148-154", "pycep/bicep.lark:186-194", "pycep/main.py:BicepParser._create_tree"]}
{"id": "C88", "title": "Brackets match", "statement": "In every accepted document the brackets outside of string literals and comments match: each (, [ and { is closed by a bracket of its kind, and what stands between the two matches as well. A document without strings and comments whose brackets do not match is rejected with UnexpectedInput. As soon as a closing bracket (with no strings or comments in front of it) cannot be matched, the document is rejected whatever follows, and the reported position is not behind that bracket.", "quantifier": "all documents, from text or file", "why_tests_cant": "Brackets occur in some fifty grammar rules that nest without limit, and a function name carries its opening bracket inside one token; a test covers some nestings, not that no combination lets an unmatched bracket through.", "anchors": ["pycep/bicep.lark:1-171", "pycep/main.py:BicepParser._create_tree"]}
{"id": "C89", "title": "No line begins with an infix operator", "statement": "In an accepted document no line, inside or outside of brackets, begins with one of the characters = : ? . + * / % & | < > unless it begins a // or /* comment: an expression cannot be continued by an operator at the beginning of the next line. A document in which this happens (with no strings or comments in front) is rejected whatever follows, and the reported position is not behind that character. In particular a conditional expression with ? and : on lines of their own is rejected.", "quantifier": "all documents, from text or file", "why_tests_cant": "Whether some context lets a line break pass in front of an operator depends on every place of the grammar that allows a line break; a test tries one operator in one context.", "anchors": ["pycep/bicep.lark:1", "pycep/bicep.lark:15-24", "pycep/bicep.lark:67-101", "pycep/bicep.lark:103-170"]}
{"id": "C90", "title": "Repeating a part of a document directly behind itself changes nothing", "statement": "If a part of a document (or the whole document) is written twice in succession, parse without line numbers gives exactly the same outcome as for the document with the part once: the same result with the same keys in the same order, or the same error. This holds for parts that begin and end with a line and are clearly written declarations; a repetition further down can change the result.", "quantifier": "all documents made of three clearly written parts, the first and last possibly empty, from text or file", "why_tests_cant": "It relates the outcomes of two different runs for every document; duplicated declarations interact with nested resources, imports and the order of sections.", "anchors": ["pycep/main.py:BicepParser.parse", "pycep/transformer.py:BicepToJson.start"]}
{"id": "C91", "title": "The bytes of a file are read as exactly one text", "statement": "In a UTF-8 locale, a file that holds the UTF-8 bytes of a text is parsed like this text, whatever characters occur in it. A file whose bytes are not the UTF-8 bytes of any text is never parsed: parse and create_tree raise the error of reading the file, and no byte is skipped or replaced. Every result for a file is the result for the one text with these bytes. A file that starts with a byte order mark of UTF-8 or UTF-16 is never parsed. For a file of ASCII characters the result does not depend on the encoding of the locale.", "quantifier": "all byte sequences, all texts, all file names, with and without line numbers; all encodings that extend ASCII", "why_tests_cant": "There are infinitely many byte sequences, and the guarantee that no two of them are confused and no invalid one is let through covers all of them; tests run in one locale on well-formed ASCII files.", "anchors": ["pycep/main.py:BicepParser._create_tree"]}
{"id": "C92", "title": "Lines put in front of a document move its line numbers, and nothing else", "statement": "If comments and empty lines (a licence, say) are put in front of a clearly written document, parse with line numbers gives the result it gave, with __start_line__ and __end_line__ of every declaration and of every nested resource larger by the number of lines put in front, and everything else unchanged, in the same order; or it fails with the same error. The scope keeps line 0 if it is not declared. Without line numbers nothing changes. The document nests resources only directly in bodies of resources: where a nested resource is found inside another value, its lines are part of the value.", "quantifier": "all clearly written documents that nest resources only in bodies of resources, all comments and empty lines in front of them, parsers with and without line numbers", "why_tests_cant": "It relates the results of two different texts, for all texts and all headers, at any depth of nesting.", "anchors": ["pycep/main.py:BicepParser.parse", "pycep/transformer.py:BicepToJson.start", "pycep/transformer.py:BicepToJson.child_resource"]}
{"id": "C93", "title": "What comments between declarations say does not matter, and a commented-out line counts as not written", "statement": "Between two parts of a clearly written document, each written in whole lines, comments and empty lines can be put. Parse with line numbers gives the same outcome for any two such comments that take up the same number of lines; without line numbers it gives the outcome it gives with nothing put there. In particular a line commented out with // can say anything, be it the beginning of a declaration or no Bicep at all. The only condition is that the number of triple quotes in it is even, as they are counted in comments too.", "quantifier": "all pairs of clearly written documents, all comments and empty lines between them with an even number of triple quotes, parsers with and without line numbers", "why_tests_cant": "It relates the outcomes of two different texts, for all texts and all contents of comments.", "anchors": ["pycep/main.py:BicepParser.parse", "pycep/bicep.lark:_CPP_COMMENT_NL", "pycep/validator.py:BicepValidator.multi_line_string_valid"]}
{"id": "C94", "title": "Declarations that are overridden further down can be deleted", "statement": "If every name that a part of a clearly written document declares or imports is declared or imported again further down, in the same section, and the resources nested in it likewise as nested ones, then the document without that part is accepted if the whole document is, and gives the same result, up to the order of sections and of names. This is without line numbers; with line numbers the same holds if comments of as many lines are put in place of the part. The nested resources matter: a resource nested in a declaration is still reported if only the declaration itself is overridden.", "quantifier": "all clearly written documents in three parts, the middle one overridden by the last one", "why_tests_cant": "It relates the results of two different texts, for all texts, and compares results up to order.", "anchors": ["pycep/main.py:BicepParser.parse", "pycep/transformer.py:BicepToJson.start"]}
{"id": "C95", "title": "The sections of the result are independent of each other", "statement": "What is reported in a section depends on the declarations of that kind alone. If all declarations of some kinds (not targetScope) are taken out of an accepted, clearly written document, what is left is accepted and gives the result without the sections of these kinds; the other sections are unchanged, names and sections in the same order. With line numbers this holds if the declarations that are left stay on their lines. Likewise any two accepted documents with the same declarations of some kinds, targetScope included, agree in the sections of these kinds.", "quantifier": "all documents, all choices of sections that include globals", "why_tests_cant": "It relates the results of two different texts, for all texts and all sets of sections.", "anchors": ["pycep/main.py:BicepParser.parse", "pycep/transformer.py:BicepToJson.start"]}

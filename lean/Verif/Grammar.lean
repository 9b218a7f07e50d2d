import Verif.Terminals
/-
GENERATED by tools/gen_lean.py from the text of /repo/pycep/bicep.lark. Do not edit.

* `terminals`: the terminals of the grammar in the order in which Lark's BasicLexer sorts them
  (priority, maximal width, length of the pattern, name); the position in the list is the id.
* `rules`: the BNF rules Lark compiles the EBNF grammar to (load_grammar.py: EBNF_to_BNF,
  SimplifyRule_Visitor, Grammar.compile), together with what ParseTreeBuilder does with the
  children (filter_out, inlining of `_rules`, `[...]` placeholders, `?rules`, aliases).
-/
namespace Pycep

/-- All terminals, in scanning order.  Ids are positions; id 68 is `$END`. -/
def terminals : List Terminal := [
  Terminal.ofRe "LIST_FUNC_NAME" 2 Terminals.LIST_FUNC_NAME,
  Terminal.ofRe "FUNCTION" 1 Terminals.FUNCTION,
  Terminal.ofRe "QUOTED_INTERPOLATION" 0 Terminals.QUOTED_INTERPOLATION,
  Terminal.ofRe "MULTI_LINE_STRING" 0 Terminals.MULTI_LINE_STRING,
  Terminal.ofRe "STRING" 0 Terminals.STRING,
  Terminal.ofRe "_CPP_COMMENT_NL" 0 Terminals._CPP_COMMENT_NL,
  Terminal.ofRe "QUOTED_STRING" 0 Terminals.QUOTED_STRING,
  Terminal.ofRe "__ANON_2" 0 Terminals.decoratorName,
  Terminal.ofRe "C_COMMENT" 0 Terminals.C_COMMENT,
  Terminal.ofRe "WS_INLINE" 0 Terminals.WS_INLINE,
  Terminal.ofRe "_NEWLINE" 0 Terminals._NEWLINE,
  Terminal.ofRe "INT" 0 Terminals.INT,
  Terminal.ofRe "SH_COMMENT" 0 Terminals.SH_COMMENT,
  Terminal.ofStr "TARGETSCOPE" "targetScope",
  Terminal.ofStr "EXTENSION" "extension",
  Terminal.ofStr "EXISTING" "existing",
  Terminal.ofStr "METADATA" "metadata",
  Terminal.ofStr "RESOURCE" "resource",
  Terminal.ofStr "IMPORT" "import",
  Terminal.ofStr "MODULE" "module",
  Terminal.ofStr "OUTPUT" "output",
  Terminal.ofStr "FALSE" "false",
  Terminal.ofStr "ITEMS" "items",
  Terminal.ofStr "PARAM" "param",
  Terminal.ofStr "FROM" "from",
  Terminal.ofStr "FUNC" "func",
  Terminal.ofStr "NULL" "null",
  Terminal.ofStr "TRUE" "true",
  Terminal.ofStr "TYPE" "type",
  Terminal.ofStr "WITH" "with",
  Terminal.ofStr "FOR" "for",
  Terminal.ofStr "VAR" "var",
  Terminal.ofStr "AS" "as",
  Terminal.ofStr "IF" "if",
  Terminal.ofStr "IN" "in",
  Terminal.ofStr "__ANON_0" "=>",
  Terminal.ofStr "__ANON_10" "||",
  Terminal.ofStr "__ANON_11" "??",
  Terminal.ofStr "__ANON_12" "::",
  Terminal.ofStr "__ANON_3" ">=",
  Terminal.ofStr "__ANON_4" "<=",
  Terminal.ofStr "__ANON_5" "==",
  Terminal.ofStr "__ANON_6" "!=",
  Terminal.ofStr "__ANON_7" "=~",
  Terminal.ofStr "__ANON_8" "!~",
  Terminal.ofStr "__ANON_9" "&&",
  Terminal.ofRe "__ANON_1" 0 Terminals.importStar,
  Terminal.ofStr "AT" "@",
  Terminal.ofStr "BANG" "!",
  Terminal.ofStr "COLON" ":",
  Terminal.ofStr "COMMA" ",",
  Terminal.ofStr "DOT" ".",
  Terminal.ofStr "EQUAL" "=",
  Terminal.ofStr "LBRACE" "{",
  Terminal.ofStr "LESSTHAN" "<",
  Terminal.ofStr "LPAR" "(",
  Terminal.ofStr "LSQB" "[",
  Terminal.ofStr "MINUS" "-",
  Terminal.ofStr "MORETHAN" ">",
  Terminal.ofStr "PERCENT" "%",
  Terminal.ofStr "PLUS" "+",
  Terminal.ofStr "QMARK" "?",
  Terminal.ofStr "RBRACE" "}",
  Terminal.ofStr "RPAR" ")",
  Terminal.ofStr "RSQB" "]",
  Terminal.ofStr "SLASH" "/",
  Terminal.ofStr "STAR" "*",
  Terminal.ofStr "VBAR" "|"]

/-- id of the end-of-input pseudo terminal -/
def tEND : Nat := 68

namespace T
@[match_pattern] abbrev LIST_FUNC_NAME : Nat := 0
@[match_pattern] abbrev FUNCTION : Nat := 1
@[match_pattern] abbrev QUOTED_INTERPOLATION : Nat := 2
@[match_pattern] abbrev MULTI_LINE_STRING : Nat := 3
@[match_pattern] abbrev STRING : Nat := 4
@[match_pattern] abbrev _CPP_COMMENT_NL : Nat := 5
@[match_pattern] abbrev QUOTED_STRING : Nat := 6
@[match_pattern] abbrev __ANON_2 : Nat := 7
@[match_pattern] abbrev C_COMMENT : Nat := 8
@[match_pattern] abbrev WS_INLINE : Nat := 9
@[match_pattern] abbrev _NEWLINE : Nat := 10
@[match_pattern] abbrev INT : Nat := 11
@[match_pattern] abbrev SH_COMMENT : Nat := 12
@[match_pattern] abbrev TARGETSCOPE : Nat := 13
@[match_pattern] abbrev EXTENSION : Nat := 14
@[match_pattern] abbrev EXISTING : Nat := 15
@[match_pattern] abbrev METADATA : Nat := 16
@[match_pattern] abbrev RESOURCE : Nat := 17
@[match_pattern] abbrev IMPORT : Nat := 18
@[match_pattern] abbrev MODULE : Nat := 19
@[match_pattern] abbrev OUTPUT : Nat := 20
@[match_pattern] abbrev FALSE : Nat := 21
@[match_pattern] abbrev ITEMS : Nat := 22
@[match_pattern] abbrev PARAM : Nat := 23
@[match_pattern] abbrev FROM : Nat := 24
@[match_pattern] abbrev FUNC : Nat := 25
@[match_pattern] abbrev NULL : Nat := 26
@[match_pattern] abbrev TRUE : Nat := 27
@[match_pattern] abbrev TYPE : Nat := 28
@[match_pattern] abbrev WITH : Nat := 29
@[match_pattern] abbrev FOR : Nat := 30
@[match_pattern] abbrev VAR : Nat := 31
@[match_pattern] abbrev AS : Nat := 32
@[match_pattern] abbrev IF : Nat := 33
@[match_pattern] abbrev IN : Nat := 34
@[match_pattern] abbrev __ANON_0 : Nat := 35
@[match_pattern] abbrev __ANON_10 : Nat := 36
@[match_pattern] abbrev __ANON_11 : Nat := 37
@[match_pattern] abbrev __ANON_12 : Nat := 38
@[match_pattern] abbrev __ANON_3 : Nat := 39
@[match_pattern] abbrev __ANON_4 : Nat := 40
@[match_pattern] abbrev __ANON_5 : Nat := 41
@[match_pattern] abbrev __ANON_6 : Nat := 42
@[match_pattern] abbrev __ANON_7 : Nat := 43
@[match_pattern] abbrev __ANON_8 : Nat := 44
@[match_pattern] abbrev __ANON_9 : Nat := 45
@[match_pattern] abbrev __ANON_1 : Nat := 46
@[match_pattern] abbrev AT : Nat := 47
@[match_pattern] abbrev BANG : Nat := 48
@[match_pattern] abbrev COLON : Nat := 49
@[match_pattern] abbrev COMMA : Nat := 50
@[match_pattern] abbrev DOT : Nat := 51
@[match_pattern] abbrev EQUAL : Nat := 52
@[match_pattern] abbrev LBRACE : Nat := 53
@[match_pattern] abbrev LESSTHAN : Nat := 54
@[match_pattern] abbrev LPAR : Nat := 55
@[match_pattern] abbrev LSQB : Nat := 56
@[match_pattern] abbrev MINUS : Nat := 57
@[match_pattern] abbrev MORETHAN : Nat := 58
@[match_pattern] abbrev PERCENT : Nat := 59
@[match_pattern] abbrev PLUS : Nat := 60
@[match_pattern] abbrev QMARK : Nat := 61
@[match_pattern] abbrev RBRACE : Nat := 62
@[match_pattern] abbrev RPAR : Nat := 63
@[match_pattern] abbrev RSQB : Nat := 64
@[match_pattern] abbrev SLASH : Nat := 65
@[match_pattern] abbrev STAR : Nat := 66
@[match_pattern] abbrev VBAR : Nat := 67
end T

/-- terminals named by `%ignore` (bicep.lark:193,194,195) -/
def ignoreIds : List Nat := [8, 12, 9]

/-- names of the nonterminals; the symbol number of the i-th one is `128 + i` -/
def ntNames : List String := [
  "start",
  "element",
  "value",
  "value_brackets",
  "_import_statement",
  "_func_statement",
  "var_value",
  "metadata_value",
  "output_value",
  "resource_value",
  "module_value",
  "child_resource",
  "type_value",
  "data_type",
  "base_type",
  "union_type",
  "array_suffix",
  "type_api_pair",
  "module_path",
  "import_alias",
  "loop",
  "loop_array",
  "loop_array_index",
  "loop_object",
  "deploy_condition",
  "quoted_string",
  "array",
  "object",
  "pair",
  "key",
  "lambda_expression",
  "decorator",
  "decorators",
  "function",
  "operator",
  "operator_comparison",
  "greater_than_or_equals",
  "greater_than",
  "less_than_or_equals",
  "less_than",
  "equals",
  "not_equals",
  "equals_case_insens",
  "not_equals_case_insens",
  "operator_logical",
  "and_op",
  "or_op",
  "not_op",
  "coalesce",
  "conditional",
  "operator_numeric",
  "add",
  "divide",
  "minus",
  "modulo",
  "multiply",
  "substract",
  "operator_accessor",
  "index_accessor",
  "function_accessor",
  "nested_resource_accessor",
  "property_accessor",
  "__start_star_0",
  "___import_statement_star_1",
  "___func_statement_star_2",
  "__child_resource_plus_3",
  "__type_value_star_4",
  "__data_type_star_5",
  "__union_type_plus_6",
  "__array_star_7",
  "__array_star_8",
  "__object_star_9",
  "__object_star_10",
  "__decorators_plus_11",
  "__function_star_12",
  "__function_accessor_plus_13"]

namespace N
@[match_pattern] abbrev «start» : Nat := 128
@[match_pattern] abbrev «element» : Nat := 129
@[match_pattern] abbrev «value» : Nat := 130
@[match_pattern] abbrev «value_brackets» : Nat := 131
@[match_pattern] abbrev «_import_statement» : Nat := 132
@[match_pattern] abbrev «_func_statement» : Nat := 133
@[match_pattern] abbrev «var_value» : Nat := 134
@[match_pattern] abbrev «metadata_value» : Nat := 135
@[match_pattern] abbrev «output_value» : Nat := 136
@[match_pattern] abbrev «resource_value» : Nat := 137
@[match_pattern] abbrev «module_value» : Nat := 138
@[match_pattern] abbrev «child_resource» : Nat := 139
@[match_pattern] abbrev «type_value» : Nat := 140
@[match_pattern] abbrev «data_type» : Nat := 141
@[match_pattern] abbrev «base_type» : Nat := 142
@[match_pattern] abbrev «union_type» : Nat := 143
@[match_pattern] abbrev «array_suffix» : Nat := 144
@[match_pattern] abbrev «type_api_pair» : Nat := 145
@[match_pattern] abbrev «module_path» : Nat := 146
@[match_pattern] abbrev «import_alias» : Nat := 147
@[match_pattern] abbrev «loop» : Nat := 148
@[match_pattern] abbrev «loop_array» : Nat := 149
@[match_pattern] abbrev «loop_array_index» : Nat := 150
@[match_pattern] abbrev «loop_object» : Nat := 151
@[match_pattern] abbrev «deploy_condition» : Nat := 152
@[match_pattern] abbrev «quoted_string» : Nat := 153
@[match_pattern] abbrev «array» : Nat := 154
@[match_pattern] abbrev «object» : Nat := 155
@[match_pattern] abbrev «pair» : Nat := 156
@[match_pattern] abbrev «key» : Nat := 157
@[match_pattern] abbrev «lambda_expression» : Nat := 158
@[match_pattern] abbrev «decorator» : Nat := 159
@[match_pattern] abbrev «decorators» : Nat := 160
@[match_pattern] abbrev «function» : Nat := 161
@[match_pattern] abbrev «operator» : Nat := 162
@[match_pattern] abbrev «operator_comparison» : Nat := 163
@[match_pattern] abbrev «greater_than_or_equals» : Nat := 164
@[match_pattern] abbrev «greater_than» : Nat := 165
@[match_pattern] abbrev «less_than_or_equals» : Nat := 166
@[match_pattern] abbrev «less_than» : Nat := 167
@[match_pattern] abbrev «equals» : Nat := 168
@[match_pattern] abbrev «not_equals» : Nat := 169
@[match_pattern] abbrev «equals_case_insens» : Nat := 170
@[match_pattern] abbrev «not_equals_case_insens» : Nat := 171
@[match_pattern] abbrev «operator_logical» : Nat := 172
@[match_pattern] abbrev «and_op» : Nat := 173
@[match_pattern] abbrev «or_op» : Nat := 174
@[match_pattern] abbrev «not_op» : Nat := 175
@[match_pattern] abbrev «coalesce» : Nat := 176
@[match_pattern] abbrev «conditional» : Nat := 177
@[match_pattern] abbrev «operator_numeric» : Nat := 178
@[match_pattern] abbrev «add» : Nat := 179
@[match_pattern] abbrev «divide» : Nat := 180
@[match_pattern] abbrev «minus» : Nat := 181
@[match_pattern] abbrev «modulo» : Nat := 182
@[match_pattern] abbrev «multiply» : Nat := 183
@[match_pattern] abbrev «substract» : Nat := 184
@[match_pattern] abbrev «operator_accessor» : Nat := 185
@[match_pattern] abbrev «index_accessor» : Nat := 186
@[match_pattern] abbrev «function_accessor» : Nat := 187
@[match_pattern] abbrev «nested_resource_accessor» : Nat := 188
@[match_pattern] abbrev «property_accessor» : Nat := 189
@[match_pattern] abbrev «__start_star_0» : Nat := 190
@[match_pattern] abbrev «___import_statement_star_1» : Nat := 191
@[match_pattern] abbrev «___func_statement_star_2» : Nat := 192
@[match_pattern] abbrev «__child_resource_plus_3» : Nat := 193
@[match_pattern] abbrev «__type_value_star_4» : Nat := 194
@[match_pattern] abbrev «__data_type_star_5» : Nat := 195
@[match_pattern] abbrev «__union_type_plus_6» : Nat := 196
@[match_pattern] abbrev «__array_star_7» : Nat := 197
@[match_pattern] abbrev «__array_star_8» : Nat := 198
@[match_pattern] abbrev «__object_star_9» : Nat := 199
@[match_pattern] abbrev «__object_star_10» : Nat := 200
@[match_pattern] abbrev «__decorators_plus_11» : Nat := 201
@[match_pattern] abbrev «__function_star_12» : Nat := 202
@[match_pattern] abbrev «__function_accessor_plus_13» : Nat := 203
end N

/-- The compiled rules (index = rule number used by the table). -/
def rules : List Rule := [
  -- 0: start : __start_star_0 (bicep.lark:1)
  ⟨128, [190], "start", false, [(0, true, 0)], 0⟩,
  -- 1: start : ε (bicep.lark:1)
  ⟨128, [], "start", false, [], 0⟩,
  -- 2: element : TARGETSCOPE EQUAL QUOTED_INTERPOLATION -> scope (bicep.lark:3)
  ⟨129, [13, 52, 2], "scope", false, [(2, false, 0)], 0⟩,
  -- 3: element : IMPORT _import_statement -> custom_import (bicep.lark:3)
  ⟨129, [18, 132], "custom_import", false, [(1, true, 0)], 0⟩,
  -- 4: element : EXTENSION STRING WITH object AS STRING -> extension (bicep.lark:3)
  ⟨129, [14, 4, 29, 155, 32, 4], "extension", false, [(1, false, 0), (3, false, 0), (5, false, 0)], 0⟩,
  -- 5: element : EXTENSION STRING WITH object -> extension (bicep.lark:3)
  ⟨129, [14, 4, 29, 155], "extension", false, [(1, false, 0), (3, false, 0)], 1⟩,
  -- 6: element : EXTENSION STRING AS STRING -> extension (bicep.lark:3)
  ⟨129, [14, 4, 32, 4], "extension", false, [(1, false, 0), (3, false, 1)], 0⟩,
  -- 7: element : EXTENSION STRING -> extension (bicep.lark:3)
  ⟨129, [14, 4], "extension", false, [(1, false, 0)], 2⟩,
  -- 8: element : METADATA STRING EQUAL metadata_value -> metadata (bicep.lark:3)
  ⟨129, [16, 4, 52, 135], "metadata", false, [(1, false, 0), (3, false, 0)], 0⟩,
  -- 9: element : decorators PARAM STRING data_type QMARK EQUAL value_brackets -> param (bicep.lark:3)
  ⟨129, [160, 23, 4, 141, 61, 52, 131], "param", false, [(0, false, 0), (2, false, 0), (3, false, 0), (6, false, 0)], 0⟩,
  -- 10: element : decorators PARAM STRING data_type QMARK -> param (bicep.lark:3)
  ⟨129, [160, 23, 4, 141, 61], "param", false, [(0, false, 0), (2, false, 0), (3, false, 0)], 1⟩,
  -- 11: element : decorators PARAM STRING data_type EQUAL value_brackets -> param (bicep.lark:3)
  ⟨129, [160, 23, 4, 141, 52, 131], "param", false, [(0, false, 0), (2, false, 0), (3, false, 0), (5, false, 0)], 0⟩,
  -- 12: element : decorators PARAM STRING data_type -> param (bicep.lark:3)
  ⟨129, [160, 23, 4, 141], "param", false, [(0, false, 0), (2, false, 0), (3, false, 0)], 1⟩,
  -- 13: element : PARAM STRING data_type QMARK EQUAL value_brackets -> param (bicep.lark:3)
  ⟨129, [23, 4, 141, 61, 52, 131], "param", false, [(1, false, 1), (2, false, 0), (5, false, 0)], 0⟩,
  -- 14: element : PARAM STRING data_type QMARK -> param (bicep.lark:3)
  ⟨129, [23, 4, 141, 61], "param", false, [(1, false, 1), (2, false, 0)], 1⟩,
  -- 15: element : PARAM STRING data_type EQUAL value_brackets -> param (bicep.lark:3)
  ⟨129, [23, 4, 141, 52, 131], "param", false, [(1, false, 1), (2, false, 0), (4, false, 0)], 0⟩,
  -- 16: element : PARAM STRING data_type -> param (bicep.lark:3)
  ⟨129, [23, 4, 141], "param", false, [(1, false, 1), (2, false, 0)], 1⟩,
  -- 17: element : decorators VAR STRING data_type QMARK EQUAL var_value -> var (bicep.lark:3)
  ⟨129, [160, 31, 4, 141, 61, 52, 134], "var", false, [(0, false, 0), (2, false, 0), (3, false, 0), (6, false, 0)], 0⟩,
  -- 18: element : decorators VAR STRING data_type EQUAL var_value -> var (bicep.lark:3)
  ⟨129, [160, 31, 4, 141, 52, 134], "var", false, [(0, false, 0), (2, false, 0), (3, false, 0), (5, false, 0)], 0⟩,
  -- 19: element : decorators VAR STRING EQUAL var_value -> var (bicep.lark:3)
  ⟨129, [160, 31, 4, 52, 134], "var", false, [(0, false, 0), (2, false, 0), (4, false, 1)], 0⟩,
  -- 20: element : VAR STRING data_type QMARK EQUAL var_value -> var (bicep.lark:3)
  ⟨129, [31, 4, 141, 61, 52, 134], "var", false, [(1, false, 1), (2, false, 0), (5, false, 0)], 0⟩,
  -- 21: element : VAR STRING data_type EQUAL var_value -> var (bicep.lark:3)
  ⟨129, [31, 4, 141, 52, 134], "var", false, [(1, false, 1), (2, false, 0), (4, false, 0)], 0⟩,
  -- 22: element : VAR STRING EQUAL var_value -> var (bicep.lark:3)
  ⟨129, [31, 4, 52, 134], "var", false, [(1, false, 1), (3, false, 1)], 0⟩,
  -- 23: element : decorators OUTPUT STRING data_type QMARK EQUAL output_value -> output (bicep.lark:3)
  ⟨129, [160, 20, 4, 141, 61, 52, 136], "output", false, [(0, false, 0), (2, false, 0), (3, false, 0), (6, false, 0)], 0⟩,
  -- 24: element : decorators OUTPUT STRING data_type EQUAL output_value -> output (bicep.lark:3)
  ⟨129, [160, 20, 4, 141, 52, 136], "output", false, [(0, false, 0), (2, false, 0), (3, false, 0), (5, false, 0)], 0⟩,
  -- 25: element : OUTPUT STRING data_type QMARK EQUAL output_value -> output (bicep.lark:3)
  ⟨129, [20, 4, 141, 61, 52, 136], "output", false, [(1, false, 1), (2, false, 0), (5, false, 0)], 0⟩,
  -- 26: element : OUTPUT STRING data_type EQUAL output_value -> output (bicep.lark:3)
  ⟨129, [20, 4, 141, 52, 136], "output", false, [(1, false, 1), (2, false, 0), (4, false, 0)], 0⟩,
  -- 27: element : decorators RESOURCE STRING type_api_pair EXISTING EQUAL resource_value -> resource (bicep.lark:3)
  ⟨129, [160, 17, 4, 145, 15, 52, 137], "resource", false, [(0, false, 0), (2, false, 0), (3, false, 0), (4, false, 0), (6, false, 0)], 0⟩,
  -- 28: element : decorators RESOURCE STRING type_api_pair EQUAL resource_value -> resource (bicep.lark:3)
  ⟨129, [160, 17, 4, 145, 52, 137], "resource", false, [(0, false, 0), (2, false, 0), (3, false, 0), (5, false, 1)], 0⟩,
  -- 29: element : RESOURCE STRING type_api_pair EXISTING EQUAL resource_value -> resource (bicep.lark:3)
  ⟨129, [17, 4, 145, 15, 52, 137], "resource", false, [(1, false, 1), (2, false, 0), (3, false, 0), (5, false, 0)], 0⟩,
  -- 30: element : RESOURCE STRING type_api_pair EQUAL resource_value -> resource (bicep.lark:3)
  ⟨129, [17, 4, 145, 52, 137], "resource", false, [(1, false, 1), (2, false, 0), (4, false, 1)], 0⟩,
  -- 31: element : decorators MODULE STRING module_path EQUAL module_value -> module (bicep.lark:3)
  ⟨129, [160, 19, 4, 146, 52, 138], "module", false, [(0, false, 0), (2, false, 0), (3, false, 0), (5, false, 0)], 0⟩,
  -- 32: element : MODULE STRING module_path EQUAL module_value -> module (bicep.lark:3)
  ⟨129, [19, 4, 146, 52, 138], "module", false, [(1, false, 1), (2, false, 0), (4, false, 0)], 0⟩,
  -- 33: element : decorators TYPE STRING EQUAL type_value -> custom_type (bicep.lark:3)
  ⟨129, [160, 28, 4, 52, 140], "custom_type", false, [(0, false, 0), (2, false, 0), (4, false, 0)], 0⟩,
  -- 34: element : TYPE STRING EQUAL type_value -> custom_type (bicep.lark:3)
  ⟨129, [28, 4, 52, 140], "custom_type", false, [(1, false, 1), (3, false, 0)], 0⟩,
  -- 35: element : decorators FUNC _func_statement -> custom_func (bicep.lark:3)
  ⟨129, [160, 25, 133], "custom_func", false, [(0, false, 0), (2, true, 0)], 0⟩,
  -- 36: element : FUNC _func_statement -> custom_func (bicep.lark:3)
  ⟨129, [25, 133], "custom_func", false, [(1, true, 1)], 0⟩,
  -- 37: value : _NEWLINE NULL -> null (bicep.lark:15)
  ⟨130, [10, 26], "null", false, [], 0⟩,
  -- 38: value : NULL -> null (bicep.lark:15)
  ⟨130, [26], "null", false, [], 0⟩,
  -- 39: value : _NEWLINE TRUE -> true (bicep.lark:15)
  ⟨130, [10, 27], "true", false, [], 0⟩,
  -- 40: value : TRUE -> true (bicep.lark:15)
  ⟨130, [27], "true", false, [], 0⟩,
  -- 41: value : _NEWLINE FALSE -> false (bicep.lark:15)
  ⟨130, [10, 21], "false", false, [], 0⟩,
  -- 42: value : FALSE -> false (bicep.lark:15)
  ⟨130, [21], "false", false, [], 0⟩,
  -- 43: value : _NEWLINE INT -> int_type (bicep.lark:15)
  ⟨130, [10, 11], "int_type", false, [(1, false, 0)], 0⟩,
  -- 44: value : INT -> int_type (bicep.lark:15)
  ⟨130, [11], "int_type", false, [(0, false, 0)], 0⟩,
  -- 45: value : _NEWLINE STRING -> string (bicep.lark:15)
  ⟨130, [10, 4], "string", false, [(1, false, 0)], 0⟩,
  -- 46: value : STRING -> string (bicep.lark:15)
  ⟨130, [4], "string", false, [(0, false, 0)], 0⟩,
  -- 47: value : _NEWLINE QUOTED_INTERPOLATION -> string (bicep.lark:15)
  ⟨130, [10, 2], "string", false, [(1, false, 0)], 0⟩,
  -- 48: value : QUOTED_INTERPOLATION -> string (bicep.lark:15)
  ⟨130, [2], "string", false, [(0, false, 0)], 0⟩,
  -- 49: value : MULTI_LINE_STRING -> multi_line_string (bicep.lark:15)
  ⟨130, [3], "multi_line_string", false, [(0, false, 0)], 0⟩,
  -- 50: value : array (bicep.lark:15)
  ⟨130, [154], "value", true, [(0, false, 0)], 0⟩,
  -- 51: value : object (bicep.lark:15)
  ⟨130, [155], "value", true, [(0, false, 0)], 0⟩,
  -- 52: value : _NEWLINE function (bicep.lark:15)
  ⟨130, [10, 161], "value", true, [(1, false, 0)], 0⟩,
  -- 53: value : function (bicep.lark:15)
  ⟨130, [161], "value", true, [(0, false, 0)], 0⟩,
  -- 54: value : operator (bicep.lark:15)
  ⟨130, [162], "value", true, [(0, false, 0)], 0⟩,
  -- 55: value : lambda_expression (bicep.lark:15)
  ⟨130, [158], "value", true, [(0, false, 0)], 0⟩,
  -- 56: value_brackets : value BANG (bicep.lark:28)
  ⟨131, [130, 48], "value_brackets", true, [(0, false, 0)], 0⟩,
  -- 57: value_brackets : value (bicep.lark:28)
  ⟨131, [130], "value_brackets", true, [(0, false, 0)], 0⟩,
  -- 58: value_brackets : LPAR value RPAR BANG (bicep.lark:28)
  ⟨131, [55, 130, 63, 48], "value_brackets", true, [(1, false, 0)], 0⟩,
  -- 59: value_brackets : LPAR value RPAR (bicep.lark:28)
  ⟨131, [55, 130, 63], "value_brackets", true, [(1, false, 0)], 0⟩,
  -- 60: _import_statement : LBRACE import_alias ___import_statement_star_1 RBRACE FROM QUOTED_INTERPOLATION (bicep.lark:32)
  ⟨132, [53, 147, 191, 62, 24, 2], "_import_statement", false, [(1, false, 0), (2, true, 0), (5, false, 0)], 0⟩,
  -- 61: _import_statement : LBRACE import_alias RBRACE FROM QUOTED_INTERPOLATION (bicep.lark:32)
  ⟨132, [53, 147, 62, 24, 2], "_import_statement", false, [(1, false, 0), (4, false, 0)], 0⟩,
  -- 62: _import_statement : import_alias FROM QUOTED_INTERPOLATION (bicep.lark:32)
  ⟨132, [147, 24, 2], "_import_statement", false, [(0, false, 0), (2, false, 0)], 0⟩,
  -- 63: _import_statement : QUOTED_INTERPOLATION (bicep.lark:32)
  ⟨132, [2], "_import_statement", false, [(0, false, 0)], 0⟩,
  -- 64: _func_statement : STRING LPAR STRING data_type ___func_statement_star_2 RPAR data_type __ANON_0 value_brackets (bicep.lark:34)
  ⟨133, [4, 55, 4, 141, 192, 63, 141, 35, 131], "_func_statement", false, [(0, false, 0), (2, false, 0), (3, false, 0), (4, true, 0), (6, false, 0), (8, false, 0)], 0⟩,
  -- 65: _func_statement : STRING LPAR STRING data_type RPAR data_type __ANON_0 value_brackets (bicep.lark:34)
  ⟨133, [4, 55, 4, 141, 63, 141, 35, 131], "_func_statement", false, [(0, false, 0), (2, false, 0), (3, false, 0), (5, false, 0), (7, false, 0)], 0⟩,
  -- 66: _func_statement : STRING LPAR RPAR data_type __ANON_0 value_brackets (bicep.lark:34)
  ⟨133, [4, 55, 63, 141, 35, 131], "_func_statement", false, [(0, false, 0), (3, false, 0), (5, false, 0)], 0⟩,
  -- 67: var_value : value_brackets (bicep.lark:38)
  ⟨134, [131], "var_value", true, [(0, false, 0)], 0⟩,
  -- 68: var_value : loop (bicep.lark:38)
  ⟨134, [148], "var_value", true, [(0, false, 0)], 0⟩,
  -- 69: metadata_value : QUOTED_INTERPOLATION -> string (bicep.lark:40)
  ⟨135, [2], "string", false, [(0, false, 0)], 0⟩,
  -- 70: output_value : value_brackets (bicep.lark:42)
  ⟨136, [131], "output_value", true, [(0, false, 0)], 0⟩,
  -- 71: output_value : loop (bicep.lark:42)
  ⟨136, [148], "output_value", true, [(0, false, 0)], 0⟩,
  -- 72: resource_value : object (bicep.lark:44)
  ⟨137, [155], "resource_value", true, [(0, false, 0)], 0⟩,
  -- 73: resource_value : loop (bicep.lark:44)
  ⟨137, [148], "resource_value", true, [(0, false, 0)], 0⟩,
  -- 74: resource_value : deploy_condition (bicep.lark:44)
  ⟨137, [152], "resource_value", true, [(0, false, 0)], 0⟩,
  -- 75: module_value : object (bicep.lark:46)
  ⟨138, [155], "module_value", true, [(0, false, 0)], 0⟩,
  -- 76: module_value : loop (bicep.lark:46)
  ⟨138, [148], "module_value", true, [(0, false, 0)], 0⟩,
  -- 77: module_value : deploy_condition (bicep.lark:46)
  ⟨138, [152], "module_value", true, [(0, false, 0)], 0⟩,
  -- 78: child_resource : RESOURCE STRING QUOTED_INTERPOLATION EXISTING EQUAL object __child_resource_plus_3 (bicep.lark:48)
  ⟨139, [17, 4, 2, 15, 52, 155, 193], "child_resource", false, [(1, false, 0), (2, false, 0), (3, false, 0), (5, false, 0), (6, true, 0)], 0⟩,
  -- 79: child_resource : RESOURCE STRING QUOTED_INTERPOLATION EXISTING EQUAL loop __child_resource_plus_3 (bicep.lark:48)
  ⟨139, [17, 4, 2, 15, 52, 148, 193], "child_resource", false, [(1, false, 0), (2, false, 0), (3, false, 0), (5, false, 0), (6, true, 0)], 0⟩,
  -- 80: child_resource : RESOURCE STRING QUOTED_INTERPOLATION EXISTING EQUAL deploy_condition __child_resource_plus_3 (bicep.lark:48)
  ⟨139, [17, 4, 2, 15, 52, 152, 193], "child_resource", false, [(1, false, 0), (2, false, 0), (3, false, 0), (5, false, 0), (6, true, 0)], 0⟩,
  -- 81: child_resource : RESOURCE STRING QUOTED_INTERPOLATION EQUAL object __child_resource_plus_3 (bicep.lark:48)
  ⟨139, [17, 4, 2, 52, 155, 193], "child_resource", false, [(1, false, 0), (2, false, 0), (4, false, 1), (5, true, 0)], 0⟩,
  -- 82: child_resource : RESOURCE STRING QUOTED_INTERPOLATION EQUAL loop __child_resource_plus_3 (bicep.lark:48)
  ⟨139, [17, 4, 2, 52, 148, 193], "child_resource", false, [(1, false, 0), (2, false, 0), (4, false, 1), (5, true, 0)], 0⟩,
  -- 83: child_resource : RESOURCE STRING QUOTED_INTERPOLATION EQUAL deploy_condition __child_resource_plus_3 (bicep.lark:48)
  ⟨139, [17, 4, 2, 52, 152, 193], "child_resource", false, [(1, false, 0), (2, false, 0), (4, false, 1), (5, true, 0)], 0⟩,
  -- 84: type_value : value_brackets __type_value_star_4 (bicep.lark:50)
  ⟨140, [131, 194], "type_value", true, [(0, false, 0), (1, true, 0)], 0⟩,
  -- 85: type_value : value_brackets (bicep.lark:50)
  ⟨140, [131], "type_value", true, [(0, false, 0)], 0⟩,
  -- 86: data_type : base_type __data_type_star_5 (bicep.lark:54)
  ⟨141, [142, 195], "data_type", false, [(0, false, 0), (1, true, 0)], 0⟩,
  -- 87: data_type : base_type (bicep.lark:54)
  ⟨141, [142], "data_type", false, [(0, false, 0)], 0⟩,
  -- 88: base_type : STRING (bicep.lark:55)
  ⟨142, [4], "base_type", false, [(0, false, 0)], 0⟩,
  -- 89: base_type : union_type (bicep.lark:55)
  ⟨142, [143], "base_type", false, [(0, false, 0)], 0⟩,
  -- 90: union_type : LPAR data_type __union_type_plus_6 RPAR (bicep.lark:56)
  ⟨143, [55, 141, 196, 63], "union_type", false, [(1, false, 0), (2, true, 0)], 0⟩,
  -- 91: array_suffix : LSQB RSQB (bicep.lark:57)
  ⟨144, [56, 64], "array_suffix", false, [], 0⟩,
  -- 92: type_api_pair : QUOTED_INTERPOLATION (bicep.lark:59)
  ⟨145, [2], "type_api_pair", false, [(0, false, 0)], 0⟩,
  -- 93: module_path : QUOTED_INTERPOLATION (bicep.lark:61)
  ⟨146, [2], "module_path", false, [(0, false, 0)], 0⟩,
  -- 94: import_alias : STRING AS STRING (bicep.lark:63)
  ⟨147, [4, 32, 4], "import_alias", false, [(0, false, 0), (2, false, 0)], 0⟩,
  -- 95: import_alias : STRING (bicep.lark:63)
  ⟨147, [4], "import_alias", false, [(0, false, 0)], 1⟩,
  -- 96: import_alias : __ANON_1 AS STRING (bicep.lark:63)
  ⟨147, [46, 32, 4], "import_alias", false, [(0, false, 0), (2, false, 0)], 0⟩,
  -- 97: import_alias : __ANON_1 (bicep.lark:63)
  ⟨147, [46], "import_alias", false, [(0, false, 0)], 1⟩,
  -- 98: loop : LSQB _CPP_COMMENT_NL FOR loop_array COLON value_brackets value_brackets _CPP_COMMENT_NL RSQB (bicep.lark:67)
  ⟨148, [56, 5, 30, 149, 49, 131, 131, 5, 64], "loop", false, [(3, false, 0), (5, false, 0), (6, false, 0)], 0⟩,
  -- 99: loop : LSQB _CPP_COMMENT_NL FOR loop_array COLON value_brackets value_brackets RSQB (bicep.lark:67)
  ⟨148, [56, 5, 30, 149, 49, 131, 131, 64], "loop", false, [(3, false, 0), (5, false, 0), (6, false, 0)], 0⟩,
  -- 100: loop : LSQB _CPP_COMMENT_NL FOR loop_array COLON value_brackets _CPP_COMMENT_NL RSQB (bicep.lark:67)
  ⟨148, [56, 5, 30, 149, 49, 131, 5, 64], "loop", false, [(3, false, 0), (5, false, 1)], 0⟩,
  -- 101: loop : LSQB _CPP_COMMENT_NL FOR loop_array COLON value_brackets RSQB (bicep.lark:67)
  ⟨148, [56, 5, 30, 149, 49, 131, 64], "loop", false, [(3, false, 0), (5, false, 1)], 0⟩,
  -- 102: loop : LSQB _CPP_COMMENT_NL FOR loop_array_index COLON value_brackets value_brackets _CPP_COMMENT_NL RSQB (bicep.lark:67)
  ⟨148, [56, 5, 30, 150, 49, 131, 131, 5, 64], "loop", false, [(3, false, 0), (5, false, 0), (6, false, 0)], 0⟩,
  -- 103: loop : LSQB _CPP_COMMENT_NL FOR loop_array_index COLON value_brackets value_brackets RSQB (bicep.lark:67)
  ⟨148, [56, 5, 30, 150, 49, 131, 131, 64], "loop", false, [(3, false, 0), (5, false, 0), (6, false, 0)], 0⟩,
  -- 104: loop : LSQB _CPP_COMMENT_NL FOR loop_array_index COLON value_brackets _CPP_COMMENT_NL RSQB (bicep.lark:67)
  ⟨148, [56, 5, 30, 150, 49, 131, 5, 64], "loop", false, [(3, false, 0), (5, false, 1)], 0⟩,
  -- 105: loop : LSQB _CPP_COMMENT_NL FOR loop_array_index COLON value_brackets RSQB (bicep.lark:67)
  ⟨148, [56, 5, 30, 150, 49, 131, 64], "loop", false, [(3, false, 0), (5, false, 1)], 0⟩,
  -- 106: loop : LSQB _CPP_COMMENT_NL FOR loop_object COLON value_brackets value_brackets _CPP_COMMENT_NL RSQB (bicep.lark:67)
  ⟨148, [56, 5, 30, 151, 49, 131, 131, 5, 64], "loop", false, [(3, false, 0), (5, false, 0), (6, false, 0)], 0⟩,
  -- 107: loop : LSQB _CPP_COMMENT_NL FOR loop_object COLON value_brackets value_brackets RSQB (bicep.lark:67)
  ⟨148, [56, 5, 30, 151, 49, 131, 131, 64], "loop", false, [(3, false, 0), (5, false, 0), (6, false, 0)], 0⟩,
  -- 108: loop : LSQB _CPP_COMMENT_NL FOR loop_object COLON value_brackets _CPP_COMMENT_NL RSQB (bicep.lark:67)
  ⟨148, [56, 5, 30, 151, 49, 131, 5, 64], "loop", false, [(3, false, 0), (5, false, 1)], 0⟩,
  -- 109: loop : LSQB _CPP_COMMENT_NL FOR loop_object COLON value_brackets RSQB (bicep.lark:67)
  ⟨148, [56, 5, 30, 151, 49, 131, 64], "loop", false, [(3, false, 0), (5, false, 1)], 0⟩,
  -- 110: loop : LSQB FOR loop_array COLON value_brackets value_brackets _CPP_COMMENT_NL RSQB (bicep.lark:67)
  ⟨148, [56, 30, 149, 49, 131, 131, 5, 64], "loop", false, [(2, false, 0), (4, false, 0), (5, false, 0)], 0⟩,
  -- 111: loop : LSQB FOR loop_array COLON value_brackets value_brackets RSQB (bicep.lark:67)
  ⟨148, [56, 30, 149, 49, 131, 131, 64], "loop", false, [(2, false, 0), (4, false, 0), (5, false, 0)], 0⟩,
  -- 112: loop : LSQB FOR loop_array COLON value_brackets _CPP_COMMENT_NL RSQB (bicep.lark:67)
  ⟨148, [56, 30, 149, 49, 131, 5, 64], "loop", false, [(2, false, 0), (4, false, 1)], 0⟩,
  -- 113: loop : LSQB FOR loop_array COLON value_brackets RSQB (bicep.lark:67)
  ⟨148, [56, 30, 149, 49, 131, 64], "loop", false, [(2, false, 0), (4, false, 1)], 0⟩,
  -- 114: loop : LSQB FOR loop_array_index COLON value_brackets value_brackets _CPP_COMMENT_NL RSQB (bicep.lark:67)
  ⟨148, [56, 30, 150, 49, 131, 131, 5, 64], "loop", false, [(2, false, 0), (4, false, 0), (5, false, 0)], 0⟩,
  -- 115: loop : LSQB FOR loop_array_index COLON value_brackets value_brackets RSQB (bicep.lark:67)
  ⟨148, [56, 30, 150, 49, 131, 131, 64], "loop", false, [(2, false, 0), (4, false, 0), (5, false, 0)], 0⟩,
  -- 116: loop : LSQB FOR loop_array_index COLON value_brackets _CPP_COMMENT_NL RSQB (bicep.lark:67)
  ⟨148, [56, 30, 150, 49, 131, 5, 64], "loop", false, [(2, false, 0), (4, false, 1)], 0⟩,
  -- 117: loop : LSQB FOR loop_array_index COLON value_brackets RSQB (bicep.lark:67)
  ⟨148, [56, 30, 150, 49, 131, 64], "loop", false, [(2, false, 0), (4, false, 1)], 0⟩,
  -- 118: loop : LSQB FOR loop_object COLON value_brackets value_brackets _CPP_COMMENT_NL RSQB (bicep.lark:67)
  ⟨148, [56, 30, 151, 49, 131, 131, 5, 64], "loop", false, [(2, false, 0), (4, false, 0), (5, false, 0)], 0⟩,
  -- 119: loop : LSQB FOR loop_object COLON value_brackets value_brackets RSQB (bicep.lark:67)
  ⟨148, [56, 30, 151, 49, 131, 131, 64], "loop", false, [(2, false, 0), (4, false, 0), (5, false, 0)], 0⟩,
  -- 120: loop : LSQB FOR loop_object COLON value_brackets _CPP_COMMENT_NL RSQB (bicep.lark:67)
  ⟨148, [56, 30, 151, 49, 131, 5, 64], "loop", false, [(2, false, 0), (4, false, 1)], 0⟩,
  -- 121: loop : LSQB FOR loop_object COLON value_brackets RSQB (bicep.lark:67)
  ⟨148, [56, 30, 151, 49, 131, 64], "loop", false, [(2, false, 0), (4, false, 1)], 0⟩,
  -- 122: loop_array : STRING IN value_brackets (bicep.lark:69)
  ⟨149, [4, 34, 131], "loop_array", false, [(0, false, 0), (2, false, 0)], 0⟩,
  -- 123: loop_array_index : LPAR STRING COMMA STRING RPAR IN value_brackets (bicep.lark:71)
  ⟨150, [55, 4, 50, 4, 63, 34, 131], "loop_array_index", false, [(1, false, 0), (3, false, 0), (6, false, 0)], 0⟩,
  -- 124: loop_object : STRING IN ITEMS LPAR value_brackets RPAR (bicep.lark:73)
  ⟨151, [4, 34, 22, 55, 131, 63], "loop_object", false, [(0, false, 0), (4, false, 0)], 0⟩,
  -- 125: deploy_condition : _CPP_COMMENT_NL IF LPAR value_brackets RPAR value_brackets (bicep.lark:77)
  ⟨152, [5, 33, 55, 131, 63, 131], "deploy_condition", false, [(3, false, 0), (5, false, 0)], 0⟩,
  -- 126: deploy_condition : IF LPAR value_brackets RPAR value_brackets (bicep.lark:77)
  ⟨152, [33, 55, 131, 63, 131], "deploy_condition", false, [(2, false, 0), (4, false, 0)], 0⟩,
  -- 127: quoted_string : STRING (bicep.lark:81)
  ⟨153, [4], "quoted_string", true, [(0, false, 0)], 0⟩,
  -- 128: quoted_string : QUOTED_STRING (bicep.lark:81)
  ⟨153, [6], "quoted_string", true, [(0, false, 0)], 0⟩,
  -- 129: quoted_string : QUOTED_INTERPOLATION (bicep.lark:81)
  ⟨153, [2], "quoted_string", true, [(0, false, 0)], 0⟩,
  -- 130: array : LSQB __child_resource_plus_3 __array_star_8 RSQB (bicep.lark:83)
  ⟨154, [56, 193, 198, 64], "array", false, [(1, true, 0), (2, true, 0)], 0⟩,
  -- 131: array : LSQB __child_resource_plus_3 RSQB (bicep.lark:83)
  ⟨154, [56, 193, 64], "array", false, [(1, true, 0)], 0⟩,
  -- 132: array : LSQB __array_star_8 RSQB (bicep.lark:83)
  ⟨154, [56, 198, 64], "array", false, [(1, true, 0)], 0⟩,
  -- 133: array : LSQB RSQB (bicep.lark:83)
  ⟨154, [56, 64], "array", false, [], 0⟩,
  -- 134: object : LBRACE __child_resource_plus_3 __object_star_10 RBRACE (bicep.lark:85)
  ⟨155, [53, 193, 200, 62], "object", false, [(1, true, 0), (2, true, 0)], 0⟩,
  -- 135: object : LBRACE __child_resource_plus_3 RBRACE (bicep.lark:85)
  ⟨155, [53, 193, 62], "object", false, [(1, true, 0)], 0⟩,
  -- 136: object : LBRACE __object_star_10 RBRACE (bicep.lark:85)
  ⟨155, [53, 200, 62], "object", false, [(1, true, 0)], 0⟩,
  -- 137: object : LBRACE RBRACE (bicep.lark:85)
  ⟨155, [53, 62], "object", false, [], 0⟩,
  -- 138: pair : key COLON value_brackets QMARK (bicep.lark:87)
  ⟨156, [157, 49, 131, 61], "pair", false, [(0, false, 0), (2, false, 0)], 0⟩,
  -- 139: pair : key COLON value_brackets (bicep.lark:87)
  ⟨156, [157, 49, 131], "pair", false, [(0, false, 0), (2, false, 0)], 0⟩,
  -- 140: pair : key COLON loop QMARK (bicep.lark:87)
  ⟨156, [157, 49, 148, 61], "pair", false, [(0, false, 0), (2, false, 0)], 0⟩,
  -- 141: pair : key COLON loop (bicep.lark:87)
  ⟨156, [157, 49, 148], "pair", false, [(0, false, 0), (2, false, 0)], 0⟩,
  -- 142: key : RESOURCE (bicep.lark:89)
  ⟨157, [17], "key", false, [(0, false, 0)], 0⟩,
  -- 143: key : quoted_string (bicep.lark:89)
  ⟨157, [153], "key", false, [(0, false, 0)], 0⟩,
  -- 144: lambda_expression : value_brackets __ANON_0 value_brackets (bicep.lark:91)
  ⟨158, [131, 35, 131], "lambda_expression", false, [(0, false, 0), (2, false, 0)], 0⟩,
  -- 145: lambda_expression : LPAR value_brackets COMMA value_brackets __array_star_7 RPAR __ANON_0 value_brackets (bicep.lark:91)
  ⟨158, [55, 131, 50, 131, 197, 63, 35, 131], "lambda_expression", false, [(1, false, 0), (3, false, 0), (4, true, 0), (7, false, 0)], 0⟩,
  -- 146: decorator : AT __ANON_2 LPAR _CPP_COMMENT_NL value_brackets _CPP_COMMENT_NL RPAR (bicep.lark:95)
  ⟨159, [47, 7, 55, 5, 131, 5, 63], "decorator", false, [(1, false, 0), (4, false, 0)], 0⟩,
  -- 147: decorator : AT __ANON_2 LPAR _CPP_COMMENT_NL value_brackets _CPP_COMMENT_NL RPAR _CPP_COMMENT_NL (bicep.lark:95)
  ⟨159, [47, 7, 55, 5, 131, 5, 63, 5], "decorator", false, [(1, false, 0), (4, false, 0)], 0⟩,
  -- 148: decorator : AT __ANON_2 LPAR _CPP_COMMENT_NL value_brackets _CPP_COMMENT_NL RPAR _CPP_COMMENT_NL _CPP_COMMENT_NL (bicep.lark:95)
  ⟨159, [47, 7, 55, 5, 131, 5, 63, 5, 5], "decorator", false, [(1, false, 0), (4, false, 0)], 0⟩,
  -- 149: decorator : AT __ANON_2 LPAR _CPP_COMMENT_NL value_brackets _CPP_COMMENT_NL RPAR _CPP_COMMENT_NL _CPP_COMMENT_NL _CPP_COMMENT_NL (bicep.lark:95)
  ⟨159, [47, 7, 55, 5, 131, 5, 63, 5, 5, 5], "decorator", false, [(1, false, 0), (4, false, 0)], 0⟩,
  -- 150: decorator : AT __ANON_2 LPAR _CPP_COMMENT_NL value_brackets _CPP_COMMENT_NL RPAR _CPP_COMMENT_NL _CPP_COMMENT_NL _CPP_COMMENT_NL _CPP_COMMENT_NL (bicep.lark:95)
  ⟨159, [47, 7, 55, 5, 131, 5, 63, 5, 5, 5, 5], "decorator", false, [(1, false, 0), (4, false, 0)], 0⟩,
  -- 151: decorator : AT __ANON_2 LPAR _CPP_COMMENT_NL value_brackets _CPP_COMMENT_NL RPAR _CPP_COMMENT_NL _CPP_COMMENT_NL _CPP_COMMENT_NL _CPP_COMMENT_NL _CPP_COMMENT_NL (bicep.lark:95)
  ⟨159, [47, 7, 55, 5, 131, 5, 63, 5, 5, 5, 5, 5], "decorator", false, [(1, false, 0), (4, false, 0)], 0⟩,
  -- 152: decorator : AT __ANON_2 LPAR _CPP_COMMENT_NL value_brackets _CPP_COMMENT_NL RPAR _CPP_COMMENT_NL _CPP_COMMENT_NL _CPP_COMMENT_NL _CPP_COMMENT_NL _CPP_COMMENT_NL _CPP_COMMENT_NL (bicep.lark:95)
  ⟨159, [47, 7, 55, 5, 131, 5, 63, 5, 5, 5, 5, 5, 5], "decorator", false, [(1, false, 0), (4, false, 0)], 0⟩,
  -- 153: decorator : AT __ANON_2 LPAR _CPP_COMMENT_NL value_brackets _CPP_COMMENT_NL RPAR _CPP_COMMENT_NL _CPP_COMMENT_NL _CPP_COMMENT_NL _CPP_COMMENT_NL _CPP_COMMENT_NL _CPP_COMMENT_NL _CPP_COMMENT_NL (bicep.lark:95)
  ⟨159, [47, 7, 55, 5, 131, 5, 63, 5, 5, 5, 5, 5, 5, 5], "decorator", false, [(1, false, 0), (4, false, 0)], 0⟩,
  -- 154: decorator : AT __ANON_2 LPAR _CPP_COMMENT_NL value_brackets _CPP_COMMENT_NL RPAR _CPP_COMMENT_NL _CPP_COMMENT_NL _CPP_COMMENT_NL _CPP_COMMENT_NL _CPP_COMMENT_NL _CPP_COMMENT_NL _CPP_COMMENT_NL _CPP_COMMENT_NL (bicep.lark:95)
  ⟨159, [47, 7, 55, 5, 131, 5, 63, 5, 5, 5, 5, 5, 5, 5, 5], "decorator", false, [(1, false, 0), (4, false, 0)], 0⟩,
  -- 155: decorator : AT __ANON_2 LPAR _CPP_COMMENT_NL value_brackets _CPP_COMMENT_NL RPAR _CPP_COMMENT_NL _CPP_COMMENT_NL _CPP_COMMENT_NL _CPP_COMMENT_NL _CPP_COMMENT_NL _CPP_COMMENT_NL _CPP_COMMENT_NL _CPP_COMMENT_NL _CPP_COMMENT_NL (bicep.lark:95)
  ⟨159, [47, 7, 55, 5, 131, 5, 63, 5, 5, 5, 5, 5, 5, 5, 5, 5], "decorator", false, [(1, false, 0), (4, false, 0)], 0⟩,
  -- 156: decorator : AT __ANON_2 LPAR _CPP_COMMENT_NL value_brackets _CPP_COMMENT_NL RPAR _CPP_COMMENT_NL _CPP_COMMENT_NL _CPP_COMMENT_NL _CPP_COMMENT_NL _CPP_COMMENT_NL _CPP_COMMENT_NL _CPP_COMMENT_NL _CPP_COMMENT_NL _CPP_COMMENT_NL _CPP_COMMENT_NL (bicep.lark:95)
  ⟨159, [47, 7, 55, 5, 131, 5, 63, 5, 5, 5, 5, 5, 5, 5, 5, 5, 5], "decorator", false, [(1, false, 0), (4, false, 0)], 0⟩,
  -- 157: decorator : AT __ANON_2 LPAR _CPP_COMMENT_NL value_brackets RPAR (bicep.lark:95)
  ⟨159, [47, 7, 55, 5, 131, 63], "decorator", false, [(1, false, 0), (4, false, 0)], 0⟩,
  -- 158: decorator : AT __ANON_2 LPAR _CPP_COMMENT_NL value_brackets RPAR _CPP_COMMENT_NL (bicep.lark:95)
  ⟨159, [47, 7, 55, 5, 131, 63, 5], "decorator", false, [(1, false, 0), (4, false, 0)], 0⟩,
  -- 159: decorator : AT __ANON_2 LPAR _CPP_COMMENT_NL value_brackets RPAR _CPP_COMMENT_NL _CPP_COMMENT_NL (bicep.lark:95)
  ⟨159, [47, 7, 55, 5, 131, 63, 5, 5], "decorator", false, [(1, false, 0), (4, false, 0)], 0⟩,
  -- 160: decorator : AT __ANON_2 LPAR _CPP_COMMENT_NL value_brackets RPAR _CPP_COMMENT_NL _CPP_COMMENT_NL _CPP_COMMENT_NL (bicep.lark:95)
  ⟨159, [47, 7, 55, 5, 131, 63, 5, 5, 5], "decorator", false, [(1, false, 0), (4, false, 0)], 0⟩,
  -- 161: decorator : AT __ANON_2 LPAR _CPP_COMMENT_NL value_brackets RPAR _CPP_COMMENT_NL _CPP_COMMENT_NL _CPP_COMMENT_NL _CPP_COMMENT_NL (bicep.lark:95)
  ⟨159, [47, 7, 55, 5, 131, 63, 5, 5, 5, 5], "decorator", false, [(1, false, 0), (4, false, 0)], 0⟩,
  -- 162: decorator : AT __ANON_2 LPAR _CPP_COMMENT_NL value_brackets RPAR _CPP_COMMENT_NL _CPP_COMMENT_NL _CPP_COMMENT_NL _CPP_COMMENT_NL _CPP_COMMENT_NL (bicep.lark:95)
  ⟨159, [47, 7, 55, 5, 131, 63, 5, 5, 5, 5, 5], "decorator", false, [(1, false, 0), (4, false, 0)], 0⟩,
  -- 163: decorator : AT __ANON_2 LPAR _CPP_COMMENT_NL value_brackets RPAR _CPP_COMMENT_NL _CPP_COMMENT_NL _CPP_COMMENT_NL _CPP_COMMENT_NL _CPP_COMMENT_NL _CPP_COMMENT_NL (bicep.lark:95)
  ⟨159, [47, 7, 55, 5, 131, 63, 5, 5, 5, 5, 5, 5], "decorator", false, [(1, false, 0), (4, false, 0)], 0⟩,
  -- 164: decorator : AT __ANON_2 LPAR _CPP_COMMENT_NL value_brackets RPAR _CPP_COMMENT_NL _CPP_COMMENT_NL _CPP_COMMENT_NL _CPP_COMMENT_NL _CPP_COMMENT_NL _CPP_COMMENT_NL _CPP_COMMENT_NL (bicep.lark:95)
  ⟨159, [47, 7, 55, 5, 131, 63, 5, 5, 5, 5, 5, 5, 5], "decorator", false, [(1, false, 0), (4, false, 0)], 0⟩,
  -- 165: decorator : AT __ANON_2 LPAR _CPP_COMMENT_NL value_brackets RPAR _CPP_COMMENT_NL _CPP_COMMENT_NL _CPP_COMMENT_NL _CPP_COMMENT_NL _CPP_COMMENT_NL _CPP_COMMENT_NL _CPP_COMMENT_NL _CPP_COMMENT_NL (bicep.lark:95)
  ⟨159, [47, 7, 55, 5, 131, 63, 5, 5, 5, 5, 5, 5, 5, 5], "decorator", false, [(1, false, 0), (4, false, 0)], 0⟩,
  -- 166: decorator : AT __ANON_2 LPAR _CPP_COMMENT_NL value_brackets RPAR _CPP_COMMENT_NL _CPP_COMMENT_NL _CPP_COMMENT_NL _CPP_COMMENT_NL _CPP_COMMENT_NL _CPP_COMMENT_NL _CPP_COMMENT_NL _CPP_COMMENT_NL _CPP_COMMENT_NL (bicep.lark:95)
  ⟨159, [47, 7, 55, 5, 131, 63, 5, 5, 5, 5, 5, 5, 5, 5, 5], "decorator", false, [(1, false, 0), (4, false, 0)], 0⟩,
  -- 167: decorator : AT __ANON_2 LPAR _CPP_COMMENT_NL value_brackets RPAR _CPP_COMMENT_NL _CPP_COMMENT_NL _CPP_COMMENT_NL _CPP_COMMENT_NL _CPP_COMMENT_NL _CPP_COMMENT_NL _CPP_COMMENT_NL _CPP_COMMENT_NL _CPP_COMMENT_NL _CPP_COMMENT_NL (bicep.lark:95)
  ⟨159, [47, 7, 55, 5, 131, 63, 5, 5, 5, 5, 5, 5, 5, 5, 5, 5], "decorator", false, [(1, false, 0), (4, false, 0)], 0⟩,
  -- 168: decorator : AT __ANON_2 LPAR _CPP_COMMENT_NL _CPP_COMMENT_NL RPAR (bicep.lark:95)
  ⟨159, [47, 7, 55, 5, 5, 63], "decorator", false, [(1, false, 0)], 0⟩,
  -- 169: decorator : AT __ANON_2 LPAR _CPP_COMMENT_NL _CPP_COMMENT_NL RPAR _CPP_COMMENT_NL (bicep.lark:95)
  ⟨159, [47, 7, 55, 5, 5, 63, 5], "decorator", false, [(1, false, 0)], 0⟩,
  -- 170: decorator : AT __ANON_2 LPAR _CPP_COMMENT_NL _CPP_COMMENT_NL RPAR _CPP_COMMENT_NL _CPP_COMMENT_NL (bicep.lark:95)
  ⟨159, [47, 7, 55, 5, 5, 63, 5, 5], "decorator", false, [(1, false, 0)], 0⟩,
  -- 171: decorator : AT __ANON_2 LPAR _CPP_COMMENT_NL _CPP_COMMENT_NL RPAR _CPP_COMMENT_NL _CPP_COMMENT_NL _CPP_COMMENT_NL (bicep.lark:95)
  ⟨159, [47, 7, 55, 5, 5, 63, 5, 5, 5], "decorator", false, [(1, false, 0)], 0⟩,
  -- 172: decorator : AT __ANON_2 LPAR _CPP_COMMENT_NL _CPP_COMMENT_NL RPAR _CPP_COMMENT_NL _CPP_COMMENT_NL _CPP_COMMENT_NL _CPP_COMMENT_NL (bicep.lark:95)
  ⟨159, [47, 7, 55, 5, 5, 63, 5, 5, 5, 5], "decorator", false, [(1, false, 0)], 0⟩,
  -- 173: decorator : AT __ANON_2 LPAR _CPP_COMMENT_NL _CPP_COMMENT_NL RPAR _CPP_COMMENT_NL _CPP_COMMENT_NL _CPP_COMMENT_NL _CPP_COMMENT_NL _CPP_COMMENT_NL (bicep.lark:95)
  ⟨159, [47, 7, 55, 5, 5, 63, 5, 5, 5, 5, 5], "decorator", false, [(1, false, 0)], 0⟩,
  -- 174: decorator : AT __ANON_2 LPAR _CPP_COMMENT_NL _CPP_COMMENT_NL RPAR _CPP_COMMENT_NL _CPP_COMMENT_NL _CPP_COMMENT_NL _CPP_COMMENT_NL _CPP_COMMENT_NL _CPP_COMMENT_NL (bicep.lark:95)
  ⟨159, [47, 7, 55, 5, 5, 63, 5, 5, 5, 5, 5, 5], "decorator", false, [(1, false, 0)], 0⟩,
  -- 175: decorator : AT __ANON_2 LPAR _CPP_COMMENT_NL _CPP_COMMENT_NL RPAR _CPP_COMMENT_NL _CPP_COMMENT_NL _CPP_COMMENT_NL _CPP_COMMENT_NL _CPP_COMMENT_NL _CPP_COMMENT_NL _CPP_COMMENT_NL (bicep.lark:95)
  ⟨159, [47, 7, 55, 5, 5, 63, 5, 5, 5, 5, 5, 5, 5], "decorator", false, [(1, false, 0)], 0⟩,
  -- 176: decorator : AT __ANON_2 LPAR _CPP_COMMENT_NL _CPP_COMMENT_NL RPAR _CPP_COMMENT_NL _CPP_COMMENT_NL _CPP_COMMENT_NL _CPP_COMMENT_NL _CPP_COMMENT_NL _CPP_COMMENT_NL _CPP_COMMENT_NL _CPP_COMMENT_NL (bicep.lark:95)
  ⟨159, [47, 7, 55, 5, 5, 63, 5, 5, 5, 5, 5, 5, 5, 5], "decorator", false, [(1, false, 0)], 0⟩,
  -- 177: decorator : AT __ANON_2 LPAR _CPP_COMMENT_NL _CPP_COMMENT_NL RPAR _CPP_COMMENT_NL _CPP_COMMENT_NL _CPP_COMMENT_NL _CPP_COMMENT_NL _CPP_COMMENT_NL _CPP_COMMENT_NL _CPP_COMMENT_NL _CPP_COMMENT_NL _CPP_COMMENT_NL (bicep.lark:95)
  ⟨159, [47, 7, 55, 5, 5, 63, 5, 5, 5, 5, 5, 5, 5, 5, 5], "decorator", false, [(1, false, 0)], 0⟩,
  -- 178: decorator : AT __ANON_2 LPAR _CPP_COMMENT_NL _CPP_COMMENT_NL RPAR _CPP_COMMENT_NL _CPP_COMMENT_NL _CPP_COMMENT_NL _CPP_COMMENT_NL _CPP_COMMENT_NL _CPP_COMMENT_NL _CPP_COMMENT_NL _CPP_COMMENT_NL _CPP_COMMENT_NL _CPP_COMMENT_NL (bicep.lark:95)
  ⟨159, [47, 7, 55, 5, 5, 63, 5, 5, 5, 5, 5, 5, 5, 5, 5, 5], "decorator", false, [(1, false, 0)], 0⟩,
  -- 179: decorator : AT __ANON_2 LPAR _CPP_COMMENT_NL RPAR (bicep.lark:95)
  ⟨159, [47, 7, 55, 5, 63], "decorator", false, [(1, false, 0)], 0⟩,
  -- 180: decorator : AT __ANON_2 LPAR _CPP_COMMENT_NL RPAR _CPP_COMMENT_NL (bicep.lark:95)
  ⟨159, [47, 7, 55, 5, 63, 5], "decorator", false, [(1, false, 0)], 0⟩,
  -- 181: decorator : AT __ANON_2 LPAR _CPP_COMMENT_NL RPAR _CPP_COMMENT_NL _CPP_COMMENT_NL (bicep.lark:95)
  ⟨159, [47, 7, 55, 5, 63, 5, 5], "decorator", false, [(1, false, 0)], 0⟩,
  -- 182: decorator : AT __ANON_2 LPAR _CPP_COMMENT_NL RPAR _CPP_COMMENT_NL _CPP_COMMENT_NL _CPP_COMMENT_NL (bicep.lark:95)
  ⟨159, [47, 7, 55, 5, 63, 5, 5, 5], "decorator", false, [(1, false, 0)], 0⟩,
  -- 183: decorator : AT __ANON_2 LPAR _CPP_COMMENT_NL RPAR _CPP_COMMENT_NL _CPP_COMMENT_NL _CPP_COMMENT_NL _CPP_COMMENT_NL (bicep.lark:95)
  ⟨159, [47, 7, 55, 5, 63, 5, 5, 5, 5], "decorator", false, [(1, false, 0)], 0⟩,
  -- 184: decorator : AT __ANON_2 LPAR _CPP_COMMENT_NL RPAR _CPP_COMMENT_NL _CPP_COMMENT_NL _CPP_COMMENT_NL _CPP_COMMENT_NL _CPP_COMMENT_NL (bicep.lark:95)
  ⟨159, [47, 7, 55, 5, 63, 5, 5, 5, 5, 5], "decorator", false, [(1, false, 0)], 0⟩,
  -- 185: decorator : AT __ANON_2 LPAR _CPP_COMMENT_NL RPAR _CPP_COMMENT_NL _CPP_COMMENT_NL _CPP_COMMENT_NL _CPP_COMMENT_NL _CPP_COMMENT_NL _CPP_COMMENT_NL (bicep.lark:95)
  ⟨159, [47, 7, 55, 5, 63, 5, 5, 5, 5, 5, 5], "decorator", false, [(1, false, 0)], 0⟩,
  -- 186: decorator : AT __ANON_2 LPAR _CPP_COMMENT_NL RPAR _CPP_COMMENT_NL _CPP_COMMENT_NL _CPP_COMMENT_NL _CPP_COMMENT_NL _CPP_COMMENT_NL _CPP_COMMENT_NL _CPP_COMMENT_NL (bicep.lark:95)
  ⟨159, [47, 7, 55, 5, 63, 5, 5, 5, 5, 5, 5, 5], "decorator", false, [(1, false, 0)], 0⟩,
  -- 187: decorator : AT __ANON_2 LPAR _CPP_COMMENT_NL RPAR _CPP_COMMENT_NL _CPP_COMMENT_NL _CPP_COMMENT_NL _CPP_COMMENT_NL _CPP_COMMENT_NL _CPP_COMMENT_NL _CPP_COMMENT_NL _CPP_COMMENT_NL (bicep.lark:95)
  ⟨159, [47, 7, 55, 5, 63, 5, 5, 5, 5, 5, 5, 5, 5], "decorator", false, [(1, false, 0)], 0⟩,
  -- 188: decorator : AT __ANON_2 LPAR _CPP_COMMENT_NL RPAR _CPP_COMMENT_NL _CPP_COMMENT_NL _CPP_COMMENT_NL _CPP_COMMENT_NL _CPP_COMMENT_NL _CPP_COMMENT_NL _CPP_COMMENT_NL _CPP_COMMENT_NL _CPP_COMMENT_NL (bicep.lark:95)
  ⟨159, [47, 7, 55, 5, 63, 5, 5, 5, 5, 5, 5, 5, 5, 5], "decorator", false, [(1, false, 0)], 0⟩,
  -- 189: decorator : AT __ANON_2 LPAR _CPP_COMMENT_NL RPAR _CPP_COMMENT_NL _CPP_COMMENT_NL _CPP_COMMENT_NL _CPP_COMMENT_NL _CPP_COMMENT_NL _CPP_COMMENT_NL _CPP_COMMENT_NL _CPP_COMMENT_NL _CPP_COMMENT_NL _CPP_COMMENT_NL (bicep.lark:95)
  ⟨159, [47, 7, 55, 5, 63, 5, 5, 5, 5, 5, 5, 5, 5, 5, 5], "decorator", false, [(1, false, 0)], 0⟩,
  -- 190: decorator : AT __ANON_2 LPAR value_brackets _CPP_COMMENT_NL RPAR (bicep.lark:95)
  ⟨159, [47, 7, 55, 131, 5, 63], "decorator", false, [(1, false, 0), (3, false, 0)], 0⟩,
  -- 191: decorator : AT __ANON_2 LPAR value_brackets _CPP_COMMENT_NL RPAR _CPP_COMMENT_NL (bicep.lark:95)
  ⟨159, [47, 7, 55, 131, 5, 63, 5], "decorator", false, [(1, false, 0), (3, false, 0)], 0⟩,
  -- 192: decorator : AT __ANON_2 LPAR value_brackets _CPP_COMMENT_NL RPAR _CPP_COMMENT_NL _CPP_COMMENT_NL (bicep.lark:95)
  ⟨159, [47, 7, 55, 131, 5, 63, 5, 5], "decorator", false, [(1, false, 0), (3, false, 0)], 0⟩,
  -- 193: decorator : AT __ANON_2 LPAR value_brackets _CPP_COMMENT_NL RPAR _CPP_COMMENT_NL _CPP_COMMENT_NL _CPP_COMMENT_NL (bicep.lark:95)
  ⟨159, [47, 7, 55, 131, 5, 63, 5, 5, 5], "decorator", false, [(1, false, 0), (3, false, 0)], 0⟩,
  -- 194: decorator : AT __ANON_2 LPAR value_brackets _CPP_COMMENT_NL RPAR _CPP_COMMENT_NL _CPP_COMMENT_NL _CPP_COMMENT_NL _CPP_COMMENT_NL (bicep.lark:95)
  ⟨159, [47, 7, 55, 131, 5, 63, 5, 5, 5, 5], "decorator", false, [(1, false, 0), (3, false, 0)], 0⟩,
  -- 195: decorator : AT __ANON_2 LPAR value_brackets _CPP_COMMENT_NL RPAR _CPP_COMMENT_NL _CPP_COMMENT_NL _CPP_COMMENT_NL _CPP_COMMENT_NL _CPP_COMMENT_NL (bicep.lark:95)
  ⟨159, [47, 7, 55, 131, 5, 63, 5, 5, 5, 5, 5], "decorator", false, [(1, false, 0), (3, false, 0)], 0⟩,
  -- 196: decorator : AT __ANON_2 LPAR value_brackets _CPP_COMMENT_NL RPAR _CPP_COMMENT_NL _CPP_COMMENT_NL _CPP_COMMENT_NL _CPP_COMMENT_NL _CPP_COMMENT_NL _CPP_COMMENT_NL (bicep.lark:95)
  ⟨159, [47, 7, 55, 131, 5, 63, 5, 5, 5, 5, 5, 5], "decorator", false, [(1, false, 0), (3, false, 0)], 0⟩,
  -- 197: decorator : AT __ANON_2 LPAR value_brackets _CPP_COMMENT_NL RPAR _CPP_COMMENT_NL _CPP_COMMENT_NL _CPP_COMMENT_NL _CPP_COMMENT_NL _CPP_COMMENT_NL _CPP_COMMENT_NL _CPP_COMMENT_NL (bicep.lark:95)
  ⟨159, [47, 7, 55, 131, 5, 63, 5, 5, 5, 5, 5, 5, 5], "decorator", false, [(1, false, 0), (3, false, 0)], 0⟩,
  -- 198: decorator : AT __ANON_2 LPAR value_brackets _CPP_COMMENT_NL RPAR _CPP_COMMENT_NL _CPP_COMMENT_NL _CPP_COMMENT_NL _CPP_COMMENT_NL _CPP_COMMENT_NL _CPP_COMMENT_NL _CPP_COMMENT_NL _CPP_COMMENT_NL (bicep.lark:95)
  ⟨159, [47, 7, 55, 131, 5, 63, 5, 5, 5, 5, 5, 5, 5, 5], "decorator", false, [(1, false, 0), (3, false, 0)], 0⟩,
  -- 199: decorator : AT __ANON_2 LPAR value_brackets _CPP_COMMENT_NL RPAR _CPP_COMMENT_NL _CPP_COMMENT_NL _CPP_COMMENT_NL _CPP_COMMENT_NL _CPP_COMMENT_NL _CPP_COMMENT_NL _CPP_COMMENT_NL _CPP_COMMENT_NL _CPP_COMMENT_NL (bicep.lark:95)
  ⟨159, [47, 7, 55, 131, 5, 63, 5, 5, 5, 5, 5, 5, 5, 5, 5], "decorator", false, [(1, false, 0), (3, false, 0)], 0⟩,
  -- 200: decorator : AT __ANON_2 LPAR value_brackets _CPP_COMMENT_NL RPAR _CPP_COMMENT_NL _CPP_COMMENT_NL _CPP_COMMENT_NL _CPP_COMMENT_NL _CPP_COMMENT_NL _CPP_COMMENT_NL _CPP_COMMENT_NL _CPP_COMMENT_NL _CPP_COMMENT_NL _CPP_COMMENT_NL (bicep.lark:95)
  ⟨159, [47, 7, 55, 131, 5, 63, 5, 5, 5, 5, 5, 5, 5, 5, 5, 5], "decorator", false, [(1, false, 0), (3, false, 0)], 0⟩,
  -- 201: decorator : AT __ANON_2 LPAR value_brackets RPAR (bicep.lark:95)
  ⟨159, [47, 7, 55, 131, 63], "decorator", false, [(1, false, 0), (3, false, 0)], 0⟩,
  -- 202: decorator : AT __ANON_2 LPAR value_brackets RPAR _CPP_COMMENT_NL (bicep.lark:95)
  ⟨159, [47, 7, 55, 131, 63, 5], "decorator", false, [(1, false, 0), (3, false, 0)], 0⟩,
  -- 203: decorator : AT __ANON_2 LPAR value_brackets RPAR _CPP_COMMENT_NL _CPP_COMMENT_NL (bicep.lark:95)
  ⟨159, [47, 7, 55, 131, 63, 5, 5], "decorator", false, [(1, false, 0), (3, false, 0)], 0⟩,
  -- 204: decorator : AT __ANON_2 LPAR value_brackets RPAR _CPP_COMMENT_NL _CPP_COMMENT_NL _CPP_COMMENT_NL (bicep.lark:95)
  ⟨159, [47, 7, 55, 131, 63, 5, 5, 5], "decorator", false, [(1, false, 0), (3, false, 0)], 0⟩,
  -- 205: decorator : AT __ANON_2 LPAR value_brackets RPAR _CPP_COMMENT_NL _CPP_COMMENT_NL _CPP_COMMENT_NL _CPP_COMMENT_NL (bicep.lark:95)
  ⟨159, [47, 7, 55, 131, 63, 5, 5, 5, 5], "decorator", false, [(1, false, 0), (3, false, 0)], 0⟩,
  -- 206: decorator : AT __ANON_2 LPAR value_brackets RPAR _CPP_COMMENT_NL _CPP_COMMENT_NL _CPP_COMMENT_NL _CPP_COMMENT_NL _CPP_COMMENT_NL (bicep.lark:95)
  ⟨159, [47, 7, 55, 131, 63, 5, 5, 5, 5, 5], "decorator", false, [(1, false, 0), (3, false, 0)], 0⟩,
  -- 207: decorator : AT __ANON_2 LPAR value_brackets RPAR _CPP_COMMENT_NL _CPP_COMMENT_NL _CPP_COMMENT_NL _CPP_COMMENT_NL _CPP_COMMENT_NL _CPP_COMMENT_NL (bicep.lark:95)
  ⟨159, [47, 7, 55, 131, 63, 5, 5, 5, 5, 5, 5], "decorator", false, [(1, false, 0), (3, false, 0)], 0⟩,
  -- 208: decorator : AT __ANON_2 LPAR value_brackets RPAR _CPP_COMMENT_NL _CPP_COMMENT_NL _CPP_COMMENT_NL _CPP_COMMENT_NL _CPP_COMMENT_NL _CPP_COMMENT_NL _CPP_COMMENT_NL (bicep.lark:95)
  ⟨159, [47, 7, 55, 131, 63, 5, 5, 5, 5, 5, 5, 5], "decorator", false, [(1, false, 0), (3, false, 0)], 0⟩,
  -- 209: decorator : AT __ANON_2 LPAR value_brackets RPAR _CPP_COMMENT_NL _CPP_COMMENT_NL _CPP_COMMENT_NL _CPP_COMMENT_NL _CPP_COMMENT_NL _CPP_COMMENT_NL _CPP_COMMENT_NL _CPP_COMMENT_NL (bicep.lark:95)
  ⟨159, [47, 7, 55, 131, 63, 5, 5, 5, 5, 5, 5, 5, 5], "decorator", false, [(1, false, 0), (3, false, 0)], 0⟩,
  -- 210: decorator : AT __ANON_2 LPAR value_brackets RPAR _CPP_COMMENT_NL _CPP_COMMENT_NL _CPP_COMMENT_NL _CPP_COMMENT_NL _CPP_COMMENT_NL _CPP_COMMENT_NL _CPP_COMMENT_NL _CPP_COMMENT_NL _CPP_COMMENT_NL (bicep.lark:95)
  ⟨159, [47, 7, 55, 131, 63, 5, 5, 5, 5, 5, 5, 5, 5, 5], "decorator", false, [(1, false, 0), (3, false, 0)], 0⟩,
  -- 211: decorator : AT __ANON_2 LPAR value_brackets RPAR _CPP_COMMENT_NL _CPP_COMMENT_NL _CPP_COMMENT_NL _CPP_COMMENT_NL _CPP_COMMENT_NL _CPP_COMMENT_NL _CPP_COMMENT_NL _CPP_COMMENT_NL _CPP_COMMENT_NL _CPP_COMMENT_NL (bicep.lark:95)
  ⟨159, [47, 7, 55, 131, 63, 5, 5, 5, 5, 5, 5, 5, 5, 5, 5], "decorator", false, [(1, false, 0), (3, false, 0)], 0⟩,
  -- 212: decorator : AT __ANON_2 LPAR RPAR (bicep.lark:95)
  ⟨159, [47, 7, 55, 63], "decorator", false, [(1, false, 0)], 0⟩,
  -- 213: decorator : AT __ANON_2 LPAR RPAR _CPP_COMMENT_NL (bicep.lark:95)
  ⟨159, [47, 7, 55, 63, 5], "decorator", false, [(1, false, 0)], 0⟩,
  -- 214: decorator : AT __ANON_2 LPAR RPAR _CPP_COMMENT_NL _CPP_COMMENT_NL (bicep.lark:95)
  ⟨159, [47, 7, 55, 63, 5, 5], "decorator", false, [(1, false, 0)], 0⟩,
  -- 215: decorator : AT __ANON_2 LPAR RPAR _CPP_COMMENT_NL _CPP_COMMENT_NL _CPP_COMMENT_NL (bicep.lark:95)
  ⟨159, [47, 7, 55, 63, 5, 5, 5], "decorator", false, [(1, false, 0)], 0⟩,
  -- 216: decorator : AT __ANON_2 LPAR RPAR _CPP_COMMENT_NL _CPP_COMMENT_NL _CPP_COMMENT_NL _CPP_COMMENT_NL (bicep.lark:95)
  ⟨159, [47, 7, 55, 63, 5, 5, 5, 5], "decorator", false, [(1, false, 0)], 0⟩,
  -- 217: decorator : AT __ANON_2 LPAR RPAR _CPP_COMMENT_NL _CPP_COMMENT_NL _CPP_COMMENT_NL _CPP_COMMENT_NL _CPP_COMMENT_NL (bicep.lark:95)
  ⟨159, [47, 7, 55, 63, 5, 5, 5, 5, 5], "decorator", false, [(1, false, 0)], 0⟩,
  -- 218: decorator : AT __ANON_2 LPAR RPAR _CPP_COMMENT_NL _CPP_COMMENT_NL _CPP_COMMENT_NL _CPP_COMMENT_NL _CPP_COMMENT_NL _CPP_COMMENT_NL (bicep.lark:95)
  ⟨159, [47, 7, 55, 63, 5, 5, 5, 5, 5, 5], "decorator", false, [(1, false, 0)], 0⟩,
  -- 219: decorator : AT __ANON_2 LPAR RPAR _CPP_COMMENT_NL _CPP_COMMENT_NL _CPP_COMMENT_NL _CPP_COMMENT_NL _CPP_COMMENT_NL _CPP_COMMENT_NL _CPP_COMMENT_NL (bicep.lark:95)
  ⟨159, [47, 7, 55, 63, 5, 5, 5, 5, 5, 5, 5], "decorator", false, [(1, false, 0)], 0⟩,
  -- 220: decorator : AT __ANON_2 LPAR RPAR _CPP_COMMENT_NL _CPP_COMMENT_NL _CPP_COMMENT_NL _CPP_COMMENT_NL _CPP_COMMENT_NL _CPP_COMMENT_NL _CPP_COMMENT_NL _CPP_COMMENT_NL (bicep.lark:95)
  ⟨159, [47, 7, 55, 63, 5, 5, 5, 5, 5, 5, 5, 5], "decorator", false, [(1, false, 0)], 0⟩,
  -- 221: decorator : AT __ANON_2 LPAR RPAR _CPP_COMMENT_NL _CPP_COMMENT_NL _CPP_COMMENT_NL _CPP_COMMENT_NL _CPP_COMMENT_NL _CPP_COMMENT_NL _CPP_COMMENT_NL _CPP_COMMENT_NL _CPP_COMMENT_NL (bicep.lark:95)
  ⟨159, [47, 7, 55, 63, 5, 5, 5, 5, 5, 5, 5, 5, 5], "decorator", false, [(1, false, 0)], 0⟩,
  -- 222: decorator : AT __ANON_2 LPAR RPAR _CPP_COMMENT_NL _CPP_COMMENT_NL _CPP_COMMENT_NL _CPP_COMMENT_NL _CPP_COMMENT_NL _CPP_COMMENT_NL _CPP_COMMENT_NL _CPP_COMMENT_NL _CPP_COMMENT_NL _CPP_COMMENT_NL (bicep.lark:95)
  ⟨159, [47, 7, 55, 63, 5, 5, 5, 5, 5, 5, 5, 5, 5, 5], "decorator", false, [(1, false, 0)], 0⟩,
  -- 223: decorators : __decorators_plus_11 (bicep.lark:96)
  ⟨160, [201], "decorators", false, [(0, true, 0)], 0⟩,
  -- 224: function : FUNCTION _CPP_COMMENT_NL value_brackets __function_star_12 _CPP_COMMENT_NL RPAR (bicep.lark:101)
  ⟨161, [1, 5, 131, 202, 5, 63], "function", false, [(0, false, 0), (2, false, 0), (3, true, 0)], 0⟩,
  -- 225: function : FUNCTION _CPP_COMMENT_NL value_brackets __function_star_12 RPAR (bicep.lark:101)
  ⟨161, [1, 5, 131, 202, 63], "function", false, [(0, false, 0), (2, false, 0), (3, true, 0)], 0⟩,
  -- 226: function : FUNCTION _CPP_COMMENT_NL value_brackets _CPP_COMMENT_NL RPAR (bicep.lark:101)
  ⟨161, [1, 5, 131, 5, 63], "function", false, [(0, false, 0), (2, false, 0)], 0⟩,
  -- 227: function : FUNCTION _CPP_COMMENT_NL value_brackets RPAR (bicep.lark:101)
  ⟨161, [1, 5, 131, 63], "function", false, [(0, false, 0), (2, false, 0)], 0⟩,
  -- 228: function : FUNCTION _CPP_COMMENT_NL __function_star_12 _CPP_COMMENT_NL RPAR (bicep.lark:101)
  ⟨161, [1, 5, 202, 5, 63], "function", false, [(0, false, 0), (2, true, 0)], 0⟩,
  -- 229: function : FUNCTION _CPP_COMMENT_NL __function_star_12 RPAR (bicep.lark:101)
  ⟨161, [1, 5, 202, 63], "function", false, [(0, false, 0), (2, true, 0)], 0⟩,
  -- 230: function : FUNCTION _CPP_COMMENT_NL _CPP_COMMENT_NL RPAR (bicep.lark:101)
  ⟨161, [1, 5, 5, 63], "function", false, [(0, false, 0)], 0⟩,
  -- 231: function : FUNCTION _CPP_COMMENT_NL RPAR (bicep.lark:101)
  ⟨161, [1, 5, 63], "function", false, [(0, false, 0)], 0⟩,
  -- 232: function : FUNCTION value_brackets __function_star_12 _CPP_COMMENT_NL RPAR (bicep.lark:101)
  ⟨161, [1, 131, 202, 5, 63], "function", false, [(0, false, 0), (1, false, 0), (2, true, 0)], 0⟩,
  -- 233: function : FUNCTION value_brackets __function_star_12 RPAR (bicep.lark:101)
  ⟨161, [1, 131, 202, 63], "function", false, [(0, false, 0), (1, false, 0), (2, true, 0)], 0⟩,
  -- 234: function : FUNCTION value_brackets _CPP_COMMENT_NL RPAR (bicep.lark:101)
  ⟨161, [1, 131, 5, 63], "function", false, [(0, false, 0), (1, false, 0)], 0⟩,
  -- 235: function : FUNCTION value_brackets RPAR (bicep.lark:101)
  ⟨161, [1, 131, 63], "function", false, [(0, false, 0), (1, false, 0)], 0⟩,
  -- 236: function : FUNCTION __function_star_12 _CPP_COMMENT_NL RPAR (bicep.lark:101)
  ⟨161, [1, 202, 5, 63], "function", false, [(0, false, 0), (1, true, 0)], 0⟩,
  -- 237: function : FUNCTION __function_star_12 RPAR (bicep.lark:101)
  ⟨161, [1, 202, 63], "function", false, [(0, false, 0), (1, true, 0)], 0⟩,
  -- 238: function : FUNCTION RPAR (bicep.lark:101)
  ⟨161, [1, 63], "function", false, [(0, false, 0)], 0⟩,
  -- 239: operator : operator_comparison (bicep.lark:105)
  ⟨162, [163], "operator", false, [(0, false, 0)], 0⟩,
  -- 240: operator : operator_logical (bicep.lark:105)
  ⟨162, [172], "operator", false, [(0, false, 0)], 0⟩,
  -- 241: operator : operator_numeric (bicep.lark:105)
  ⟨162, [178], "operator", false, [(0, false, 0)], 0⟩,
  -- 242: operator : operator_accessor (bicep.lark:105)
  ⟨162, [185], "operator", false, [(0, false, 0)], 0⟩,
  -- 243: operator_comparison : greater_than_or_equals (bicep.lark:109)
  ⟨163, [164], "operator_comparison", true, [(0, false, 0)], 0⟩,
  -- 244: operator_comparison : greater_than (bicep.lark:109)
  ⟨163, [165], "operator_comparison", true, [(0, false, 0)], 0⟩,
  -- 245: operator_comparison : less_than_or_equals (bicep.lark:109)
  ⟨163, [166], "operator_comparison", true, [(0, false, 0)], 0⟩,
  -- 246: operator_comparison : less_than (bicep.lark:109)
  ⟨163, [167], "operator_comparison", true, [(0, false, 0)], 0⟩,
  -- 247: operator_comparison : equals (bicep.lark:109)
  ⟨163, [168], "operator_comparison", true, [(0, false, 0)], 0⟩,
  -- 248: operator_comparison : not_equals (bicep.lark:109)
  ⟨163, [169], "operator_comparison", true, [(0, false, 0)], 0⟩,
  -- 249: operator_comparison : equals_case_insens (bicep.lark:109)
  ⟨163, [170], "operator_comparison", true, [(0, false, 0)], 0⟩,
  -- 250: operator_comparison : not_equals_case_insens (bicep.lark:109)
  ⟨163, [171], "operator_comparison", true, [(0, false, 0)], 0⟩,
  -- 251: greater_than_or_equals : value_brackets __ANON_3 value_brackets (bicep.lark:112)
  ⟨164, [131, 39, 131], "greater_than_or_equals", false, [(0, false, 0), (2, false, 0)], 0⟩,
  -- 252: greater_than : value_brackets MORETHAN value_brackets (bicep.lark:114)
  ⟨165, [131, 58, 131], "greater_than", false, [(0, false, 0), (2, false, 0)], 0⟩,
  -- 253: less_than_or_equals : value_brackets __ANON_4 value_brackets (bicep.lark:116)
  ⟨166, [131, 40, 131], "less_than_or_equals", false, [(0, false, 0), (2, false, 0)], 0⟩,
  -- 254: less_than : value_brackets LESSTHAN value_brackets (bicep.lark:118)
  ⟨167, [131, 54, 131], "less_than", false, [(0, false, 0), (2, false, 0)], 0⟩,
  -- 255: equals : value_brackets __ANON_5 value_brackets (bicep.lark:120)
  ⟨168, [131, 41, 131], "equals", false, [(0, false, 0), (2, false, 0)], 0⟩,
  -- 256: not_equals : value_brackets __ANON_6 value_brackets (bicep.lark:122)
  ⟨169, [131, 42, 131], "not_equals", false, [(0, false, 0), (2, false, 0)], 0⟩,
  -- 257: equals_case_insens : value_brackets __ANON_7 value_brackets (bicep.lark:124)
  ⟨170, [131, 43, 131], "equals_case_insens", false, [(0, false, 0), (2, false, 0)], 0⟩,
  -- 258: not_equals_case_insens : value_brackets __ANON_8 value_brackets (bicep.lark:126)
  ⟨171, [131, 44, 131], "not_equals_case_insens", false, [(0, false, 0), (2, false, 0)], 0⟩,
  -- 259: operator_logical : and_op (bicep.lark:130)
  ⟨172, [173], "operator_logical", true, [(0, false, 0)], 0⟩,
  -- 260: operator_logical : or_op (bicep.lark:130)
  ⟨172, [174], "operator_logical", true, [(0, false, 0)], 0⟩,
  -- 261: operator_logical : not_op (bicep.lark:130)
  ⟨172, [175], "operator_logical", true, [(0, false, 0)], 0⟩,
  -- 262: operator_logical : coalesce (bicep.lark:130)
  ⟨172, [176], "operator_logical", true, [(0, false, 0)], 0⟩,
  -- 263: operator_logical : conditional (bicep.lark:130)
  ⟨172, [177], "operator_logical", true, [(0, false, 0)], 0⟩,
  -- 264: and_op : value_brackets __ANON_9 value_brackets (bicep.lark:132)
  ⟨173, [131, 45, 131], "and_op", false, [(0, false, 0), (2, false, 0)], 0⟩,
  -- 265: or_op : value_brackets __ANON_10 value_brackets (bicep.lark:134)
  ⟨174, [131, 36, 131], "or_op", false, [(0, false, 0), (2, false, 0)], 0⟩,
  -- 266: not_op : BANG value_brackets (bicep.lark:136)
  ⟨175, [48, 131], "not_op", false, [(1, false, 0)], 0⟩,
  -- 267: coalesce : value_brackets __ANON_11 value_brackets (bicep.lark:138)
  ⟨176, [131, 37, 131], "coalesce", false, [(0, false, 0), (2, false, 0)], 0⟩,
  -- 268: conditional : value_brackets QMARK value_brackets COLON value_brackets (bicep.lark:140)
  ⟨177, [131, 61, 131, 49, 131], "conditional", false, [(0, false, 0), (2, false, 0), (4, false, 0)], 0⟩,
  -- 269: operator_numeric : add (bicep.lark:144)
  ⟨178, [179], "operator_numeric", true, [(0, false, 0)], 0⟩,
  -- 270: operator_numeric : divide (bicep.lark:144)
  ⟨178, [180], "operator_numeric", true, [(0, false, 0)], 0⟩,
  -- 271: operator_numeric : minus (bicep.lark:144)
  ⟨178, [181], "operator_numeric", true, [(0, false, 0)], 0⟩,
  -- 272: operator_numeric : modulo (bicep.lark:144)
  ⟨178, [182], "operator_numeric", true, [(0, false, 0)], 0⟩,
  -- 273: operator_numeric : multiply (bicep.lark:144)
  ⟨178, [183], "operator_numeric", true, [(0, false, 0)], 0⟩,
  -- 274: operator_numeric : substract (bicep.lark:144)
  ⟨178, [184], "operator_numeric", true, [(0, false, 0)], 0⟩,
  -- 275: add : value_brackets PLUS value_brackets (bicep.lark:146)
  ⟨179, [131, 60, 131], "add", false, [(0, false, 0), (2, false, 0)], 0⟩,
  -- 276: divide : value_brackets SLASH value_brackets (bicep.lark:148)
  ⟨180, [131, 65, 131], "divide", false, [(0, false, 0), (2, false, 0)], 0⟩,
  -- 277: minus : MINUS value_brackets (bicep.lark:150)
  ⟨181, [57, 131], "minus", false, [(1, false, 0)], 0⟩,
  -- 278: modulo : value_brackets PERCENT value_brackets (bicep.lark:152)
  ⟨182, [131, 59, 131], "modulo", false, [(0, false, 0), (2, false, 0)], 0⟩,
  -- 279: multiply : value_brackets STAR value_brackets (bicep.lark:154)
  ⟨183, [131, 66, 131], "multiply", false, [(0, false, 0), (2, false, 0)], 0⟩,
  -- 280: substract : value_brackets MINUS value_brackets (bicep.lark:156)
  ⟨184, [131, 57, 131], "substract", false, [(0, false, 0), (2, false, 0)], 0⟩,
  -- 281: operator_accessor : index_accessor (bicep.lark:160)
  ⟨185, [186], "operator_accessor", true, [(0, false, 0)], 0⟩,
  -- 282: operator_accessor : function_accessor (bicep.lark:160)
  ⟨185, [187], "operator_accessor", true, [(0, false, 0)], 0⟩,
  -- 283: operator_accessor : nested_resource_accessor (bicep.lark:160)
  ⟨185, [188], "operator_accessor", true, [(0, false, 0)], 0⟩,
  -- 284: operator_accessor : property_accessor (bicep.lark:160)
  ⟨185, [189], "operator_accessor", true, [(0, false, 0)], 0⟩,
  -- 285: index_accessor : value_brackets LSQB QMARK value_brackets RSQB (bicep.lark:162)
  ⟨186, [131, 56, 61, 131, 64], "index_accessor", false, [(0, false, 0), (3, false, 0)], 0⟩,
  -- 286: index_accessor : value_brackets LSQB value_brackets RSQB (bicep.lark:162)
  ⟨186, [131, 56, 131, 64], "index_accessor", false, [(0, false, 0), (2, false, 0)], 0⟩,
  -- 287: function_accessor : value_brackets DOT LIST_FUNC_NAME LPAR value_brackets __function_accessor_plus_13 RPAR (bicep.lark:164)
  ⟨187, [131, 51, 0, 55, 131, 203, 63], "function_accessor", false, [(0, false, 0), (2, false, 0), (4, false, 0), (5, true, 0)], 0⟩,
  -- 288: function_accessor : value_brackets DOT LIST_FUNC_NAME LPAR __function_accessor_plus_13 RPAR (bicep.lark:164)
  ⟨187, [131, 51, 0, 55, 203, 63], "function_accessor", false, [(0, false, 0), (2, false, 0), (4, true, 0)], 0⟩,
  -- 289: nested_resource_accessor : value_brackets __ANON_12 value_brackets (bicep.lark:166)
  ⟨188, [131, 38, 131], "nested_resource_accessor", false, [(0, false, 0), (2, false, 0)], 0⟩,
  -- 290: property_accessor : value_brackets DOT QMARK value_brackets (bicep.lark:169)
  ⟨189, [131, 51, 61, 131], "property_accessor", false, [(0, false, 0), (3, false, 0)], 0⟩,
  -- 291: property_accessor : value_brackets DOT value_brackets (bicep.lark:169)
  ⟨189, [131, 51, 131], "property_accessor", false, [(0, false, 0), (2, false, 0)], 0⟩,
  -- 292: __start_star_0 : element _CPP_COMMENT_NL
  ⟨190, [129, 5], "__start_star_0", false, [(0, false, 0)], 0⟩,
  -- 293: __start_star_0 : element
  ⟨190, [129], "__start_star_0", false, [(0, false, 0)], 0⟩,
  -- 294: __start_star_0 : _CPP_COMMENT_NL
  ⟨190, [5], "__start_star_0", false, [], 0⟩,
  -- 295: __start_star_0 : __start_star_0 element _CPP_COMMENT_NL
  ⟨190, [190, 129, 5], "__start_star_0", false, [(0, true, 0), (1, false, 0)], 0⟩,
  -- 296: __start_star_0 : __start_star_0 element
  ⟨190, [190, 129], "__start_star_0", false, [(0, true, 0), (1, false, 0)], 0⟩,
  -- 297: __start_star_0 : __start_star_0 _CPP_COMMENT_NL
  ⟨190, [190, 5], "__start_star_0", false, [(0, true, 0)], 0⟩,
  -- 298: ___import_statement_star_1 : COMMA import_alias
  ⟨191, [50, 147], "___import_statement_star_1", false, [(1, false, 0)], 0⟩,
  -- 299: ___import_statement_star_1 : ___import_statement_star_1 COMMA import_alias
  ⟨191, [191, 50, 147], "___import_statement_star_1", false, [(0, true, 0), (2, false, 0)], 0⟩,
  -- 300: ___func_statement_star_2 : COMMA STRING data_type
  ⟨192, [50, 4, 141], "___func_statement_star_2", false, [(1, false, 0), (2, false, 0)], 0⟩,
  -- 301: ___func_statement_star_2 : ___func_statement_star_2 COMMA STRING data_type
  ⟨192, [192, 50, 4, 141], "___func_statement_star_2", false, [(0, true, 0), (2, false, 0), (3, false, 0)], 0⟩,
  -- 302: __child_resource_plus_3 : _CPP_COMMENT_NL
  ⟨193, [5], "__child_resource_plus_3", false, [], 0⟩,
  -- 303: __child_resource_plus_3 : __child_resource_plus_3 _CPP_COMMENT_NL
  ⟨193, [193, 5], "__child_resource_plus_3", false, [(0, true, 0)], 0⟩,
  -- 304: __type_value_star_4 : VBAR value_brackets
  ⟨194, [67, 131], "__type_value_star_4", false, [(1, false, 0)], 0⟩,
  -- 305: __type_value_star_4 : __type_value_star_4 VBAR value_brackets
  ⟨194, [194, 67, 131], "__type_value_star_4", false, [(0, true, 0), (2, false, 0)], 0⟩,
  -- 306: __data_type_star_5 : array_suffix
  ⟨195, [144], "__data_type_star_5", false, [(0, false, 0)], 0⟩,
  -- 307: __data_type_star_5 : __data_type_star_5 array_suffix
  ⟨195, [195, 144], "__data_type_star_5", false, [(0, true, 0), (1, false, 0)], 0⟩,
  -- 308: __union_type_plus_6 : VBAR data_type
  ⟨196, [67, 141], "__union_type_plus_6", false, [(1, false, 0)], 0⟩,
  -- 309: __union_type_plus_6 : __union_type_plus_6 VBAR data_type
  ⟨196, [196, 67, 141], "__union_type_plus_6", false, [(0, true, 0), (2, false, 0)], 0⟩,
  -- 310: __array_star_7 : COMMA value_brackets
  ⟨197, [50, 131], "__array_star_7", false, [(1, false, 0)], 0⟩,
  -- 311: __array_star_7 : __array_star_7 COMMA value_brackets
  ⟨197, [197, 50, 131], "__array_star_7", false, [(0, true, 0), (2, false, 0)], 0⟩,
  -- 312: __array_star_8 : value_brackets __array_star_7 __child_resource_plus_3
  ⟨198, [131, 197, 193], "__array_star_8", false, [(0, false, 0), (1, true, 0), (2, true, 0)], 0⟩,
  -- 313: __array_star_8 : value_brackets __array_star_7
  ⟨198, [131, 197], "__array_star_8", false, [(0, false, 0), (1, true, 0)], 0⟩,
  -- 314: __array_star_8 : value_brackets __child_resource_plus_3
  ⟨198, [131, 193], "__array_star_8", false, [(0, false, 0), (1, true, 0)], 0⟩,
  -- 315: __array_star_8 : value_brackets
  ⟨198, [131], "__array_star_8", false, [(0, false, 0)], 0⟩,
  -- 316: __array_star_8 : __array_star_8 value_brackets __array_star_7 __child_resource_plus_3
  ⟨198, [198, 131, 197, 193], "__array_star_8", false, [(0, true, 0), (1, false, 0), (2, true, 0), (3, true, 0)], 0⟩,
  -- 317: __array_star_8 : __array_star_8 value_brackets __array_star_7
  ⟨198, [198, 131, 197], "__array_star_8", false, [(0, true, 0), (1, false, 0), (2, true, 0)], 0⟩,
  -- 318: __array_star_8 : __array_star_8 value_brackets __child_resource_plus_3
  ⟨198, [198, 131, 193], "__array_star_8", false, [(0, true, 0), (1, false, 0), (2, true, 0)], 0⟩,
  -- 319: __array_star_8 : __array_star_8 value_brackets
  ⟨198, [198, 131], "__array_star_8", false, [(0, true, 0), (1, false, 0)], 0⟩,
  -- 320: __object_star_9 : COMMA pair
  ⟨199, [50, 156], "__object_star_9", false, [(1, false, 0)], 0⟩,
  -- 321: __object_star_9 : __object_star_9 COMMA pair
  ⟨199, [199, 50, 156], "__object_star_9", false, [(0, true, 0), (2, false, 0)], 0⟩,
  -- 322: __object_star_10 : pair __object_star_9 __child_resource_plus_3
  ⟨200, [156, 199, 193], "__object_star_10", false, [(0, false, 0), (1, true, 0), (2, true, 0)], 0⟩,
  -- 323: __object_star_10 : pair __object_star_9
  ⟨200, [156, 199], "__object_star_10", false, [(0, false, 0), (1, true, 0)], 0⟩,
  -- 324: __object_star_10 : pair __child_resource_plus_3
  ⟨200, [156, 193], "__object_star_10", false, [(0, false, 0), (1, true, 0)], 0⟩,
  -- 325: __object_star_10 : pair
  ⟨200, [156], "__object_star_10", false, [(0, false, 0)], 0⟩,
  -- 326: __object_star_10 : child_resource __child_resource_plus_3
  ⟨200, [139, 193], "__object_star_10", false, [(0, false, 0), (1, true, 0)], 0⟩,
  -- 327: __object_star_10 : child_resource
  ⟨200, [139], "__object_star_10", false, [(0, false, 0)], 0⟩,
  -- 328: __object_star_10 : __object_star_10 pair __object_star_9 __child_resource_plus_3
  ⟨200, [200, 156, 199, 193], "__object_star_10", false, [(0, true, 0), (1, false, 0), (2, true, 0), (3, true, 0)], 0⟩,
  -- 329: __object_star_10 : __object_star_10 pair __object_star_9
  ⟨200, [200, 156, 199], "__object_star_10", false, [(0, true, 0), (1, false, 0), (2, true, 0)], 0⟩,
  -- 330: __object_star_10 : __object_star_10 pair __child_resource_plus_3
  ⟨200, [200, 156, 193], "__object_star_10", false, [(0, true, 0), (1, false, 0), (2, true, 0)], 0⟩,
  -- 331: __object_star_10 : __object_star_10 pair
  ⟨200, [200, 156], "__object_star_10", false, [(0, true, 0), (1, false, 0)], 0⟩,
  -- 332: __object_star_10 : __object_star_10 child_resource __child_resource_plus_3
  ⟨200, [200, 139, 193], "__object_star_10", false, [(0, true, 0), (1, false, 0), (2, true, 0)], 0⟩,
  -- 333: __object_star_10 : __object_star_10 child_resource
  ⟨200, [200, 139], "__object_star_10", false, [(0, true, 0), (1, false, 0)], 0⟩,
  -- 334: __decorators_plus_11 : decorator
  ⟨201, [159], "__decorators_plus_11", false, [(0, false, 0)], 0⟩,
  -- 335: __decorators_plus_11 : __decorators_plus_11 decorator
  ⟨201, [201, 159], "__decorators_plus_11", false, [(0, true, 0), (1, false, 0)], 0⟩,
  -- 336: __function_star_12 : COMMA _CPP_COMMENT_NL value_brackets
  ⟨202, [50, 5, 131], "__function_star_12", false, [(2, false, 0)], 0⟩,
  -- 337: __function_star_12 : COMMA value_brackets
  ⟨202, [50, 131], "__function_star_12", false, [(1, false, 0)], 0⟩,
  -- 338: __function_star_12 : __function_star_12 COMMA _CPP_COMMENT_NL value_brackets
  ⟨202, [202, 50, 5, 131], "__function_star_12", false, [(0, true, 0), (3, false, 0)], 0⟩,
  -- 339: __function_star_12 : __function_star_12 COMMA value_brackets
  ⟨202, [202, 50, 131], "__function_star_12", false, [(0, true, 0), (2, false, 0)], 0⟩,
  -- 340: __function_accessor_plus_13 : COMMA value_brackets
  ⟨203, [50, 131], "__function_accessor_plus_13", false, [(1, false, 0)], 0⟩,
  -- 341: __function_accessor_plus_13 : ε
  ⟨203, [], "__function_accessor_plus_13", false, [], 1⟩,
  -- 342: __function_accessor_plus_13 : __function_accessor_plus_13 COMMA value_brackets
  ⟨203, [203, 50, 131], "__function_accessor_plus_13", false, [(0, true, 0), (2, false, 0)], 0⟩,
  -- 343: __function_accessor_plus_13 : __function_accessor_plus_13
  ⟨203, [203], "__function_accessor_plus_13", false, [(0, true, 0)], 1⟩]

attribute [irreducible] rules

end Pycep

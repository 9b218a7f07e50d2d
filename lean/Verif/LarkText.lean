/-
GENERATED by tools/gen_larktext.py. Do not edit.
The text of the grammar file pycep/bicep.lark, verbatim, one string per line.
-/
namespace Pycep.Lark

/-- The lines of pycep/bicep.lark (1-195). -/
def grammarLines : List String := [
  r#"start: ((element _CPP_COMMENT_NL?) | _CPP_COMMENT_NL)*"#,
  r#""#,
  r#"element: "targetScope" "=" QUOTED_INTERPOLATION                                         -> scope"#,
  r#"       | "import" _import_statement                                                     -> custom_import"#,
  r#"       | "extension" STRING ["with" object] ["as" STRING]                               -> extension"#,
  r#"       | "metadata" STRING "=" metadata_value                                           -> metadata"#,
  r#"       | [decorators] "param" STRING data_type "?"? ["=" value_brackets]                -> param"#,
  r#"       | [decorators] "var" STRING [data_type "?"?] "=" var_value                       -> var"#,
  r#"       | [decorators] "output" STRING data_type "?"? "=" output_value                   -> output"#,
  r#"       | [decorators] "resource" STRING type_api_pair [EXISTING] "=" resource_value     -> resource"#,
  r#"       | [decorators] "module" STRING module_path "=" module_value                      -> module"#,
  r#"       | [decorators] "type" STRING "=" type_value                                      -> custom_type"#,
  r#"       | [decorators] "func" _func_statement                                            -> custom_func"#,
  r#""#,
  r#"?value: _NEWLINE? "null"                      -> null"#,
  r#"      | _NEWLINE? "true"                      -> true"#,
  r#"      | _NEWLINE? "false"                     -> false"#,
  r#"      | _NEWLINE? INT                         -> int_type"#,
  r#"      | _NEWLINE? STRING                      -> string"#,
  r#"      | _NEWLINE? QUOTED_INTERPOLATION        -> string"#,
  r#"      | MULTI_LINE_STRING                     -> multi_line_string"#,
  r#"      | array"#,
  r#"      | object"#,
  r#"      | _NEWLINE? function"#,
  r#"      | operator"#,
  r#"      | lambda_expression"#,
  r#""#,
  r#"?value_brackets: (value | "(" value ")") "!"?"#,
  r#""#,
  r#"// aliases"#,
  r#""#,
  r#"_import_statement: (("{" import_alias ("," import_alias)* "}" | import_alias) "from" QUOTED_INTERPOLATION | QUOTED_INTERPOLATION)"#,
  r#""#,
  r#"_func_statement: STRING "(" (STRING data_type ("," STRING data_type)*)? ")" data_type "=>" value_brackets"#,
  r#""#,
  r#"// element values"#,
  r#""#,
  r#"?var_value: value_brackets | loop"#,
  r#""#,
  r#"?metadata_value: QUOTED_INTERPOLATION -> string"#,
  r#""#,
  r#"?output_value: value_brackets | loop"#,
  r#""#,
  r#"?resource_value: object | loop | deploy_condition"#,
  r#""#,
  r#"?module_value: object | loop | deploy_condition"#,
  r#""#,
  r#"child_resource: "resource" STRING QUOTED_INTERPOLATION [EXISTING] "=" (object | loop | deploy_condition) _CPP_COMMENT_NL+"#,
  r#""#,
  r#"?type_value: value_brackets ("|" value_brackets)*"#,
  r#""#,
  r#"// element type extras"#,
  r#""#,
  r#"data_type: base_type array_suffix*"#,
  r#"base_type: STRING | union_type"#,
  r#"union_type: "(" data_type ("|" data_type)+ ")""#,
  r#"array_suffix: "[" "]""#,
  r#""#,
  r#"type_api_pair: QUOTED_INTERPOLATION"#,
  r#""#,
  r#"module_path: QUOTED_INTERPOLATION"#,
  r#""#,
  r#"import_alias: (STRING | /\*/) ["as" STRING]"#,
  r#""#,
  r#"// loops"#,
  r#""#,
  r#"loop: "[" _CPP_COMMENT_NL? "for" (loop_array | loop_array_index | loop_object) ":" [value_brackets] value_brackets _CPP_COMMENT_NL? "]""#,
  r#""#,
  r#"loop_array: STRING "in" value_brackets"#,
  r#""#,
  r#"loop_array_index: "(" STRING "," STRING ")" "in" value_brackets"#,
  r#""#,
  r#"loop_object: STRING "in" "items" "(" value_brackets ")""#,
  r#""#,
  r#"// deploy condition"#,
  r#""#,
  r#"deploy_condition: _CPP_COMMENT_NL? "if" "(" value_brackets ")" value_brackets"#,
  r#""#,
  r#"// data types"#,
  r#""#,
  r#"?quoted_string: STRING | QUOTED_STRING | QUOTED_INTERPOLATION"#,
  r#""#,
  r#"array: "[" _CPP_COMMENT_NL* (value_brackets ("," value_brackets)* _CPP_COMMENT_NL*)* "]""#,
  r#""#,
  r#"object: "{" _CPP_COMMENT_NL* ((pair ("," pair)* | child_resource) _CPP_COMMENT_NL*)* "}""#,
  r#""#,
  r#"pair: key ":" (value_brackets | loop) "?"?"#,
  r#""#,
  r#"!key: "resource" | quoted_string"#,
  r#""#,
  r#"lambda_expression: (value_brackets | "(" value_brackets "," value_brackets ("," value_brackets)+ ")") "=>" value_brackets"#,
  r#""#,
  r#"// decorators"#,
  r#""#,
  r#"decorator: ("@" /(sys\.)?[a-zA-Z0-9]+/ "(" _CPP_COMMENT_NL? value_brackets? _CPP_COMMENT_NL? ")" _CPP_COMMENT_NL~0..10)"#,
  r#"decorators: decorator+"#,
  r#""#,
  r#"// functions"#,
  r#""#,
  r#"FUNCTION.1: /((sys|az)\.)?[a-zA-Z0-9]+/ "(""#,
  r#"function: FUNCTION _CPP_COMMENT_NL? value_brackets? ("," _CPP_COMMENT_NL? value_brackets)* _CPP_COMMENT_NL? ")""#,
  r#""#,
  r#"// operators"#,
  r#""#,
  r#"operator: operator_comparison | operator_logical | operator_numeric | operator_accessor"#,
  r#""#,
  r#"// operators - comparison"#,
  r#""#,
  r#"?operator_comparison: greater_than_or_equals | greater_than | less_than_or_equals | less_than"#,
  r#"                    | equals | not_equals | equals_case_insens | not_equals_case_insens"#,
  r#""#,
  r#"greater_than_or_equals: value_brackets ">=" value_brackets"#,
  r#""#,
  r#"greater_than: value_brackets ">" value_brackets"#,
  r#""#,
  r#"less_than_or_equals: value_brackets "<=" value_brackets"#,
  r#""#,
  r#"less_than: value_brackets "<" value_brackets"#,
  r#""#,
  r#"equals: value_brackets "==" value_brackets"#,
  r#""#,
  r#"not_equals: value_brackets "!=" value_brackets"#,
  r#""#,
  r#"equals_case_insens: value_brackets "=~" value_brackets"#,
  r#""#,
  r#"not_equals_case_insens: value_brackets "!~" value_brackets"#,
  r#""#,
  r#"// operators - logical"#,
  r#""#,
  r#"?operator_logical: and_op | or_op | not_op | coalesce | conditional"#,
  r#""#,
  r#"and_op: value_brackets "&&" value_brackets"#,
  r#""#,
  r#"or_op: value_brackets "||" value_brackets"#,
  r#""#,
  r#"not_op: "!" value_brackets"#,
  r#""#,
  r#"coalesce: value_brackets "??" value_brackets"#,
  r#""#,
  r#"conditional: value_brackets "?" value_brackets ":" value_brackets"#,
  r#""#,
  r#"// operators - numeric"#,
  r#""#,
  r#"?operator_numeric: add | divide | minus | modulo | multiply | substract"#,
  r#""#,
  r#"add: value_brackets "+" value_brackets"#,
  r#""#,
  r#"divide: value_brackets "/" value_brackets"#,
  r#""#,
  r#"minus: "-" value_brackets"#,
  r#""#,
  r#"modulo: value_brackets "%" value_brackets"#,
  r#""#,
  r#"multiply: value_brackets "*" value_brackets"#,
  r#""#,
  r#"substract.1: value_brackets "-" value_brackets"#,
  r#""#,
  r#"// operators - accessor"#,
  r#""#,
  r#"?operator_accessor: index_accessor | function_accessor | nested_resource_accessor | property_accessor"#,
  r#""#,
  r#"index_accessor: value_brackets "[" "?"? value_brackets "]""#,
  r#""#,
  r#"function_accessor: value_brackets "." LIST_FUNC_NAME "(" value_brackets? ["," value_brackets]+ ")""#,
  r#""#,
  r#"nested_resource_accessor: value_brackets "::" value_brackets"#,
  r#""#,
  r#"// 'sys.' and 'az.' have to be eliminated in 1st operand (see STRING definition regexp):"#,
  r#"property_accessor: value_brackets "." "?"? value_brackets"#,
  r#""#,
  r#"// Terms"#,
  r#""#,
  r#"EXISTING: "existing""#,
  r#""#,
  r#"STRING: /(?!(sys|az)\.)[a-zA-Z_]([\w_])*/"#,
  r#"QUOTED_STRING: "'" /[a-zA-Z_]([\w_.])*/ "'""#,
  r#"INDEXED: /(?=[\w][\w_.]+(.(get|list)[a-zA-Z]*\(('[\w-]+'|[\w.]+)?\)|[\[\]])+)(.(get|list)[a-zA-Z]*\(('[\w-]+'|[\w.]+)?\)|\[[\w\[\]_().']+\]|[\w_\-\/.,'= ])+/"#,
  r#"QUOTED_INTERPOLATION: /(?!.*''')'(\${(?:[^}'{]+|(?R))*+}|\\'|[^'])*'/"#,
  r#"LIST_FUNC_NAME.2: /(?=([Ll]ist[A-za-z]*|getSecret)\()([A-Za-z]+)/"#,
  r#""#,
  r#"MULTI_LINE_STRING: "'''" (/.*?/ | NEWLINE)+ "'''""#,
  r#""#,
  r#"_NEWLINE: NEWLINE"#,
  r#"_CPP_COMMENT_NL: [CPP_COMMENT] NEWLINE"#,
  r#""#,
  r#"%import common.C_COMMENT"#,
  r#"%import common.CPP_COMMENT"#,
  r#"%import common.SH_COMMENT"#,
  r#"%import common.INT"#,
  r#"%import common.NEWLINE"#,
  r#"%import common.WS_INLINE"#,
  r#""#,
  r#"%ignore C_COMMENT"#,
  r#"%ignore SH_COMMENT"#,
  r#"%ignore WS_INLINE"#]

/-- The same lines as lists of characters. -/
def grammarChars : List (List Char) := [
    ['s','t','a','r','t',':',' ','(','(','e','l','e','m','e','n','t',' ','_','C','P','P','_','C',
     'O','M','M','E','N','T','_','N','L','?',')',' ','|',' ','_','C','P','P','_','C','O','M','M',
     'E','N','T','_','N','L',')','*'],
    [],
    ['e','l','e','m','e','n','t',':',' ','"','t','a','r','g','e','t','S','c','o','p','e','"',' ',
     '"','=','"',' ','Q','U','O','T','E','D','_','I','N','T','E','R','P','O','L','A','T','I','O',
     'N',' ',' ',' ',' ',' ',' ',' ',' ',' ',' ',' ',' ',' ',' ',' ',' ',' ',' ',' ',' ',' ',' ',
     ' ',' ',' ',' ',' ',' ',' ',' ',' ',' ',' ',' ',' ',' ',' ',' ',' ',' ',' ','-','>',' ','s',
     'c','o','p','e'],
    [' ',' ',' ',' ',' ',' ',' ','|',' ','"','i','m','p','o','r','t','"',' ','_','i','m','p','o',
     'r','t','_','s','t','a','t','e','m','e','n','t',' ',' ',' ',' ',' ',' ',' ',' ',' ',' ',' ',
     ' ',' ',' ',' ',' ',' ',' ',' ',' ',' ',' ',' ',' ',' ',' ',' ',' ',' ',' ',' ',' ',' ',' ',
     ' ',' ',' ',' ',' ',' ',' ',' ',' ',' ',' ',' ',' ',' ',' ',' ',' ',' ',' ','-','>',' ','c',
     'u','s','t','o','m','_','i','m','p','o','r','t'],
    [' ',' ',' ',' ',' ',' ',' ','|',' ','"','e','x','t','e','n','s','i','o','n','"',' ','S','T',
     'R','I','N','G',' ','[','"','w','i','t','h','"',' ','o','b','j','e','c','t',']',' ','[','"',
     'a','s','"',' ','S','T','R','I','N','G',']',' ',' ',' ',' ',' ',' ',' ',' ',' ',' ',' ',' ',
     ' ',' ',' ',' ',' ',' ',' ',' ',' ',' ',' ',' ',' ',' ',' ',' ',' ',' ',' ','-','>',' ','e',
     'x','t','e','n','s','i','o','n'],
    [' ',' ',' ',' ',' ',' ',' ','|',' ','"','m','e','t','a','d','a','t','a','"',' ','S','T','R',
     'I','N','G',' ','"','=','"',' ','m','e','t','a','d','a','t','a','_','v','a','l','u','e',' ',
     ' ',' ',' ',' ',' ',' ',' ',' ',' ',' ',' ',' ',' ',' ',' ',' ',' ',' ',' ',' ',' ',' ',' ',
     ' ',' ',' ',' ',' ',' ',' ',' ',' ',' ',' ',' ',' ',' ',' ',' ',' ',' ',' ','-','>',' ','m',
     'e','t','a','d','a','t','a'],
    [' ',' ',' ',' ',' ',' ',' ','|',' ','[','d','e','c','o','r','a','t','o','r','s',']',' ','"',
     'p','a','r','a','m','"',' ','S','T','R','I','N','G',' ','d','a','t','a','_','t','y','p','e',
     ' ','"','?','"','?',' ','[','"','=','"',' ','v','a','l','u','e','_','b','r','a','c','k','e',
     't','s',']',' ',' ',' ',' ',' ',' ',' ',' ',' ',' ',' ',' ',' ',' ',' ',' ','-','>',' ','p',
     'a','r','a','m'],
    [' ',' ',' ',' ',' ',' ',' ','|',' ','[','d','e','c','o','r','a','t','o','r','s',']',' ','"',
     'v','a','r','"',' ','S','T','R','I','N','G',' ','[','d','a','t','a','_','t','y','p','e',' ',
     '"','?','"','?',']',' ','"','=','"',' ','v','a','r','_','v','a','l','u','e',' ',' ',' ',' ',
     ' ',' ',' ',' ',' ',' ',' ',' ',' ',' ',' ',' ',' ',' ',' ',' ',' ',' ',' ','-','>',' ','v',
     'a','r'],
    [' ',' ',' ',' ',' ',' ',' ','|',' ','[','d','e','c','o','r','a','t','o','r','s',']',' ','"',
     'o','u','t','p','u','t','"',' ','S','T','R','I','N','G',' ','d','a','t','a','_','t','y','p',
     'e',' ','"','?','"','?',' ','"','=','"',' ','o','u','t','p','u','t','_','v','a','l','u','e',
     ' ',' ',' ',' ',' ',' ',' ',' ',' ',' ',' ',' ',' ',' ',' ',' ',' ',' ',' ','-','>',' ','o',
     'u','t','p','u','t'],
    [' ',' ',' ',' ',' ',' ',' ','|',' ','[','d','e','c','o','r','a','t','o','r','s',']',' ','"',
     'r','e','s','o','u','r','c','e','"',' ','S','T','R','I','N','G',' ','t','y','p','e','_','a',
     'p','i','_','p','a','i','r',' ','[','E','X','I','S','T','I','N','G',']',' ','"','=','"',' ',
     'r','e','s','o','u','r','c','e','_','v','a','l','u','e',' ',' ',' ',' ',' ','-','>',' ','r',
     'e','s','o','u','r','c','e'],
    [' ',' ',' ',' ',' ',' ',' ','|',' ','[','d','e','c','o','r','a','t','o','r','s',']',' ','"',
     'm','o','d','u','l','e','"',' ','S','T','R','I','N','G',' ','m','o','d','u','l','e','_','p',
     'a','t','h',' ','"','=','"',' ','m','o','d','u','l','e','_','v','a','l','u','e',' ',' ',' ',
     ' ',' ',' ',' ',' ',' ',' ',' ',' ',' ',' ',' ',' ',' ',' ',' ',' ',' ',' ','-','>',' ','m',
     'o','d','u','l','e'],
    [' ',' ',' ',' ',' ',' ',' ','|',' ','[','d','e','c','o','r','a','t','o','r','s',']',' ','"',
     't','y','p','e','"',' ','S','T','R','I','N','G',' ','"','=','"',' ','t','y','p','e','_','v',
     'a','l','u','e',' ',' ',' ',' ',' ',' ',' ',' ',' ',' ',' ',' ',' ',' ',' ',' ',' ',' ',' ',
     ' ',' ',' ',' ',' ',' ',' ',' ',' ',' ',' ',' ',' ',' ',' ',' ',' ',' ',' ','-','>',' ','c',
     'u','s','t','o','m','_','t','y','p','e'],
    [' ',' ',' ',' ',' ',' ',' ','|',' ','[','d','e','c','o','r','a','t','o','r','s',']',' ','"',
     'f','u','n','c','"',' ','_','f','u','n','c','_','s','t','a','t','e','m','e','n','t',' ',' ',
     ' ',' ',' ',' ',' ',' ',' ',' ',' ',' ',' ',' ',' ',' ',' ',' ',' ',' ',' ',' ',' ',' ',' ',
     ' ',' ',' ',' ',' ',' ',' ',' ',' ',' ',' ',' ',' ',' ',' ',' ',' ',' ',' ','-','>',' ','c',
     'u','s','t','o','m','_','f','u','n','c'],
    [],
    ['?','v','a','l','u','e',':',' ','_','N','E','W','L','I','N','E','?',' ','"','n','u','l','l',
     '"',' ',' ',' ',' ',' ',' ',' ',' ',' ',' ',' ',' ',' ',' ',' ',' ',' ',' ',' ',' ',' ',' ',
     '-','>',' ','n','u','l','l'],
    [' ',' ',' ',' ',' ',' ','|',' ','_','N','E','W','L','I','N','E','?',' ','"','t','r','u','e',
     '"',' ',' ',' ',' ',' ',' ',' ',' ',' ',' ',' ',' ',' ',' ',' ',' ',' ',' ',' ',' ',' ',' ',
     '-','>',' ','t','r','u','e'],
    [' ',' ',' ',' ',' ',' ','|',' ','_','N','E','W','L','I','N','E','?',' ','"','f','a','l','s',
     'e','"',' ',' ',' ',' ',' ',' ',' ',' ',' ',' ',' ',' ',' ',' ',' ',' ',' ',' ',' ',' ',' ',
     '-','>',' ','f','a','l','s','e'],
    [' ',' ',' ',' ',' ',' ','|',' ','_','N','E','W','L','I','N','E','?',' ','I','N','T',' ',' ',
     ' ',' ',' ',' ',' ',' ',' ',' ',' ',' ',' ',' ',' ',' ',' ',' ',' ',' ',' ',' ',' ',' ',' ',
     '-','>',' ','i','n','t','_','t','y','p','e'],
    [' ',' ',' ',' ',' ',' ','|',' ','_','N','E','W','L','I','N','E','?',' ','S','T','R','I','N',
     'G',' ',' ',' ',' ',' ',' ',' ',' ',' ',' ',' ',' ',' ',' ',' ',' ',' ',' ',' ',' ',' ',' ',
     '-','>',' ','s','t','r','i','n','g'],
    [' ',' ',' ',' ',' ',' ','|',' ','_','N','E','W','L','I','N','E','?',' ','Q','U','O','T','E',
     'D','_','I','N','T','E','R','P','O','L','A','T','I','O','N',' ',' ',' ',' ',' ',' ',' ',' ',
     '-','>',' ','s','t','r','i','n','g'],
    [' ',' ',' ',' ',' ',' ','|',' ','M','U','L','T','I','_','L','I','N','E','_','S','T','R','I',
     'N','G',' ',' ',' ',' ',' ',' ',' ',' ',' ',' ',' ',' ',' ',' ',' ',' ',' ',' ',' ',' ',' ',
     '-','>',' ','m','u','l','t','i','_','l','i','n','e','_','s','t','r','i','n','g'],
    [' ',' ',' ',' ',' ',' ','|',' ','a','r','r','a','y'],
    [' ',' ',' ',' ',' ',' ','|',' ','o','b','j','e','c','t'],
    [' ',' ',' ',' ',' ',' ','|',' ','_','N','E','W','L','I','N','E','?',' ','f','u','n','c','t',
     'i','o','n'],
    [' ',' ',' ',' ',' ',' ','|',' ','o','p','e','r','a','t','o','r'],
    [' ',' ',' ',' ',' ',' ','|',' ','l','a','m','b','d','a','_','e','x','p','r','e','s','s','i',
     'o','n'],
    [],
    ['?','v','a','l','u','e','_','b','r','a','c','k','e','t','s',':',' ','(','v','a','l','u','e',
     ' ','|',' ','"','(','"',' ','v','a','l','u','e',' ','"',')','"',')',' ','"','!','"','?'],
    [],
    ['/','/',' ','a','l','i','a','s','e','s'],
    [],
    ['_','i','m','p','o','r','t','_','s','t','a','t','e','m','e','n','t',':',' ','(','(','"','{',
     '"',' ','i','m','p','o','r','t','_','a','l','i','a','s',' ','(','"',',','"',' ','i','m','p',
     'o','r','t','_','a','l','i','a','s',')','*',' ','"','}','"',' ','|',' ','i','m','p','o','r',
     't','_','a','l','i','a','s',')',' ','"','f','r','o','m','"',' ','Q','U','O','T','E','D','_',
     'I','N','T','E','R','P','O','L','A','T','I','O','N',' ','|',' ','Q','U','O','T','E','D','_',
     'I','N','T','E','R','P','O','L','A','T','I','O','N',')'],
    [],
    ['_','f','u','n','c','_','s','t','a','t','e','m','e','n','t',':',' ','S','T','R','I','N','G',
     ' ','"','(','"',' ','(','S','T','R','I','N','G',' ','d','a','t','a','_','t','y','p','e',' ',
     '(','"',',','"',' ','S','T','R','I','N','G',' ','d','a','t','a','_','t','y','p','e',')','*',
     ')','?',' ','"',')','"',' ','d','a','t','a','_','t','y','p','e',' ','"','=','>','"',' ','v',
     'a','l','u','e','_','b','r','a','c','k','e','t','s'],
    [],
    ['/','/',' ','e','l','e','m','e','n','t',' ','v','a','l','u','e','s'],
    [],
    ['?','v','a','r','_','v','a','l','u','e',':',' ','v','a','l','u','e','_','b','r','a','c','k',
     'e','t','s',' ','|',' ','l','o','o','p'],
    [],
    ['?','m','e','t','a','d','a','t','a','_','v','a','l','u','e',':',' ','Q','U','O','T','E','D',
     '_','I','N','T','E','R','P','O','L','A','T','I','O','N',' ','-','>',' ','s','t','r','i','n',
     'g'],
    [],
    ['?','o','u','t','p','u','t','_','v','a','l','u','e',':',' ','v','a','l','u','e','_','b','r',
     'a','c','k','e','t','s',' ','|',' ','l','o','o','p'],
    [],
    ['?','r','e','s','o','u','r','c','e','_','v','a','l','u','e',':',' ','o','b','j','e','c','t',
     ' ','|',' ','l','o','o','p',' ','|',' ','d','e','p','l','o','y','_','c','o','n','d','i','t',
     'i','o','n'],
    [],
    ['?','m','o','d','u','l','e','_','v','a','l','u','e',':',' ','o','b','j','e','c','t',' ','|',
     ' ','l','o','o','p',' ','|',' ','d','e','p','l','o','y','_','c','o','n','d','i','t','i','o',
     'n'],
    [],
    ['c','h','i','l','d','_','r','e','s','o','u','r','c','e',':',' ','"','r','e','s','o','u','r',
     'c','e','"',' ','S','T','R','I','N','G',' ','Q','U','O','T','E','D','_','I','N','T','E','R',
     'P','O','L','A','T','I','O','N',' ','[','E','X','I','S','T','I','N','G',']',' ','"','=','"',
     ' ','(','o','b','j','e','c','t',' ','|',' ','l','o','o','p',' ','|',' ','d','e','p','l','o',
     'y','_','c','o','n','d','i','t','i','o','n',')',' ','_','C','P','P','_','C','O','M','M','E',
     'N','T','_','N','L','+'],
    [],
    ['?','t','y','p','e','_','v','a','l','u','e',':',' ','v','a','l','u','e','_','b','r','a','c',
     'k','e','t','s',' ','(','"','|','"',' ','v','a','l','u','e','_','b','r','a','c','k','e','t',
     's',')','*'],
    [],
    ['/','/',' ','e','l','e','m','e','n','t',' ','t','y','p','e',' ','e','x','t','r','a','s'],
    [],
    ['d','a','t','a','_','t','y','p','e',':',' ','b','a','s','e','_','t','y','p','e',' ','a','r',
     'r','a','y','_','s','u','f','f','i','x','*'],
    ['b','a','s','e','_','t','y','p','e',':',' ','S','T','R','I','N','G',' ','|',' ','u','n','i',
     'o','n','_','t','y','p','e'],
    ['u','n','i','o','n','_','t','y','p','e',':',' ','"','(','"',' ','d','a','t','a','_','t','y',
     'p','e',' ','(','"','|','"',' ','d','a','t','a','_','t','y','p','e',')','+',' ','"',')','"'],
    ['a','r','r','a','y','_','s','u','f','f','i','x',':',' ','"','[','"',' ','"',']','"'],
    [],
    ['t','y','p','e','_','a','p','i','_','p','a','i','r',':',' ','Q','U','O','T','E','D','_','I',
     'N','T','E','R','P','O','L','A','T','I','O','N'],
    [],
    ['m','o','d','u','l','e','_','p','a','t','h',':',' ','Q','U','O','T','E','D','_','I','N','T',
     'E','R','P','O','L','A','T','I','O','N'],
    [],
    ['i','m','p','o','r','t','_','a','l','i','a','s',':',' ','(','S','T','R','I','N','G',' ','|',
     ' ','/','\\','*','/',')',' ','[','"','a','s','"',' ','S','T','R','I','N','G',']'],
    [],
    ['/','/',' ','l','o','o','p','s'],
    [],
    ['l','o','o','p',':',' ','"','[','"',' ','_','C','P','P','_','C','O','M','M','E','N','T','_',
     'N','L','?',' ','"','f','o','r','"',' ','(','l','o','o','p','_','a','r','r','a','y',' ','|',
     ' ','l','o','o','p','_','a','r','r','a','y','_','i','n','d','e','x',' ','|',' ','l','o','o',
     'p','_','o','b','j','e','c','t',')',' ','"',':','"',' ','[','v','a','l','u','e','_','b','r',
     'a','c','k','e','t','s',']',' ','v','a','l','u','e','_','b','r','a','c','k','e','t','s',' ',
     '_','C','P','P','_','C','O','M','M','E','N','T','_','N','L','?',' ','"',']','"'],
    [],
    ['l','o','o','p','_','a','r','r','a','y',':',' ','S','T','R','I','N','G',' ','"','i','n','"',
     ' ','v','a','l','u','e','_','b','r','a','c','k','e','t','s'],
    [],
    ['l','o','o','p','_','a','r','r','a','y','_','i','n','d','e','x',':',' ','"','(','"',' ','S',
     'T','R','I','N','G',' ','"',',','"',' ','S','T','R','I','N','G',' ','"',')','"',' ','"','i',
     'n','"',' ','v','a','l','u','e','_','b','r','a','c','k','e','t','s'],
    [],
    ['l','o','o','p','_','o','b','j','e','c','t',':',' ','S','T','R','I','N','G',' ','"','i','n',
     '"',' ','"','i','t','e','m','s','"',' ','"','(','"',' ','v','a','l','u','e','_','b','r','a',
     'c','k','e','t','s',' ','"',')','"'],
    [],
    ['/','/',' ','d','e','p','l','o','y',' ','c','o','n','d','i','t','i','o','n'],
    [],
    ['d','e','p','l','o','y','_','c','o','n','d','i','t','i','o','n',':',' ','_','C','P','P','_',
     'C','O','M','M','E','N','T','_','N','L','?',' ','"','i','f','"',' ','"','(','"',' ','v','a',
     'l','u','e','_','b','r','a','c','k','e','t','s',' ','"',')','"',' ','v','a','l','u','e','_',
     'b','r','a','c','k','e','t','s'],
    [],
    ['/','/',' ','d','a','t','a',' ','t','y','p','e','s'],
    [],
    ['?','q','u','o','t','e','d','_','s','t','r','i','n','g',':',' ','S','T','R','I','N','G',' ',
     '|',' ','Q','U','O','T','E','D','_','S','T','R','I','N','G',' ','|',' ','Q','U','O','T','E',
     'D','_','I','N','T','E','R','P','O','L','A','T','I','O','N'],
    [],
    ['a','r','r','a','y',':',' ','"','[','"',' ','_','C','P','P','_','C','O','M','M','E','N','T',
     '_','N','L','*',' ','(','v','a','l','u','e','_','b','r','a','c','k','e','t','s',' ','(','"',
     ',','"',' ','v','a','l','u','e','_','b','r','a','c','k','e','t','s',')','*',' ','_','C','P',
     'P','_','C','O','M','M','E','N','T','_','N','L','*',')','*',' ','"',']','"'],
    [],
    ['o','b','j','e','c','t',':',' ','"','{','"',' ','_','C','P','P','_','C','O','M','M','E','N',
     'T','_','N','L','*',' ','(','(','p','a','i','r',' ','(','"',',','"',' ','p','a','i','r',')',
     '*',' ','|',' ','c','h','i','l','d','_','r','e','s','o','u','r','c','e',')',' ','_','C','P',
     'P','_','C','O','M','M','E','N','T','_','N','L','*',')','*',' ','"','}','"'],
    [],
    ['p','a','i','r',':',' ','k','e','y',' ','"',':','"',' ','(','v','a','l','u','e','_','b','r',
     'a','c','k','e','t','s',' ','|',' ','l','o','o','p',')',' ','"','?','"','?'],
    [],
    ['!','k','e','y',':',' ','"','r','e','s','o','u','r','c','e','"',' ','|',' ','q','u','o','t',
     'e','d','_','s','t','r','i','n','g'],
    [],
    ['l','a','m','b','d','a','_','e','x','p','r','e','s','s','i','o','n',':',' ','(','v','a','l',
     'u','e','_','b','r','a','c','k','e','t','s',' ','|',' ','"','(','"',' ','v','a','l','u','e',
     '_','b','r','a','c','k','e','t','s',' ','"',',','"',' ','v','a','l','u','e','_','b','r','a',
     'c','k','e','t','s',' ','(','"',',','"',' ','v','a','l','u','e','_','b','r','a','c','k','e',
     't','s',')','+',' ','"',')','"',')',' ','"','=','>','"',' ','v','a','l','u','e','_','b','r',
     'a','c','k','e','t','s'],
    [],
    ['/','/',' ','d','e','c','o','r','a','t','o','r','s'],
    [],
    ['d','e','c','o','r','a','t','o','r',':',' ','(','"','@','"',' ','/','(','s','y','s','\\','.',
     ')','?','[','a','-','z','A','-','Z','0','-','9',']','+','/',' ','"','(','"',' ','_','C','P',
     'P','_','C','O','M','M','E','N','T','_','N','L','?',' ','v','a','l','u','e','_','b','r','a',
     'c','k','e','t','s','?',' ','_','C','P','P','_','C','O','M','M','E','N','T','_','N','L','?',
     ' ','"',')','"',' ','_','C','P','P','_','C','O','M','M','E','N','T','_','N','L','~','0','.',
     '.','1','0',')'],
    ['d','e','c','o','r','a','t','o','r','s',':',' ','d','e','c','o','r','a','t','o','r','+'],
    [],
    ['/','/',' ','f','u','n','c','t','i','o','n','s'],
    [],
    ['F','U','N','C','T','I','O','N','.','1',':',' ','/','(','(','s','y','s','|','a','z',')','\\',
     '.',')','?','[','a','-','z','A','-','Z','0','-','9',']','+','/',' ','"','(','"'],
    ['f','u','n','c','t','i','o','n',':',' ','F','U','N','C','T','I','O','N',' ','_','C','P','P',
     '_','C','O','M','M','E','N','T','_','N','L','?',' ','v','a','l','u','e','_','b','r','a','c',
     'k','e','t','s','?',' ','(','"',',','"',' ','_','C','P','P','_','C','O','M','M','E','N','T',
     '_','N','L','?',' ','v','a','l','u','e','_','b','r','a','c','k','e','t','s',')','*',' ','_',
     'C','P','P','_','C','O','M','M','E','N','T','_','N','L','?',' ','"',')','"'],
    [],
    ['/','/',' ','o','p','e','r','a','t','o','r','s'],
    [],
    ['o','p','e','r','a','t','o','r',':',' ','o','p','e','r','a','t','o','r','_','c','o','m','p',
     'a','r','i','s','o','n',' ','|',' ','o','p','e','r','a','t','o','r','_','l','o','g','i','c',
     'a','l',' ','|',' ','o','p','e','r','a','t','o','r','_','n','u','m','e','r','i','c',' ','|',
     ' ','o','p','e','r','a','t','o','r','_','a','c','c','e','s','s','o','r'],
    [],
    ['/','/',' ','o','p','e','r','a','t','o','r','s',' ','-',' ','c','o','m','p','a','r','i','s',
     'o','n'],
    [],
    ['?','o','p','e','r','a','t','o','r','_','c','o','m','p','a','r','i','s','o','n',':',' ','g',
     'r','e','a','t','e','r','_','t','h','a','n','_','o','r','_','e','q','u','a','l','s',' ','|',
     ' ','g','r','e','a','t','e','r','_','t','h','a','n',' ','|',' ','l','e','s','s','_','t','h',
     'a','n','_','o','r','_','e','q','u','a','l','s',' ','|',' ','l','e','s','s','_','t','h','a',
     'n'],
    [' ',' ',' ',' ',' ',' ',' ',' ',' ',' ',' ',' ',' ',' ',' ',' ',' ',' ',' ',' ','|',' ','e',
     'q','u','a','l','s',' ','|',' ','n','o','t','_','e','q','u','a','l','s',' ','|',' ','e','q',
     'u','a','l','s','_','c','a','s','e','_','i','n','s','e','n','s',' ','|',' ','n','o','t','_',
     'e','q','u','a','l','s','_','c','a','s','e','_','i','n','s','e','n','s'],
    [],
    ['g','r','e','a','t','e','r','_','t','h','a','n','_','o','r','_','e','q','u','a','l','s',':',
     ' ','v','a','l','u','e','_','b','r','a','c','k','e','t','s',' ','"','>','=','"',' ','v','a',
     'l','u','e','_','b','r','a','c','k','e','t','s'],
    [],
    ['g','r','e','a','t','e','r','_','t','h','a','n',':',' ','v','a','l','u','e','_','b','r','a',
     'c','k','e','t','s',' ','"','>','"',' ','v','a','l','u','e','_','b','r','a','c','k','e','t',
     's'],
    [],
    ['l','e','s','s','_','t','h','a','n','_','o','r','_','e','q','u','a','l','s',':',' ','v','a',
     'l','u','e','_','b','r','a','c','k','e','t','s',' ','"','<','=','"',' ','v','a','l','u','e',
     '_','b','r','a','c','k','e','t','s'],
    [],
    ['l','e','s','s','_','t','h','a','n',':',' ','v','a','l','u','e','_','b','r','a','c','k','e',
     't','s',' ','"','<','"',' ','v','a','l','u','e','_','b','r','a','c','k','e','t','s'],
    [],
    ['e','q','u','a','l','s',':',' ','v','a','l','u','e','_','b','r','a','c','k','e','t','s',' ',
     '"','=','=','"',' ','v','a','l','u','e','_','b','r','a','c','k','e','t','s'],
    [],
    ['n','o','t','_','e','q','u','a','l','s',':',' ','v','a','l','u','e','_','b','r','a','c','k',
     'e','t','s',' ','"','!','=','"',' ','v','a','l','u','e','_','b','r','a','c','k','e','t','s'],
    [],
    ['e','q','u','a','l','s','_','c','a','s','e','_','i','n','s','e','n','s',':',' ','v','a','l',
     'u','e','_','b','r','a','c','k','e','t','s',' ','"','=','~','"',' ','v','a','l','u','e','_',
     'b','r','a','c','k','e','t','s'],
    [],
    ['n','o','t','_','e','q','u','a','l','s','_','c','a','s','e','_','i','n','s','e','n','s',':',
     ' ','v','a','l','u','e','_','b','r','a','c','k','e','t','s',' ','"','!','~','"',' ','v','a',
     'l','u','e','_','b','r','a','c','k','e','t','s'],
    [],
    ['/','/',' ','o','p','e','r','a','t','o','r','s',' ','-',' ','l','o','g','i','c','a','l'],
    [],
    ['?','o','p','e','r','a','t','o','r','_','l','o','g','i','c','a','l',':',' ','a','n','d','_',
     'o','p',' ','|',' ','o','r','_','o','p',' ','|',' ','n','o','t','_','o','p',' ','|',' ','c',
     'o','a','l','e','s','c','e',' ','|',' ','c','o','n','d','i','t','i','o','n','a','l'],
    [],
    ['a','n','d','_','o','p',':',' ','v','a','l','u','e','_','b','r','a','c','k','e','t','s',' ',
     '"','&','&','"',' ','v','a','l','u','e','_','b','r','a','c','k','e','t','s'],
    [],
    ['o','r','_','o','p',':',' ','v','a','l','u','e','_','b','r','a','c','k','e','t','s',' ','"',
     '|','|','"',' ','v','a','l','u','e','_','b','r','a','c','k','e','t','s'],
    [],
    ['n','o','t','_','o','p',':',' ','"','!','"',' ','v','a','l','u','e','_','b','r','a','c','k',
     'e','t','s'],
    [],
    ['c','o','a','l','e','s','c','e',':',' ','v','a','l','u','e','_','b','r','a','c','k','e','t',
     's',' ','"','?','?','"',' ','v','a','l','u','e','_','b','r','a','c','k','e','t','s'],
    [],
    ['c','o','n','d','i','t','i','o','n','a','l',':',' ','v','a','l','u','e','_','b','r','a','c',
     'k','e','t','s',' ','"','?','"',' ','v','a','l','u','e','_','b','r','a','c','k','e','t','s',
     ' ','"',':','"',' ','v','a','l','u','e','_','b','r','a','c','k','e','t','s'],
    [],
    ['/','/',' ','o','p','e','r','a','t','o','r','s',' ','-',' ','n','u','m','e','r','i','c'],
    [],
    ['?','o','p','e','r','a','t','o','r','_','n','u','m','e','r','i','c',':',' ','a','d','d',' ',
     '|',' ','d','i','v','i','d','e',' ','|',' ','m','i','n','u','s',' ','|',' ','m','o','d','u',
     'l','o',' ','|',' ','m','u','l','t','i','p','l','y',' ','|',' ','s','u','b','s','t','r','a',
     'c','t'],
    [],
    ['a','d','d',':',' ','v','a','l','u','e','_','b','r','a','c','k','e','t','s',' ','"','+','"',
     ' ','v','a','l','u','e','_','b','r','a','c','k','e','t','s'],
    [],
    ['d','i','v','i','d','e',':',' ','v','a','l','u','e','_','b','r','a','c','k','e','t','s',' ',
     '"','/','"',' ','v','a','l','u','e','_','b','r','a','c','k','e','t','s'],
    [],
    ['m','i','n','u','s',':',' ','"','-','"',' ','v','a','l','u','e','_','b','r','a','c','k','e',
     't','s'],
    [],
    ['m','o','d','u','l','o',':',' ','v','a','l','u','e','_','b','r','a','c','k','e','t','s',' ',
     '"','%','"',' ','v','a','l','u','e','_','b','r','a','c','k','e','t','s'],
    [],
    ['m','u','l','t','i','p','l','y',':',' ','v','a','l','u','e','_','b','r','a','c','k','e','t',
     's',' ','"','*','"',' ','v','a','l','u','e','_','b','r','a','c','k','e','t','s'],
    [],
    ['s','u','b','s','t','r','a','c','t','.','1',':',' ','v','a','l','u','e','_','b','r','a','c',
     'k','e','t','s',' ','"','-','"',' ','v','a','l','u','e','_','b','r','a','c','k','e','t','s'],
    [],
    ['/','/',' ','o','p','e','r','a','t','o','r','s',' ','-',' ','a','c','c','e','s','s','o','r'],
    [],
    ['?','o','p','e','r','a','t','o','r','_','a','c','c','e','s','s','o','r',':',' ','i','n','d',
     'e','x','_','a','c','c','e','s','s','o','r',' ','|',' ','f','u','n','c','t','i','o','n','_',
     'a','c','c','e','s','s','o','r',' ','|',' ','n','e','s','t','e','d','_','r','e','s','o','u',
     'r','c','e','_','a','c','c','e','s','s','o','r',' ','|',' ','p','r','o','p','e','r','t','y',
     '_','a','c','c','e','s','s','o','r'],
    [],
    ['i','n','d','e','x','_','a','c','c','e','s','s','o','r',':',' ','v','a','l','u','e','_','b',
     'r','a','c','k','e','t','s',' ','"','[','"',' ','"','?','"','?',' ','v','a','l','u','e','_',
     'b','r','a','c','k','e','t','s',' ','"',']','"'],
    [],
    ['f','u','n','c','t','i','o','n','_','a','c','c','e','s','s','o','r',':',' ','v','a','l','u',
     'e','_','b','r','a','c','k','e','t','s',' ','"','.','"',' ','L','I','S','T','_','F','U','N',
     'C','_','N','A','M','E',' ','"','(','"',' ','v','a','l','u','e','_','b','r','a','c','k','e',
     't','s','?',' ','[','"',',','"',' ','v','a','l','u','e','_','b','r','a','c','k','e','t','s',
     ']','+',' ','"',')','"'],
    [],
    ['n','e','s','t','e','d','_','r','e','s','o','u','r','c','e','_','a','c','c','e','s','s','o',
     'r',':',' ','v','a','l','u','e','_','b','r','a','c','k','e','t','s',' ','"',':',':','"',' ',
     'v','a','l','u','e','_','b','r','a','c','k','e','t','s'],
    [],
    ['/','/',' ','\'','s','y','s','.','\'',' ','a','n','d',' ','\'','a','z','.','\'',' ','h','a',
     'v','e',' ','t','o',' ','b','e',' ','e','l','i','m','i','n','a','t','e','d',' ','i','n',' ',
     '1','s','t',' ','o','p','e','r','a','n','d',' ','(','s','e','e',' ','S','T','R','I','N','G',
     ' ','d','e','f','i','n','i','t','i','o','n',' ','r','e','g','e','x','p',')',':'],
    ['p','r','o','p','e','r','t','y','_','a','c','c','e','s','s','o','r',':',' ','v','a','l','u',
     'e','_','b','r','a','c','k','e','t','s',' ','"','.','"',' ','"','?','"','?',' ','v','a','l',
     'u','e','_','b','r','a','c','k','e','t','s'],
    [],
    ['/','/',' ','T','e','r','m','s'],
    [],
    ['E','X','I','S','T','I','N','G',':',' ','"','e','x','i','s','t','i','n','g','"'],
    [],
    ['S','T','R','I','N','G',':',' ','/','(','?','!','(','s','y','s','|','a','z',')','\\','.',')',
     '[','a','-','z','A','-','Z','_',']','(','[','\\','w','_',']',')','*','/'],
    ['Q','U','O','T','E','D','_','S','T','R','I','N','G',':',' ','"','\'','"',' ','/','[','a','-',
     'z','A','-','Z','_',']','(','[','\\','w','_','.',']',')','*','/',' ','"','\'','"'],
    ['I','N','D','E','X','E','D',':',' ','/','(','?','=','[','\\','w',']','[','\\','w','_','.',
     ']','+','(','.','(','g','e','t','|','l','i','s','t',')','[','a','-','z','A','-','Z',']','*',
     '\\','(','(','\'','[','\\','w','-',']','+','\'','|','[','\\','w','.',']','+',')','?','\\',
     ')','|','[','\\','[','\\',']',']',')','+',')','(','.','(','g','e','t','|','l','i','s','t',
     ')','[','a','-','z','A','-','Z',']','*','\\','(','(','\'','[','\\','w','-',']','+','\'','|',
     '[','\\','w','.',']','+',')','?','\\',')','|','\\','[','[','\\','w','\\','[','\\',']','_',
     '(',')','.','\'',']','+','\\',']','|','[','\\','w','_','\\','-','\\','/','.',',','\'','=',
     ' ',']',')','+','/'],
    ['Q','U','O','T','E','D','_','I','N','T','E','R','P','O','L','A','T','I','O','N',':',' ','/',
     '(','?','!','.','*','\'','\'','\'',')','\'','(','\\','$','{','(','?',':','[','^','}','\'',
     '{',']','+','|','(','?','R',')',')','*','+','}','|','\\','\\','\'','|','[','^','\'',']',')',
     '*','\'','/'],
    ['L','I','S','T','_','F','U','N','C','_','N','A','M','E','.','2',':',' ','/','(','?','=','(',
     '[','L','l',']','i','s','t','[','A','-','z','a','-','z',']','*','|','g','e','t','S','e','c',
     'r','e','t',')','\\','(',')','(','[','A','-','Z','a','-','z',']','+',')','/'],
    [],
    ['M','U','L','T','I','_','L','I','N','E','_','S','T','R','I','N','G',':',' ','"','\'','\'',
     '\'','"',' ','(','/','.','*','?','/',' ','|',' ','N','E','W','L','I','N','E',')','+',' ','"',
     '\'','\'','\'','"'],
    [],
    ['_','N','E','W','L','I','N','E',':',' ','N','E','W','L','I','N','E'],
    ['_','C','P','P','_','C','O','M','M','E','N','T','_','N','L',':',' ','[','C','P','P','_','C',
     'O','M','M','E','N','T',']',' ','N','E','W','L','I','N','E'],
    [],
    ['%','i','m','p','o','r','t',' ','c','o','m','m','o','n','.','C','_','C','O','M','M','E','N',
     'T'],
    ['%','i','m','p','o','r','t',' ','c','o','m','m','o','n','.','C','P','P','_','C','O','M','M',
     'E','N','T'],
    ['%','i','m','p','o','r','t',' ','c','o','m','m','o','n','.','S','H','_','C','O','M','M','E',
     'N','T'],
    ['%','i','m','p','o','r','t',' ','c','o','m','m','o','n','.','I','N','T'],
    ['%','i','m','p','o','r','t',' ','c','o','m','m','o','n','.','N','E','W','L','I','N','E'],
    ['%','i','m','p','o','r','t',' ','c','o','m','m','o','n','.','W','S','_','I','N','L','I','N',
     'E'],
    [],
    ['%','i','g','n','o','r','e',' ','C','_','C','O','M','M','E','N','T'],
    ['%','i','g','n','o','r','e',' ','S','H','_','C','O','M','M','E','N','T'],
    ['%','i','g','n','o','r','e',' ','W','S','_','I','N','L','I','N','E']]

/-- One line. -/
theorem line_eq {s : String} {l : List Char} {ls : List String} {cs : List (List Char)}
    (h : s = String.ofList l) (t : ls.map String.toList = cs) :
    (s :: ls).map String.toList = l :: cs := by
  rw [List.map_cons, h, String.toList_ofList, t]

set_option maxRecDepth 20000 in
/-- Both are the same text. -/
theorem grammarChars_eq : grammarLines.map String.toList = grammarChars := by
  unfold grammarLines grammarChars
  repeat refine line_eq rfl ?_
  exact rfl

end Pycep.Lark

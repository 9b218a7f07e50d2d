import Verif.LarkCompile
/-
GENERATED by tools/gen_larkrules.py. Do not edit.
The terminals and rules that pycep/bicep.lark defines; Verif/Proofs/LarkCheck.lean proves that they
are what the functions of Verif/LarkGrammar.lean and Verif/LarkCompile.lean make of its text.
-/
namespace Pycep.Lark

/-- The terminals, in the order in which the lexer tries them. -/
def larkTerms : List TermDef := [
  ⟨['L','I','S','T','_','F','U','N','C','_','N','A','M','E'], 2, .re ['(','?','=','(','[','L','l',']','i','s','t','[','A','-','z','a','-','z',']','*','|','g','e','t','S','e','c','r','e','t',')','\\','(',')','(','[','A','-','Z','a','-','z',']','+',')']⟩,
  ⟨['F','U','N','C','T','I','O','N'], 1, .re ['(','(','s','y','s','|','a','z',')','\\','.',')','?','[','a','-','z','A','-','Z','0','-','9',']','+','\\','(']⟩,
  ⟨['Q','U','O','T','E','D','_','I','N','T','E','R','P','O','L','A','T','I','O','N'], 0, .re ['(','?','!','.','*','\'','\'','\'',')','\'','(','\\','$','{','(','?',':','[','^','}','\'','{',']','+','|','(','?','R',')',')','*','+','}','|','\\','\\','\'','|','[','^','\'',']',')','*','\'']⟩,
  ⟨['M','U','L','T','I','_','L','I','N','E','_','S','T','R','I','N','G'], 0, .re ['\'','\'','\'','(','?',':','(','?',':','(','?',':','(','?',':','\\','r',')','?','\\','n',')','+','|','.','*','?',')',')','+','\'','\'','\'']⟩,
  ⟨['S','T','R','I','N','G'], 0, .re ['(','?','!','(','s','y','s','|','a','z',')','\\','.',')','[','a','-','z','A','-','Z','_',']','(','[','\\','w','_',']',')','*']⟩,
  ⟨['_','C','P','P','_','C','O','M','M','E','N','T','_','N','L'], 0, .re ['(','?',':','/','/','[','^','\\','n',']','*',')','?','(','?',':','(','?',':','\\','r',')','?','\\','n',')','+']⟩,
  ⟨['Q','U','O','T','E','D','_','S','T','R','I','N','G'], 0, .re ['\'','[','a','-','z','A','-','Z','_',']','(','[','\\','w','_','.',']',')','*','\'']⟩,
  ⟨['_','_','A','N','O','N','_','2'], 0, .re ['(','s','y','s','\\','.',')','?','[','a','-','z','A','-','Z','0','-','9',']','+']⟩,
  ⟨['C','_','C','O','M','M','E','N','T'], 0, .re ['/','\\','*','(','.','|','\\','n',')','*','?','\\','*','/']⟩,
  ⟨['W','S','_','I','N','L','I','N','E'], 0, .re ['(','?',':','(','?',':','\\','t','|','\\',' ',')',')','+']⟩,
  ⟨['_','N','E','W','L','I','N','E'], 0, .re ['(','?',':','(','?',':','\\','r',')','?','\\','n',')','+']⟩,
  ⟨['I','N','T'], 0, .re ['(','?',':','[','0','-','9',']',')','+']⟩,
  ⟨['S','H','_','C','O','M','M','E','N','T'], 0, .re ['#','[','^','\\','n',']','*']⟩,
  ⟨['T','A','R','G','E','T','S','C','O','P','E'], 0, .str ['t','a','r','g','e','t','S','c','o','p','e']⟩,
  ⟨['E','X','T','E','N','S','I','O','N'], 0, .str ['e','x','t','e','n','s','i','o','n']⟩,
  ⟨['E','X','I','S','T','I','N','G'], 0, .str ['e','x','i','s','t','i','n','g']⟩,
  ⟨['M','E','T','A','D','A','T','A'], 0, .str ['m','e','t','a','d','a','t','a']⟩,
  ⟨['R','E','S','O','U','R','C','E'], 0, .str ['r','e','s','o','u','r','c','e']⟩,
  ⟨['I','M','P','O','R','T'], 0, .str ['i','m','p','o','r','t']⟩,
  ⟨['M','O','D','U','L','E'], 0, .str ['m','o','d','u','l','e']⟩,
  ⟨['O','U','T','P','U','T'], 0, .str ['o','u','t','p','u','t']⟩,
  ⟨['F','A','L','S','E'], 0, .str ['f','a','l','s','e']⟩,
  ⟨['I','T','E','M','S'], 0, .str ['i','t','e','m','s']⟩,
  ⟨['P','A','R','A','M'], 0, .str ['p','a','r','a','m']⟩,
  ⟨['F','R','O','M'], 0, .str ['f','r','o','m']⟩,
  ⟨['F','U','N','C'], 0, .str ['f','u','n','c']⟩,
  ⟨['N','U','L','L'], 0, .str ['n','u','l','l']⟩,
  ⟨['T','R','U','E'], 0, .str ['t','r','u','e']⟩,
  ⟨['T','Y','P','E'], 0, .str ['t','y','p','e']⟩,
  ⟨['W','I','T','H'], 0, .str ['w','i','t','h']⟩,
  ⟨['F','O','R'], 0, .str ['f','o','r']⟩,
  ⟨['V','A','R'], 0, .str ['v','a','r']⟩,
  ⟨['A','S'], 0, .str ['a','s']⟩,
  ⟨['I','F'], 0, .str ['i','f']⟩,
  ⟨['I','N'], 0, .str ['i','n']⟩,
  ⟨['_','_','A','N','O','N','_','0'], 0, .str ['=','>']⟩,
  ⟨['_','_','A','N','O','N','_','1','0'], 0, .str ['|','|']⟩,
  ⟨['_','_','A','N','O','N','_','1','1'], 0, .str ['?','?']⟩,
  ⟨['_','_','A','N','O','N','_','1','2'], 0, .str [':',':']⟩,
  ⟨['_','_','A','N','O','N','_','3'], 0, .str ['>','=']⟩,
  ⟨['_','_','A','N','O','N','_','4'], 0, .str ['<','=']⟩,
  ⟨['_','_','A','N','O','N','_','5'], 0, .str ['=','=']⟩,
  ⟨['_','_','A','N','O','N','_','6'], 0, .str ['!','=']⟩,
  ⟨['_','_','A','N','O','N','_','7'], 0, .str ['=','~']⟩,
  ⟨['_','_','A','N','O','N','_','8'], 0, .str ['!','~']⟩,
  ⟨['_','_','A','N','O','N','_','9'], 0, .str ['&','&']⟩,
  ⟨['_','_','A','N','O','N','_','1'], 0, .re ['\\','*']⟩,
  ⟨['A','T'], 0, .str ['@']⟩,
  ⟨['B','A','N','G'], 0, .str ['!']⟩,
  ⟨['C','O','L','O','N'], 0, .str [':']⟩,
  ⟨['C','O','M','M','A'], 0, .str [',']⟩,
  ⟨['D','O','T'], 0, .str ['.']⟩,
  ⟨['E','Q','U','A','L'], 0, .str ['=']⟩,
  ⟨['L','B','R','A','C','E'], 0, .str ['{']⟩,
  ⟨['L','E','S','S','T','H','A','N'], 0, .str ['<']⟩,
  ⟨['L','P','A','R'], 0, .str ['(']⟩,
  ⟨['L','S','Q','B'], 0, .str ['[']⟩,
  ⟨['M','I','N','U','S'], 0, .str ['-']⟩,
  ⟨['M','O','R','E','T','H','A','N'], 0, .str ['>']⟩,
  ⟨['P','E','R','C','E','N','T'], 0, .str ['%']⟩,
  ⟨['P','L','U','S'], 0, .str ['+']⟩,
  ⟨['Q','M','A','R','K'], 0, .str ['?']⟩,
  ⟨['R','B','R','A','C','E'], 0, .str ['}']⟩,
  ⟨['R','P','A','R'], 0, .str [')']⟩,
  ⟨['R','S','Q','B'], 0, .str [']']⟩,
  ⟨['S','L','A','S','H'], 0, .str ['/']⟩,
  ⟨['S','T','A','R'], 0, .str ['*']⟩,
  ⟨['V','B','A','R'], 0, .str ['|']⟩]

/-- The rules in extended Backus-Naur form. -/
def larkRules : List RuleDef := [
  -- start
  ⟨128, ['s','t','a','r','t'], false, false,
    [((.star (.alt (.cat (.rule 129) (.opt (.tok 5 false))) (.tok 5 false))), .none)]⟩,
  -- element
  ⟨129, ['e','l','e','m','e','n','t'], false, false,
    [((.cat (.tok 13 false) (.cat (.tok 52 false) (.tok 2 true))), .some ['s','c','o','p','e']),
     ((.cat (.tok 18 false) (.rule 132)), .some ['c','u','s','t','o','m','_','i','m','p','o','r','t']),
     ((.cat (.tok 14 false) (.cat (.tok 4 true) (.cat (.maybe (.cat (.tok 29 false) (.rule 155))) (.maybe (.cat (.tok 32 false) (.tok 4 true)))))), .some ['e','x','t','e','n','s','i','o','n']),
     ((.cat (.tok 16 false) (.cat (.tok 4 true) (.cat (.tok 52 false) (.rule 135)))), .some ['m','e','t','a','d','a','t','a']),
     ((.cat (.maybe (.rule 160)) (.cat (.tok 23 false) (.cat (.tok 4 true) (.cat (.rule 141) (.cat (.opt (.tok 61 false)) (.maybe (.cat (.tok 52 false) (.rule 131)))))))), .some ['p','a','r','a','m']),
     ((.cat (.maybe (.rule 160)) (.cat (.tok 31 false) (.cat (.tok 4 true) (.cat (.maybe (.cat (.rule 141) (.opt (.tok 61 false)))) (.cat (.tok 52 false) (.rule 134)))))), .some ['v','a','r']),
     ((.cat (.maybe (.rule 160)) (.cat (.tok 20 false) (.cat (.tok 4 true) (.cat (.rule 141) (.cat (.opt (.tok 61 false)) (.cat (.tok 52 false) (.rule 136))))))), .some ['o','u','t','p','u','t']),
     ((.cat (.maybe (.rule 160)) (.cat (.tok 17 false) (.cat (.tok 4 true) (.cat (.rule 145) (.cat (.maybe (.tok 15 true)) (.cat (.tok 52 false) (.rule 137))))))), .some ['r','e','s','o','u','r','c','e']),
     ((.cat (.maybe (.rule 160)) (.cat (.tok 19 false) (.cat (.tok 4 true) (.cat (.rule 146) (.cat (.tok 52 false) (.rule 138)))))), .some ['m','o','d','u','l','e']),
     ((.cat (.maybe (.rule 160)) (.cat (.tok 28 false) (.cat (.tok 4 true) (.cat (.tok 52 false) (.rule 140))))), .some ['c','u','s','t','o','m','_','t','y','p','e']),
     ((.cat (.maybe (.rule 160)) (.cat (.tok 25 false) (.rule 133))), .some ['c','u','s','t','o','m','_','f','u','n','c'])]⟩,
  -- value
  ⟨130, ['v','a','l','u','e'], true, false,
    [((.cat (.opt (.tok 10 false)) (.tok 26 false)), .some ['n','u','l','l']),
     ((.cat (.opt (.tok 10 false)) (.tok 27 false)), .some ['t','r','u','e']),
     ((.cat (.opt (.tok 10 false)) (.tok 21 false)), .some ['f','a','l','s','e']),
     ((.cat (.opt (.tok 10 false)) (.tok 11 true)), .some ['i','n','t','_','t','y','p','e']),
     ((.cat (.opt (.tok 10 false)) (.tok 4 true)), .some ['s','t','r','i','n','g']),
     ((.cat (.opt (.tok 10 false)) (.tok 2 true)), .some ['s','t','r','i','n','g']),
     ((.tok 3 true), .some ['m','u','l','t','i','_','l','i','n','e','_','s','t','r','i','n','g']),
     ((.rule 154), .none),
     ((.rule 155), .none),
     ((.cat (.opt (.tok 10 false)) (.rule 161)), .none),
     ((.rule 162), .none),
     ((.rule 158), .none)]⟩,
  -- value_brackets
  ⟨131, ['v','a','l','u','e','_','b','r','a','c','k','e','t','s'], true, false,
    [((.cat (.alt (.rule 130) (.cat (.tok 55 false) (.cat (.rule 130) (.tok 63 false)))) (.opt (.tok 48 false))), .none)]⟩,
  -- _import_statement
  ⟨132, ['_','i','m','p','o','r','t','_','s','t','a','t','e','m','e','n','t'], false, true,
    [((.alt (.cat (.alt (.cat (.tok 53 false) (.cat (.rule 147) (.cat (.star (.cat (.tok 50 false) (.rule 147))) (.tok 62 false)))) (.rule 147)) (.cat (.tok 24 false) (.tok 2 true))) (.tok 2 true)), .none)]⟩,
  -- _func_statement
  ⟨133, ['_','f','u','n','c','_','s','t','a','t','e','m','e','n','t'], false, true,
    [((.cat (.tok 4 true) (.cat (.tok 55 false) (.cat (.opt (.cat (.tok 4 true) (.cat (.rule 141) (.star (.cat (.tok 50 false) (.cat (.tok 4 true) (.rule 141))))))) (.cat (.tok 63 false) (.cat (.rule 141) (.cat (.tok 35 false) (.rule 131))))))), .none)]⟩,
  -- var_value
  ⟨134, ['v','a','r','_','v','a','l','u','e'], true, false,
    [((.rule 131), .none),
     ((.rule 148), .none)]⟩,
  -- metadata_value
  ⟨135, ['m','e','t','a','d','a','t','a','_','v','a','l','u','e'], true, false,
    [((.tok 2 true), .some ['s','t','r','i','n','g'])]⟩,
  -- output_value
  ⟨136, ['o','u','t','p','u','t','_','v','a','l','u','e'], true, false,
    [((.rule 131), .none),
     ((.rule 148), .none)]⟩,
  -- resource_value
  ⟨137, ['r','e','s','o','u','r','c','e','_','v','a','l','u','e'], true, false,
    [((.rule 155), .none),
     ((.rule 148), .none),
     ((.rule 152), .none)]⟩,
  -- module_value
  ⟨138, ['m','o','d','u','l','e','_','v','a','l','u','e'], true, false,
    [((.rule 155), .none),
     ((.rule 148), .none),
     ((.rule 152), .none)]⟩,
  -- child_resource
  ⟨139, ['c','h','i','l','d','_','r','e','s','o','u','r','c','e'], false, false,
    [((.cat (.tok 17 false) (.cat (.tok 4 true) (.cat (.tok 2 true) (.cat (.maybe (.tok 15 true)) (.cat (.tok 52 false) (.cat (.alt (.rule 155) (.alt (.rule 148) (.rule 152))) (.plus (.tok 5 false)))))))), .none)]⟩,
  -- type_value
  ⟨140, ['t','y','p','e','_','v','a','l','u','e'], true, false,
    [((.cat (.rule 131) (.star (.cat (.tok 67 false) (.rule 131)))), .none)]⟩,
  -- data_type
  ⟨141, ['d','a','t','a','_','t','y','p','e'], false, false,
    [((.cat (.rule 142) (.star (.rule 144))), .none)]⟩,
  -- base_type
  ⟨142, ['b','a','s','e','_','t','y','p','e'], false, false,
    [((.tok 4 true), .none),
     ((.rule 143), .none)]⟩,
  -- union_type
  ⟨143, ['u','n','i','o','n','_','t','y','p','e'], false, false,
    [((.cat (.tok 55 false) (.cat (.rule 141) (.cat (.plus (.cat (.tok 67 false) (.rule 141))) (.tok 63 false)))), .none)]⟩,
  -- array_suffix
  ⟨144, ['a','r','r','a','y','_','s','u','f','f','i','x'], false, false,
    [((.cat (.tok 56 false) (.tok 64 false)), .none)]⟩,
  -- type_api_pair
  ⟨145, ['t','y','p','e','_','a','p','i','_','p','a','i','r'], false, false,
    [((.tok 2 true), .none)]⟩,
  -- module_path
  ⟨146, ['m','o','d','u','l','e','_','p','a','t','h'], false, false,
    [((.tok 2 true), .none)]⟩,
  -- import_alias
  ⟨147, ['i','m','p','o','r','t','_','a','l','i','a','s'], false, false,
    [((.cat (.alt (.tok 4 true) (.tok 46 true)) (.maybe (.cat (.tok 32 false) (.tok 4 true)))), .none)]⟩,
  -- loop
  ⟨148, ['l','o','o','p'], false, false,
    [((.cat (.tok 56 false) (.cat (.opt (.tok 5 false)) (.cat (.tok 30 false) (.cat (.alt (.rule 149) (.alt (.rule 150) (.rule 151))) (.cat (.tok 49 false) (.cat (.maybe (.rule 131)) (.cat (.rule 131) (.cat (.opt (.tok 5 false)) (.tok 64 false))))))))), .none)]⟩,
  -- loop_array
  ⟨149, ['l','o','o','p','_','a','r','r','a','y'], false, false,
    [((.cat (.tok 4 true) (.cat (.tok 34 false) (.rule 131))), .none)]⟩,
  -- loop_array_index
  ⟨150, ['l','o','o','p','_','a','r','r','a','y','_','i','n','d','e','x'], false, false,
    [((.cat (.tok 55 false) (.cat (.tok 4 true) (.cat (.tok 50 false) (.cat (.tok 4 true) (.cat (.tok 63 false) (.cat (.tok 34 false) (.rule 131))))))), .none)]⟩,
  -- loop_object
  ⟨151, ['l','o','o','p','_','o','b','j','e','c','t'], false, false,
    [((.cat (.tok 4 true) (.cat (.tok 34 false) (.cat (.tok 22 false) (.cat (.tok 55 false) (.cat (.rule 131) (.tok 63 false)))))), .none)]⟩,
  -- deploy_condition
  ⟨152, ['d','e','p','l','o','y','_','c','o','n','d','i','t','i','o','n'], false, false,
    [((.cat (.opt (.tok 5 false)) (.cat (.tok 33 false) (.cat (.tok 55 false) (.cat (.rule 131) (.cat (.tok 63 false) (.rule 131)))))), .none)]⟩,
  -- quoted_string
  ⟨153, ['q','u','o','t','e','d','_','s','t','r','i','n','g'], true, false,
    [((.tok 4 true), .none),
     ((.tok 6 true), .none),
     ((.tok 2 true), .none)]⟩,
  -- array
  ⟨154, ['a','r','r','a','y'], false, false,
    [((.cat (.tok 56 false) (.cat (.star (.tok 5 false)) (.cat (.star (.cat (.rule 131) (.cat (.star (.cat (.tok 50 false) (.rule 131))) (.star (.tok 5 false))))) (.tok 64 false)))), .none)]⟩,
  -- object
  ⟨155, ['o','b','j','e','c','t'], false, false,
    [((.cat (.tok 53 false) (.cat (.star (.tok 5 false)) (.cat (.star (.cat (.alt (.cat (.rule 156) (.star (.cat (.tok 50 false) (.rule 156)))) (.rule 139)) (.star (.tok 5 false)))) (.tok 62 false)))), .none)]⟩,
  -- pair
  ⟨156, ['p','a','i','r'], false, false,
    [((.cat (.rule 157) (.cat (.tok 49 false) (.cat (.alt (.rule 131) (.rule 148)) (.opt (.tok 61 false))))), .none)]⟩,
  -- key
  ⟨157, ['k','e','y'], false, false,
    [((.tok 17 true), .none),
     ((.rule 153), .none)]⟩,
  -- lambda_expression
  ⟨158, ['l','a','m','b','d','a','_','e','x','p','r','e','s','s','i','o','n'], false, false,
    [((.cat (.alt (.rule 131) (.cat (.tok 55 false) (.cat (.rule 131) (.cat (.tok 50 false) (.cat (.rule 131) (.cat (.plus (.cat (.tok 50 false) (.rule 131))) (.tok 63 false))))))) (.cat (.tok 35 false) (.rule 131))), .none)]⟩,
  -- decorator
  ⟨159, ['d','e','c','o','r','a','t','o','r'], false, false,
    [((.cat (.tok 47 false) (.cat (.tok 7 true) (.cat (.tok 55 false) (.cat (.opt (.tok 5 false)) (.cat (.opt (.rule 131)) (.cat (.opt (.tok 5 false)) (.cat (.tok 63 false) (.alt .eps (.alt (.tok 5 false) (.alt (.cat (.tok 5 false) (.tok 5 false)) (.alt (.cat (.tok 5 false) (.cat (.tok 5 false) (.tok 5 false))) (.alt (.cat (.tok 5 false) (.cat (.tok 5 false) (.cat (.tok 5 false) (.tok 5 false)))) (.alt (.cat (.tok 5 false) (.cat (.tok 5 false) (.cat (.tok 5 false) (.cat (.tok 5 false) (.tok 5 false))))) (.alt (.cat (.tok 5 false) (.cat (.tok 5 false) (.cat (.tok 5 false) (.cat (.tok 5 false) (.cat (.tok 5 false) (.tok 5 false)))))) (.alt (.cat (.tok 5 false) (.cat (.tok 5 false) (.cat (.tok 5 false) (.cat (.tok 5 false) (.cat (.tok 5 false) (.cat (.tok 5 false) (.tok 5 false))))))) (.alt (.cat (.tok 5 false) (.cat (.tok 5 false) (.cat (.tok 5 false) (.cat (.tok 5 false) (.cat (.tok 5 false) (.cat (.tok 5 false) (.cat (.tok 5 false) (.tok 5 false)))))))) (.alt (.cat (.tok 5 false) (.cat (.tok 5 false) (.cat (.tok 5 false) (.cat (.tok 5 false) (.cat (.tok 5 false) (.cat (.tok 5 false) (.cat (.tok 5 false) (.cat (.tok 5 false) (.tok 5 false))))))))) (.cat (.tok 5 false) (.cat (.tok 5 false) (.cat (.tok 5 false) (.cat (.tok 5 false) (.cat (.tok 5 false) (.cat (.tok 5 false) (.cat (.tok 5 false) (.cat (.tok 5 false) (.cat (.tok 5 false) (.tok 5 false))))))))))))))))))))))))))), .none)]⟩,
  -- decorators
  ⟨160, ['d','e','c','o','r','a','t','o','r','s'], false, false,
    [((.plus (.rule 159)), .none)]⟩,
  -- function
  ⟨161, ['f','u','n','c','t','i','o','n'], false, false,
    [((.cat (.tok 1 true) (.cat (.opt (.tok 5 false)) (.cat (.opt (.rule 131)) (.cat (.star (.cat (.tok 50 false) (.cat (.opt (.tok 5 false)) (.rule 131)))) (.cat (.opt (.tok 5 false)) (.tok 63 false)))))), .none)]⟩,
  -- operator
  ⟨162, ['o','p','e','r','a','t','o','r'], false, false,
    [((.rule 163), .none),
     ((.rule 172), .none),
     ((.rule 178), .none),
     ((.rule 185), .none)]⟩,
  -- operator_comparison
  ⟨163, ['o','p','e','r','a','t','o','r','_','c','o','m','p','a','r','i','s','o','n'], true, false,
    [((.rule 164), .none),
     ((.rule 165), .none),
     ((.rule 166), .none),
     ((.rule 167), .none),
     ((.rule 168), .none),
     ((.rule 169), .none),
     ((.rule 170), .none),
     ((.rule 171), .none)]⟩,
  -- greater_than_or_equals
  ⟨164, ['g','r','e','a','t','e','r','_','t','h','a','n','_','o','r','_','e','q','u','a','l','s'], false, false,
    [((.cat (.rule 131) (.cat (.tok 39 false) (.rule 131))), .none)]⟩,
  -- greater_than
  ⟨165, ['g','r','e','a','t','e','r','_','t','h','a','n'], false, false,
    [((.cat (.rule 131) (.cat (.tok 58 false) (.rule 131))), .none)]⟩,
  -- less_than_or_equals
  ⟨166, ['l','e','s','s','_','t','h','a','n','_','o','r','_','e','q','u','a','l','s'], false, false,
    [((.cat (.rule 131) (.cat (.tok 40 false) (.rule 131))), .none)]⟩,
  -- less_than
  ⟨167, ['l','e','s','s','_','t','h','a','n'], false, false,
    [((.cat (.rule 131) (.cat (.tok 54 false) (.rule 131))), .none)]⟩,
  -- equals
  ⟨168, ['e','q','u','a','l','s'], false, false,
    [((.cat (.rule 131) (.cat (.tok 41 false) (.rule 131))), .none)]⟩,
  -- not_equals
  ⟨169, ['n','o','t','_','e','q','u','a','l','s'], false, false,
    [((.cat (.rule 131) (.cat (.tok 42 false) (.rule 131))), .none)]⟩,
  -- equals_case_insens
  ⟨170, ['e','q','u','a','l','s','_','c','a','s','e','_','i','n','s','e','n','s'], false, false,
    [((.cat (.rule 131) (.cat (.tok 43 false) (.rule 131))), .none)]⟩,
  -- not_equals_case_insens
  ⟨171, ['n','o','t','_','e','q','u','a','l','s','_','c','a','s','e','_','i','n','s','e','n','s'], false, false,
    [((.cat (.rule 131) (.cat (.tok 44 false) (.rule 131))), .none)]⟩,
  -- operator_logical
  ⟨172, ['o','p','e','r','a','t','o','r','_','l','o','g','i','c','a','l'], true, false,
    [((.rule 173), .none),
     ((.rule 174), .none),
     ((.rule 175), .none),
     ((.rule 176), .none),
     ((.rule 177), .none)]⟩,
  -- and_op
  ⟨173, ['a','n','d','_','o','p'], false, false,
    [((.cat (.rule 131) (.cat (.tok 45 false) (.rule 131))), .none)]⟩,
  -- or_op
  ⟨174, ['o','r','_','o','p'], false, false,
    [((.cat (.rule 131) (.cat (.tok 36 false) (.rule 131))), .none)]⟩,
  -- not_op
  ⟨175, ['n','o','t','_','o','p'], false, false,
    [((.cat (.tok 48 false) (.rule 131)), .none)]⟩,
  -- coalesce
  ⟨176, ['c','o','a','l','e','s','c','e'], false, false,
    [((.cat (.rule 131) (.cat (.tok 37 false) (.rule 131))), .none)]⟩,
  -- conditional
  ⟨177, ['c','o','n','d','i','t','i','o','n','a','l'], false, false,
    [((.cat (.rule 131) (.cat (.tok 61 false) (.cat (.rule 131) (.cat (.tok 49 false) (.rule 131))))), .none)]⟩,
  -- operator_numeric
  ⟨178, ['o','p','e','r','a','t','o','r','_','n','u','m','e','r','i','c'], true, false,
    [((.rule 179), .none),
     ((.rule 180), .none),
     ((.rule 181), .none),
     ((.rule 182), .none),
     ((.rule 183), .none),
     ((.rule 184), .none)]⟩,
  -- add
  ⟨179, ['a','d','d'], false, false,
    [((.cat (.rule 131) (.cat (.tok 60 false) (.rule 131))), .none)]⟩,
  -- divide
  ⟨180, ['d','i','v','i','d','e'], false, false,
    [((.cat (.rule 131) (.cat (.tok 65 false) (.rule 131))), .none)]⟩,
  -- minus
  ⟨181, ['m','i','n','u','s'], false, false,
    [((.cat (.tok 57 false) (.rule 131)), .none)]⟩,
  -- modulo
  ⟨182, ['m','o','d','u','l','o'], false, false,
    [((.cat (.rule 131) (.cat (.tok 59 false) (.rule 131))), .none)]⟩,
  -- multiply
  ⟨183, ['m','u','l','t','i','p','l','y'], false, false,
    [((.cat (.rule 131) (.cat (.tok 66 false) (.rule 131))), .none)]⟩,
  -- substract
  ⟨184, ['s','u','b','s','t','r','a','c','t'], false, false,
    [((.cat (.rule 131) (.cat (.tok 57 false) (.rule 131))), .none)]⟩,
  -- operator_accessor
  ⟨185, ['o','p','e','r','a','t','o','r','_','a','c','c','e','s','s','o','r'], true, false,
    [((.rule 186), .none),
     ((.rule 187), .none),
     ((.rule 188), .none),
     ((.rule 189), .none)]⟩,
  -- index_accessor
  ⟨186, ['i','n','d','e','x','_','a','c','c','e','s','s','o','r'], false, false,
    [((.cat (.rule 131) (.cat (.tok 56 false) (.cat (.opt (.tok 61 false)) (.cat (.rule 131) (.tok 64 false))))), .none)]⟩,
  -- function_accessor
  ⟨187, ['f','u','n','c','t','i','o','n','_','a','c','c','e','s','s','o','r'], false, false,
    [((.cat (.rule 131) (.cat (.tok 51 false) (.cat (.tok 0 true) (.cat (.tok 55 false) (.cat (.opt (.rule 131)) (.cat (.plus (.maybe (.cat (.tok 50 false) (.rule 131)))) (.tok 63 false))))))), .none)]⟩,
  -- nested_resource_accessor
  ⟨188, ['n','e','s','t','e','d','_','r','e','s','o','u','r','c','e','_','a','c','c','e','s','s','o','r'], false, false,
    [((.cat (.rule 131) (.cat (.tok 38 false) (.rule 131))), .none)]⟩,
  -- property_accessor
  ⟨189, ['p','r','o','p','e','r','t','y','_','a','c','c','e','s','s','o','r'], false, false,
    [((.cat (.rule 131) (.cat (.tok 51 false) (.cat (.opt (.tok 61 false)) (.rule 131)))), .none)]⟩]

/-- The helper rules. -/
def larkHelpers : List Helper := [
  ⟨(.alt (.cat (.rule 129) (.opt (.tok 5 false))) (.tok 5 false)), 190, ['_','_','s','t','a','r','t','_','s','t','a','r','_','0']⟩,
  ⟨(.cat (.tok 50 false) (.rule 147)), 191, ['_','_','_','i','m','p','o','r','t','_','s','t','a','t','e','m','e','n','t','_','s','t','a','r','_','1']⟩,
  ⟨(.cat (.tok 50 false) (.cat (.tok 4 true) (.rule 141))), 192, ['_','_','_','f','u','n','c','_','s','t','a','t','e','m','e','n','t','_','s','t','a','r','_','2']⟩,
  ⟨(.tok 5 false), 193, ['_','_','c','h','i','l','d','_','r','e','s','o','u','r','c','e','_','p','l','u','s','_','3']⟩,
  ⟨(.cat (.tok 67 false) (.rule 131)), 194, ['_','_','t','y','p','e','_','v','a','l','u','e','_','s','t','a','r','_','4']⟩,
  ⟨(.rule 144), 195, ['_','_','d','a','t','a','_','t','y','p','e','_','s','t','a','r','_','5']⟩,
  ⟨(.cat (.tok 67 false) (.rule 141)), 196, ['_','_','u','n','i','o','n','_','t','y','p','e','_','p','l','u','s','_','6']⟩,
  ⟨(.cat (.tok 50 false) (.rule 131)), 197, ['_','_','a','r','r','a','y','_','s','t','a','r','_','7']⟩,
  ⟨(.cat (.rule 131) (.cat (.star (.cat (.tok 50 false) (.rule 131))) (.star (.tok 5 false)))), 198, ['_','_','a','r','r','a','y','_','s','t','a','r','_','8']⟩,
  ⟨(.cat (.tok 50 false) (.rule 156)), 199, ['_','_','o','b','j','e','c','t','_','s','t','a','r','_','9']⟩,
  ⟨(.cat (.alt (.cat (.rule 156) (.star (.cat (.tok 50 false) (.rule 156)))) (.rule 139)) (.star (.tok 5 false))), 200, ['_','_','o','b','j','e','c','t','_','s','t','a','r','_','1','0']⟩,
  ⟨(.rule 159), 201, ['_','_','d','e','c','o','r','a','t','o','r','s','_','p','l','u','s','_','1','1']⟩,
  ⟨(.cat (.tok 50 false) (.cat (.opt (.tok 5 false)) (.rule 131))), 202, ['_','_','f','u','n','c','t','i','o','n','_','s','t','a','r','_','1','2']⟩,
  ⟨(.maybe (.cat (.tok 50 false) (.rule 131))), 203, ['_','_','f','u','n','c','t','i','o','n','_','a','c','c','e','s','s','o','r','_','p','l','u','s','_','1','3']⟩]

/-- The plain rules. -/
def larkPlain : List CRule := [
  ⟨128, [190], ['s','t','a','r','t'], false, [(0, (true, 0))], 0⟩,
  ⟨128, [], ['s','t','a','r','t'], false, [], 0⟩,
  ⟨129, [13, 52, 2], ['s','c','o','p','e'], false, [(2, (false, 0))], 0⟩,
  ⟨129, [18, 132], ['c','u','s','t','o','m','_','i','m','p','o','r','t'], false, [(1, (true, 0))], 0⟩,
  ⟨129, [14, 4, 29, 155, 32, 4], ['e','x','t','e','n','s','i','o','n'], false, [(1, (false, 0)), (3, (false, 0)), (5, (false, 0))], 0⟩,
  ⟨129, [14, 4, 29, 155], ['e','x','t','e','n','s','i','o','n'], false, [(1, (false, 0)), (3, (false, 0))], 1⟩,
  ⟨129, [14, 4, 32, 4], ['e','x','t','e','n','s','i','o','n'], false, [(1, (false, 0)), (3, (false, 1))], 0⟩,
  ⟨129, [14, 4], ['e','x','t','e','n','s','i','o','n'], false, [(1, (false, 0))], 2⟩,
  ⟨129, [16, 4, 52, 135], ['m','e','t','a','d','a','t','a'], false, [(1, (false, 0)), (3, (false, 0))], 0⟩,
  ⟨129, [160, 23, 4, 141, 61, 52, 131], ['p','a','r','a','m'], false, [(0, (false, 0)), (2, (false, 0)), (3, (false, 0)), (6, (false, 0))], 0⟩,
  ⟨129, [160, 23, 4, 141, 61], ['p','a','r','a','m'], false, [(0, (false, 0)), (2, (false, 0)), (3, (false, 0))], 1⟩,
  ⟨129, [160, 23, 4, 141, 52, 131], ['p','a','r','a','m'], false, [(0, (false, 0)), (2, (false, 0)), (3, (false, 0)), (5, (false, 0))], 0⟩,
  ⟨129, [160, 23, 4, 141], ['p','a','r','a','m'], false, [(0, (false, 0)), (2, (false, 0)), (3, (false, 0))], 1⟩,
  ⟨129, [23, 4, 141, 61, 52, 131], ['p','a','r','a','m'], false, [(1, (false, 1)), (2, (false, 0)), (5, (false, 0))], 0⟩,
  ⟨129, [23, 4, 141, 61], ['p','a','r','a','m'], false, [(1, (false, 1)), (2, (false, 0))], 1⟩,
  ⟨129, [23, 4, 141, 52, 131], ['p','a','r','a','m'], false, [(1, (false, 1)), (2, (false, 0)), (4, (false, 0))], 0⟩,
  ⟨129, [23, 4, 141], ['p','a','r','a','m'], false, [(1, (false, 1)), (2, (false, 0))], 1⟩,
  ⟨129, [160, 31, 4, 141, 61, 52, 134], ['v','a','r'], false, [(0, (false, 0)), (2, (false, 0)), (3, (false, 0)), (6, (false, 0))], 0⟩,
  ⟨129, [160, 31, 4, 141, 52, 134], ['v','a','r'], false, [(0, (false, 0)), (2, (false, 0)), (3, (false, 0)), (5, (false, 0))], 0⟩,
  ⟨129, [160, 31, 4, 52, 134], ['v','a','r'], false, [(0, (false, 0)), (2, (false, 0)), (4, (false, 1))], 0⟩,
  ⟨129, [31, 4, 141, 61, 52, 134], ['v','a','r'], false, [(1, (false, 1)), (2, (false, 0)), (5, (false, 0))], 0⟩,
  ⟨129, [31, 4, 141, 52, 134], ['v','a','r'], false, [(1, (false, 1)), (2, (false, 0)), (4, (false, 0))], 0⟩,
  ⟨129, [31, 4, 52, 134], ['v','a','r'], false, [(1, (false, 1)), (3, (false, 1))], 0⟩,
  ⟨129, [160, 20, 4, 141, 61, 52, 136], ['o','u','t','p','u','t'], false, [(0, (false, 0)), (2, (false, 0)), (3, (false, 0)), (6, (false, 0))], 0⟩,
  ⟨129, [160, 20, 4, 141, 52, 136], ['o','u','t','p','u','t'], false, [(0, (false, 0)), (2, (false, 0)), (3, (false, 0)), (5, (false, 0))], 0⟩,
  ⟨129, [20, 4, 141, 61, 52, 136], ['o','u','t','p','u','t'], false, [(1, (false, 1)), (2, (false, 0)), (5, (false, 0))], 0⟩,
  ⟨129, [20, 4, 141, 52, 136], ['o','u','t','p','u','t'], false, [(1, (false, 1)), (2, (false, 0)), (4, (false, 0))], 0⟩,
  ⟨129, [160, 17, 4, 145, 15, 52, 137], ['r','e','s','o','u','r','c','e'], false, [(0, (false, 0)), (2, (false, 0)), (3, (false, 0)), (4, (false, 0)), (6, (false, 0))], 0⟩,
  ⟨129, [160, 17, 4, 145, 52, 137], ['r','e','s','o','u','r','c','e'], false, [(0, (false, 0)), (2, (false, 0)), (3, (false, 0)), (5, (false, 1))], 0⟩,
  ⟨129, [17, 4, 145, 15, 52, 137], ['r','e','s','o','u','r','c','e'], false, [(1, (false, 1)), (2, (false, 0)), (3, (false, 0)), (5, (false, 0))], 0⟩,
  ⟨129, [17, 4, 145, 52, 137], ['r','e','s','o','u','r','c','e'], false, [(1, (false, 1)), (2, (false, 0)), (4, (false, 1))], 0⟩,
  ⟨129, [160, 19, 4, 146, 52, 138], ['m','o','d','u','l','e'], false, [(0, (false, 0)), (2, (false, 0)), (3, (false, 0)), (5, (false, 0))], 0⟩,
  ⟨129, [19, 4, 146, 52, 138], ['m','o','d','u','l','e'], false, [(1, (false, 1)), (2, (false, 0)), (4, (false, 0))], 0⟩,
  ⟨129, [160, 28, 4, 52, 140], ['c','u','s','t','o','m','_','t','y','p','e'], false, [(0, (false, 0)), (2, (false, 0)), (4, (false, 0))], 0⟩,
  ⟨129, [28, 4, 52, 140], ['c','u','s','t','o','m','_','t','y','p','e'], false, [(1, (false, 1)), (3, (false, 0))], 0⟩,
  ⟨129, [160, 25, 133], ['c','u','s','t','o','m','_','f','u','n','c'], false, [(0, (false, 0)), (2, (true, 0))], 0⟩,
  ⟨129, [25, 133], ['c','u','s','t','o','m','_','f','u','n','c'], false, [(1, (true, 1))], 0⟩,
  ⟨130, [10, 26], ['n','u','l','l'], false, [], 0⟩,
  ⟨130, [26], ['n','u','l','l'], false, [], 0⟩,
  ⟨130, [10, 27], ['t','r','u','e'], false, [], 0⟩,
  ⟨130, [27], ['t','r','u','e'], false, [], 0⟩,
  ⟨130, [10, 21], ['f','a','l','s','e'], false, [], 0⟩,
  ⟨130, [21], ['f','a','l','s','e'], false, [], 0⟩,
  ⟨130, [10, 11], ['i','n','t','_','t','y','p','e'], false, [(1, (false, 0))], 0⟩,
  ⟨130, [11], ['i','n','t','_','t','y','p','e'], false, [(0, (false, 0))], 0⟩,
  ⟨130, [10, 4], ['s','t','r','i','n','g'], false, [(1, (false, 0))], 0⟩,
  ⟨130, [4], ['s','t','r','i','n','g'], false, [(0, (false, 0))], 0⟩,
  ⟨130, [10, 2], ['s','t','r','i','n','g'], false, [(1, (false, 0))], 0⟩,
  ⟨130, [2], ['s','t','r','i','n','g'], false, [(0, (false, 0))], 0⟩,
  ⟨130, [3], ['m','u','l','t','i','_','l','i','n','e','_','s','t','r','i','n','g'], false, [(0, (false, 0))], 0⟩,
  ⟨130, [154], ['v','a','l','u','e'], true, [(0, (false, 0))], 0⟩,
  ⟨130, [155], ['v','a','l','u','e'], true, [(0, (false, 0))], 0⟩,
  ⟨130, [10, 161], ['v','a','l','u','e'], true, [(1, (false, 0))], 0⟩,
  ⟨130, [161], ['v','a','l','u','e'], true, [(0, (false, 0))], 0⟩,
  ⟨130, [162], ['v','a','l','u','e'], true, [(0, (false, 0))], 0⟩,
  ⟨130, [158], ['v','a','l','u','e'], true, [(0, (false, 0))], 0⟩,
  ⟨131, [130, 48], ['v','a','l','u','e','_','b','r','a','c','k','e','t','s'], true, [(0, (false, 0))], 0⟩,
  ⟨131, [130], ['v','a','l','u','e','_','b','r','a','c','k','e','t','s'], true, [(0, (false, 0))], 0⟩,
  ⟨131, [55, 130, 63, 48], ['v','a','l','u','e','_','b','r','a','c','k','e','t','s'], true, [(1, (false, 0))], 0⟩,
  ⟨131, [55, 130, 63], ['v','a','l','u','e','_','b','r','a','c','k','e','t','s'], true, [(1, (false, 0))], 0⟩,
  ⟨132, [53, 147, 191, 62, 24, 2], ['_','i','m','p','o','r','t','_','s','t','a','t','e','m','e','n','t'], false, [(1, (false, 0)), (2, (true, 0)), (5, (false, 0))], 0⟩,
  ⟨132, [53, 147, 62, 24, 2], ['_','i','m','p','o','r','t','_','s','t','a','t','e','m','e','n','t'], false, [(1, (false, 0)), (4, (false, 0))], 0⟩,
  ⟨132, [147, 24, 2], ['_','i','m','p','o','r','t','_','s','t','a','t','e','m','e','n','t'], false, [(0, (false, 0)), (2, (false, 0))], 0⟩,
  ⟨132, [2], ['_','i','m','p','o','r','t','_','s','t','a','t','e','m','e','n','t'], false, [(0, (false, 0))], 0⟩,
  ⟨133, [4, 55, 4, 141, 192, 63, 141, 35, 131], ['_','f','u','n','c','_','s','t','a','t','e','m','e','n','t'], false, [(0, (false, 0)), (2, (false, 0)), (3, (false, 0)), (4, (true, 0)), (6, (false, 0)), (8, (false, 0))], 0⟩,
  ⟨133, [4, 55, 4, 141, 63, 141, 35, 131], ['_','f','u','n','c','_','s','t','a','t','e','m','e','n','t'], false, [(0, (false, 0)), (2, (false, 0)), (3, (false, 0)), (5, (false, 0)), (7, (false, 0))], 0⟩,
  ⟨133, [4, 55, 63, 141, 35, 131], ['_','f','u','n','c','_','s','t','a','t','e','m','e','n','t'], false, [(0, (false, 0)), (3, (false, 0)), (5, (false, 0))], 0⟩,
  ⟨134, [131], ['v','a','r','_','v','a','l','u','e'], true, [(0, (false, 0))], 0⟩,
  ⟨134, [148], ['v','a','r','_','v','a','l','u','e'], true, [(0, (false, 0))], 0⟩,
  ⟨135, [2], ['s','t','r','i','n','g'], false, [(0, (false, 0))], 0⟩,
  ⟨136, [131], ['o','u','t','p','u','t','_','v','a','l','u','e'], true, [(0, (false, 0))], 0⟩,
  ⟨136, [148], ['o','u','t','p','u','t','_','v','a','l','u','e'], true, [(0, (false, 0))], 0⟩,
  ⟨137, [155], ['r','e','s','o','u','r','c','e','_','v','a','l','u','e'], true, [(0, (false, 0))], 0⟩,
  ⟨137, [148], ['r','e','s','o','u','r','c','e','_','v','a','l','u','e'], true, [(0, (false, 0))], 0⟩,
  ⟨137, [152], ['r','e','s','o','u','r','c','e','_','v','a','l','u','e'], true, [(0, (false, 0))], 0⟩,
  ⟨138, [155], ['m','o','d','u','l','e','_','v','a','l','u','e'], true, [(0, (false, 0))], 0⟩,
  ⟨138, [148], ['m','o','d','u','l','e','_','v','a','l','u','e'], true, [(0, (false, 0))], 0⟩,
  ⟨138, [152], ['m','o','d','u','l','e','_','v','a','l','u','e'], true, [(0, (false, 0))], 0⟩,
  ⟨139, [17, 4, 2, 15, 52, 155, 193], ['c','h','i','l','d','_','r','e','s','o','u','r','c','e'], false, [(1, (false, 0)), (2, (false, 0)), (3, (false, 0)), (5, (false, 0)), (6, (true, 0))], 0⟩,
  ⟨139, [17, 4, 2, 15, 52, 148, 193], ['c','h','i','l','d','_','r','e','s','o','u','r','c','e'], false, [(1, (false, 0)), (2, (false, 0)), (3, (false, 0)), (5, (false, 0)), (6, (true, 0))], 0⟩,
  ⟨139, [17, 4, 2, 15, 52, 152, 193], ['c','h','i','l','d','_','r','e','s','o','u','r','c','e'], false, [(1, (false, 0)), (2, (false, 0)), (3, (false, 0)), (5, (false, 0)), (6, (true, 0))], 0⟩,
  ⟨139, [17, 4, 2, 52, 155, 193], ['c','h','i','l','d','_','r','e','s','o','u','r','c','e'], false, [(1, (false, 0)), (2, (false, 0)), (4, (false, 1)), (5, (true, 0))], 0⟩,
  ⟨139, [17, 4, 2, 52, 148, 193], ['c','h','i','l','d','_','r','e','s','o','u','r','c','e'], false, [(1, (false, 0)), (2, (false, 0)), (4, (false, 1)), (5, (true, 0))], 0⟩,
  ⟨139, [17, 4, 2, 52, 152, 193], ['c','h','i','l','d','_','r','e','s','o','u','r','c','e'], false, [(1, (false, 0)), (2, (false, 0)), (4, (false, 1)), (5, (true, 0))], 0⟩,
  ⟨140, [131, 194], ['t','y','p','e','_','v','a','l','u','e'], true, [(0, (false, 0)), (1, (true, 0))], 0⟩,
  ⟨140, [131], ['t','y','p','e','_','v','a','l','u','e'], true, [(0, (false, 0))], 0⟩,
  ⟨141, [142, 195], ['d','a','t','a','_','t','y','p','e'], false, [(0, (false, 0)), (1, (true, 0))], 0⟩,
  ⟨141, [142], ['d','a','t','a','_','t','y','p','e'], false, [(0, (false, 0))], 0⟩,
  ⟨142, [4], ['b','a','s','e','_','t','y','p','e'], false, [(0, (false, 0))], 0⟩,
  ⟨142, [143], ['b','a','s','e','_','t','y','p','e'], false, [(0, (false, 0))], 0⟩,
  ⟨143, [55, 141, 196, 63], ['u','n','i','o','n','_','t','y','p','e'], false, [(1, (false, 0)), (2, (true, 0))], 0⟩,
  ⟨144, [56, 64], ['a','r','r','a','y','_','s','u','f','f','i','x'], false, [], 0⟩,
  ⟨145, [2], ['t','y','p','e','_','a','p','i','_','p','a','i','r'], false, [(0, (false, 0))], 0⟩,
  ⟨146, [2], ['m','o','d','u','l','e','_','p','a','t','h'], false, [(0, (false, 0))], 0⟩,
  ⟨147, [4, 32, 4], ['i','m','p','o','r','t','_','a','l','i','a','s'], false, [(0, (false, 0)), (2, (false, 0))], 0⟩,
  ⟨147, [4], ['i','m','p','o','r','t','_','a','l','i','a','s'], false, [(0, (false, 0))], 1⟩,
  ⟨147, [46, 32, 4], ['i','m','p','o','r','t','_','a','l','i','a','s'], false, [(0, (false, 0)), (2, (false, 0))], 0⟩,
  ⟨147, [46], ['i','m','p','o','r','t','_','a','l','i','a','s'], false, [(0, (false, 0))], 1⟩,
  ⟨148, [56, 5, 30, 149, 49, 131, 131, 5, 64], ['l','o','o','p'], false, [(3, (false, 0)), (5, (false, 0)), (6, (false, 0))], 0⟩,
  ⟨148, [56, 5, 30, 149, 49, 131, 131, 64], ['l','o','o','p'], false, [(3, (false, 0)), (5, (false, 0)), (6, (false, 0))], 0⟩,
  ⟨148, [56, 5, 30, 149, 49, 131, 5, 64], ['l','o','o','p'], false, [(3, (false, 0)), (5, (false, 1))], 0⟩,
  ⟨148, [56, 5, 30, 149, 49, 131, 64], ['l','o','o','p'], false, [(3, (false, 0)), (5, (false, 1))], 0⟩,
  ⟨148, [56, 5, 30, 150, 49, 131, 131, 5, 64], ['l','o','o','p'], false, [(3, (false, 0)), (5, (false, 0)), (6, (false, 0))], 0⟩,
  ⟨148, [56, 5, 30, 150, 49, 131, 131, 64], ['l','o','o','p'], false, [(3, (false, 0)), (5, (false, 0)), (6, (false, 0))], 0⟩,
  ⟨148, [56, 5, 30, 150, 49, 131, 5, 64], ['l','o','o','p'], false, [(3, (false, 0)), (5, (false, 1))], 0⟩,
  ⟨148, [56, 5, 30, 150, 49, 131, 64], ['l','o','o','p'], false, [(3, (false, 0)), (5, (false, 1))], 0⟩,
  ⟨148, [56, 5, 30, 151, 49, 131, 131, 5, 64], ['l','o','o','p'], false, [(3, (false, 0)), (5, (false, 0)), (6, (false, 0))], 0⟩,
  ⟨148, [56, 5, 30, 151, 49, 131, 131, 64], ['l','o','o','p'], false, [(3, (false, 0)), (5, (false, 0)), (6, (false, 0))], 0⟩,
  ⟨148, [56, 5, 30, 151, 49, 131, 5, 64], ['l','o','o','p'], false, [(3, (false, 0)), (5, (false, 1))], 0⟩,
  ⟨148, [56, 5, 30, 151, 49, 131, 64], ['l','o','o','p'], false, [(3, (false, 0)), (5, (false, 1))], 0⟩,
  ⟨148, [56, 30, 149, 49, 131, 131, 5, 64], ['l','o','o','p'], false, [(2, (false, 0)), (4, (false, 0)), (5, (false, 0))], 0⟩,
  ⟨148, [56, 30, 149, 49, 131, 131, 64], ['l','o','o','p'], false, [(2, (false, 0)), (4, (false, 0)), (5, (false, 0))], 0⟩,
  ⟨148, [56, 30, 149, 49, 131, 5, 64], ['l','o','o','p'], false, [(2, (false, 0)), (4, (false, 1))], 0⟩,
  ⟨148, [56, 30, 149, 49, 131, 64], ['l','o','o','p'], false, [(2, (false, 0)), (4, (false, 1))], 0⟩,
  ⟨148, [56, 30, 150, 49, 131, 131, 5, 64], ['l','o','o','p'], false, [(2, (false, 0)), (4, (false, 0)), (5, (false, 0))], 0⟩,
  ⟨148, [56, 30, 150, 49, 131, 131, 64], ['l','o','o','p'], false, [(2, (false, 0)), (4, (false, 0)), (5, (false, 0))], 0⟩,
  ⟨148, [56, 30, 150, 49, 131, 5, 64], ['l','o','o','p'], false, [(2, (false, 0)), (4, (false, 1))], 0⟩,
  ⟨148, [56, 30, 150, 49, 131, 64], ['l','o','o','p'], false, [(2, (false, 0)), (4, (false, 1))], 0⟩,
  ⟨148, [56, 30, 151, 49, 131, 131, 5, 64], ['l','o','o','p'], false, [(2, (false, 0)), (4, (false, 0)), (5, (false, 0))], 0⟩,
  ⟨148, [56, 30, 151, 49, 131, 131, 64], ['l','o','o','p'], false, [(2, (false, 0)), (4, (false, 0)), (5, (false, 0))], 0⟩,
  ⟨148, [56, 30, 151, 49, 131, 5, 64], ['l','o','o','p'], false, [(2, (false, 0)), (4, (false, 1))], 0⟩,
  ⟨148, [56, 30, 151, 49, 131, 64], ['l','o','o','p'], false, [(2, (false, 0)), (4, (false, 1))], 0⟩,
  ⟨149, [4, 34, 131], ['l','o','o','p','_','a','r','r','a','y'], false, [(0, (false, 0)), (2, (false, 0))], 0⟩,
  ⟨150, [55, 4, 50, 4, 63, 34, 131], ['l','o','o','p','_','a','r','r','a','y','_','i','n','d','e','x'], false, [(1, (false, 0)), (3, (false, 0)), (6, (false, 0))], 0⟩,
  ⟨151, [4, 34, 22, 55, 131, 63], ['l','o','o','p','_','o','b','j','e','c','t'], false, [(0, (false, 0)), (4, (false, 0))], 0⟩,
  ⟨152, [5, 33, 55, 131, 63, 131], ['d','e','p','l','o','y','_','c','o','n','d','i','t','i','o','n'], false, [(3, (false, 0)), (5, (false, 0))], 0⟩,
  ⟨152, [33, 55, 131, 63, 131], ['d','e','p','l','o','y','_','c','o','n','d','i','t','i','o','n'], false, [(2, (false, 0)), (4, (false, 0))], 0⟩,
  ⟨153, [4], ['q','u','o','t','e','d','_','s','t','r','i','n','g'], true, [(0, (false, 0))], 0⟩,
  ⟨153, [6], ['q','u','o','t','e','d','_','s','t','r','i','n','g'], true, [(0, (false, 0))], 0⟩,
  ⟨153, [2], ['q','u','o','t','e','d','_','s','t','r','i','n','g'], true, [(0, (false, 0))], 0⟩,
  ⟨154, [56, 193, 198, 64], ['a','r','r','a','y'], false, [(1, (true, 0)), (2, (true, 0))], 0⟩,
  ⟨154, [56, 193, 64], ['a','r','r','a','y'], false, [(1, (true, 0))], 0⟩,
  ⟨154, [56, 198, 64], ['a','r','r','a','y'], false, [(1, (true, 0))], 0⟩,
  ⟨154, [56, 64], ['a','r','r','a','y'], false, [], 0⟩,
  ⟨155, [53, 193, 200, 62], ['o','b','j','e','c','t'], false, [(1, (true, 0)), (2, (true, 0))], 0⟩,
  ⟨155, [53, 193, 62], ['o','b','j','e','c','t'], false, [(1, (true, 0))], 0⟩,
  ⟨155, [53, 200, 62], ['o','b','j','e','c','t'], false, [(1, (true, 0))], 0⟩,
  ⟨155, [53, 62], ['o','b','j','e','c','t'], false, [], 0⟩,
  ⟨156, [157, 49, 131, 61], ['p','a','i','r'], false, [(0, (false, 0)), (2, (false, 0))], 0⟩,
  ⟨156, [157, 49, 131], ['p','a','i','r'], false, [(0, (false, 0)), (2, (false, 0))], 0⟩,
  ⟨156, [157, 49, 148, 61], ['p','a','i','r'], false, [(0, (false, 0)), (2, (false, 0))], 0⟩,
  ⟨156, [157, 49, 148], ['p','a','i','r'], false, [(0, (false, 0)), (2, (false, 0))], 0⟩,
  ⟨157, [17], ['k','e','y'], false, [(0, (false, 0))], 0⟩,
  ⟨157, [153], ['k','e','y'], false, [(0, (false, 0))], 0⟩,
  ⟨158, [131, 35, 131], ['l','a','m','b','d','a','_','e','x','p','r','e','s','s','i','o','n'], false, [(0, (false, 0)), (2, (false, 0))], 0⟩,
  ⟨158, [55, 131, 50, 131, 197, 63, 35, 131], ['l','a','m','b','d','a','_','e','x','p','r','e','s','s','i','o','n'], false, [(1, (false, 0)), (3, (false, 0)), (4, (true, 0)), (7, (false, 0))], 0⟩,
  ⟨159, [47, 7, 55, 5, 131, 5, 63], ['d','e','c','o','r','a','t','o','r'], false, [(1, (false, 0)), (4, (false, 0))], 0⟩,
  ⟨159, [47, 7, 55, 5, 131, 5, 63, 5], ['d','e','c','o','r','a','t','o','r'], false, [(1, (false, 0)), (4, (false, 0))], 0⟩,
  ⟨159, [47, 7, 55, 5, 131, 5, 63, 5, 5], ['d','e','c','o','r','a','t','o','r'], false, [(1, (false, 0)), (4, (false, 0))], 0⟩,
  ⟨159, [47, 7, 55, 5, 131, 5, 63, 5, 5, 5], ['d','e','c','o','r','a','t','o','r'], false, [(1, (false, 0)), (4, (false, 0))], 0⟩,
  ⟨159, [47, 7, 55, 5, 131, 5, 63, 5, 5, 5, 5], ['d','e','c','o','r','a','t','o','r'], false, [(1, (false, 0)), (4, (false, 0))], 0⟩,
  ⟨159, [47, 7, 55, 5, 131, 5, 63, 5, 5, 5, 5, 5], ['d','e','c','o','r','a','t','o','r'], false, [(1, (false, 0)), (4, (false, 0))], 0⟩,
  ⟨159, [47, 7, 55, 5, 131, 5, 63, 5, 5, 5, 5, 5, 5], ['d','e','c','o','r','a','t','o','r'], false, [(1, (false, 0)), (4, (false, 0))], 0⟩,
  ⟨159, [47, 7, 55, 5, 131, 5, 63, 5, 5, 5, 5, 5, 5, 5], ['d','e','c','o','r','a','t','o','r'], false, [(1, (false, 0)), (4, (false, 0))], 0⟩,
  ⟨159, [47, 7, 55, 5, 131, 5, 63, 5, 5, 5, 5, 5, 5, 5, 5], ['d','e','c','o','r','a','t','o','r'], false, [(1, (false, 0)), (4, (false, 0))], 0⟩,
  ⟨159, [47, 7, 55, 5, 131, 5, 63, 5, 5, 5, 5, 5, 5, 5, 5, 5], ['d','e','c','o','r','a','t','o','r'], false, [(1, (false, 0)), (4, (false, 0))], 0⟩,
  ⟨159, [47, 7, 55, 5, 131, 5, 63, 5, 5, 5, 5, 5, 5, 5, 5, 5, 5], ['d','e','c','o','r','a','t','o','r'], false, [(1, (false, 0)), (4, (false, 0))], 0⟩,
  ⟨159, [47, 7, 55, 5, 131, 63], ['d','e','c','o','r','a','t','o','r'], false, [(1, (false, 0)), (4, (false, 0))], 0⟩,
  ⟨159, [47, 7, 55, 5, 131, 63, 5], ['d','e','c','o','r','a','t','o','r'], false, [(1, (false, 0)), (4, (false, 0))], 0⟩,
  ⟨159, [47, 7, 55, 5, 131, 63, 5, 5], ['d','e','c','o','r','a','t','o','r'], false, [(1, (false, 0)), (4, (false, 0))], 0⟩,
  ⟨159, [47, 7, 55, 5, 131, 63, 5, 5, 5], ['d','e','c','o','r','a','t','o','r'], false, [(1, (false, 0)), (4, (false, 0))], 0⟩,
  ⟨159, [47, 7, 55, 5, 131, 63, 5, 5, 5, 5], ['d','e','c','o','r','a','t','o','r'], false, [(1, (false, 0)), (4, (false, 0))], 0⟩,
  ⟨159, [47, 7, 55, 5, 131, 63, 5, 5, 5, 5, 5], ['d','e','c','o','r','a','t','o','r'], false, [(1, (false, 0)), (4, (false, 0))], 0⟩,
  ⟨159, [47, 7, 55, 5, 131, 63, 5, 5, 5, 5, 5, 5], ['d','e','c','o','r','a','t','o','r'], false, [(1, (false, 0)), (4, (false, 0))], 0⟩,
  ⟨159, [47, 7, 55, 5, 131, 63, 5, 5, 5, 5, 5, 5, 5], ['d','e','c','o','r','a','t','o','r'], false, [(1, (false, 0)), (4, (false, 0))], 0⟩,
  ⟨159, [47, 7, 55, 5, 131, 63, 5, 5, 5, 5, 5, 5, 5, 5], ['d','e','c','o','r','a','t','o','r'], false, [(1, (false, 0)), (4, (false, 0))], 0⟩,
  ⟨159, [47, 7, 55, 5, 131, 63, 5, 5, 5, 5, 5, 5, 5, 5, 5], ['d','e','c','o','r','a','t','o','r'], false, [(1, (false, 0)), (4, (false, 0))], 0⟩,
  ⟨159, [47, 7, 55, 5, 131, 63, 5, 5, 5, 5, 5, 5, 5, 5, 5, 5], ['d','e','c','o','r','a','t','o','r'], false, [(1, (false, 0)), (4, (false, 0))], 0⟩,
  ⟨159, [47, 7, 55, 5, 5, 63], ['d','e','c','o','r','a','t','o','r'], false, [(1, (false, 0))], 0⟩,
  ⟨159, [47, 7, 55, 5, 5, 63, 5], ['d','e','c','o','r','a','t','o','r'], false, [(1, (false, 0))], 0⟩,
  ⟨159, [47, 7, 55, 5, 5, 63, 5, 5], ['d','e','c','o','r','a','t','o','r'], false, [(1, (false, 0))], 0⟩,
  ⟨159, [47, 7, 55, 5, 5, 63, 5, 5, 5], ['d','e','c','o','r','a','t','o','r'], false, [(1, (false, 0))], 0⟩,
  ⟨159, [47, 7, 55, 5, 5, 63, 5, 5, 5, 5], ['d','e','c','o','r','a','t','o','r'], false, [(1, (false, 0))], 0⟩,
  ⟨159, [47, 7, 55, 5, 5, 63, 5, 5, 5, 5, 5], ['d','e','c','o','r','a','t','o','r'], false, [(1, (false, 0))], 0⟩,
  ⟨159, [47, 7, 55, 5, 5, 63, 5, 5, 5, 5, 5, 5], ['d','e','c','o','r','a','t','o','r'], false, [(1, (false, 0))], 0⟩,
  ⟨159, [47, 7, 55, 5, 5, 63, 5, 5, 5, 5, 5, 5, 5], ['d','e','c','o','r','a','t','o','r'], false, [(1, (false, 0))], 0⟩,
  ⟨159, [47, 7, 55, 5, 5, 63, 5, 5, 5, 5, 5, 5, 5, 5], ['d','e','c','o','r','a','t','o','r'], false, [(1, (false, 0))], 0⟩,
  ⟨159, [47, 7, 55, 5, 5, 63, 5, 5, 5, 5, 5, 5, 5, 5, 5], ['d','e','c','o','r','a','t','o','r'], false, [(1, (false, 0))], 0⟩,
  ⟨159, [47, 7, 55, 5, 5, 63, 5, 5, 5, 5, 5, 5, 5, 5, 5, 5], ['d','e','c','o','r','a','t','o','r'], false, [(1, (false, 0))], 0⟩,
  ⟨159, [47, 7, 55, 5, 63], ['d','e','c','o','r','a','t','o','r'], false, [(1, (false, 0))], 0⟩,
  ⟨159, [47, 7, 55, 5, 63, 5], ['d','e','c','o','r','a','t','o','r'], false, [(1, (false, 0))], 0⟩,
  ⟨159, [47, 7, 55, 5, 63, 5, 5], ['d','e','c','o','r','a','t','o','r'], false, [(1, (false, 0))], 0⟩,
  ⟨159, [47, 7, 55, 5, 63, 5, 5, 5], ['d','e','c','o','r','a','t','o','r'], false, [(1, (false, 0))], 0⟩,
  ⟨159, [47, 7, 55, 5, 63, 5, 5, 5, 5], ['d','e','c','o','r','a','t','o','r'], false, [(1, (false, 0))], 0⟩,
  ⟨159, [47, 7, 55, 5, 63, 5, 5, 5, 5, 5], ['d','e','c','o','r','a','t','o','r'], false, [(1, (false, 0))], 0⟩,
  ⟨159, [47, 7, 55, 5, 63, 5, 5, 5, 5, 5, 5], ['d','e','c','o','r','a','t','o','r'], false, [(1, (false, 0))], 0⟩,
  ⟨159, [47, 7, 55, 5, 63, 5, 5, 5, 5, 5, 5, 5], ['d','e','c','o','r','a','t','o','r'], false, [(1, (false, 0))], 0⟩,
  ⟨159, [47, 7, 55, 5, 63, 5, 5, 5, 5, 5, 5, 5, 5], ['d','e','c','o','r','a','t','o','r'], false, [(1, (false, 0))], 0⟩,
  ⟨159, [47, 7, 55, 5, 63, 5, 5, 5, 5, 5, 5, 5, 5, 5], ['d','e','c','o','r','a','t','o','r'], false, [(1, (false, 0))], 0⟩,
  ⟨159, [47, 7, 55, 5, 63, 5, 5, 5, 5, 5, 5, 5, 5, 5, 5], ['d','e','c','o','r','a','t','o','r'], false, [(1, (false, 0))], 0⟩,
  ⟨159, [47, 7, 55, 131, 5, 63], ['d','e','c','o','r','a','t','o','r'], false, [(1, (false, 0)), (3, (false, 0))], 0⟩,
  ⟨159, [47, 7, 55, 131, 5, 63, 5], ['d','e','c','o','r','a','t','o','r'], false, [(1, (false, 0)), (3, (false, 0))], 0⟩,
  ⟨159, [47, 7, 55, 131, 5, 63, 5, 5], ['d','e','c','o','r','a','t','o','r'], false, [(1, (false, 0)), (3, (false, 0))], 0⟩,
  ⟨159, [47, 7, 55, 131, 5, 63, 5, 5, 5], ['d','e','c','o','r','a','t','o','r'], false, [(1, (false, 0)), (3, (false, 0))], 0⟩,
  ⟨159, [47, 7, 55, 131, 5, 63, 5, 5, 5, 5], ['d','e','c','o','r','a','t','o','r'], false, [(1, (false, 0)), (3, (false, 0))], 0⟩,
  ⟨159, [47, 7, 55, 131, 5, 63, 5, 5, 5, 5, 5], ['d','e','c','o','r','a','t','o','r'], false, [(1, (false, 0)), (3, (false, 0))], 0⟩,
  ⟨159, [47, 7, 55, 131, 5, 63, 5, 5, 5, 5, 5, 5], ['d','e','c','o','r','a','t','o','r'], false, [(1, (false, 0)), (3, (false, 0))], 0⟩,
  ⟨159, [47, 7, 55, 131, 5, 63, 5, 5, 5, 5, 5, 5, 5], ['d','e','c','o','r','a','t','o','r'], false, [(1, (false, 0)), (3, (false, 0))], 0⟩,
  ⟨159, [47, 7, 55, 131, 5, 63, 5, 5, 5, 5, 5, 5, 5, 5], ['d','e','c','o','r','a','t','o','r'], false, [(1, (false, 0)), (3, (false, 0))], 0⟩,
  ⟨159, [47, 7, 55, 131, 5, 63, 5, 5, 5, 5, 5, 5, 5, 5, 5], ['d','e','c','o','r','a','t','o','r'], false, [(1, (false, 0)), (3, (false, 0))], 0⟩,
  ⟨159, [47, 7, 55, 131, 5, 63, 5, 5, 5, 5, 5, 5, 5, 5, 5, 5], ['d','e','c','o','r','a','t','o','r'], false, [(1, (false, 0)), (3, (false, 0))], 0⟩,
  ⟨159, [47, 7, 55, 131, 63], ['d','e','c','o','r','a','t','o','r'], false, [(1, (false, 0)), (3, (false, 0))], 0⟩,
  ⟨159, [47, 7, 55, 131, 63, 5], ['d','e','c','o','r','a','t','o','r'], false, [(1, (false, 0)), (3, (false, 0))], 0⟩,
  ⟨159, [47, 7, 55, 131, 63, 5, 5], ['d','e','c','o','r','a','t','o','r'], false, [(1, (false, 0)), (3, (false, 0))], 0⟩,
  ⟨159, [47, 7, 55, 131, 63, 5, 5, 5], ['d','e','c','o','r','a','t','o','r'], false, [(1, (false, 0)), (3, (false, 0))], 0⟩,
  ⟨159, [47, 7, 55, 131, 63, 5, 5, 5, 5], ['d','e','c','o','r','a','t','o','r'], false, [(1, (false, 0)), (3, (false, 0))], 0⟩,
  ⟨159, [47, 7, 55, 131, 63, 5, 5, 5, 5, 5], ['d','e','c','o','r','a','t','o','r'], false, [(1, (false, 0)), (3, (false, 0))], 0⟩,
  ⟨159, [47, 7, 55, 131, 63, 5, 5, 5, 5, 5, 5], ['d','e','c','o','r','a','t','o','r'], false, [(1, (false, 0)), (3, (false, 0))], 0⟩,
  ⟨159, [47, 7, 55, 131, 63, 5, 5, 5, 5, 5, 5, 5], ['d','e','c','o','r','a','t','o','r'], false, [(1, (false, 0)), (3, (false, 0))], 0⟩,
  ⟨159, [47, 7, 55, 131, 63, 5, 5, 5, 5, 5, 5, 5, 5], ['d','e','c','o','r','a','t','o','r'], false, [(1, (false, 0)), (3, (false, 0))], 0⟩,
  ⟨159, [47, 7, 55, 131, 63, 5, 5, 5, 5, 5, 5, 5, 5, 5], ['d','e','c','o','r','a','t','o','r'], false, [(1, (false, 0)), (3, (false, 0))], 0⟩,
  ⟨159, [47, 7, 55, 131, 63, 5, 5, 5, 5, 5, 5, 5, 5, 5, 5], ['d','e','c','o','r','a','t','o','r'], false, [(1, (false, 0)), (3, (false, 0))], 0⟩,
  ⟨159, [47, 7, 55, 63], ['d','e','c','o','r','a','t','o','r'], false, [(1, (false, 0))], 0⟩,
  ⟨159, [47, 7, 55, 63, 5], ['d','e','c','o','r','a','t','o','r'], false, [(1, (false, 0))], 0⟩,
  ⟨159, [47, 7, 55, 63, 5, 5], ['d','e','c','o','r','a','t','o','r'], false, [(1, (false, 0))], 0⟩,
  ⟨159, [47, 7, 55, 63, 5, 5, 5], ['d','e','c','o','r','a','t','o','r'], false, [(1, (false, 0))], 0⟩,
  ⟨159, [47, 7, 55, 63, 5, 5, 5, 5], ['d','e','c','o','r','a','t','o','r'], false, [(1, (false, 0))], 0⟩,
  ⟨159, [47, 7, 55, 63, 5, 5, 5, 5, 5], ['d','e','c','o','r','a','t','o','r'], false, [(1, (false, 0))], 0⟩,
  ⟨159, [47, 7, 55, 63, 5, 5, 5, 5, 5, 5], ['d','e','c','o','r','a','t','o','r'], false, [(1, (false, 0))], 0⟩,
  ⟨159, [47, 7, 55, 63, 5, 5, 5, 5, 5, 5, 5], ['d','e','c','o','r','a','t','o','r'], false, [(1, (false, 0))], 0⟩,
  ⟨159, [47, 7, 55, 63, 5, 5, 5, 5, 5, 5, 5, 5], ['d','e','c','o','r','a','t','o','r'], false, [(1, (false, 0))], 0⟩,
  ⟨159, [47, 7, 55, 63, 5, 5, 5, 5, 5, 5, 5, 5, 5], ['d','e','c','o','r','a','t','o','r'], false, [(1, (false, 0))], 0⟩,
  ⟨159, [47, 7, 55, 63, 5, 5, 5, 5, 5, 5, 5, 5, 5, 5], ['d','e','c','o','r','a','t','o','r'], false, [(1, (false, 0))], 0⟩,
  ⟨160, [201], ['d','e','c','o','r','a','t','o','r','s'], false, [(0, (true, 0))], 0⟩,
  ⟨161, [1, 5, 131, 202, 5, 63], ['f','u','n','c','t','i','o','n'], false, [(0, (false, 0)), (2, (false, 0)), (3, (true, 0))], 0⟩,
  ⟨161, [1, 5, 131, 202, 63], ['f','u','n','c','t','i','o','n'], false, [(0, (false, 0)), (2, (false, 0)), (3, (true, 0))], 0⟩,
  ⟨161, [1, 5, 131, 5, 63], ['f','u','n','c','t','i','o','n'], false, [(0, (false, 0)), (2, (false, 0))], 0⟩,
  ⟨161, [1, 5, 131, 63], ['f','u','n','c','t','i','o','n'], false, [(0, (false, 0)), (2, (false, 0))], 0⟩,
  ⟨161, [1, 5, 202, 5, 63], ['f','u','n','c','t','i','o','n'], false, [(0, (false, 0)), (2, (true, 0))], 0⟩,
  ⟨161, [1, 5, 202, 63], ['f','u','n','c','t','i','o','n'], false, [(0, (false, 0)), (2, (true, 0))], 0⟩,
  ⟨161, [1, 5, 5, 63], ['f','u','n','c','t','i','o','n'], false, [(0, (false, 0))], 0⟩,
  ⟨161, [1, 5, 63], ['f','u','n','c','t','i','o','n'], false, [(0, (false, 0))], 0⟩,
  ⟨161, [1, 131, 202, 5, 63], ['f','u','n','c','t','i','o','n'], false, [(0, (false, 0)), (1, (false, 0)), (2, (true, 0))], 0⟩,
  ⟨161, [1, 131, 202, 63], ['f','u','n','c','t','i','o','n'], false, [(0, (false, 0)), (1, (false, 0)), (2, (true, 0))], 0⟩,
  ⟨161, [1, 131, 5, 63], ['f','u','n','c','t','i','o','n'], false, [(0, (false, 0)), (1, (false, 0))], 0⟩,
  ⟨161, [1, 131, 63], ['f','u','n','c','t','i','o','n'], false, [(0, (false, 0)), (1, (false, 0))], 0⟩,
  ⟨161, [1, 202, 5, 63], ['f','u','n','c','t','i','o','n'], false, [(0, (false, 0)), (1, (true, 0))], 0⟩,
  ⟨161, [1, 202, 63], ['f','u','n','c','t','i','o','n'], false, [(0, (false, 0)), (1, (true, 0))], 0⟩,
  ⟨161, [1, 63], ['f','u','n','c','t','i','o','n'], false, [(0, (false, 0))], 0⟩,
  ⟨162, [163], ['o','p','e','r','a','t','o','r'], false, [(0, (false, 0))], 0⟩,
  ⟨162, [172], ['o','p','e','r','a','t','o','r'], false, [(0, (false, 0))], 0⟩,
  ⟨162, [178], ['o','p','e','r','a','t','o','r'], false, [(0, (false, 0))], 0⟩,
  ⟨162, [185], ['o','p','e','r','a','t','o','r'], false, [(0, (false, 0))], 0⟩,
  ⟨163, [164], ['o','p','e','r','a','t','o','r','_','c','o','m','p','a','r','i','s','o','n'], true, [(0, (false, 0))], 0⟩,
  ⟨163, [165], ['o','p','e','r','a','t','o','r','_','c','o','m','p','a','r','i','s','o','n'], true, [(0, (false, 0))], 0⟩,
  ⟨163, [166], ['o','p','e','r','a','t','o','r','_','c','o','m','p','a','r','i','s','o','n'], true, [(0, (false, 0))], 0⟩,
  ⟨163, [167], ['o','p','e','r','a','t','o','r','_','c','o','m','p','a','r','i','s','o','n'], true, [(0, (false, 0))], 0⟩,
  ⟨163, [168], ['o','p','e','r','a','t','o','r','_','c','o','m','p','a','r','i','s','o','n'], true, [(0, (false, 0))], 0⟩,
  ⟨163, [169], ['o','p','e','r','a','t','o','r','_','c','o','m','p','a','r','i','s','o','n'], true, [(0, (false, 0))], 0⟩,
  ⟨163, [170], ['o','p','e','r','a','t','o','r','_','c','o','m','p','a','r','i','s','o','n'], true, [(0, (false, 0))], 0⟩,
  ⟨163, [171], ['o','p','e','r','a','t','o','r','_','c','o','m','p','a','r','i','s','o','n'], true, [(0, (false, 0))], 0⟩,
  ⟨164, [131, 39, 131], ['g','r','e','a','t','e','r','_','t','h','a','n','_','o','r','_','e','q','u','a','l','s'], false, [(0, (false, 0)), (2, (false, 0))], 0⟩,
  ⟨165, [131, 58, 131], ['g','r','e','a','t','e','r','_','t','h','a','n'], false, [(0, (false, 0)), (2, (false, 0))], 0⟩,
  ⟨166, [131, 40, 131], ['l','e','s','s','_','t','h','a','n','_','o','r','_','e','q','u','a','l','s'], false, [(0, (false, 0)), (2, (false, 0))], 0⟩,
  ⟨167, [131, 54, 131], ['l','e','s','s','_','t','h','a','n'], false, [(0, (false, 0)), (2, (false, 0))], 0⟩,
  ⟨168, [131, 41, 131], ['e','q','u','a','l','s'], false, [(0, (false, 0)), (2, (false, 0))], 0⟩,
  ⟨169, [131, 42, 131], ['n','o','t','_','e','q','u','a','l','s'], false, [(0, (false, 0)), (2, (false, 0))], 0⟩,
  ⟨170, [131, 43, 131], ['e','q','u','a','l','s','_','c','a','s','e','_','i','n','s','e','n','s'], false, [(0, (false, 0)), (2, (false, 0))], 0⟩,
  ⟨171, [131, 44, 131], ['n','o','t','_','e','q','u','a','l','s','_','c','a','s','e','_','i','n','s','e','n','s'], false, [(0, (false, 0)), (2, (false, 0))], 0⟩,
  ⟨172, [173], ['o','p','e','r','a','t','o','r','_','l','o','g','i','c','a','l'], true, [(0, (false, 0))], 0⟩,
  ⟨172, [174], ['o','p','e','r','a','t','o','r','_','l','o','g','i','c','a','l'], true, [(0, (false, 0))], 0⟩,
  ⟨172, [175], ['o','p','e','r','a','t','o','r','_','l','o','g','i','c','a','l'], true, [(0, (false, 0))], 0⟩,
  ⟨172, [176], ['o','p','e','r','a','t','o','r','_','l','o','g','i','c','a','l'], true, [(0, (false, 0))], 0⟩,
  ⟨172, [177], ['o','p','e','r','a','t','o','r','_','l','o','g','i','c','a','l'], true, [(0, (false, 0))], 0⟩,
  ⟨173, [131, 45, 131], ['a','n','d','_','o','p'], false, [(0, (false, 0)), (2, (false, 0))], 0⟩,
  ⟨174, [131, 36, 131], ['o','r','_','o','p'], false, [(0, (false, 0)), (2, (false, 0))], 0⟩,
  ⟨175, [48, 131], ['n','o','t','_','o','p'], false, [(1, (false, 0))], 0⟩,
  ⟨176, [131, 37, 131], ['c','o','a','l','e','s','c','e'], false, [(0, (false, 0)), (2, (false, 0))], 0⟩,
  ⟨177, [131, 61, 131, 49, 131], ['c','o','n','d','i','t','i','o','n','a','l'], false, [(0, (false, 0)), (2, (false, 0)), (4, (false, 0))], 0⟩,
  ⟨178, [179], ['o','p','e','r','a','t','o','r','_','n','u','m','e','r','i','c'], true, [(0, (false, 0))], 0⟩,
  ⟨178, [180], ['o','p','e','r','a','t','o','r','_','n','u','m','e','r','i','c'], true, [(0, (false, 0))], 0⟩,
  ⟨178, [181], ['o','p','e','r','a','t','o','r','_','n','u','m','e','r','i','c'], true, [(0, (false, 0))], 0⟩,
  ⟨178, [182], ['o','p','e','r','a','t','o','r','_','n','u','m','e','r','i','c'], true, [(0, (false, 0))], 0⟩,
  ⟨178, [183], ['o','p','e','r','a','t','o','r','_','n','u','m','e','r','i','c'], true, [(0, (false, 0))], 0⟩,
  ⟨178, [184], ['o','p','e','r','a','t','o','r','_','n','u','m','e','r','i','c'], true, [(0, (false, 0))], 0⟩,
  ⟨179, [131, 60, 131], ['a','d','d'], false, [(0, (false, 0)), (2, (false, 0))], 0⟩,
  ⟨180, [131, 65, 131], ['d','i','v','i','d','e'], false, [(0, (false, 0)), (2, (false, 0))], 0⟩,
  ⟨181, [57, 131], ['m','i','n','u','s'], false, [(1, (false, 0))], 0⟩,
  ⟨182, [131, 59, 131], ['m','o','d','u','l','o'], false, [(0, (false, 0)), (2, (false, 0))], 0⟩,
  ⟨183, [131, 66, 131], ['m','u','l','t','i','p','l','y'], false, [(0, (false, 0)), (2, (false, 0))], 0⟩,
  ⟨184, [131, 57, 131], ['s','u','b','s','t','r','a','c','t'], false, [(0, (false, 0)), (2, (false, 0))], 0⟩,
  ⟨185, [186], ['o','p','e','r','a','t','o','r','_','a','c','c','e','s','s','o','r'], true, [(0, (false, 0))], 0⟩,
  ⟨185, [187], ['o','p','e','r','a','t','o','r','_','a','c','c','e','s','s','o','r'], true, [(0, (false, 0))], 0⟩,
  ⟨185, [188], ['o','p','e','r','a','t','o','r','_','a','c','c','e','s','s','o','r'], true, [(0, (false, 0))], 0⟩,
  ⟨185, [189], ['o','p','e','r','a','t','o','r','_','a','c','c','e','s','s','o','r'], true, [(0, (false, 0))], 0⟩,
  ⟨186, [131, 56, 61, 131, 64], ['i','n','d','e','x','_','a','c','c','e','s','s','o','r'], false, [(0, (false, 0)), (3, (false, 0))], 0⟩,
  ⟨186, [131, 56, 131, 64], ['i','n','d','e','x','_','a','c','c','e','s','s','o','r'], false, [(0, (false, 0)), (2, (false, 0))], 0⟩,
  ⟨187, [131, 51, 0, 55, 131, 203, 63], ['f','u','n','c','t','i','o','n','_','a','c','c','e','s','s','o','r'], false, [(0, (false, 0)), (2, (false, 0)), (4, (false, 0)), (5, (true, 0))], 0⟩,
  ⟨187, [131, 51, 0, 55, 203, 63], ['f','u','n','c','t','i','o','n','_','a','c','c','e','s','s','o','r'], false, [(0, (false, 0)), (2, (false, 0)), (4, (true, 0))], 0⟩,
  ⟨188, [131, 38, 131], ['n','e','s','t','e','d','_','r','e','s','o','u','r','c','e','_','a','c','c','e','s','s','o','r'], false, [(0, (false, 0)), (2, (false, 0))], 0⟩,
  ⟨189, [131, 51, 61, 131], ['p','r','o','p','e','r','t','y','_','a','c','c','e','s','s','o','r'], false, [(0, (false, 0)), (3, (false, 0))], 0⟩,
  ⟨189, [131, 51, 131], ['p','r','o','p','e','r','t','y','_','a','c','c','e','s','s','o','r'], false, [(0, (false, 0)), (2, (false, 0))], 0⟩,
  ⟨190, [129, 5], ['_','_','s','t','a','r','t','_','s','t','a','r','_','0'], false, [(0, (false, 0))], 0⟩,
  ⟨190, [129], ['_','_','s','t','a','r','t','_','s','t','a','r','_','0'], false, [(0, (false, 0))], 0⟩,
  ⟨190, [5], ['_','_','s','t','a','r','t','_','s','t','a','r','_','0'], false, [], 0⟩,
  ⟨190, [190, 129, 5], ['_','_','s','t','a','r','t','_','s','t','a','r','_','0'], false, [(0, (true, 0)), (1, (false, 0))], 0⟩,
  ⟨190, [190, 129], ['_','_','s','t','a','r','t','_','s','t','a','r','_','0'], false, [(0, (true, 0)), (1, (false, 0))], 0⟩,
  ⟨190, [190, 5], ['_','_','s','t','a','r','t','_','s','t','a','r','_','0'], false, [(0, (true, 0))], 0⟩,
  ⟨191, [50, 147], ['_','_','_','i','m','p','o','r','t','_','s','t','a','t','e','m','e','n','t','_','s','t','a','r','_','1'], false, [(1, (false, 0))], 0⟩,
  ⟨191, [191, 50, 147], ['_','_','_','i','m','p','o','r','t','_','s','t','a','t','e','m','e','n','t','_','s','t','a','r','_','1'], false, [(0, (true, 0)), (2, (false, 0))], 0⟩,
  ⟨192, [50, 4, 141], ['_','_','_','f','u','n','c','_','s','t','a','t','e','m','e','n','t','_','s','t','a','r','_','2'], false, [(1, (false, 0)), (2, (false, 0))], 0⟩,
  ⟨192, [192, 50, 4, 141], ['_','_','_','f','u','n','c','_','s','t','a','t','e','m','e','n','t','_','s','t','a','r','_','2'], false, [(0, (true, 0)), (2, (false, 0)), (3, (false, 0))], 0⟩,
  ⟨193, [5], ['_','_','c','h','i','l','d','_','r','e','s','o','u','r','c','e','_','p','l','u','s','_','3'], false, [], 0⟩,
  ⟨193, [193, 5], ['_','_','c','h','i','l','d','_','r','e','s','o','u','r','c','e','_','p','l','u','s','_','3'], false, [(0, (true, 0))], 0⟩,
  ⟨194, [67, 131], ['_','_','t','y','p','e','_','v','a','l','u','e','_','s','t','a','r','_','4'], false, [(1, (false, 0))], 0⟩,
  ⟨194, [194, 67, 131], ['_','_','t','y','p','e','_','v','a','l','u','e','_','s','t','a','r','_','4'], false, [(0, (true, 0)), (2, (false, 0))], 0⟩,
  ⟨195, [144], ['_','_','d','a','t','a','_','t','y','p','e','_','s','t','a','r','_','5'], false, [(0, (false, 0))], 0⟩,
  ⟨195, [195, 144], ['_','_','d','a','t','a','_','t','y','p','e','_','s','t','a','r','_','5'], false, [(0, (true, 0)), (1, (false, 0))], 0⟩,
  ⟨196, [67, 141], ['_','_','u','n','i','o','n','_','t','y','p','e','_','p','l','u','s','_','6'], false, [(1, (false, 0))], 0⟩,
  ⟨196, [196, 67, 141], ['_','_','u','n','i','o','n','_','t','y','p','e','_','p','l','u','s','_','6'], false, [(0, (true, 0)), (2, (false, 0))], 0⟩,
  ⟨197, [50, 131], ['_','_','a','r','r','a','y','_','s','t','a','r','_','7'], false, [(1, (false, 0))], 0⟩,
  ⟨197, [197, 50, 131], ['_','_','a','r','r','a','y','_','s','t','a','r','_','7'], false, [(0, (true, 0)), (2, (false, 0))], 0⟩,
  ⟨198, [131, 197, 193], ['_','_','a','r','r','a','y','_','s','t','a','r','_','8'], false, [(0, (false, 0)), (1, (true, 0)), (2, (true, 0))], 0⟩,
  ⟨198, [131, 197], ['_','_','a','r','r','a','y','_','s','t','a','r','_','8'], false, [(0, (false, 0)), (1, (true, 0))], 0⟩,
  ⟨198, [131, 193], ['_','_','a','r','r','a','y','_','s','t','a','r','_','8'], false, [(0, (false, 0)), (1, (true, 0))], 0⟩,
  ⟨198, [131], ['_','_','a','r','r','a','y','_','s','t','a','r','_','8'], false, [(0, (false, 0))], 0⟩,
  ⟨198, [198, 131, 197, 193], ['_','_','a','r','r','a','y','_','s','t','a','r','_','8'], false, [(0, (true, 0)), (1, (false, 0)), (2, (true, 0)), (3, (true, 0))], 0⟩,
  ⟨198, [198, 131, 197], ['_','_','a','r','r','a','y','_','s','t','a','r','_','8'], false, [(0, (true, 0)), (1, (false, 0)), (2, (true, 0))], 0⟩,
  ⟨198, [198, 131, 193], ['_','_','a','r','r','a','y','_','s','t','a','r','_','8'], false, [(0, (true, 0)), (1, (false, 0)), (2, (true, 0))], 0⟩,
  ⟨198, [198, 131], ['_','_','a','r','r','a','y','_','s','t','a','r','_','8'], false, [(0, (true, 0)), (1, (false, 0))], 0⟩,
  ⟨199, [50, 156], ['_','_','o','b','j','e','c','t','_','s','t','a','r','_','9'], false, [(1, (false, 0))], 0⟩,
  ⟨199, [199, 50, 156], ['_','_','o','b','j','e','c','t','_','s','t','a','r','_','9'], false, [(0, (true, 0)), (2, (false, 0))], 0⟩,
  ⟨200, [156, 199, 193], ['_','_','o','b','j','e','c','t','_','s','t','a','r','_','1','0'], false, [(0, (false, 0)), (1, (true, 0)), (2, (true, 0))], 0⟩,
  ⟨200, [156, 199], ['_','_','o','b','j','e','c','t','_','s','t','a','r','_','1','0'], false, [(0, (false, 0)), (1, (true, 0))], 0⟩,
  ⟨200, [156, 193], ['_','_','o','b','j','e','c','t','_','s','t','a','r','_','1','0'], false, [(0, (false, 0)), (1, (true, 0))], 0⟩,
  ⟨200, [156], ['_','_','o','b','j','e','c','t','_','s','t','a','r','_','1','0'], false, [(0, (false, 0))], 0⟩,
  ⟨200, [139, 193], ['_','_','o','b','j','e','c','t','_','s','t','a','r','_','1','0'], false, [(0, (false, 0)), (1, (true, 0))], 0⟩,
  ⟨200, [139], ['_','_','o','b','j','e','c','t','_','s','t','a','r','_','1','0'], false, [(0, (false, 0))], 0⟩,
  ⟨200, [200, 156, 199, 193], ['_','_','o','b','j','e','c','t','_','s','t','a','r','_','1','0'], false, [(0, (true, 0)), (1, (false, 0)), (2, (true, 0)), (3, (true, 0))], 0⟩,
  ⟨200, [200, 156, 199], ['_','_','o','b','j','e','c','t','_','s','t','a','r','_','1','0'], false, [(0, (true, 0)), (1, (false, 0)), (2, (true, 0))], 0⟩,
  ⟨200, [200, 156, 193], ['_','_','o','b','j','e','c','t','_','s','t','a','r','_','1','0'], false, [(0, (true, 0)), (1, (false, 0)), (2, (true, 0))], 0⟩,
  ⟨200, [200, 156], ['_','_','o','b','j','e','c','t','_','s','t','a','r','_','1','0'], false, [(0, (true, 0)), (1, (false, 0))], 0⟩,
  ⟨200, [200, 139, 193], ['_','_','o','b','j','e','c','t','_','s','t','a','r','_','1','0'], false, [(0, (true, 0)), (1, (false, 0)), (2, (true, 0))], 0⟩,
  ⟨200, [200, 139], ['_','_','o','b','j','e','c','t','_','s','t','a','r','_','1','0'], false, [(0, (true, 0)), (1, (false, 0))], 0⟩,
  ⟨201, [159], ['_','_','d','e','c','o','r','a','t','o','r','s','_','p','l','u','s','_','1','1'], false, [(0, (false, 0))], 0⟩,
  ⟨201, [201, 159], ['_','_','d','e','c','o','r','a','t','o','r','s','_','p','l','u','s','_','1','1'], false, [(0, (true, 0)), (1, (false, 0))], 0⟩,
  ⟨202, [50, 5, 131], ['_','_','f','u','n','c','t','i','o','n','_','s','t','a','r','_','1','2'], false, [(2, (false, 0))], 0⟩,
  ⟨202, [50, 131], ['_','_','f','u','n','c','t','i','o','n','_','s','t','a','r','_','1','2'], false, [(1, (false, 0))], 0⟩,
  ⟨202, [202, 50, 5, 131], ['_','_','f','u','n','c','t','i','o','n','_','s','t','a','r','_','1','2'], false, [(0, (true, 0)), (3, (false, 0))], 0⟩,
  ⟨202, [202, 50, 131], ['_','_','f','u','n','c','t','i','o','n','_','s','t','a','r','_','1','2'], false, [(0, (true, 0)), (2, (false, 0))], 0⟩,
  ⟨203, [50, 131], ['_','_','f','u','n','c','t','i','o','n','_','a','c','c','e','s','s','o','r','_','p','l','u','s','_','1','3'], false, [(1, (false, 0))], 0⟩,
  ⟨203, [], ['_','_','f','u','n','c','t','i','o','n','_','a','c','c','e','s','s','o','r','_','p','l','u','s','_','1','3'], false, [], 1⟩,
  ⟨203, [203, 50, 131], ['_','_','f','u','n','c','t','i','o','n','_','a','c','c','e','s','s','o','r','_','p','l','u','s','_','1','3'], false, [(0, (true, 0)), (2, (false, 0))], 0⟩,
  ⟨203, [203], ['_','_','f','u','n','c','t','i','o','n','_','a','c','c','e','s','s','o','r','_','p','l','u','s','_','1','3'], false, [(0, (true, 0))], 1⟩]

end Pycep.Lark

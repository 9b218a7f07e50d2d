import Verif.Spec.LarkWords
import Verif.Proofs.LarkCheck
/-
The regular expressions of Verif/Terminals.lean are those of the grammar file.
-/
namespace Pycep.Lark

theorem inRange_self (a c : Char) : inRange a a c = (c == a) := by
  rw [Bool.eq_iff_iff, inRange]
  simp only [Bool.and_eq_true, decide_eq_true_eq, beq_iff_eq]
  constructor
  · rintro ⟨h1, h2⟩
    exact Char.toNat_inj.mp (by omega)
  · rintro rfl; exact ⟨Nat.le_refl _, Nat.le_refl _⟩

theorem chr_beq (c a : Char) : (c == a) = decide (c = a) := rfl

theorem isWord_us (c : Char) : (isWord c || c == '_') = isWord c := by
  by_cases h : c = '_'
  · subst h; decide
  · simp [h]

theorem cls_alnum : clsPred false [.range 'a' 'z', .range 'A' 'Z', .range '0' '9'] = isAsciiAlnum := by
  funext c; simp [clsPred, ClassItem.mem, isAsciiAlnum, isAsciiAlpha, isAsciiDigit, Bool.or_assoc]

theorem cls_alpha : clsPred false [.range 'A' 'Z', .range 'a' 'z'] = isAsciiAlpha := by
  funext c; simp [clsPred, ClassItem.mem, isAsciiAlpha, Bool.or_comm]

theorem cls_Ll : clsPred false [.range 'L' 'L', .range 'l' 'l'] = fun c => c == 'L' || c == 'l' := by
  funext c; simp [clsPred, ClassItem.mem, inRange_self, chr_beq]

theorem cls_Az : clsPred false [.range 'A' 'z', .range 'a' 'z'] =
    fun c => inRange 'A' 'z' c || inRange 'a' 'z' c := by
  funext c; simp [clsPred, ClassItem.mem]

theorem cls_alpha_us : clsPred false [.range 'a' 'z', .range 'A' 'Z', .range '_' '_'] =
    fun c => isAsciiAlpha c || c == '_' := by
  funext c; simp [clsPred, ClassItem.mem, inRange_self, isAsciiAlpha, Bool.or_assoc, chr_beq]

theorem cls_word : clsPred false [.word, .range '_' '_'] = isWord := by
  funext c; simp [clsPred, ClassItem.mem, inRange_self, isWord_us]

theorem cls_word_dot : clsPred false [.word, .range '_' '_', .range '.' '.'] =
    fun c => isWord c || c == '.' := by
  funext c; simp [clsPred, ClassItem.mem, inRange_self, ← Bool.or_assoc, isWord_us]; rfl

theorem cls_braces : clsPred true [.range '}' '}', .range '\'' '\'', .range '{' '{'] =
    fun c => c != '}' && c != '\'' && c != '{' := by
  funext c; simp [clsPred, ClassItem.mem, inRange_self, bne, Bool.and_assoc, chr_beq]

theorem cls_quote : clsPred true [.range '\'' '\''] = (· != '\'') := by
  funext c; simp [clsPred, ClassItem.mem, inRange_self, bne, chr_beq]

theorem cls_nl : clsPred true [.range '\n' '\n'] = (· != '\n') := by
  funext c; simp [clsPred, ClassItem.mem, inRange_self, bne, chr_beq]

theorem cls_digit : clsPred false [.range '0' '9'] = isAsciiDigit := by
  funext c; simp [clsPred, ClassItem.mem, isAsciiDigit]

set_option maxRecDepth 100000
set_option linter.unusedSimpArgs false

/-- `(?=([Ll]ist[A-za-z]*|getSecret)\()([A-Za-z]+)` -/
theorem reads_LIST_FUNC_NAME :
    Reads ['(', '?', '=', '(', '[', 'L', 'l', ']', 'i', 's', 't', '[', 'A', '-', 'z', 'a', '-', 'z',
      ']', '*', '|', 'g', 'e', 't', 'S', 'e', 'c', 'r', 'e', 't', ')', '\\', '(', ')', '(', '[',
      'A', '-', 'Z', 'a', '-', 'z', ']', '+', ')']
      Terminals.LIST_FUNC_NAME := by
  refine ⟨(.seq (.look (.seq (.alt (.seq (.cls false [.range 'L' 'L', .range 'l' 'l']) (.seq (.chr 'i') (.seq (.chr 's') (.seq (.chr 't') (.star (.cls false [.range 'A' 'z', .range 'a' 'z'])))))) (.seq (.chr 'g') (.seq (.chr 'e') (.seq (.chr 't') (.seq (.chr 'S') (.seq (.chr 'e') (.seq (.chr 'c') (.seq (.chr 'r') (.seq (.chr 'e') (.chr 't')))))))))) (.chr '('))) (.plus (.cls false [.range 'A' 'Z', .range 'a' 'z']))), by decide +kernel, ?_⟩
  intro rec s k
  simp only [Rx.toRe, cls_alnum, cls_alpha, cls_Ll, cls_Az, cls_alpha_us, cls_word, cls_word_dot,
    cls_braces, cls_quote, cls_nl, cls_digit]
  rfl

/-- `((sys|az)\.)?[a-zA-Z0-9]+\(` -/
theorem reads_FUNCTION :
    Reads ['(', '(', 's', 'y', 's', '|', 'a', 'z', ')', '\\', '.', ')', '?', '[', 'a', '-', 'z', 'A',
      '-', 'Z', '0', '-', '9', ']', '+', '\\', '(']
      Terminals.FUNCTION := by
  refine ⟨(.seq (.opt (.seq (.alt (.seq (.chr 's') (.seq (.chr 'y') (.chr 's'))) (.seq (.chr 'a') (.chr 'z'))) (.chr '.'))) (.seq (.plus (.cls false [.range 'a' 'z', .range 'A' 'Z', .range '0' '9'])) (.chr '('))), by decide +kernel, ?_⟩
  intro rec s k
  simp only [Rx.toRe, cls_alnum, cls_alpha, cls_Ll, cls_Az, cls_alpha_us, cls_word, cls_word_dot,
    cls_braces, cls_quote, cls_nl, cls_digit]
  rfl

/-- `(?!.*''')'(\${(?:[^}'{]+|(?R))*+}|\\'|[^'])*'` -/
theorem reads_QUOTED_INTERPOLATION :
    Reads ['(', '?', '!', '.', '*', '\'', '\'', '\'', ')', '\'', '(', '\\', '$', '{', '(', '?', ':',
      '[', '^', '}', '\'', '{', ']', '+', '|', '(', '?', 'R', ')', ')', '*', '+', '}', '|', '\\',
      '\\', '\'', '|', '[', '^', '\'', ']', ')', '*', '\'']
      Terminals.QUOTED_INTERPOLATION := by
  refine ⟨(.seq (.nlook (.seq (.star .dot) (.seq (.chr '\'') (.seq (.chr '\'') (.chr '\''))))) (.seq (.chr '\'') (.seq (.star (.alt (.seq (.chr '$') (.seq (.chr '{') (.seq (.possStar (.alt (.plus (.cls true [.range '}' '}', .range '\'' '\'', .range '{' '{'])) .recur)) (.chr '}')))) (.alt (.seq (.chr '\\') (.chr '\'')) (.cls true [.range '\'' '\''])))) (.chr '\'')))), by decide +kernel, ?_⟩
  intro rec s k
  simp only [Rx.toRe, cls_alnum, cls_alpha, cls_Ll, cls_Az, cls_alpha_us, cls_word, cls_word_dot,
    cls_braces, cls_quote, cls_nl, cls_digit]
  rfl

/-- `'''(?:(?:(?:(?:\r)?\n)+|.*?))+'''` -/
theorem reads_MULTI_LINE_STRING :
    Reads ['\'', '\'', '\'', '(', '?', ':', '(', '?', ':', '(', '?', ':', '(', '?', ':', '\\', 'r',
      ')', '?', '\\', 'n', ')', '+', '|', '.', '*', '?', ')', ')', '+', '\'', '\'', '\'']
      Terminals.MULTI_LINE_STRING := by
  refine ⟨(.seq (.chr '\'') (.seq (.chr '\'') (.seq (.chr '\'') (.seq (.plus (.alt (.plus (.seq (.opt
    (.chr '\r')) (.chr '\n'))) (.lazyStar .dot))) (.seq (.chr '\'') (.seq (.chr '\'') (.chr
    '\''))))))), by decide +kernel, ?_⟩
  intro rec s k
  simp only [Rx.toRe, cls_alnum, cls_alpha, cls_Ll, cls_Az, cls_alpha_us, cls_word, cls_word_dot,
    cls_braces, cls_quote, cls_nl, cls_digit]
  rfl

/-- `(?!(sys|az)\.)[a-zA-Z_]([\w_])*` -/
theorem reads_STRING :
    Reads ['(', '?', '!', '(', 's', 'y', 's', '|', 'a', 'z', ')', '\\', '.', ')', '[', 'a', '-', 'z',
      'A', '-', 'Z', '_', ']', '(', '[', '\\', 'w', '_', ']', ')', '*']
      Terminals.STRING := by
  refine ⟨(.seq (.nlook (.seq (.alt (.seq (.chr 's') (.seq (.chr 'y') (.chr 's'))) (.seq (.chr 'a') (.chr 'z'))) (.chr '.'))) (.seq (.cls false [.range 'a' 'z', .range 'A' 'Z', .range '_' '_']) (.star (.cls false [.word, .range '_' '_'])))), by decide +kernel, ?_⟩
  intro rec s k
  simp only [Rx.toRe, cls_alnum, cls_alpha, cls_Ll, cls_Az, cls_alpha_us, cls_word, cls_word_dot,
    cls_braces, cls_quote, cls_nl, cls_digit]
  rfl

/-- `(?://[^\n]*)?(?:(?:\r)?\n)+` -/
theorem reads__CPP_COMMENT_NL :
    Reads ['(', '?', ':', '/', '/', '[', '^', '\\', 'n', ']', '*', ')', '?', '(', '?', ':', '(', '?',
      ':', '\\', 'r', ')', '?', '\\', 'n', ')', '+']
      Terminals._CPP_COMMENT_NL := by
  refine ⟨(.seq (.opt (.seq (.chr '/') (.seq (.chr '/') (.star (.cls true [.range '\n' '\n']))))) (.plus (.seq (.opt (.chr '\r')) (.chr '\n')))), by decide +kernel, ?_⟩
  intro rec s k
  simp only [Rx.toRe, cls_alnum, cls_alpha, cls_Ll, cls_Az, cls_alpha_us, cls_word, cls_word_dot,
    cls_braces, cls_quote, cls_nl, cls_digit]
  rfl

/-- `'[a-zA-Z_]([\w_.])*'` -/
theorem reads_QUOTED_STRING :
    Reads ['\'', '[', 'a', '-', 'z', 'A', '-', 'Z', '_', ']', '(', '[', '\\', 'w', '_', '.', ']', ')',
      '*', '\'']
      Terminals.QUOTED_STRING := by
  refine ⟨(.seq (.chr '\'') (.seq (.cls false [.range 'a' 'z', .range 'A' 'Z', .range '_' '_']) (.seq (.star (.cls false [.word, .range '_' '_', .range '.' '.'])) (.chr '\'')))), by decide +kernel, ?_⟩
  intro rec s k
  simp only [Rx.toRe, cls_alnum, cls_alpha, cls_Ll, cls_Az, cls_alpha_us, cls_word, cls_word_dot,
    cls_braces, cls_quote, cls_nl, cls_digit]
  rfl

/-- `(sys\.)?[a-zA-Z0-9]+` -/
theorem reads_decoratorName :
    Reads ['(', 's', 'y', 's', '\\', '.', ')', '?', '[', 'a', '-', 'z', 'A', '-', 'Z', '0', '-', '9',
      ']', '+']
      Terminals.decoratorName := by
  refine ⟨(.seq (.opt (.seq (.chr 's') (.seq (.chr 'y') (.seq (.chr 's') (.chr '.'))))) (.plus (.cls false [.range 'a' 'z', .range 'A' 'Z', .range '0' '9']))), by decide +kernel, ?_⟩
  intro rec s k
  simp only [Rx.toRe, cls_alnum, cls_alpha, cls_Ll, cls_Az, cls_alpha_us, cls_word, cls_word_dot,
    cls_braces, cls_quote, cls_nl, cls_digit]
  rfl

/-- `/\*(.|\n)*?\*/` -/
theorem reads_C_COMMENT :
    Reads ['/', '\\', '*', '(', '.', '|', '\\', 'n', ')', '*', '?', '\\', '*', '/']
      Terminals.C_COMMENT := by
  refine ⟨(.seq (.chr '/') (.seq (.chr '*') (.seq (.lazyStar (.alt .dot (.chr '\n'))) (.seq (.chr '*')
    (.chr '/'))))), by decide +kernel, ?_⟩
  intro rec s k
  simp only [Rx.toRe, cls_alnum, cls_alpha, cls_Ll, cls_Az, cls_alpha_us, cls_word, cls_word_dot,
    cls_braces, cls_quote, cls_nl, cls_digit]
  rfl

/-- `(?:(?:\t|\ ))+` -/
theorem reads_WS_INLINE :
    Reads ['(','?',':','(','?',':','\\','t','|','\\',' ',')',')','+']
      Terminals.WS_INLINE := by
  refine ⟨(.plus (.alt (.chr '\t') (.chr ' '))), by decide +kernel, ?_⟩
  intro rec s k
  simp only [Rx.toRe, cls_alnum, cls_alpha, cls_Ll, cls_Az, cls_alpha_us, cls_word, cls_word_dot,
    cls_braces, cls_quote, cls_nl, cls_digit]
  rfl

/-- `(?:(?:\r)?\n)+` -/
theorem reads__NEWLINE :
    Reads ['(', '?', ':', '(', '?', ':', '\\', 'r', ')', '?', '\\', 'n', ')', '+']
      Terminals._NEWLINE := by
  refine ⟨(.plus (.seq (.opt (.chr '\r')) (.chr '\n'))), by decide +kernel, ?_⟩
  intro rec s k
  simp only [Rx.toRe, cls_alnum, cls_alpha, cls_Ll, cls_Az, cls_alpha_us, cls_word, cls_word_dot,
    cls_braces, cls_quote, cls_nl, cls_digit]
  rfl

/-- `(?:[0-9])+` -/
theorem reads_INT :
    Reads ['(', '?', ':', '[', '0', '-', '9', ']', ')', '+']
      Terminals.INT := by
  refine ⟨(.plus (.cls false [.range '0' '9'])), by decide +kernel, ?_⟩
  intro rec s k
  simp only [Rx.toRe, cls_alnum, cls_alpha, cls_Ll, cls_Az, cls_alpha_us, cls_word, cls_word_dot,
    cls_braces, cls_quote, cls_nl, cls_digit]
  rfl

/-- `#[^\n]*` -/
theorem reads_SH_COMMENT :
    Reads ['#', '[', '^', '\\', 'n', ']', '*']
      Terminals.SH_COMMENT := by
  refine ⟨(.seq (.chr '#') (.star (.cls true [.range '\n' '\n']))), by decide +kernel, ?_⟩
  intro rec s k
  simp only [Rx.toRe, cls_alnum, cls_alpha, cls_Ll, cls_Az, cls_alpha_us, cls_word, cls_word_dot,
    cls_braces, cls_quote, cls_nl, cls_digit]
  rfl

/-- `\*` -/
theorem reads_importStar :
    Reads ['\\', '*']
      Terminals.importStar := by
  refine ⟨(.chr '*'), by decide +kernel, ?_⟩
  intro rec s k
  simp only [Rx.toRe, cls_alnum, cls_alpha, cls_Ll, cls_Az, cls_alpha_us, cls_word, cls_word_dot,
    cls_braces, cls_quote, cls_nl, cls_digit]
  rfl

/-- Terminals of the grammar file and terminals of the lexer agree one by one. -/
inductive Agree : List TermDef → List Terminal → Prop where
  | nil : Agree [] []
  | str {n name s str ds es} : name = String.ofList n → str = String.ofList s → Agree ds es →
      Agree (⟨n, 0, .str s⟩ :: ds) (Terminal.ofStr name str :: es)
  | re {n name p src r ds es} : name = String.ofList n → Reads src r → Agree ds es →
      Agree (⟨n, p, .re src⟩ :: ds) (Terminal.ofRe name p r :: es)

/-- The terminals of the lexer are those of the grammar file. -/
theorem terms_agree : Agree larkTerms terminals := by
  unfold larkTerms terminals
  refine .re rfl reads_LIST_FUNC_NAME ?_
  refine .re rfl reads_FUNCTION ?_
  refine .re rfl reads_QUOTED_INTERPOLATION ?_
  refine .re rfl reads_MULTI_LINE_STRING ?_
  refine .re rfl reads_STRING ?_
  refine .re rfl reads__CPP_COMMENT_NL ?_
  refine .re rfl reads_QUOTED_STRING ?_
  refine .re rfl reads_decoratorName ?_
  refine .re rfl reads_C_COMMENT ?_
  refine .re rfl reads_WS_INLINE ?_
  refine .re rfl reads__NEWLINE ?_
  refine .re rfl reads_INT ?_
  refine .re rfl reads_SH_COMMENT ?_
  refine .str rfl rfl ?_
  refine .str rfl rfl ?_
  refine .str rfl rfl ?_
  refine .str rfl rfl ?_
  refine .str rfl rfl ?_
  refine .str rfl rfl ?_
  refine .str rfl rfl ?_
  refine .str rfl rfl ?_
  refine .str rfl rfl ?_
  refine .str rfl rfl ?_
  refine .str rfl rfl ?_
  refine .str rfl rfl ?_
  refine .str rfl rfl ?_
  refine .str rfl rfl ?_
  refine .str rfl rfl ?_
  refine .str rfl rfl ?_
  refine .str rfl rfl ?_
  refine .str rfl rfl ?_
  refine .str rfl rfl ?_
  refine .str rfl rfl ?_
  refine .str rfl rfl ?_
  refine .str rfl rfl ?_
  refine .str rfl rfl ?_
  refine .str rfl rfl ?_
  refine .str rfl rfl ?_
  refine .str rfl rfl ?_
  refine .str rfl rfl ?_
  refine .str rfl rfl ?_
  refine .str rfl rfl ?_
  refine .str rfl rfl ?_
  refine .str rfl rfl ?_
  refine .str rfl rfl ?_
  refine .str rfl rfl ?_
  refine .re rfl reads_importStar ?_
  refine .str rfl rfl ?_
  refine .str rfl rfl ?_
  refine .str rfl rfl ?_
  refine .str rfl rfl ?_
  refine .str rfl rfl ?_
  refine .str rfl rfl ?_
  refine .str rfl rfl ?_
  refine .str rfl rfl ?_
  refine .str rfl rfl ?_
  refine .str rfl rfl ?_
  refine .str rfl rfl ?_
  refine .str rfl rfl ?_
  refine .str rfl rfl ?_
  refine .str rfl rfl ?_
  refine .str rfl rfl ?_
  refine .str rfl rfl ?_
  refine .str rfl rfl ?_
  refine .str rfl rfl ?_
  refine .str rfl rfl ?_
  refine .str rfl rfl ?_
  refine .str rfl rfl ?_
  exact .nil

end Pycep.Lark

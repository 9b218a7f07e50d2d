#!/usr/bin/env python3
"""Writes Verif/LarkText.lean: the text of /repo/pycep/bicep.lark, line by line, as strings and as
lists of characters (the kernel computes with the latter)."""
lines = open('/repo/pycep/bicep.lark').read().split('\n')
assert lines[-1] == ''
lines = lines[:-1]
def ch(c):
    return {"'": "'\\''", '\\': "'\\\\'"}.get(c, "'%s'" % c)
def chars(l):
    out, cur = [], '    ['
    for i, c in enumerate(l):
        x = ch(c) + (',' if i + 1 < len(l) else '')
        if len(cur) + len(x) > 98:
            out.append(cur); cur = '     '
        cur += x
    return '\n'.join(out + [cur + ']'])
out = ['''/-
GENERATED by tools/gen_larktext.py. Do not edit.
The text of the grammar file pycep/bicep.lark, verbatim, one string per line.
-/
namespace Pycep.Lark

/-- The lines of pycep/bicep.lark (1-%d). -/
def grammarLines : List String := [''' % len(lines)]
for l in lines:
    assert '"#' not in l
out.append(',\n'.join('  r#"%s"#' % l for l in lines) + ']')
out.append('''
/-- The same lines as lists of characters. -/
def grammarChars : List (List Char) := [''')
out.append(',\n'.join(chars(l) for l in lines) + ']')
out.append('''
/-- One line. -/
theorem line_eq {s : String} {l : List Char} {ls : List String} {cs : List (List Char)}
    (h : s = String.ofList l) (t : ls.map String.toList = cs) :
    (s :: ls).map String.toList = l :: cs := by
  rw [List.map_cons, h, String.toList_ofList, t]

set_option maxRecDepth 20000 in
/-- Both are the same text. -/
theorem grammarChars_eq : grammarLines.map String.toList = grammarChars := by
  unfold grammarLines grammarChars
  repeat refine line_eq rfl ?_
  exact rfl

end Pycep.Lark''')
open('/verif/lean/Verif/LarkText.lean', 'w').write('\n'.join(out) + '\n')

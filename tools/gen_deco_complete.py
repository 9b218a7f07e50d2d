"""Writes lean/Verif/Proofs/DecoComplete.lean: derivations of decorators (rules 146-222)."""
import os
out = os.path.join(os.path.dirname(__file__), '..', 'lean', 'Verif', 'Proofs', 'DecoComplete.lean')
L = ['''import Verif.Proofs.SynComplete
/-
Decorators have admissible derivations.  Written by tools/gen_deco_complete.py.
-/
set_option linter.style.nameCheck false
set_option linter.unusedSimpArgs false
set_option linter.unusedVariables false
namespace Pycep
''']
groups = [  # name, first rule, break before the argument, argument, break behind it
    ('bab', 146, 1, True, 1), ('ba', 157, 1, True, 0), ('bb', 168, 2, False, 0), ('b', 179, 1, False, 0),
    ('ab', 190, 0, True, 1), ('a', 201, 0, True, 0), ('none', 212, 0, False, 0)]
for name, first, pre, arg, post in groups:
    pres = ['x%d' % i for i in range(pre)]
    posts = ['y%d' % i for i in range(post)]
    toks = ['a', 'u', 'p'] + pres + posts + ['q']
    hy = '(ka : a.type = T.AT) (ku : u.type = T.__ANON_2) (kp : p.type = T.LPAR) '
    hy += ''.join('(k%s : %s.type = T._CPP_COMMENT_NL) ' % (x, x) for x in pres + posts)
    hy += '(kq : q.type = T.RPAR) '
    if arg:
        hy += '(h : Y N.value_brackets c w %s.type) ' % (posts + ['q'])[0]
    def word(rest):
        ws = ['a', 'u', 'p'] + pres
        s = rest
        s = 'q :: ' + s
        for x in reversed(posts):
            s = x + ' :: ' + s
        if arg:
            s = '(w ++ (' + s + '))'
        for x in reversed(ws):
            s = x + ' :: ' + s
        return '(' + s + ')'
    kids = 'tk T.__ANON_2 u.text :: [c]' if arg else '[tk T.__ANON_2 u.text]'
    L.append('theorem deco_%s {%s : Tok} %s{n : Nat} %s:\n    ∀ w4 : List Tok, Breaks w4 → w4.length ≤ 10 →\n      Y N.decorator (nd "decorator" (%s)) %s n' % (
        name, ' '.join(toks), '{c : Tree} {w : List Tok} ' if arg else '', hy, kids, word('w4')))
    args = ['ka', 'ku', 'kp'] + ['k' + x for x in pres] + (['h'] if arg else []) + ['k' + x for x in posts] + ['kq']
    for k in range(11):
        vs = ['z%d' % i for i in range(k)]
        ks = ['(hb z%d (by simp))' % i for i in range(k)]
        L.append('  | [%s], hb, _ => y_%d %s' % (', '.join(vs), first + k, ' '.join(args + ks)))
    L.append('  | _ :: _ :: _ :: _ :: _ :: _ :: _ :: _ :: _ :: _ :: _ :: _, _, h => by simp at h')
    L.append('')
L.append('end Pycep')
open(out, 'w').write('\n'.join(L) + '\n')

#!/usr/bin/env python3
"""Writes lean/Verif/Proofs/Yields*.lean: one lemma per grammar rule, building a node from the trees
of the right-hand side."""
import os, sys
sys.path.insert(0, os.path.dirname(os.path.abspath(__file__)))
from lark_tables import *
OUT=os.path.join(os.path.dirname(os.path.abspath(__file__)),'..','lean','Verif','Proofs')
META="scope custom_import extension metadata param var output resource child_resource module custom_type custom_func".split()
def symn(s): return ('T.' if s[0]=='T' else 'N.')+'«'+s[1]+'»'
def word(r,i):
    """tokens from position i on"""
    m=len(r.rhs)
    if i==m: return '[]'
    s=r.rhs[i]
    if s[0]=='T': return f'[u{i}]' if i==m-1 else f'(u{i} :: {word(r,i+1)})'
    return f'w{i}' if i==m-1 else f'(w{i} ++ {word(r,i+1)})'
def nxt(r,i):
    m=len(r.rhs)
    if i==m: return 'n'
    s=r.rhs[i]
    if s[0]=='T': return f'u{i}.type'
    return f'(nextT w{i} {nxt(r,i+1)})'
KK="keepKids', List.flatMap_cons, List.flatMap_nil, List.replicate_zero, List.replicate_succ, List.getElem?_cons_zero, List.getElem?_cons_succ, Bool.false_eq_true, if_true, if_false, List.append_nil, List.nil_append, List.cons_append, List.append_assoc, kidsOf_nd"
def lemma(ix,r):
    name=r.alias or r.lhs
    ex=r.o['expand1'] and not r.alias
    inc=', '.join('(%d, %s, %d)'%(a,'true' if b else 'false',c) for a,b,c in r.inc)
    rule=f'⟨N.«{r.lhs}», [{", ".join(symn(s) for s in r.rhs)}], "{name}", {"true" if ex else "false"}, [{inc}], {r.tail}⟩'
    inl={a for a,b,c in r.inc if b}
    m=len(r.rhs)
    names=[s[1] for s in r.rhs]
    hyps=[]; imps=['{n : Nat}']
    gap=''
    for i,s in enumerate(r.rhs):
        if s[0]=='T': imps.append(f'{{u{i} : Tok}}'); hyps.append(f'(k{i} : u{i}.type = T.«{s[1]}»)')
        elif i in inl: imps.append(f'{{t{i} : List Tree}} {{w{i} : List Tok}}'); hyps.append(f'(h{i} : Y N.«{s[1]}» (nd "{s[1]}" t{i}) w{i} {nxt(r,i+1)})')
        else: imps.append(f'{{c{i} : Tree}} {{w{i} : List Tok}}'); hyps.append(f'(h{i} : Y N.«{s[1]}» c{i} w{i} {nxt(r,i+1)})')
        if i+1<m and s[1]=='value_brackets' and names[i+1]=='value_brackets':
            hyps.append(f'(hg : {nxt(r,i+1)} ≠ T.MINUS ∧ {nxt(r,i+1)} ≠ T.LSQB)')
    # look-ahead
    last=names[-1] if names else None
    if r.lhs=='value_brackets' and last!='BANG':
        hyps.append('(hn : NoBang n)')
        bad='(by unfold badNode badReduce; rw [beq_false hn.ne]; rfl)'
    elif names==['key','COLON','value_brackets','QMARK']:
        hyps.append('(hn : n ≠ T.STRING) (hn2 : n ≠ T.QUOTED_INTERPOLATION)')
        bad='(by unfold badNode badReduce; rw [beq_false hn, beq_false hn2]; rfl)'
    elif r.lhs=='child_resource':
        hyps.append('(hn : n ≠ T._CPP_COMMENT_NL)')
        bad='(by unfold badNode badReduce; rw [beq_false hn]; rfl)'
    elif r.lhs=='__start_star_0' and last=='element':
        hyps.append('(hn : n ≠ T._CPP_COMMENT_NL)')
        bad='(by unfold badNode badReduce; rw [beq_false hn]; rfl)'
    elif names==[] and r.lhs=='__function_accessor_plus_13':
        hyps.append('(hn : n ≠ T.COMMA)')
        bad='(by unfold badNode badReduce; rw [beq_false hn]; rfl)'
    elif last=='value_brackets':
        hyps.append('(hn : NoInfix n)')
        bad='(free_infix (by decide) hn)'
    else:
        bad='(free_plain (by decide) (by decide))'
    # kids
    parts=[]
    for a,b,c in r.inc:
        parts+=['N']*c
        s=r.rhs[a]
        parts.append(('I',f't{a}') if b else (f'tk T.«{s[1]}» u{a}.text' if s[0]=='T' else f'c{a}'))
    parts+=['N']*r.tail
    def lst(ps):
        if not ps: return '[]'
        p=ps[0]
        if isinstance(p,tuple):
            return p[1] if len(ps)==1 else f'({p[1]} ++ {lst(ps[1:])})'
        if p=='N': p='Tree.none'
        return f'[{p}]' if len(ps)==1 else f'({p} :: {lst(ps[1:])})'
    # derivation
    der='.nil'
    for i in reversed(range(m)):
        s=r.rhs[i]
        if s[0]=='T': der=f'(.tok k{i} (by decide) {der})'
        else:
            vb=i+1<m and s[1]=='value_brackets' and names[i+1]=='value_brackets'
            g='(fun _ _ => by simpa only [NN] using hg)' if vb else '(fun h h\' => by first | exact absurd h (by decide) | exact absurd h\' (by decide))'
            der=f'(.nt (by simpa only [NN] using h{i}) {der} {g})'
    W=word(r,0)
    kid=lst(parts)
    ks='(by simp only [KK] <;> rfl)'
    dt=f'(by have := {der}; simpa only [NN] using this)'
    cs='['+', '.join(f'tk T.«{s[1]}» u{i}.text' if s[0]=='T' else (f'nd "{s[1]}" t{i}' if i in inl else f'c{i}') for i,s in enumerate(r.rhs))+']'
    fw='('+''.join(f'u{i} :: (' if x[0]=='T' else f'w{i} ++ (' for i,x in enumerate(r.rhs))+'[]'+')'*m+')'
    syms='['+', '.join(symn(s) for s in r.rhs)+']'
    dt=f'(by have : YL {syms} {cs} {fw} n := {der}; simpa only [NN] using this)'
    if name in META:
        hyps.append(f'{{l : Lines}} (hl : LinesOf l {W})')
        concl=f'ndl "{name}" {kid} l'
        pf=f'Y.nodeL {rule} (by decide +kernel) rfl (by decide) {bad} hl (cs := {cs}) {dt} {ks}'
    elif ex and any(b for _,b,_ in r.inc):
        assert r.lhs=='type_value'
        imps.append('{t : Tree}'); hyps=[h.replace('(nd "__type_value_star_4" t1)','(nd "__type_value_star_4" (t :: t1))') for h in hyps]
        concl='nd "type_value" (c0 :: t :: t1)'
        dt=dt.replace('"__type_value_star_4" t1','"__type_value_star_4" (t :: t1)')
        cs=cs.replace('"__type_value_star_4" t1','"__type_value_star_4" (t :: t1)')
        pf=f'Y.long {rule} (by decide +kernel) rfl (by decide) {bad} (cs := {cs}) {dt} {ks}'
    elif ex:
        assert len(parts)==1
        if parts[0].startswith('tk'): mt='rfl'
        else: hyps.append(f'(hm : isMeta {parts[0]} = false)'); mt='hm'
        concl=parts[0]
        pf=f'Y.ex {rule} (by decide +kernel) rfl (by decide) {bad} (cs := {cs}) {dt} {ks} {mt}'
    else:
        concl=f'nd "{name}" {kid}'
        pf=f'Y.node {rule} (by decide +kernel) rfl (by decide) {bad} (cs := {cs}) {dt} {ks}'
    out=f'theorem y_{ix} {" ".join(imps+hyps)} :\n    Y N.«{r.lhs}» ({concl}) {W} n :=\n  {pf}\n'
    return out.replace('[NN]','[List.append_assoc, List.nil_append, List.append_nil, List.cons_append, nextT_append, nextT_cons, nextT_nil]').replace('[KK]','['+KK+']')
HEAD='''import Verif.Proofs.YieldBase
/-
GENERATED by tools/gen_yields.py.
Building the node of each grammar rule from the trees of its right-hand side.
-/
set_option linter.all false
namespace Pycep
'''
if __name__=='__main__':
    res={i:lemma(i,r) for i,r in enumerate(compiled) if [s[1] for s in r.rhs]!=['__function_accessor_plus_13']}
    keys=sorted(res); NF=3
    for k in range(NF):
        open(f'{OUT}/Yields{k}.lean','w').write(HEAD+'\n'.join(res[i] for i in keys if i%NF==k)+'\nend Pycep\n')

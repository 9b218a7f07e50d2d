#!/usr/bin/env python3
"""Writes lean/Verif/Items.lean: LR items of the states, certificates for the completeness proof."""
import os, sys
sys.path.insert(0, os.path.dirname(__file__))
from lark_tables import *
src=open(os.path.join(os.path.dirname(__file__),'gen_lean.py')).read()
# numbering of symbols and layout helpers: the same as in gen_lean.py
exec(src[src.index('srt='):src.index("def q(s)")])
exec(src[src.index('def braun('):src.index('t=f"""import Verif.Braun\n/-\nGENERATED by tools/gen_lean.py from the text')])
OUT=os.path.join(os.path.dirname(__file__),'..','lean','Verif')
S=len(order)
FIRST=defaultdict(set); ch=True
def firstseq(seq,L):
    out=set()
    for s in seq:
        if s[0]=='T': out.add(s[1]); return out
        out|=FIRST[s[1]]
        if s[1] not in nullable: return out
    return out|set(L)
while ch:
    ch=False
    for r in compiled:
        f=firstseq(r.rhs,())
        if not f<=FIRST[r.lhs]: FIRST[r.lhs]|=f; ch=True
ALL=set(terminals)|{'$END'}
VB='value_brackets'
def G(ri,d):
    r=allr[ri]
    if 1<=d<len(r.rhs) and r.rhs[d-1][1]==VB and r.rhs[d][1]==VB: return ALL-{'MINUS','LSQB'}
    return ALL
ker=[dict() for _ in range(S)]; clo=[dict() for _ in range(S)]
work=[]
def addk(s,it,L):
    o=ker[s].get(it)
    if o is None or not L<=o:
        ker[s][it]=(o or set())|L; work.append(('k',s,it))
def addc(s,X,F,L):
    o=clo[s].get(X,(set(),set()))
    if X not in clo[s] or not F<=o[0] or not L<=o[1]:
        clo[s][X]=(o[0]|F,o[1]|L); work.append(('c',s,X))
def proc(s,ri,d,F,L):
    r=allr[ri]
    if d==len(r.rhs): return
    X=r.rhs[d]
    if X[0]=='T':
        if X[1] in F: addk(trans[s][('T',X[1])],(ri,d+1),L)
    else:
        if not (FIRST[X[1]]&F) and X[1] not in nullable: return
        addc(s,X[1],F,firstseq(r.rhs[d+1:],L)&G(ri,d+1))
        addk(trans[s][('N',X[1])],(ri,d+1),L)
addc(0,'start',set(ALL),{'$END'})
while work:
    k,s,it=work.pop()
    if k=='k': proc(s,it[0],it[1],G(*it),set(ker[s][it]))
    else:
        F,L=clo[s][it]
        for r in by[it]: proc(s,rid[id(r)],0,set(F),set(L))
def mask(l): return sum(1<<tid[x] for x in l)
def showi(d): return '['+','.join(f'({i},{p},{hex(mask(L))})' for (i,p),L in sorted(d.items()))+']'
def showc(d): return '['+','.join(f'({NT+nid[x]},{hex(mask(F))},{hex(mask(L))})' for x,(F,L) in sorted(d.items(),key=lambda e:nid[e[0]]))+']'
def showr(r): return f'({sym(("N",r.lhs))},['+','.join(str(sym(s)) for s in r.rhs)+'])'
def showl(l): return '['+','.join(map(str,l))+']'
t=f"""import Verif.Braun
/-
GENERATED by tools/gen_items.py. Do not edit.
Certificates about the automaton: not part of the model, only used (and checked) by the proofs.
Sets of terminals are bit masks.
-/
namespace Pycep
/-- LR items of a state behind at least one symbol: rule, position, what can follow -/
def itemTab : Bt (List (Nat × Nat × Nat)) :=
  {tree(ker,showi)}
/-- nonterminals that can start in a state: what they may start with, what can follow -/
def closTab : Bt (List (Nat × Nat × Nat)) :=
  {tree(clo,showc)}
/-- left and right-hand sides of the rules -/
def ruleTab : Bt (Nat × List Nat) :=
  {tree(list(compiled),showr)}
/-- rules of a nonterminal (by number minus 128) -/
def prodTab : Bt (List Nat) :=
  {tree([[i for i,r in enumerate(compiled) if r.lhs==n] for n in ntnames],showl)}
/-- first tokens of a nonterminal (by number minus 128) -/
def firstTab : Bt Nat :=
  {tree([mask(FIRST[n]) for n in ntnames])}
/-- the nonterminals (by number minus 128) that derive the empty sequence -/
def nullMask : Nat := {hex(sum(1<<nid[n] for n in ntnames if n in nullable))}
end Pycep
"""
open(OUT+'/Items.lean','w').write(t)

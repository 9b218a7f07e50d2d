#!/usr/bin/env python3
"""Writes lean/Verif/Grammar.lean (terminals, rules) and lean/Verif/Table.lean (LALR table)."""
import os, sys
sys.path.insert(0, os.path.dirname(__file__))
from lark_tables import *
OUT=os.path.join(os.path.dirname(__file__),'..','lean','Verif')
srt=sorted(terminals,key=lambda n:(-terminals[n][1],-terminals[n][0].mm()[1],-len(terminals[n][0].value),n))
tid={n:i for i,n in enumerate(srt)}; END=len(srt); tid['$END']=END
ntnames=[]
for r in compiled:
    if r.lhs not in ntnames: ntnames.append(r.lhs)
nid={n:i for i,n in enumerate(ntnames)}
NT=128
def sym(s): return tid[s[1]] if s[0]=='T' else NT+nid[s[1]]
def q(s): return '"'+s.replace('\\','\\\\').replace('"','\\"')+'"'
g=[]
g.append('''import Verif.Terminals
/-
GENERATED by tools/gen_lean.py from the text of /repo/pycep/bicep.lark. Do not edit.

* `terminals`: the terminals of the grammar in the order in which Lark's BasicLexer sorts them
  (priority, maximal width, length of the pattern, name); the position in the list is the id.
* `rules`: the BNF rules Lark compiles the EBNF grammar to (load_grammar.py: EBNF_to_BNF,
  SimplifyRule_Visitor, Grammar.compile), together with what ParseTreeBuilder does with the
  children (filter_out, inlining of `_rules`, `[...]` placeholders, `?rules`, aliases).
-/
namespace Pycep
''')
g.append('/-- All terminals, in scanning order.  Ids are positions; id %d is `$END`. -/'%END)
g.append('def terminals : List Terminal := [')
rows=[]
for n in srt:
    pt,pr=terminals[n]
    if pt.kind=='str': rows.append(f'  Terminal.ofStr {q(n)} {q(pt.value)}')
    else: rows.append(f'  Terminal.ofRe {q(n)} {pr} Terminals.{ {"__ANON_1":"importStar","__ANON_2":"decoratorName"}.get(n,n)}')
    assert pt.kind=='re' or pr==0
g.append(',\n'.join(rows)+']\n')
g.append('/-- id of the end-of-input pseudo terminal -/\ndef tEND : Nat := %d\n'%END)
g.append('namespace T')
for n in srt:
    g.append(f'@[match_pattern] abbrev {n} : Nat := {tid[n]}')
g.append('end T\n')
g.append('/-- terminals named by `%%ignore` (bicep.lark:%s) -/'%','.join(str(i+1) for i,l in enumerate(GRAMMAR.split('\n')) if l.startswith('%ignore')))
g.append('def ignoreIds : List Nat := [%s]\n'%', '.join(str(tid[n]) for n in ignore))
g.append('/-- names of the nonterminals; the symbol number of the i-th one is `128 + i` -/')
g.append('def ntNames : List String := [\n'+',\n'.join('  '+q(n) for n in ntnames)+']\n')
g.append('namespace N')
for n in ntnames: g.append(f'@[match_pattern] abbrev «{n}» : Nat := {NT+nid[n]}')
g.append('end N\n')
# line of rule definitions
lines={}
for i,l in enumerate(GRAMMAR.split('\n')):
    m=re.match(r'[!?]*(_*[a-z][a-z_0-9]*)(\.\d+)?:',l)
    if m: lines[m.group(1)]=i+1
def desc(s): return s[1]
g.append('/-- The compiled rules (index = rule number used by the table). -/')
g.append('def rules : List Rule := [')
rows=[]
for i,r in enumerate(compiled):
    name=r.alias or r.lhs
    ex='true' if r.o['expand1'] and not r.alias else 'false'
    inc=', '.join('(%d, %s, %d)'%(a,'true' if b else 'false',c) for a,b,c in r.inc)
    ln=lines.get(r.lhs); src=f' (bicep.lark:{ln})' if ln else ''
    rows.append(f'  -- {i}: {r.lhs} : {" ".join(desc(s) for s in r.rhs) or "ε"}{" -> "+r.alias if r.alias else ""}{src}\n'
                f'  ⟨{sym(("N",r.lhs))}, [{", ".join(str(sym(s)) for s in r.rhs)}], {q(name)}, {ex}, [{inc}], {r.tail}⟩')
g.append(',\n'.join(rows)+']\n')
g.append('attribute [irreducible] rules\n')
g.append('end Pycep')
open(OUT+'/Grammar.lean','w').write('\n'.join(g)+'\n')
# table
S=len(order); WA=END+1; WG=len(ntnames); R=len(compiled)
endst=gotos[0]['start']
arow=[0]*S; grow=[0]*S
for s in range(S):
    for t,(k,x) in actions[s].items():
        arow[s]|=(1+x if k=='s' else S+1+x)<<(10*tid[t])
    for n,x in gotos[s].items(): grow[s]|=(1+x)<<(10*nid[n])
assert S+1+R<1024
def braun(xs,show):
    if not xs: return '.l'
    return '(.n '+braun(xs[1::2],show)+' '+show(xs[0])+' '+braun(xs[2::2],show)+')'
def wrap(s,w=96):
    out=[]; cur=''
    for tok in s.split(' '):
        if len(cur)+1+len(tok)>w: out.append(cur); cur=tok
        else: cur=cur+' '+tok if cur else tok
    return '\n  '.join(out+[cur])
def tree(xs,show=hex): return wrap(braun(xs,show))
t=f"""import Verif.Braun
/-
GENERATED by tools/gen_lean.py from the text of /repo/pycep/bicep.lark. Do not edit.

LALR(1) table of the compiled grammar ({S} states, {R} rules), with Lark's conflict policy: a shift
wins over a reduction; there are no unresolved reduce/reduce conflicts ({sr} shift/reduce ones).

Both tables have one row per state; a row is a natural number made of 10-bit cells:
* action cell number `terminal`; value 0 = error, `1 + s` = shift and go to state `s`,
  `{S+1} + r` = reduce by rule `r`;
* goto cell number `nonterminal - 128`; value 0 = none, `1 + s` = go to state `s`.
-/
namespace Pycep
def numStates : Nat := {S}
def numTerms : Nat := {WA}
def numNts : Nat := {WG}
def numRules : Nat := {R}
/-- state reached from the initial state 0 on `start` -/
def endState : Nat := {endst}
/-- action rows -/
def actionRows : Bt Nat :=
  {tree(arow)}
/-- goto rows -/
def gotoRows : Bt Nat :=
  {tree(grow)}
end Pycep
"""
open(OUT+'/Table.lean','w').write(t)
# facts about the automaton used by the proofs: symbols and states known below each state
acc=[None]*S; preds=[set() for _ in range(S)]
for s in range(S):
    for x,tt in trans[s].items():
        if x==('T','$END'): continue
        v=sym((x[0],x[1])); assert acc[tt] in(None,v); acc[tt]=v; preds[tt].add(s)
MAXL=max(len(r.rhs) for r in compiled)
def lcp(a,b):
    n=0
    while n<len(a) and n<len(b) and a[n]==b[n]: n+=1
    return a[:n]
past=[None]*S; past[0]=[]
ch=True
while ch:
    ch=False
    for s in range(S):
        if past[s] is None: continue
        for x,tt in trans[s].items():
            if x==('T','$END'): continue
            v=([sym((x[0],x[1]))]+past[s])[:MAXL]
            n=v if past[tt] is None else lcp(past[tt],v)
            if n!=past[tt]: past[tt]=n; ch=True
past=[p or [] for p in past]
masks=[]
for s in range(S):
    cur={s}; ms=[]
    for i in range(len(past[s])):
        nxt=set()
        for q in cur: nxt|=preds[q]
        ms.append(sum(1<<q for q in nxt)); cur=nxt
    masks.append(ms)
gm=[0]*WG
for s in range(S):
    for n in gotos[s]: gm[nid[n]]|=1<<s
# rank of symbols: decreases along unit rules
rank={n:0 for n in ntnames}; ch=True
T_RANK=40
used={x for a in actions for k,x in a.values() if k=='r'}
unit=[(r.lhs,r.rhs[0]) for i,r in enumerate(compiled) if len(r.rhs)==1 and i in used]
while ch:
    ch=False
    for a,b in unit:
        if b[0]=='N' and rank[b[1]]<=rank[a]: rank[b[1]]=rank[a]+1; ch=True
assert max(rank.values())<T_RANK
def showl(l): return '['+','.join(map(str,l))+']'
def showh(l): return '['+','.join(map(hex,l))+']'
t=f"""import Verif.Braun
/-
GENERATED by tools/gen_lean.py. Do not edit.
Certificates about the automaton: not part of the model, only used (and checked) by the proofs.
-/
namespace Pycep
/-- grammar symbols that must be on top of the stack in a state, topmost first -/
def pastSyms : Bt (List Nat) :=
  {tree(past,showl)}
/-- sets of states (bit masks) that can be 1, 2, ... entries below a state -/
def pastMasks : Bt (List Nat) :=
  {tree(masks,showh)}
/-- states with a goto on a nonterminal -/
def gotoMasks : Bt Nat :=
  {tree(gm)}
/-- ranks of the nonterminals (by number minus 128), decreasing from right to left in unit rules -/
def ntRanks : Bt Nat :=
  {tree([rank[n] for n in ntnames],str)}
end Pycep
"""
open(OUT+'/Past.lean','w').write(t)
# what the rules keep of their right-hand sides, without duplicates
pats={}
for r in compiled:
    seq=[]
    for a,b,c in r.inc:
        seq+=['.none']*c+[('.inl ' if b else '.sym ')+('T.' if r.rhs[a][0]=='T' else 'N.')+'«'+r.rhs[a][1]+'»']
    seq+=['.none']*r.tail
    name=r.alias or r.lhs
    ex='true' if r.o['expand1'] and not r.alias else 'false'
    row=f'⟨N.«{r.lhs}», "{name}", {ex}, [{", ".join(seq)}]⟩'
    l=pats.setdefault(r.lhs,[])
    if row not in l: l.append(row)
p='''import Verif.Grammar
/-
GENERATED by tools/gen_lean.py. Do not edit.
The distinct patterns of kept children of the rules, per nonterminal: not part of the model, only
used (and checked against `rules`) by the proofs.
-/
namespace Pycep
/-- a kept child: a `None` placeholder, the tree of a symbol, the inlined children of a symbol -/
inductive KP where
  | none
  | sym (s : Nat)
  | inl (s : Nat)
  deriving DecidableEq
/-- left-hand side, node name, `?rule`, kept children -/
structure Pat where
  lhs : Nat
  name : String
  ex : Bool
  kept : List KP
  deriving DecidableEq
namespace Pats
'''
for n in ntnames:
    p+=f'def «{n}» : List Pat := [\n  '+',\n  '.join(pats[n])+']\n'
p+='end Pats\n/-- all patterns -/\ndef pats : List (List Pat) := [\n  '+',\n  '.join(f'Pats.«{n}»' for n in ntnames)+']\nend Pycep\n'
open(OUT+'/Patterns.lean','w').write(p)

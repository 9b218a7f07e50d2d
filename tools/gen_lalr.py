#!/usr/bin/env python3
"""Writes lean/Verif/Lalr.lean: certificates that the table is the LALR(1) table of the rules."""
import os, sys
sys.path.insert(0, os.path.dirname(__file__))
from lark_tables import *
src=open(os.path.join(os.path.dirname(__file__),'gen_lean.py')).read()
# numbering of symbols and layout helpers: the same as in gen_lean.py
exec(src[src.index('srt='):src.index("def q(s)")])
exec(src[src.index('def braun('):src.index('t=f"""import Verif.Braun\n/-\nGENERATED by tools/gen_lean.py from the text')])
OUT=os.path.join(os.path.dirname(__file__),'..','lean','Verif')
S=len(order); R=len(compiled); NN=len(ntnames); ROOT=NT+NN; EOF=END+1
G=[(sym(('N',r.lhs)),[sym(s) for s in r.rhs]) for r in compiled]+[(ROOT,[sym(('N','start')),END])]
prods=defaultdict(list)
for i,(A,_) in enumerate(G): prods[A].append(i)
tr=[{sym(x):t for x,t in trans[s].items()} for s in range(S)]
assert max(len(a) for _,a in G)<32
off=[0]
for _,a in G: off.append(off[-1]+len(a)+1)
# nullable, FIRST
null=set(); ch=True
while ch:
    ch=False
    for A,al in G:
        if A not in null and all(x in null for x in al): null.add(A); ch=True
first=defaultdict(int); ch=True
def fseq(al,L):
    m=0
    for x in al:
        if x<NT: return m|1<<x
        m|=first[x]
        if x not in null: return m
    return m|L
while ch:
    ch=False
    for A,al in G:
        f=fseq(al,0)|first[A]
        if f!=first[A]: first[A]=f; ch=True
# LR(0): kernels, items, closures in order
code=lambda i,d: off[i]+d
kern=[0]*S; items=[0]*S; cl=[]
rk=lambda it: (R,it[1]) if it[0]==rid[id(root)] else it
for s in range(S):
    ks=[rk(it) for it in order[s]]
    ks=[it for it in ks if it!=(R,0)]
    kern[s]=sum(1<<code(*it) for it in ks)
    its=[rk(it) for it in clos[s]]; items[s]=sum(1<<code(*it) for it in its)
    have=set(ks); l=[]
    if s==0: l.append(ROOT); have|={(R,0)}
    while True:
        n=[G[i][1][d] for i,d in sorted(have) if d<len(G[i][1]) and G[i][1][d]>=NT and G[i][1][d] not in l]
        if not n: break
        for A in dict.fromkeys(n):
            l.append(A); have|={(i,0) for i in prods[A]}
    assert sum(1<<code(*it) for it in have)==items[s]
    cl.append(l)
# LALR: look-aheads of (state, nonterminal), by propagation along edges
nodes=[(s,A) for s in range(S) for A in cl[s]]
edges=[]  # (source, rule, position, target)
inn=defaultdict(list); outn=defaultdict(list)
for (s,A) in nodes:
    for i in prods[A]:
        q_=s
        for d,x in enumerate(G[i][1]):
            if x>=NT:
                e=((s,A),i,d,(q_,x)); inn[(q_,x)].append(e); outn[(s,A)].append(e)
            q_=tr[q_][x]
L={n:0 for n in nodes}; L[(0,ROOT)]=1<<EOF
def contrib(e,Ls): return fseq(G[e[1]][1][e[2]+1:],Ls)
ch=True
while ch:
    ch=False
    for n in nodes:
        for e in inn[n]:
            m=L[n]|contrib(e,L[e[0]])
            if m!=L[n]: L[n]=m; ch=True
assert all(L.values())
# every bit justified: list of steps, each from earlier ones
steps=[((0,ROOT),1<<EOF,[])]; last={(0,ROOT):0}; cur={(0,ROOT):1<<EOF}
import collections
work=collections.deque([(0,ROOT)]); 
# worklist over targets: (re)compute a node from the current versions of its sources
rnd=0
while any(cur.get(n,0)!=L[n] for n in nodes):
    rnd+=1; before=len(steps)
    for n in (nodes if rnd%2 else reversed(nodes)):
        if cur.get(n,0)==L[n]: continue
        have=cur.get(n,0); srcs=[]
        es=[e for e in inn[n] if e[0] in last]
        # greedy cover
        tot=have
        for e in es: tot|=contrib(e,cur[e[0]])
        if tot==have: continue
        if tot!=L[n] and have: continue_=True
        acc=0
        if have: srcs.append(('old',last[n])); acc=have
        while acc!=tot:
            e=max(es,key=lambda e: bin(contrib(e,cur[e[0]])&~acc).count('1'))
            acc|=contrib(e,cur[e[0]]); srcs.append((last[e[0]],e[1],e[2]))
        last[n]=len(steps); cur[n]=tot; steps.append((n,tot,srcs))
    print('round',rnd,len(steps)-before,file=sys.stderr)
# best reductions: (rule, mask, steps that justify it)
prio=[r.o['prio'] or 0 for r in compiled]
cand=[defaultdict(int) for _ in range(S)]; lb=[defaultdict(list) for _ in range(S)]
for (s,A) in nodes:
    if A==ROOT: continue
    for i in prods[A]:
        q_=s
        for x in G[i][1]: q_=tr[q_][x]
        cand[q_][i]|=L[(s,A)]; lb[q_][i].append(last[(s,A)])
best=[]
for s in range(S):
    row=[]
    for i in sorted(cand[s]):
        m=cand[s][i]
        for j in cand[s]:
            if j!=i and prio[j]>prio[i]: m&=~cand[s][j]
            elif j!=i: assert prio[j]!=prio[i] or not m&cand[s][j]
        acc=0; just=[]
        while acc!=m:
            k=max(lb[s][i],key=lambda k: bin(steps[k][1]&m&~acc).count('1'))
            acc|=steps[k][1]&m; just.append(k)
        row.append((i,m,just))
    best.append(row)
# the first way to reach a state comes from an earlier state
pred=[0]*S; seen={0}
for s in range(S):
    for x,t_ in sorted(tr[s].items()):
        if t_ not in seen: seen.add(t_); assert s<t_; pred[t_]=s*1024+x
rank=sorted(range(S),key=lambda s:items[s]); inv=[0]*S
for r_,s in enumerate(rank): inv[s]=r_
print('lookbacks',sum(len(j) for r_ in best for _,_,j in r_),'srcmax',max(len(x[2]) for x in steps),'bits',off[-1],file=sys.stderr)
def row70(s): return sum(L[(s,A)]<<(70*(A-NT)) for A in cl[s])
def symm(X): return sum(1<<code(i,d) for i,(_,a) in enumerate(G) for d,x in enumerate(a) if x==X)
def pack(st):
    (s,A),m,srcs=st; n=0
    for e in reversed(srcs):
        k,i,d=(e[1],511,0) if e[0]=='old' else e
        n=n<<32|(k+1)<<14|i<<5|d
    assert m<1<<70
    return s|A<<10|m<<20|n<<90
def showb(row): return '['+','.join(f'({i},{hex(m)},[{",".join(map(str,j))}])' for i,m,j in row)+']'
def showl(l): return '['+','.join(map(str,l))+']'
t=f"""import Verif.Braun
/-
GENERATED by tools/gen_lalr.py. Do not edit.
Certificates about the automaton: not part of the model, only used (and checked) by the proofs.
Sets of terminals and of LR(0) items are bit masks; the item of rule `i` with the dot at `d` has the
number `d` + the lengths of the rules before `i`, each plus one.
-/
namespace Pycep
set_option maxRecDepth 100000
/-- items with the dot in front of a symbol -/
def symTab : Bt Nat :=
  {tree([symm(x) for x in range(ROOT+1)])}
/-- items at the beginning of the rules of a nonterminal (by number minus 128) -/
def headTab : Bt Nat :=
  {tree([sum(1<<code(i,0) for i in prods[NT+k]) for k in range(NN+1)])}
/-- items of a state behind at least one symbol -/
def kernTab : Bt Nat :=
  {tree(kern)}
/-- nonterminals that can start in a state, each one justified by those before it -/
def startTab : Bt (List Nat) :=
  {tree(cl,showl)}
/-- all items of a state -/
def lr0Tab : Bt Nat :=
  {tree(items)}
/-- an earlier state from which a state is reached, and the symbol: `1024 * state + symbol` -/
def predTab : Bt Nat :=
  {tree(pred,str)}
/-- the states ordered by their items -/
def rankTab : Bt Nat :=
  {tree(rank,str)}
/-- the position of a state in `rankTab` -/
def invTab : Bt Nat :=
  {tree(inv,str)}
/-- look-aheads of the nonterminals that can start in a state: cells of 70 bits, by number - 128 -/
def laTab : Bt Nat :=
  {tree([row70(s) for s in range(S)])}
/-- justification of the look-aheads, step by step; a step is state (10 bits), nonterminal (10 bits),
look-aheads (70 bits), and the earlier steps it comes from (32 bits each): number of the step plus
one, rule (9 bits, 511: the step is about the same nonterminal), position in the rule (5 bits) -/
def laSteps : Bt Nat :=
  {tree([pack(x) for x in steps])}
def numSteps : Nat := {len(steps)}
/-- the reductions of a state: rule, look-aheads, steps they come from -/
def bestTab : Bt (List (Nat × Nat × List Nat)) :=
  {tree(best,showb)}
end Pycep
"""
open(OUT+'/Lalr.lean','w').write(t)
print('nodes',len(nodes),'edges',sum(map(len,inn.values())),'steps',len(steps),'srcs',sum(len(x[2]) for x in steps),file=sys.stderr)

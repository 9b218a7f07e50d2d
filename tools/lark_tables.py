#!/usr/bin/env python3
"""Reads /repo/pycep/bicep.lark as *text* and re-derives, following Lark 1.3's
load_grammar.py / lalr_analysis.py, the BNF rules, the terminals (as regex source, with the
sort order of BasicLexer) and the LALR(1) table with Lark's conflict policy
(shift beats reduce; reduce/reduce by rule priority, otherwise error).
This does not import or run anything from /repo."""
import re, sys, itertools, json
from collections import defaultdict
import warnings; warnings.simplefilter("ignore")
import sre_parse, sre_constants

GRAMMAR = open('/repo/pycep/bicep.lark').read()
COMMON = {  # lark/grammars/common.lark
 'C_COMMENT': '"/*" /(.|\\n)*?/ "*/"', 'CPP_COMMENT': '/\\/\\/[^\\n]*/', 'SH_COMMENT': '/#[^\\n]*/',
 'DIGIT': '"0".."9"', 'INT': 'DIGIT+', 'CR': '/\\r/', 'LF': '/\\n/', 'NEWLINE': '(CR? LF)+',
 'WS_INLINE': '(" "|/\\t/)+',
}
# ---------------------------------------------------------------- meta grammar
TOK = re.compile(r'''(?P<ws>[ \t]+|//[^\n]*)|(?P<nl>\n)|(?P<str>"(\\"|\\\\|[^"\n])*?"i?)|(?P<re>/(?!/)(\\/|\\\\|[^/])*?/[imslux]*)|(?P<arrow>->)|(?P<dd>\.\.)|(?P<name>[!?]*_*[a-zA-Z][_a-zA-Z0-9]*)|(?P<num>[+-]?\d+)|(?P<op>[()\[\]|:.~+*?%,])''')
def lexg(s):
    pos=0; out=[]
    while pos<len(s):
        m=TOK.match(s,pos)
        if not m: raise Exception("lex %r"%s[pos:pos+30])
        if m.lastgroup!='ws': out.append((m.lastgroup,m.group()))
        pos=m.end()
    return out
class P:
    def __init__(s,toks): s.t=toks; s.i=0
    def peek(s,k=0): return s.t[s.i+k] if s.i+k<len(s.t) else ('eof','')
    def next(s): r=s.peek(); s.i+=1; return r
    def skipnl(s):
        while s.peek()[0]=='nl': s.next()
    # newline handling: a newline followed (after newlines) by '|' continues the expansions
    def nl_continues(s):
        k=0
        while s.peek(k)[0]=='nl': k+=1
        return s.peek(k)==('op','|')
    def expansions(s,depth):
        alts=[s.alias(depth)]
        while True:
            if s.peek()[0]=='nl' and (depth or s.nl_continues()): s.skipnl()
            if s.peek()==('op','|'):
                s.next(); 
                if depth: s.skipnl()
                alts.append(s.alias(depth))
            else: break
        return ('expansions',tuple(alts))
    def alias(s,depth):
        e=s.expansion(depth)
        if s.peek()[0]=='arrow':
            s.next(); return ('alias',(e,s.next()[1]))
        return e
    def expansion(s,depth):
        items=[]
        while True:
            if depth: s.skipnl()
            k,v=s.peek()
            if k in('str','re','name') or (k,v) in (('op','('),('op','[')): items.append(s.expr(depth))
            else: break
        return ('expansion',tuple(items))
    def expr(s,depth):
        k,v=s.next()
        if k=='str':
            if s.peek()[0]=='dd': s.next(); hi=s.next()[1]; a=('range',(v,hi))
            else: a=('pat',('str',v))
        elif k=='re': a=('pat',('re',v))
        elif v=='(':
            a=s.expansions(depth+1); s.skipnl(); assert s.next()==('op',')')
        elif v=='[':
            a=s.expansions(depth+1); s.skipnl(); assert s.next()==('op',']'); a=('maybe',(a,))
        else:
            name=v
            # "NAME?" is lexed as name then op; a leading ?/! belongs to rule definitions only
            a=('sym',(name,))
        k,v=s.peek()
        if (k,v) in (('op','?'),('op','+'),('op','*')):
            s.next(); return ('expr',(a,v))
        if (k,v)==('op','~'):
            s.next(); mn=int(s.next()[1]); mx=mn
            if s.peek()[0]=='dd': s.next(); mx=int(s.next()[1])
            return ('expr',(a,'~',mn,mx))
        # tokens such as "?" glued to the following name ("?"? handled by op); Lark's OP regexp
        return a
rules=[]; terms={}; ignore=[]; imports=[]
p=P(lexg(GRAMMAR))
while True:
    p.skipnl()
    k,v=p.next()
    if k=='eof': break
    if (k,v)==('op','%'):
        d=p.next()[1]
        if d=='import':
            assert p.next()[1]=='common'; p.next(); imports.append(p.next()[1])
        elif d=='ignore': ignore.append(p.next()[1])
        continue
    assert k=='name',(k,v)
    mods=re.match(r'[!?]*',v).group(); name=v[len(mods):]
    prio=0
    if p.peek()==('op','.'): p.next(); prio=int(p.next()[1])
    assert p.next()==('op',':')
    e=p.expansions(0)
    base=name.lstrip('_')
    if base.isupper(): terms[name]=(e,prio)
    else: rules.append((name,e,dict(keep='!' in mods,expand1='?' in mods,prio=prio)))
for n,src in COMMON.items():
    if n not in terms: terms[n]=(P(lexg(src)).expansions(0),0)
# ---------------------------------------------------------------- terminals -> regex
def lit_str(v): return v[1:-1].replace('\\"','"').encode().decode('unicode_escape')
def lit_re(v):
    assert v[-1]=='/'
    return v[1:-1].replace('\\/','/')
def width(r):
    try: return [int(x) for x in sre_parse.parse(r).getwidth()]
    except sre_constants.error:
        return [1, int(getattr(sre_parse,'MAXWIDTH',sre_constants.MAXREPEAT))]
class Pat:
    def __init__(s,kind,value): s.kind=kind; s.value=value
    def rx(s): return re.escape(s.value) if s.kind=='str' else s.value
    def mm(s): return (len(s.value),len(s.value)) if s.kind=='str' else tuple(width(s.value))
def topat(e):
    d,a=e
    if d=='expansions':
        ps=[topat(x) for x in a]
        if len(ps)==1: return ps[0]
        ps.sort(key=lambda x:(-x.mm()[1],-x.mm()[0],-len(x.value)))
        return Pat('re','(?:%s)'%'|'.join(x.rx() for x in ps))
    if d=='expansion':
        ps=[topat(x) for x in a]
        if len(ps)==1: return ps[0]
        return Pat('re',''.join(x.rx() for x in ps))
    if d=='pat': return Pat('str',lit_str(a[1])) if a[0]=='str' else Pat('re',lit_re(a[1]))
    if d=='range': return Pat('re','[%s-%s]'%(lit_str(a[0]),lit_str(a[1])))
    if d=='sym': return topat(terms[a[0]][0])
    if d=='maybe': return Pat('re','(?:%s)?'%topat(a[0]).rx())
    if d=='expr': return Pat('re','(?:%s)%s'%(topat(a[0]).rx(),a[1]))
    raise Exception(d)
tdefs={}
for n,(e,pr) in terms.items(): tdefs[n]=(topat(e),pr)
TNAMES={'.':'DOT',',':'COMMA',':':'COLON',';':'SEMICOLON','+':'PLUS','-':'MINUS','*':'STAR','/':'SLASH','\\':'BACKSLASH','|':'VBAR','?':'QMARK','!':'BANG','@':'AT','#':'HASH','$':'DOLLAR','%':'PERCENT','^':'CIRCUMFLEX','&':'AMPERSAND','_':'UNDERSCORE','<':'LESSTHAN','>':'MORETHAN','=':'EQUAL','"':'DBLQUOTE',"'":'QUOTE','`':'BACKQUOTE','~':'TILDE','(':'LPAR',')':'RPAR','{':'LBRACE','}':'RBRACE','[':'LSQB',']':'RSQB','\n':'NEWLINE','\r\n':'CRLF','\t':'TAB',' ':'SPACE'}
rev={(t.kind,t.value):n for n,(t,_) in tdefs.items()}
anon=0
def prep(e,keep):
    global anon
    d,a=e
    if d in('expansions','expansion','maybe'): return (d,tuple(prep(x,keep) for x in a))
    if d=='alias': return (d,(prep(a[0],keep),a[1]))
    if d=='expr': return (d,(prep(a[0],keep),)+a[1:])
    if d=='sym':
        n=a[0]
        if n.lstrip('_').isupper(): return ('T',n,n.startswith('_'))
        return ('N',n)
    if d=='pat':
        pt=Pat('str',lit_str(a[1])) if a[0]=='str' else Pat('re',lit_re(a[1]))
        key=(pt.kind,pt.value); tn=None
        if pt.kind=='str':
            if key in rev: tn=rev[key]
            else:
                tn=TNAMES.get(pt.value)
                if tn is None and pt.value.isidentifier() and pt.value.upper() not in tdefs: tn=pt.value.upper()
                if tn in tdefs: tn=None
        elif key in rev: tn=rev[key]
        if tn is None: tn='__ANON_%d'%anon; anon+=1
        if tn not in tdefs: tdefs[tn]=(pt,0); rev[key]=tn
        return ('T',tn,(not keep) and pt.kind=='str')
    raise Exception(d)
# ---------------------------------------------------------------- EBNF -> BNF
new_rules=[]; cache={}; cnt=0; prefix=''; ropts=None
EMPTY=('EMPTY',)
def rulesize(e,keep):
    d=e[0]
    if d=='expansions': return max(rulesize(x,keep) for x in e[1])
    if d=='expansion': return sum(rulesize(x,keep) for x in e[1])
    if d=='T': return 1 if (keep or not e[2]) else 0
    if d=='N': return 1 if (keep or not e[1].startswith('_')) else 0
    if e==EMPTY: return 1
    raise Exception(e)
def recurse(t,e):
    global cnt
    if e in cache: return cache[e]
    n='__%s_%s_%d'%(prefix,t,cnt); cnt+=1
    nt=('N',n)
    new_rules.append((n,('expansions',(('expansion',(e,)),('expansion',(nt,e)))),dict(keep=bool(ropts),expand1=False,prio=0)))
    cache[e]=nt
    return nt
def ebnf(e):
    d=e[0]
    if d in('expansions','expansion'): return (d,tuple(ebnf(x) for x in e[1]))
    if d=='alias': return (d,(ebnf(e[1][0]),e[1][1]))
    if d=='maybe':
        x=ebnf(e[1][0]); k=rulesize(x,bool(ropts))
        return ('expansions',(x,('expansion',(EMPTY,)*k)))
    if d=='expr':
        x=ebnf(e[1][0]); op=e[1][1]
        if op=='?': return ('expansions',(x,('expansion',())))
        if op=='+': return recurse('plus',x)
        if op=='*': return ('expansions',(recurse('star',x),('expansion',())))
        if op=='~': return ('expansions',tuple(('expansion',(x,)*n) for n in range(e[1][2],e[1][3]+1)))
    return e
def dedup(l):
    out=[]
    for x in l:
        if x not in out: out.append(x)
    return out
def flat(e):
    """list of (symbols, alias) alternatives, in Lark's order"""
    d=e[0]
    if d=='expansions': return dedup([y for x in e[1] for y in flat(x)])
    if d=='expansion':
        # SimplifyRule_Visitor distributes over the *first* expansions child; recursion does the rest
        acc=[()]
        outs=[flat(x) if x[0] in('expansions','expansion') else [((x,),None)] for x in e[1]]
        res=[]
        for combo in itertools.product(*outs):
            al=None
            s=sum((c[0] for c in combo),())
            for c in combo: assert c[1] is None
            res.append((s,None))
        return dedup(res)
    if d=='alias': return [(s,e[1][1]) for s,_ in flat(e[1][0])]
    return [((e,),None)]
compiled=[]; done=[]
for n,e,o in rules:
    e2=prep(e,o['keep']); prefix=n; ropts=o['keep']
    done.append((n,ebnf(e2),o))
done+=new_rules
class R: pass
for n,e,o in done:
    for i,(syms,al) in enumerate(flat(e)):
        r=R(); r.lhs=n; r.alias=al; r.o=o; r.order=i
        ei=tuple(s==EMPTY for s in syms)
        r.empty=ei if any(ei) else None
        r.rhs=[s for s in syms if s!=EMPTY]
        compiled.append(r)
seen={}
for r in list(compiled):
    k=(r.lhs,tuple((s[0],s[1]) for s in r.rhs))
    if k in seen:
        assert not r.rhs,("dup",k)
        compiled.remove(r)
    seen[k]=r
while True:
    used={s[1] for r in compiled for s in r.rhs if s[0]=='N' and s[1]!=r.lhs}|{'start'}
    c2=[r for r in compiled if r.lhs in used]
    if len(c2)==len(compiled): break
    compiled=c2
usedT={s[1] for r in compiled for s in r.rhs if s[0]=='T'}|set(ignore)
terminals={n:tdefs[n] for n in tdefs if n in usedT}
# child filter
for r in compiled:
    keep=r.o['keep']
    if r.empty:
        s=''.join('1' if b else '0' for b in r.empty); em=[len(x) for x in s.split('0')]
    else: em=[0]*(len(r.rhs)+1)
    inc=[]; nn=0
    for i,s in enumerate(r.rhs):
        nn+=em[i]
        if keep or not (s[0]=='T' and s[2]):
            inc.append((i,s[0]=='N' and s[1].startswith('_'),nn)); nn=0
    nn+=em[len(r.rhs)]
    r.inc=inc; r.tail=nn
# ---------------------------------------------------------------- LALR(1), DeRemer-Pennello as in lark
root=R(); root.lhs='$root_start'; root.rhs=[('N','start'),('T','$END',False)]; root.o=dict(prio=0); root.alias=None
by=defaultdict(list)
for r in compiled: by[r.lhs].append(r)
nullable=set(); ch=True
while ch:
    ch=False
    for r in compiled:
        if r.lhs not in nullable and all(s[0]=='N' and s[1] in nullable for s in r.rhs): nullable.add(r.lhs); ch=True
def sk(s): return (s[0],s[1])
allr=compiled+[root]; rid={id(r):i for i,r in enumerate(allr)}
def closure(kern):
    res=list(kern); s=set(kern); i=0
    while i<len(res):
        ri,dot=res[i]; i+=1
        rhs=allr[ri].rhs
        if dot<len(rhs) and rhs[dot][0]=='N':
            for r in by[rhs[dot][1]]:
                it=(rid[id(r)],0)
                if it not in s: s.add(it); res.append(it)
    return res
k0=frozenset([(rid[id(root)],0)])
states={k0:0}; order=[k0]; trans=[]; clos=[]
i=0
while i<len(order):
    c=closure(order[i]); clos.append(c); tr={}
    g=defaultdict(list)
    for ri,dot in c:
        rhs=allr[ri].rhs
        if dot<len(rhs): g[sk(rhs[dot])].append((ri,dot+1))
    for sym,ks in g.items():
        fk=frozenset(ks)
        if fk not in states: states[fk]=len(order); order.append(fk)
        tr[sym]=states[fk]
    trans.append(tr); i+=1
nts=[(s,sym[1]) for s in range(len(order)) for sym in trans[s] if sym[0]=='N']
DR={}
for (s,A) in nts:
    t=trans[s][('N',A)]
    DR[(s,A)]={x[1] for x in trans[t] if x[0]=='T'}
reads=defaultdict(set); includes=defaultdict(set); lookback=defaultdict(set)
for (s,A) in nts:
    t=trans[s][('N',A)]
    for x in trans[t]:
        if x[0]=='N' and x[1] in nullable: reads[(s,A)].add((t,x[1]))
    for r in by[A]:
        q=s
        for i,x in enumerate(r.rhs):
            if x[0]=='N' and all(y[0]=='N' and y[1] in nullable for y in r.rhs[i+1:]): includes[(q,x[1])].add((s,A))
            q=trans[q][sk(x)]
        lookback[(q,rid[id(r)])].add((s,A))
def solve(F,rel):
    F={k:set(v) for k,v in F.items()}; ch=True
    while ch:
        ch=False
        for k in F:
            for j in rel[k]:
                if not F[j]<=F[k]: F[k]|=F[j]; ch=True
    return F
Read=solve(DR,reads); Follow=solve(Read,includes)
actions=[]; gotos=[]; sr=0
for s in range(len(order)):
    act={x[1]:('s',t) for x,t in trans[s].items() if x[0]=='T'}
    la=defaultdict(set)
    for ri,dot in clos[s]:
        r=allr[ri]
        if dot==len(r.rhs) and r is not root:
            for tr in lookback[(s,ri)]:
                for t in Follow[tr]: la[t].add(ri)
    for t,rs in la.items():
        if len(rs)>1:
            ps=sorted(((allr[x].o['prio'] or 0,x) for x in rs),reverse=True)
            if ps[0][0]>ps[1][0]: rs={ps[0][1]}
            else: raise Exception("reduce/reduce %s %s %s"%(s,t,[(allr[x].lhs,allr[x].rhs) for x in rs]))
        x,=rs
        if t in act: sr+=1
        else: act[t]=('r',x)
    actions.append(act); gotos.append({x[1]:t for x,t in trans[s].items() if x[0]=='N'})
if __name__=='__main__':
    print(len(compiled),'rules',len(terminals),'terminals',len({r.lhs for r in compiled}),'nts',len(order),'states',sum(map(len,actions)),'actions',sum(map(len,gotos)),'gotos',sr,'s/r conflicts')
    for r in compiled: print(rid[id(r)],r.lhs,'->',' '.join(s[1] for s in r.rhs),'  =>',r.alias,r.inc,r.tail,r.o)
    for n,(t,pr) in terminals.items(): print(n,pr,t.kind,repr(t.value),t.mm())
    print(ignore)

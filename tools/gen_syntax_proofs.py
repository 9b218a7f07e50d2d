#!/usr/bin/env python3
"""Writes lean/Verif/Proofs/SynRules*.lean: one case per grammar rule of the proof that the trees and
tokens of derivations are those of syntax."""
import os, sys
sys.path.insert(0, os.path.dirname(os.path.abspath(__file__)))
from lark_tables import *
OUT=os.path.join(os.path.dirname(os.path.abspath(__file__)),'..','lean','Verif','Proofs')
def q(s): return '"'+s+'"'
KW={n for n in terminals if terminals[n][0].kind=='str'}
def symn(s): return ('T.' if s[0]=='T' else 'N.')+'«'+s[1]+'»'
XU={'STRING','INT','LIST_FUNC_NAME','__ANON_2','FUNCTION','QUOTED_INTERPOLATION','QUOTED_STRING','MULTI_LINE_STRING'}
EX={'value','value_brackets','operator','lambda_expression'}
ONE={'var_value':'v','output_value':'v','resource_value':'g','module_value':'g','child_resource':'i','data_type':'d','base_type':'b','import_alias':'i','loop':'l','loop_array':'h','loop_array_index':'h','loop_object':'h','pair':'i','decorator':'d','array':'es','object':'is'}
TWO={'deploy_condition':('a','e'),'function':('f','es')}
INL1={'__start_star_0','___import_statement_star_1','___func_statement_star_2','__data_type_star_5','__array_star_8','__object_star_9','__object_star_10','__function_star_12'}
def destr(i,s):
    """pattern for h_i"""
    k,n=s[0],s[1]
    if k=='T':
        if n in XU: return f'obtain ⟨x{i}, u{i}, rfl, rfl, k{i}⟩ := shw_{n} h{i}'
        if n in('_NEWLINE','_CPP_COMMENT_NL'): return f'obtain ⟨u{i}, rfl, k{i}⟩ := shw_{n} h{i}'
        return f'obtain ⟨u{i}, rfl, rfl, k{i}⟩ := shw_{n} h{i}'
    if n in EX or n in ONE: return f'obtain ⟨x{i}, rfl, k{i}⟩ := h{i}'
    if n in TWO: return f'obtain ⟨x{i}, y{i}, rfl, k{i}⟩ := h{i}'
    if n in INL1: return f'obtain ⟨x{i}, q{i}, k{i}⟩ := h{i}'
    if n=='element': return f'obtain ⟨l{i}, x{i}, rfl, k{i}, m{i}⟩ := h{i}'
    if n in('metadata_value','type_api_pair','module_path'): return f'obtain ⟨x{i}, u{i}, rfl, rfl, k{i}⟩ := h{i}'
    if n=='key': return f'obtain ⟨x{i}, u{i}, rfl, rfl, k{i}⟩ := h{i}'
    if n=='quoted_string': return f'obtain ⟨m{i}, x{i}, u{i}, q{i}, rfl, k{i}⟩ := h{i}'
    if n=='array_suffix': return f'obtain ⟨rfl, u{i}, v{i}, rfl, k{i}, m{i}⟩ := h{i}'
    if n=='union_type': return f'obtain ⟨x{i}, y{i}, z{i}, rfl, k{i}⟩ := h{i}'
    if n=='__child_resource_plus_3': return f'obtain ⟨q{i}, k{i}, m{i}⟩ := h{i}'
    if n in('__type_value_star_4','__array_star_7'): return f'obtain ⟨x{i}, y{i}, q{i}, k{i}, m{i}⟩ := h{i}'
    if n in('__union_type_plus_6','__decorators_plus_11'): return f'obtain ⟨x{i}, y{i}, q{i}, k{i}⟩ := h{i}'
    if n=='decorators': return f'obtain ⟨x{i}, y{i}, rfl, k{i}⟩ := h{i}'
    if n=='type_value': return f'obtain ⟨x{i}, y{i}, a{i}, b{i}, rfl, rfl, k{i}, m{i}, o{i}⟩ := h{i}'
    if n=='_func_statement': return f'obtain ⟨x{i}, ps{i}, t{i}, e{i}, v{i}, p{i}, a{i}, o{i}, b{i}, r{i}, c{i}\', q{i}, rfl, j1, j2, j3, j4, j5, j6, j7, j8⟩ := h{i}'
    if n in('_import_statement','__function_accessor_plus_13'): return None
    return f'obtain ⟨x{i}, q{i}, k{i}⟩ := h{i}'   # operator families
NN='List.append_assoc, List.nil_append, List.append_nil, List.cons_append, nextT_append, nextT_cons, nextT_nil'
KK='keepKids\', List.flatMap_cons, List.flatMap_nil, List.replicate_zero, List.replicate_succ, List.getElem?_cons_zero, List.getElem?_cons_succ, Bool.false_eq_true, if_true, if_false, List.append_nil, List.nil_append, List.cons_append, List.append_assoc, w_kids_mkCore'
binops=dict(greater_than_or_equals='ge',greater_than='gt',less_than_or_equals='le',less_than='lt',equals='eq',not_equals='ne',equals_case_insens='eqi',not_equals_case_insens='nei',and_op='and',or_op='or',coalesce='coalesce',add='add',divide='div',modulo='mod',multiply='mul',substract='sub',nested_resource_accessor='nested',property_accessor='prop')
class P:
    """walks over the right-hand side"""
    def __init__(s,r): s.r=r; s.i=0; s.n=len(r.rhs)
    def at(s,*names): return s.i<s.n and s.r.rhs[s.i][1] in names
    def take(s,*names):
        assert s.at(*names),(s.r.lhs,[x[1] for x in s.r.rhs],s.i,names)
        s.i+=1; return s.i-1
    def opt(s,*names): return s.take(*names) if s.at(*names) else None
    def done(s): assert s.i==s.n,(s.r.lhs,[x[1] for x in s.r.rhs],s.i)
NL='_CPP_COMMENT_NL'
def ob(i): return ('[]','optBreak_none') if i is None else (f'[u{i}]',f'(optBreak_some k{i})')
def on(i): return ('[]','optNewline_none') if i is None else (f'[u{i}]',f'(optNewline_some k{i})')
def om(i): return ('[]','optMark_none') if i is None else (f'[u{i}]',f'(optMark_some k{i})')
def brk(i): return ('[]','breaks_nil') if i is None else (f'w{i}',f'k{i}')
def nls(l): return '['+', '.join(f'u{i}' for i in l)+']', ''.join(f'(breaks_cons k{i} ' for i in l)+'breaks_nil'+')'*len(l)
VB='value_brackets'; HN='(hc.noInfix rfl)'
def eqn(qs,*extra):
    """equation with inlined children"""
    if not qs and not extra: return 'rfl'
    return f'(by simp only [{", ".join([KK]+[f"q{i}" for i in qs]+list(extra))}] <;> rfl)'
def gen(r):
    """term proving the shape; also kind: 'node','ex','long','tac'"""
    p=P(r); L=r.lhs; name=r.alias or r.lhs
    if L=='start':
        if p.n==0: return '⟨[], rfl, .nil⟩'
        return f'⟨x0, {eqn([0])}, k0⟩'
    if L=='__start_star_0':
        st=p.opt('__start_star_0'); el=p.opt('element'); nl=p.opt(NL); p.done()
        base='x0' if st is not None else '[]'; bs='k0' if st is not None else '.nil'; bw='w0' if st is not None else '[]'
        t=bs; P_=base
        if el is not None: t=f'ProgSyn.decl (p := {base}) (w1 := {bw}) {bs if bs==".nil" else "(by have := k0; simpa only [NN] using this)"} k{el} m{el}'; P_=f'{base} ++ [(l{el}, x{el})]'
        if nl is not None: t=f'ProgSyn.nl (n := n) (p := {P_}) ({t}) k{nl}' if el is not None else f'ProgSyn.nl (p := {P_}) (w := {bw}) {t} k{nl}'
        if el is not None and nl is not None and st is not None: t=f'by have := {t}; simpa only [NN] using this'
        return f'⟨{P_}, {eqn([0] if st is not None else [],"List.map_append")}, {t}⟩'
    if L=='element':
        D=p.opt('decorators')
        ds='[]' if D is None else f'(x{D} :: y{D})'; dw='[]' if D is None else f'w{D}'; dk='.nil' if D is None else f'k{D}'
        if name=='scope':
            return '⟨l, .scope x2, rfl, .scope k0 k1 k2, hl rfl⟩'
        if name=='extension':
            p.take('EXTENSION'); p.take('STRING'); wi=p.opt('WITH'); o=p.take('object') if wi is not None else None
            a=p.opt('AS'); s=p.take('STRING') if a is not None else None; p.done()
            c,ck,cw=('.none','.no','[]') if wi is None else (f'(some x{o})',f'(.yes k{wi} k{o})',f'(u{wi} :: w{o})')
            al,ak,aw=('.none','.no','[]') if a is None else (f'(some x{s})',f'(.yes k{a} k{s})',f'[u{a}, u{s}]')
            return f'⟨l, .extension x1 {c} {al}, rfl, (by have := DeclSyn.extension (w1 := {cw}) (w2 := {aw}) (n := n) k0 k1 {ck} {ak}; simpa only [NN] using this), hl rfl⟩'
        if name=='metadata': return '⟨l, .metadata x1 x3, rfl, .metadata k0 k1 k2 k3, hl rfl⟩'
        if name=='param':
            a=p.take('PARAM'); s=p.take('STRING'); d=p.take('data_type'); m=p.opt('QMARK'); e=p.opt('EQUAL'); v=p.take(VB) if e is not None else None; p.done()
            mw,mk=om(m)
            o,k,w=('.none','.no','[]') if e is None else (f'(some x{v})',f'(.yes k{e} k{v} {HN})',f'(u{e} :: w{v})')
            return f'⟨l, .param {ds} x{s} x{d} {o}, rfl, (by have := DeclSyn.param (ds := {ds}) (w0 := {dw}) (w2 := {mw}) (w3 := {w}) (n := n) {dk} k{a} k{s} k{d} {mk} {k}; simpa only [NN] using this), hl rfl⟩'
        if name=='var':
            a=p.take('VAR'); s=p.take('STRING'); d=p.opt('data_type'); m=p.opt('QMARK'); e=p.take('EQUAL'); v=p.take('var_value'); p.done()
            mw,mk=om(m)
            t,tk_,tw=('.none','.no','[]') if d is None else (f'(some x{d})',f'(.yes k{d} {mk})',f'(w{d} ++ {mw})')
            term=f'DeclSyn.var (w0 := {dw}) (w1 := {tw}) {dk} k{a} k{s} {tk_} k{e} k{v}'
            if d is not None: term=f'(by have := {term.replace("DeclSyn.var",f"DeclSyn.var (ds := {ds})")}; simpa only [NN] using this)'
            else: term='.'+term[8:]
            return f'⟨l, .var {ds} x{s} {t} x{v}, rfl, {term}, hl rfl⟩'
        if name=='output':
            a=p.take('OUTPUT'); s=p.take('STRING'); d=p.take('data_type'); m=p.opt('QMARK'); e=p.take('EQUAL'); v=p.take('output_value'); p.done()
            mw,mk=om(m)
            return f'⟨l, .output {ds} x{s} x{d} x{v}, rfl, .output (w0 := {dw}) (w2 := {mw}) {dk} k{a} k{s} k{d} {mk} k{e} k{v}, hl rfl⟩'
        if name=='resource':
            a=p.take('RESOURCE'); s=p.take('STRING'); t=p.take('type_api_pair'); x=p.opt('EXISTING'); e=p.take('EQUAL'); v=p.take('resource_value'); p.done()
            xb,xk,xw=('false','.no','[]') if x is None else ('true',f'(.yes k{x})',f'[u{x}]')
            return f'⟨l, .resource {ds} x{s} x{t} {xb} x{v}, rfl, .resource (w0 := {dw}) (w1 := {xw}) {dk} k{a} k{s} k{t} {xk} k{e} k{v}, hl rfl⟩'
        if name=='module':
            a=p.take('MODULE'); s=p.take('STRING'); t=p.take('module_path'); e=p.take('EQUAL'); v=p.take('module_value'); p.done()
            return f'⟨l, .module {ds} x{s} x{t} x{v}, rfl, .module (w0 := {dw}) {dk} k{a} k{s} k{t} k{e} k{v}, hl rfl⟩'
        if name=='custom_type':
            a=p.take('TYPE'); s=p.take('STRING'); e=p.take('EQUAL'); v=p.take('type_value'); p.done()
            return f'⟨l, .typ {ds} x{s} x{v} y{v}, rfl, .typ (w0 := {dw}) (w1 := a{v}) (w2 := b{v}) {dk} k{a} k{s} k{e} k{v} m{v} o{v}, hl rfl⟩'
        if name=='custom_func':
            a=p.take('FUNC'); f=p.take('_func_statement'); p.done()
            return f'⟨l, .func {ds} x{f} ps{f} t{f} e{f}, {eqn([f])}, .func (w0 := {dw}) {dk} k{a} j1 j2 j3 j4 j5 j6 j7 j8, hl rfl⟩'
        if name=='custom_import': return ('TAC','''rcases h1 with ⟨b, q, e, rfl, k1⟩ | ⟨i, b, w1, f, q, e, rfl, k1, k2, k3⟩ |
      ⟨i, is, b, o, w1, w2, c', f, q, e, rfl, k1, k2, k3, k4, k5, k6⟩
    · exact ⟨l, .importNs b, EQ, .importNs k0 k1, hl rfl⟩
    · exact ⟨l, .importFrom i [] b, EQ, .importOne k0 k1 k2 k3, hl rfl⟩
    · exact ⟨l, .importFrom i is b, EQ, .importList k0 k1 k2 k3 k4 k5 k6, hl rfl⟩'''.replace('EQ',f'(by simp only [{KK}, e] <;> rfl)'))
    if L=='value':
        n=p.opt('_NEWLINE'); w,k=on(n); i=p.i
        if name in('null','true','false'):
            c={'null':'null','true':'tru','false':'fls'}[name]
            return f'⟨.{c}, rfl, .{c} (w := {w}) {k} k{i}⟩'
        c={'INT':'int','STRING':'ident','QUOTED_INTERPOLATION':'str'}.get(r.rhs[i][1])
        if c: return f'⟨.{c} x{i}, rfl, .{c} (w := {w}) {k} k{i}⟩'
        if r.rhs[i][1]=='MULTI_LINE_STRING': return '⟨.multi x0, rfl, .multi k0⟩'
        s=r.rhs[i][1]
        if s=='array': return '⟨_, rfl, w_expr_nometa (.array x0), .array x0, rfl, k0⟩'
        if s=='object': return '⟨_, rfl, w_expr_nometa (.object x0), .object x0, rfl, .object k0⟩'
        if s=='function': return f'⟨_, rfl, w_expr_nometa (.call x{i} y{i}), .call x{i} y{i}, rfl, .call (w1 := {w}) {k} k{i}⟩'
        return '⟨_, rfl, w_expr_nometa x0, x0, rfl, k0⟩'
    if L==VB:
        b='(hc.noBang rfl (by decide))'
        t={('value',):f'.plain k0 {b}',('LPAR','value','RPAR'):f'.paren k0 k1 k2 {b}',('value','BANG'):'.bang k0 k1',('LPAR','value','RPAR','BANG'):'.parenBang k0 k1 k2 k3'}[tuple(s[1] for s in r.rhs)]
        i=0 if r.rhs[0][1]=='value' else 1
        return f'⟨_, rfl, w_expr_nometa x{i}, x{i}, rfl, {t}⟩'
    if L=='_import_statement':
        if p.n==1: return '.inl ⟨x0, u0, rfl, rfl, k0⟩'
        if r.rhs[0][1]=='import_alias': return '.inr (.inl ⟨x0, x2, _, u1, u2, rfl, rfl, k0, k1, k2⟩)'
        p.take('LBRACE'); a=p.take('import_alias'); s=p.opt('___import_statement_star_1'); c=p.take('RBRACE'); f=p.take('FROM'); z=p.take('QUOTED_INTERPOLATION'); p.done()
        is_,ik,iw=('[]','.nil','[]') if s is None else (f'x{s}',f'k{s}',f'w{s}')
        return f'.inr (.inr ⟨x{a}, {is_}, x{z}, u0, _, {iw}, u{c}, u{f}, u{z}, {eqn([] if s is None else [s])}, rfl, k0, k{a}, {ik}, k{c}, k{f}, k{z}⟩)'
    if L=='_func_statement':
        v=p.take('STRING'); o=p.take('LPAR'); s=p.opt('STRING'); d=p.take('data_type') if s is not None else None
        st=p.opt('___func_statement_star_2'); c=p.take('RPAR'); t=p.take('data_type'); a=p.take('__ANON_0'); e=p.take(VB); p.done()
        if s is None: ps,pk,pw='[]','.nil','[]'
        elif st is None: ps,pk,pw=f'[(x{s}, x{d})]',f'(.mk (w2 := []) k{s} k{d} .nil)',f'(u{s} :: (w{d} ++ []))'
        else: ps,pk,pw=f'((x{s}, x{d}) :: x{st})',f'(.mk k{s} k{d} k{st})',f'(u{s} :: (w{d} ++ w{st}))'
        eqw='rfl' if s is None else '(by simp)'
        return f'⟨x{v}, {ps}, x{t}, x{e}, u{v}, u{o}, {pw}, u{c}, w{t}, u{a}, w{e}, {eqn([] if st is None else [st])}, {eqw}, k{v}, k{o}, {pk}, k{c}, k{t}, k{a}, k{e}, {HN}⟩'
    if L in('var_value','output_value'):
        if r.rhs[0][1]==VB: return f'⟨_, rfl, w_expr_nometa x0, .expr x0, rfl, .expr k0 {HN}⟩'
        return '⟨_, rfl, w_loop_nometa x0, .loop x0, rfl, .loop k0⟩'
    if L=='metadata_value': return '⟨x0, u0, rfl, rfl, k0⟩'
    if L in('resource_value','module_value'):
        s=r.rhs[0][1]
        if s=='object': return '⟨_, rfl, w_expr_nometa (.object x0), .obj x0, rfl, .obj k0⟩'
        if s=='loop': return '⟨_, rfl, w_loop_nometa x0, .loop x0, rfl, .loop k0⟩'
        return '⟨_, rfl, w_config_nometa (.cond x0 y0), .cond x0 y0, rfl, k0⟩'
    if L=='child_resource':
        p.take('RESOURCE'); p.take('STRING'); p.take('QUOTED_INTERPOLATION'); x=p.opt('EXISTING'); e=p.take('EQUAL'); c=p.take('object','loop','deploy_condition'); z=p.take('__child_resource_plus_3'); p.done()
        s=r.rhs[c][1]
        cf,ck={'object':(f'(.obj x{c})',f'(.obj k{c})'),'loop':(f'(.loop x{c})',f'(.loop k{c})'),'deploy_condition':(f'(.cond x{c} y{c})',f'k{c}')}[s]
        xb,xk,xw=('false','.no','[]') if x is None else ('true',f'(.yes k{x})',f'[u{x}]')
        return f'⟨.child l x1 x2 {xb} {cf}, {eqn([z])}, .mk (w1 := {xw}) (w2 := w{c}) (w3 := w{z}) k0 k1 k2 {xk} k{e} {ck} k{z} m{z} (hc.childNL rfl) (hl rfl)⟩'
    if L=='type_value':
        if p.n==1: return f'⟨_, rfl, w_expr_nometa x0, x0, [], _, [], rfl, (List.append_nil _).symm, k0, .nil, {HN}⟩'
        return f'⟨(by simp only [{KK}, q1, Expr.trees, List.length_cons]; omega), x0, x1 :: y1, _, _, {eqn([1])}, rfl, k0, k1, m1⟩'
    if L=='__type_value_star_4':
        if p.n==2: return f'⟨x1, [], rfl, .snoc (es := []) (w1 := []) .nil k0 k1 {HN}, {HN}⟩'
        return f'⟨x0, y0 ++ [x2], (by simp only [{KK}, q0, ← w_exprs_append]; simp only [w_exprs_append, List.cons_append, Expr.trees]), by have := AltTail.snoc k0 k1 k2 {HN}; exact this, {HN}⟩'
    if L=='data_type':
        if p.n==1: return '⟨.mk x0 0, rfl, by simpa using TypeSyn.mk k0 .zero⟩'
        return f'⟨.mk x0 x1, {eqn([1])}, .mk k0 k1⟩'
    if L=='base_type':
        return '⟨.name x0, rfl, .name k0⟩' if r.rhs[0][1]=='STRING' else '⟨.union x0 y0 z0, rfl, k0⟩'
    if L=='union_type': return f'⟨x1, x2, y2, {eqn([2])}, .union k0 k1 k2 k3⟩'
    if L=='__union_type_plus_6':
        if p.n==2: return '⟨x1, [], rfl, .snoc (ds := []) (w1 := []) .nil k0 k1⟩'
        return f'⟨x0, y0 ++ [x2], (by simp only [{KK}, q0, DataType.trees, w_dts_append]), .snoc k0 k1 k2⟩'
    if L=='array_suffix': return '⟨rfl, u0, u1, rfl, k0, k1⟩'
    if L=='__data_type_star_5':
        if p.n==1: return '⟨1, rfl, .succ (w := []) .zero k0 m0⟩'
        return f'⟨x0 + 1, (by simp only [{KK}, q0]; exact (List.replicate_succ\' ..).symm), .succ k0 k1 m1⟩'
    if L in('type_api_pair','module_path'): return '⟨x0, u0, rfl, rfl, k0⟩'
    if L=='import_alias':
        s=r.rhs[0][1]=='STRING'
        if p.n==1: return '⟨⟨.name x0, .none⟩, rfl, .name k0⟩' if s else '⟨⟨.star, .none⟩, rfl, .star k0⟩'
        return '⟨⟨.name x0, some x2⟩, rfl, .nameAs k0 k1 k2⟩' if s else '⟨⟨.star, some x2⟩, rfl, .starAs k0 k1 k2⟩'
    if L=='___import_statement_star_1':
        if p.n==2: return '⟨[x1], rfl, .snoc (is := []) (w1 := []) .nil k0 k1⟩'
        return f'⟨x0 ++ [x2], {eqn([0],"List.map_append")}, .snoc k0 k1 k2⟩'
    if L=='___func_statement_star_2':
        if p.n==3: return '⟨[(x1, x2)], rfl, .snoc (ps := []) (w1 := []) .nil k0 k1 k2⟩'
        return f'⟨x0 ++ [(x2, x3)], {eqn([0],"w_params_append")}, .snoc k0 k1 k2 k3⟩'
    if L=='__child_resource_plus_3':
        if p.n==1: return '⟨rfl, breaks_cons k0 breaks_nil, by simp⟩'
        return f'⟨{eqn([0])}, breaks_append k0 (breaks_cons k1 breaks_nil), by simp⟩'
    if L=='loop':
        p.take('LSQB'); n1=p.opt(NL); f=p.take('FOR'); h=p.take('loop_array','loop_array_index','loop_object'); c=p.take('COLON'); e=p.take(VB); e2=p.opt(VB); n2=p.opt(NL); z=p.take('RSQB'); p.done()
        w1,k1=ob(n1); w4,k4=ob(n2)
        if e2 is None: return f'⟨.mk x{h} .none x{e}, rfl, .plain (w1 := {w1}) (w4 := {w4}) k0 {k1} k{f} k{h} k{c} k{e} {k4} k{z}⟩'
        return f'⟨.mk x{h} (some x{e}) x{e2}, rfl, .filter (w1 := {w1}) (w4 := {w4}) k0 {k1} k{f} k{h} k{c} (by have := k{e}; simpa only [NN] using this) k{e2} {k4} k{z}⟩'
    if L=='loop_array': return f'⟨.arr x0 x2, rfl, .arr k0 k1 k2 {HN}⟩'
    if L=='loop_array_index': return f'⟨.arrIdx x1 x3 x6, rfl, .arrIdx k0 k1 k2 k3 k4 k5 k6 {HN}⟩'
    if L=='loop_object': return '⟨.obj x0 x4, rfl, .obj k0 k1 k2 k3 k4 k5⟩'
    if L=='deploy_condition':
        n=p.opt(NL); w,k=ob(n); j=p.i
        return f'⟨x{j+2}, x{j+4}, rfl, .cond (w1 := {w}) {k} k{j} k{j+1} k{j+2} k{j+3} k{j+4} {HN}⟩'
    if L=='quoted_string':
        c={'STRING':('.ident','.ident'),'QUOTED_STRING':('.quoted true','.word'),'QUOTED_INTERPOLATION':('.quoted false','.quoted')}[r.rhs[0][1]]
        return f'⟨_, rfl, rfl, rfl, {c[0]} x0, u0, rfl, rfl, {c[1]} k0⟩'
    if L=='key':
        if r.rhs[0][1]=='RESOURCE': return '⟨.resource, u0, rfl, rfl, .resource k0⟩'
        return '⟨x0, u0, q0, rfl, k0⟩'
    if L=='pair':
        p.take('key'); p.take('COLON'); e=p.take(VB,'loop'); m=p.opt('QMARK'); p.done()
        if r.rhs[2][1]==VB:
            if m is None: return f'⟨.pair x0 x2, rfl, .expr k0 k1 k2 {HN}⟩'
            return '⟨.pair x0 x2, rfl, .exprOpt k0 k1 k2 k3 (hc.pairOpt rfl).1 (hc.pairOpt rfl).2⟩'
        if m is None: return '⟨.pairLoop x0 x2, rfl, .loop k0 k1 k2⟩'
        return '⟨.pairLoop x0 x2, rfl, .loopOpt k0 k1 k2 k3⟩'
    if L in('array','object'):
        p.take('LSQB','LBRACE'); b=p.opt('__child_resource_plus_3'); s=p.opt('__array_star_8','__object_star_10'); z=p.take('RSQB','RBRACE'); p.done()
        w1,k1=brk(b); x,ks,ws=('[]','.nil','[]') if s is None else (f'x{s}',f'k{s}',f'w{s}')
        c='.array' if L=='array' else '.mk'
        return f'⟨{x}, {eqn([i for i in (b,s) if i is not None])}, {c} (w1 := {w1}) (w2 := {ws}) k0 {k1} {ks} k{z}⟩'
    if L=='__array_star_7':
        if p.n==2: return f'⟨x1, [], rfl, .snoc (es := []) (w1 := []) .nil k0 k1 {HN}, {HN}⟩'
        return f'⟨x0, y0 ++ [x2], (by simp only [{KK}, q0, ← w_exprs_append]; simp only [w_exprs_append, List.cons_append, Expr.trees]), by have := ETail.snoc k0 k1 k2 {HN}; exact this, {HN}⟩'
    if L=='__array_star_8':
        s=p.opt('__array_star_8'); e=p.take(VB); t=p.opt('__array_star_7'); b=p.opt('__child_resource_plus_3'); p.done()
        x0,k0,w0=('[]','.nil','[]') if s is None else ('x0','k0','w0')
        ts,tk_,tw=('[]','.nil','[]') if t is None else (f'(x{t} :: y{t})',f'k{t}',f'w{t}')
        bw,bk=brk(b)
        if b is not None: no=f'(noInfix_breaks k{b} m{b})'
        elif t is not None: no=f'm{t}'
        else: no=HN
        cv=lambda k: k if k=='.nil' else f'(by have := {k}; simpa only [NN] using this)'
        return f'⟨{x0} ++ x{e} :: {ts}, {eqn([i for i in (s,t,b) if i is not None],"w_exprs_append","Expr.trees")}, (by have := Elems.snoc (es := {x0}) (w1 := {w0}) (w2 := w{e}) (w3 := {tw}) (w4 := {bw}) (es\' := {ts}) (n := n) {cv(k0)} {cv("k%d"%e)} {tk_} {bk} {no}; simpa only [NN] using this)⟩'
    if L=='__object_star_9':
        if p.n==2: return '⟨[x1], rfl, .snoc (is := []) (w1 := []) .nil k0 k1⟩'
        return f'⟨x0 ++ [x2], {eqn([0],"w_items_append")}, .snoc k0 k1 k2⟩'
    if L=='__object_star_10':
        s=p.opt('__object_star_10'); e=p.take('pair','child_resource'); t=p.opt('__object_star_9'); b=p.opt('__child_resource_plus_3'); p.done()
        x0,k0,w0=('[]','.nil','[]') if s is None else ('x0','k0','w0')
        ts,tk_,tw=('[]','.nil','[]') if t is None else (f'x{t}',f'k{t}',f'w{t}')
        bw,bk=brk(b)
        cv=lambda k: k if k=='.nil' else f'(by have := {k}; simpa only [NN] using this)'
        qs=[i for i in (s,t,b) if i is not None]
        fin='simpa only [NN] using this)⟩'
        if r.rhs[e][1]=='pair':
            return f'⟨{x0} ++ x{e} :: {ts}, {eqn(qs,"w_items_append","Item.trees")}, (by have := Items.pairs (is := {x0}) (w1 := {w0}) (w2 := w{e}) (w3 := {tw}) (w4 := {bw}) (is\' := {ts}) (n := n) {cv(k0)} {cv("k%d"%e)} {tk_} {bk}; {fin}'
        return f'⟨{x0} ++ [x{e}], {eqn(qs,"w_items_append","Item.trees")}, (by have := Items.child (is := {x0}) (w1 := {w0}) (w2 := w{e}) (w3 := {bw}) (n := n) {cv(k0)} {cv("k%d"%e)} {bk}; {fin}'
    if L=='lambda_expression':
        if p.n==3: return f'⟨.lambda x0 x2, rfl, .lambda k0 k1 k2 {HN}⟩'
        return f'⟨.lambdaN x1 x3 x4 y4 x7, {eqn([4])}, .lambdaN k0 k1 k2 (by have := k3; simpa only [NN] using this) k4 k5 k6 k7 {HN}⟩'
    if L=='decorator':
        p.take('AT'); p.take('__ANON_2'); p.take('LPAR'); pre=[]; post=[]; e=None
        while p.at(NL): pre.append(p.take(NL))
        e=p.opt(VB)
        if e is not None:
            n2=p.opt(NL)
        z=p.take('RPAR')
        while p.at(NL): post.append(p.take(NL))
        p.done()
        pw,pk=nls(post)
        if e is None:
            w1,k1=nls(pre)
            return f'⟨⟨x1, .none⟩, rfl, .noArg (w1 := {w1}) (w2 := {pw}) k0 k1 k2 {k1} (by simp) k{z} {pk} (by simp)⟩'
        w1,k1=ob(pre[0] if pre else None); w3,k3=ob(n2)
        return f'⟨⟨x1, some x{e}⟩, rfl, .arg (w1 := {w1}) (w3 := {w3}) (w4 := {pw}) k0 k1 k2 {k1} k{e} {k3} k{z} {pk} (by simp)⟩'
    if L=='decorators': return f'⟨x0, y0, {eqn([0])}, k0⟩'
    if L=='__decorators_plus_11':
        if p.n==1: return '⟨x0, [], rfl, .snoc (ds := []) (w1 := []) .nil k0⟩'
        return f'⟨x0, y0 ++ [x1], (by simp only [{KK}, q0, List.map_append, List.map_cons, List.map_nil]), .snoc k0 k1⟩'
    if L=='function':
        p.take('FUNCTION'); n1=p.opt(NL); e=p.opt(VB); t=p.opt('__function_star_12'); n2=p.opt(NL); z=p.take('RPAR'); p.done()
        w1,k1=ob(n1); w4,k4=ob(n2)
        ts,tk_,tw=('[]','.nil','[]') if t is None else (f'x{t}',f'k{t}',f'w{t}')
        qs=[] if t is None else [t]
        cv=lambda k: f'(by have := {k}; simpa only [NN] using this)'
        if e is None: return f'⟨x0, {ts}, {eqn(qs)}, .noArg (w1 := {w1}) (w3 := {tw}) (w4 := {w4}) k0 {k1} {tk_} {k4} k{z}⟩'
        return f'⟨x0, x{e} :: {ts}, {eqn(qs,"Expr.tree","Expr.trees") if qs else "rfl"}, .args (w1 := {w1}) (w2 := w{e}) (w3 := {tw}) (w4 := {w4}) k0 {k1} {cv("k%d"%e)} {tk_} {k4} k{z}⟩'
    if L=='__function_star_12':
        s=p.opt('__function_star_12'); c=p.take('COMMA'); n=p.opt(NL); e=p.take(VB); p.done()
        x0,k0,w0=('[]','.nil','[]') if s is None else ('x0','k0','w0')
        w,k=ob(n)
        return f'⟨{x0} ++ [x{e}], {eqn([] if s is None else [0],"w_exprs_append")}, .snoc (es := {x0}) (w1 := {w0}) (w2 := {w}) {k0} k{c} {k} k{e} {HN}⟩'
    if L=='operator': return '⟨x0, q0, k0⟩'
    if L in('operator_comparison','operator_logical','operator_numeric','operator_accessor'): return '⟨_, rfl, w_op_nometa q0, x0, q0, k0⟩'
    if L in binops:
        if p.n==4: return f'⟨.bin .prop x0 x3, rfl, .safe k0 k1 k2 k3 {HN}⟩'
        return f'⟨.bin .{binops[L]} x0 x2, rfl, .bin rfl k0 k1 k2 {HN}⟩'
    if L=='index_accessor':
        if p.n==5: return '⟨.bin .index x0 x3, rfl, .safeIndex k0 k1 k2 k3 k4⟩'
        return '⟨.bin .index x0 x2, rfl, .index k0 k1 k2 k3⟩'
    if L=='not_op': return f'⟨.not x1, rfl, .not k0 k1 {HN}⟩'
    if L=='minus': return f'⟨.minus x1, rfl, .minus k0 k1 {HN}⟩'
    if L=='conditional': return f'⟨.cond x0 x2 x4, rfl, .cond k0 k1 k2 k3 k4 {HN}⟩'
    if L=='function_accessor':
        p.take(VB); p.take('DOT'); p.take('LIST_FUNC_NAME'); p.take('LPAR'); e=p.opt(VB); t=p.take('__function_accessor_plus_13'); z=p.take('RPAR'); p.done()
        if e is None:
            return ('TAC',f'''rcases h{t} with ⟨q, rfl, _⟩ | ⟨es, e, q, k⟩
    · exact ⟨.method x0 x2 [.none], (by simp only [{KK}, q] <;> rfl), .method (w2 := []) k0 k1 k2 k3 .empty k{z}⟩
    · exact ⟨.method x0 x2 ((es ++ [e]).map some), (by simp only [{KK}, q] <;> rfl), .method k0 k1 k2 k3 (.lead k) k{z}⟩''')
        return ('TAC',f'''rcases h{t} with ⟨q, rfl, _⟩ | ⟨es, e, q, k⟩
    · exact ⟨.method x0 x2 [some x{e}, .none], (by simp only [{KK}, q] <;> rfl), .method (w2 := w{e}) k0 k1 k2 k3 (.one k{e}) k{z}⟩
    · refine ⟨.method x0 x2 ((x{e} :: es ++ [e]).map some), (by simp only [{KK}, q, Expr.tree, Expr.optTrees, List.map_cons, Expr.optTree] <;> rfl), ?_⟩
      have := ESyn.method (n := n) k0 k1 k2 k3 (.many (by have := k{e}; simpa only [NN] using this) k) k{z}
      simpa only [NN] using this''')
    if L=='__function_accessor_plus_13':
        n=tuple(s[1] for s in r.rhs)
        if n==('COMMA',VB): return f'.inr ⟨[], x1, rfl, .snoc (es := []) (w1 := []) .nil k0 k1 {HN}⟩'
        if n==(): return '.inl ⟨rfl, rfl, hc.empty13 rfl rfl⟩'
        if n==('__function_accessor_plus_13',): return ('TAC','exact (hc.loop13 rfl).elim')
        return ('TAC',f'''rcases h0 with ⟨q, rfl, hne⟩ | ⟨es, e, q, k⟩
    · refine (hne ?_).elim
      have : ∀ t < 128, fixedText t = some "," → t = T.COMMA := by decide
      exact kw_type k1 "," T.COMMA rfl (by decide)
    · exact .inr ⟨es ++ [e], x2, (by simp only [{KK}, q, List.map_append, w_opts_append] <;> rfl), .snoc k k1 k2 {HN}⟩''')
    raise Exception(L)
def theorem(ix,r):
    name=r.alias or r.lhs
    ex=r.o['expand1'] and not r.alias
    inc=', '.join('(%d, %s, %d)'%(a,'true' if b else 'false',c) for a,b,c in r.inc)
    rule=f'⟨N.«{r.lhs}», [{", ".join(symn(s) for s in r.rhs)}], {q(name)}, {"true" if ex else "false"}, [{inc}], {r.tail}⟩'
    out=[f'theorem r_{ix} : RuleOK {rule} := by']
    t=gen(r)
    if isinstance(t,tuple) and t[0]!='TAC': t=t[0]
    long=r.lhs=='type_value' and len(r.rhs)==2
    if long: out.append('  refine ruleOK_long rfl ?_'); out.append('  intro cs w n l h hc')
    elif ex: out.append('  refine ruleOK_ex ?_'); out.append('  intro cs w n h hc')
    else: out.append('  refine ruleOK_node ?_'); out.append('  intro cs w n l h hc hl')
    m=len(r.rhs)
    if m==0: out.append('  obtain ⟨rfl, rfl⟩ := fitsW_nil.mp h')
    for i in range(m):
        if i<m-1: out.append(f'  obtain ⟨c{i}, cs, w{i}, w, rfl, rfl, h{i}, h⟩ := fitsW_cons.mp h')
        else: out.append(f'  obtain ⟨c{i}, rfl, h{i}⟩ := fitsW_one.mp h')
        if i==m-1: out.append(f'  rename\' w => w{i}')
    for i in range(m):
        d=destr(i,r.rhs[i])
        if d: out.append('  '+d)
    if isinstance(t,tuple): out.append('  · '+t[1] if '\n' in t[1] else '  '+t[1])
    else: out.append('  exact '+t)
    return '\n'.join(out), rule
HEAD='''import Verif.Proofs.SynBase
/-
GENERATED by tools/gen_syntax_proofs.py.
The trees and tokens of derivations are those of syntax: one case per grammar rule.
-/
set_option linter.all false
namespace Pycep.SynRules
'''
if __name__=='__main__':
    groups=[]; cur=[]
    res=[theorem(i,r) for i,r in enumerate(compiled)]
    NF=4
    # balance
    parts=[list(range(k,len(res),NF)) for k in range(NF)]
    for k,ids in enumerate(parts):
        body=(HEAD+'\n'.join(res[i][0]+'\n' for i in ids)).replace('[NN]','['+NN+']')
        body+=f'\n/-- the rules of this file -/\ndef list{k} : List Rule := [\n  '+',\n  '.join(res[i][1] for i in ids)+']\n'
        body+=f'\ntheorem ok{k} : ∀ r ∈ list{k}, RuleOK r := by\n  simp only [list{k}, List.forall_mem_cons]\n  exact ⟨'+', '.join(f'r_{i}' for i in ids)+', fun _ h => nomatch h⟩\n\nend Pycep.SynRules\n'
        open(f'{OUT}/SynRules{k}.lean','w').write(body)

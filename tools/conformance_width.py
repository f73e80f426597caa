#!/usr/bin/env python3
"""Translates the statements TEST_TRUE, TEST_FALSE and TEST_EQ of /repo/tests/width_t.cpp (read as text) into terms of the Lean model of width_t and writes them to
lean/Verif/Conformance/WidthT.lean, where Lean evaluates the model on each of them. This validates the model against the expectations of the project; it proves no property.
Statements about variables that are assigned in a block are left out and counted.
usage: conformance_width.py /repo /verif/lean"""
import re,sys
class E(Exception): pass
# values: ('w', lean term of type Option Int), ('i', tag, number), ('r', lean term of type Option Int) an integer result, ('b', lean term of type Option Bool)
TOK=re.compile(r'\s*(0x[0-9A-Fa-f]+(?:ULL|LL)?|\d+\.?\d*_w|\d+(?:ULL|LL)?|std::int16_t|\(int32_t\)|[A-Za-z_]\w*|==|<=|>=|!=|.)')
NAMED={'width_max':'some wmax','width_min':'some wmin','epsilon':'some 1'}
INTS={'max_underlying':2**31-1,'min_underlying':-2**31}
RANGE={'i16':(16,True),'u16':(16,False),'i32':(32,True),'u32':(32,False),'i64':(64,True),'u64':(64,False)}
def wrap(t,v):
    n,s=RANGE[t]; v%=1<<n
    return v-(1<<n) if s and v>>(n-1) else v
def digits(s): return '['+', '.join(s)+']'
class P:
    def __init__(s,t):
        s.k=[x for x in TOK.findall(t)]; s.i=0
    def peek(s): return s.k[s.i] if s.i<len(s.k) else ''
    def next(s): s.i+=1; return s.k[s.i-1]
    def eat(s,x):
        if s.peek()!=x: raise E('expected '+x+' got '+s.peek())
        s.i+=1
    def cmp(s):
        a=s.sum()
        o={'==':'eq','<':'lt','>':'gt','<=':'le','>=':'ge','!=':'ne'}.get(s.peek())
        if not o: return a
        s.next(); b=s.sum()
        if a[0]=='w' and b[0]=='w': return ('b',f'({a[1]}).bind fun a => ({b[1]}).bind fun b => CmpOp.{o}.run (.width a) (.width b)')
        if a[0]=='w' and b[0]=='i': return ('b',f'({a[1]}).bind fun a => CmpOp.{o}.run (.width a) (.int ({b[2]}))')
        if a[0]=='r' and b[0]=='i': return ('b',f'({a[1]}).map fun a => decide (a {dict(eq="=",lt="<",gt=">",le="≤",ge="≥",ne="≠")[o]} {b[2]})')
        raise E('cmp')
    def bin(s,a,o,b):
        if a[0]=='i' and b[0]=='i':
            t=a[1] if RANGE[a[1]][0]>=RANGE[b[1]][0] else b[1]
            return ('i',t,wrap(t,{'+':a[2]+b[2],'-':a[2]-b[2]}[o]))
        n={'+':'plus','-':'minus','*':'times','/':'over'}[o]
        if a[0]=='w' and b[0]=='w': return ('w',f'({a[1]}).bind fun a => ({b[1]}).bind fun b => BinOp.{n}.run (.width a) (.width b)')
        if a[0]=='w' and b[0]=='i': return ('w',f'({a[1]}).bind fun a => BinOp.{n}.run (.width a) (.int ({b[2]}))')
        if a[0]=='i' and b[0]=='w': return ('w',f'({b[1]}).bind fun b => BinOp.{n}.run (.int ({a[2]})) (.width b)')
        raise E('bin')
    def sum(s):
        a=s.term()
        while s.peek() in('+','-'):
            o=s.next(); a=s.bin(a,o,s.term())
        return a
    def term(s):
        a=s.unary()
        while s.peek() in('*','/'):
            o=s.next(); a=s.bin(a,o,s.unary())
        return a
    def unary(s):
        if s.peek()=='+': s.next(); return s.unary()
        if s.peek()=='-':
            s.next(); a=s.unary()
            if a[0]=='w': return ('w',f'({a[1]}).bind neg')
            if a[0]=='i': return ('i',a[1],-a[2])
            raise E('neg')
        if s.peek()=='(int32_t)': s.next(); a=s.unary(); return ('i','i32',wrap('i32',a[2]))
        return s.post()
    def post(s):
        a=s.atom()
        while s.peek()=='.':
            s.next(); f=s.next(); s.eat('('); s.eat(')')
            if a[0]!='w': raise E('member')
            m={'floor':'floor','ceil':'ceil','round':'round','non_negative_floor':'nnFloor','non_negative_ceil':'nnCeil','underlying_value':'id'}
            c={'zero':'eq','not_zero':'ne','gt_zero':'gt','ge_zero':'ge','lt_zero':'lt','le_zero':'le'}
            if f in m: a=('r',f'({a[1]}).map {m[f]}')
            elif f in c: a=('b',f'({a[1]}).map fun a => CmpOp.{c[f]}.members a 0')
            else: raise E(f)
        return a
    def atom(s):
        t=s.next()
        if t=='(':
            a=s.cmp(); s.eat(')'); return a
        if t.endswith('_w'):
            d=t[:-2].split('.')
            return ('w',f'literal {digits(d[0])} {digits(d[1]) if len(d)>1 else "[]"}')
        m=re.fullmatch(r'(0x[0-9A-Fa-f]+?|\d+)(ULL|LL)?',t)
        if m: return ('i',{'ULL':'u64','LL':'i64',None:'i32'}[m.group(2)],int(m.group(1),0))
        if t in NAMED: return ('w',NAMED[t])
        if t in INTS: return ('i','i32',INTS[t])
        if t.startswith('cast_') or t=='std::int16_t':
            g='i16' if t=='std::int16_t' else t[5:]; s.eat('('); a=s.sum(); s.eat(')')
            return ('i',g,wrap(g,a[2]))
        if t in('sat_add','sat_sub','sat_mul','compare'):
            s.eat('('); a=s.sum(); s.eat(','); b=s.sum(); s.eat(')')
            f={'sat_add':'satAdd','sat_sub':'satSub','sat_mul':'satMul','compare':'compare'}[t]
            kind='r' if t=='compare' else 'w'
            if a[0]=='w' and b[0]=='w' and kind=='w': return ('w',f'({a[1]}).bind fun a => ({b[1]}).bind fun b => {f} a b')
            if a[0]=='w' and b[0]=='i': return (kind,f'({a[1]}).bind fun a => ({f}Fn a ({b[2]}) .{b[1]}).bind id')
            if a[0]=='i' and b[0]=='w' and kind=='r': return (kind,f'({b[1]}).bind fun b => (compareFlippedFn ({a[2]}) b .{a[1]}).bind id')
        raise E(t)
out=[];bad=0
src=open(sys.argv[1]+'/tests/width_t.cpp').read()
for ln,l in enumerate(src.split('\n'),1):
    m=re.match(r'\s*TEST_(TRUE|FALSE|EQ)\s*\((.*)\);\s*$',l)
    if not m: continue
    try:
        p=P(m.group(2).strip())
        a=p.cmp()
        if m.group(1)=='EQ':
            p.eat(','); b=p.cmp()
            if a[0]=='i': a,b=b,a
            if a[0]!='r' or b[0]!='i': raise E('eq')
            st=f'({a[1]}) = some ({b[2]})'
        else:
            if a[0]!='b': raise E('not bool')
            st=f'({a[1]}) = some {m.group(1).lower()}'
        if p.peek(): raise E('rest '+p.peek())
        out.append(f'-- tests/width_t.cpp {ln}\nexample : {st} := by decide +kernel')
    except E as e:
        bad+=1
        if len(sys.argv)>3: print(ln,l,e)
open(sys.argv[2]+'/Verif/Conformance/WidthT.lean','w').write('''import Verif.Width.Ops
/-! Written by tools/conformance_width.py: the expectations of tests/width_t.cpp, evaluated on the model (see DESIGN.md). -/
namespace Strf.Width

'''+'\n'.join(out)+'\n\nend Strf.Width\n')
print(len(out),'statements,',bad,'left out')

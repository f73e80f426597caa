#!/usr/bin/env python3
"""Translates the statements `TEST("expected").with(facets...)(args...)` of the project's own unit tests (/repo/tests/*.cpp, read as
text) into terms of the Lean model (Program.Call) and writes them to lean/Verif/Conformance/*.lean, where Lean's kernel evaluates the
model on each of them. This validates the model against the expectations of the project; it proves no property.
Statements that the translator does not understand (user-defined printable types and overriders)
are left out and counted.
usage: conformance.py /repo /verif/lean
Conventions: C++17 (u8"" has type const char*), wchar_t and long as on Linux (4 and 8 bytes).
The test functions that are templates on the floating-point type are instantiated for double, with an empty pack of facets;
error notifiers given as facets are dropped (they do not affect the output)."""
import re,sys,struct
KINDS={'int':('int',True),'unsigned':('int',False),'long':('long',True),'ulong':('long',False),'llong':('longLong',True),'ullong':('longLong',False),
 'short':('short',True),'ushort':('short',False),'schar':('char',True),'uchar':('char',False)}
TYPES={'unsigned':'unsigned','unsigned int':'unsigned','int':'int','std::int8_t':'schar','std::uint8_t':'uchar','std::int16_t':'short','std::uint16_t':'ushort','std::int32_t':'int','std::uint32_t':'unsigned','std::int64_t':'long','std::uint64_t':'ulong','long':'long','long long':'llong','unsigned long long':'ullong','unsigned long':'ulong','std::ptrdiff_t':'long','std::size_t':'ulong','std::intmax_t':'long','short':'short','unsigned short':'ushort','signed char':'schar','unsigned char':'uchar','std::uintmax_t':'ulong'}
BITS={'char':8,'short':16,'int':32,'long':64,'longLong':64}
class E(Exception): pass
class Int:
    def __init__(s,v,ty='int'):
        k,sg=KINDS[ty]; n=BITS[k]; v%=1<<n
        if sg and v>>(n-1): v-=1<<n
        s.v=v; s.ty=ty
class Flt:
    def __init__(s,bits,F): s.bits=bits; s.F=F
    def neg(s): return Flt(s.bits^(1<<(63 if s.F=='double' else 31)),s.F)
class Chr:
    def __init__(s,u,S): s.u=u; s.S=S
class Str:
    def __init__(s,us,S): s.us=us; s.S=S
class Bool:
    def __init__(s,b): s.b=b
class Ptr:
    def __init__(s,a): s.a=a
class Fmt:
    def __init__(s,base,calls): s.base=base; s.calls=calls
class Join:
    def __init__(s,args): s.args=args
class Range:
    def __init__(s,elems,sep=None,fmt=False,func=None): s.elems=elems; s.sep=sep; s.fmt=fmt; s.func=func
class Tr:
    def __init__(s,st,args): s.st=st; s.args=args
class Inner:
    def __init__(s,fs,args): s.fs=fs; s.args=args
class With:
    def __init__(s,fs): s.fs=fs
class JoinAl:
    def __init__(s,a,w,f): s.a=a; s.w=w; s.f=f
class Facet:
    def __init__(s,lean,cs=None): s.lean=lean; s.cs=cs
class NP:
    def __init__(s,base,grp,dp=0x2e,ts=0x2c): s.base=base;s.grp=grp;s.dp=dp;s.ts=ts
class NPM:
    def __init__(s,base,ts): s.base=base; s.ts=ts
class Arr:
    def __init__(s,l): s.l=l
class ArrPos:
    def __init__(s,l,i): s.l=l; s.i=i
class Fn:
    def __init__(s,n): s.n=n
class Member:
    def __init__(s,o,n): s.o=o; s.n=n
class Lambda:
    def __init__(s,p,body): s.p=p; s.body=body
class Skip: pass
class Flg:
    def __init__(s,x): s.x=x

TOK=re.compile(r'''\s+|(?P<str>(?:u8|u|U|L)?R?"(?:\\.|[^"\\])*")|(?P<chr>(?:u8|u|U|L)?'(?:\\.|[^'\\])+')|(?P<num>0[xX][0-9a-fA-F]+[uUlL]*|0[bB][01']+[uUlL]*|(?:\d+\.\d*|\.\d+|\d+)(?:[eE][-+]?\d+)?(?:_w|[fFuUlL]*))|(?P<id>(?:::)?[A-Za-z_]\w*(?:::[A-Za-z_]\w*)*)|(?P<op>->|==|&&|<<|[-+*/%<>^~!(){}\[\],.;=&|?:#@\\])''')
def strip(src):
    out=[]; 
    pat=re.compile(r'"(?:\\.|[^"\\])*"|\'(?:\\.|[^\'\\])+\'|//[^\n]*|/\*.*?\*/',re.S)
    def f(m):
        t=m.group()
        if t.startswith('//'): return ''
        if t.startswith('/*'): return re.sub(r'[^\n]','',t)
        return t
    src=pat.sub(f,src)
    lines=src.split('\n'); o=[]; cont=False
    for l in lines:
        if cont or l.lstrip().startswith('#'):
            cont=l.rstrip().endswith('\\'); o.append('')
        else: o.append(l)
    return '\n'.join(o)
def toks(src):
    pos=0; line=1; out=[]
    while pos<len(src):
        m=TOK.match(src,pos)
        if not m: raise E('tok %r'%src[pos:pos+20])
        if m.lastgroup: out.append((m.lastgroup,m.group(),line))
        line+=m.group().count('\n'); pos=m.end()
    out.append(('eof','',line)); return out
def enc(S,cps):
    us=[]
    for k,c in cps:
        if k=='raw': us.append(c)
        elif S in('char','char8'): us+=list(chr(c).encode('utf8','surrogatepass'))
        elif S=='char16': 
            us+= [c] if c<0x10000 else [0xD800+((c-0x10000)>>10),0xDC00+((c-0x10000)&0x3ff)]
        else: us.append(c)
    return us
def unesc(S,body):
    i=0; out=[]
    while i<len(body):
        c=body[i]
        if c!='\\': out.append(('cp',ord(c))); i+=1; continue
        d=body[i+1]
        if d=='x':
            m=re.match(r'[0-9a-fA-F]+',body[i+2:]); out.append(('raw',int(m.group(),16))); i+=2+m.end()
        elif d=='u': out.append(('cp',int(body[i+2:i+6],16))); i+=6
        elif d=='U': out.append(('cp',int(body[i+2:i+10],16))); i+=10
        elif d in '01234567':
            m=re.match(r'[0-7]{1,3}',body[i+1:]); out.append(('raw',int(m.group(),8))); i+=1+m.end()
        else:
            out.append(('cp',ord({'n':'\n','t':'\t','r':'\r',"'":"'",'"':'"','\\':'\\','0':'\0','a':'\a','b':'\b'}[d]))); i+=2
    return enc(S,out)
PFX={'':'char','u8':'char','u':'char16','U':'char32','L':'wchar'}
def lit(t):
    m=re.match(r'(u8|u|U|L)?R?(["\'])(.*)["\']$',t,re.S); S=PFX[m.group(1) or '']
    return S,unesc(S,m.group(3))
TEMPL={'static_cast','strf::numpunct','strf::constrain','strf::detail::int_min','strf::detail::int_max','strf::detail::bit_cast','numpunct_maker','float_max','make_nan','make_infinity','make_negative_nan','strf::native_numpunct','make_float','strf::default_numpunct','reinterpret_cast','simple_array','strf::detail::simple_string_view'}
def istempl(n): return n in TEMPL or re.match(r'(strf::)?(iso_8859_\d+|windows_\d+|utf\w*|ascii)_t$',n) or n in('strf::utf_t','strf::charset_c')
class P:
    def __init__(s,t,i,env): s.t=t;s.i=i;s.env=env
    def pk(s): return s.t[s.i][1]
    def nx(s): s.i+=1; return s.t[s.i-1]
    def ex(s,v):
        if s.pk()!=v: raise E('expected %s got %s line %d'%(v,s.pk(),s.t[s.i][2]))
        s.i+=1
    def targs(s):
        s.ex('<'); d=1; out=[]
        while d:
            k,v,_=s.nx()
            if v=='<': d+=1
            elif v=='>': d-=1
            if d: out.append(v)
        return ' '.join(out)
    def args(s,close):
        l=[]
        while s.pk()!=close:
            l.append(s.expr(0))
            if s.pk()==',': s.nx()
            elif s.pk()!=close: raise E('args: %s'%s.pk())
        s.ex(close); return l
    PREC={'^':2,'&':3,'|':1,'<':5,'>':5,'<<':6,'+':7,'-':7,'*':8,'/':8,'%':8,'==':4}
    def expr(s,p):
        l=s.unary()
        while s.t[s.i][0]=='op' and s.pk() in s.PREC and s.PREC[s.pk()]>p:
            op=s.nx()[1]; r=s.expr(s.PREC[op]); l=binop(op,l,r)
        return l
    def unary(s):
        k,v,_=s.t[s.i]
        if k=='op' and v in '+-*!~&':
            s.nx(); x=s.unary(); return unop(v,x)
        return s.postfix()
    def postfix(s):
        x=s.prim()
        while True:
            v=s.pk()
            if v=='(' : s.nx(); x=call(x,s.args(')'))
            elif v=='.' : s.nx(); x=Member(x,s.nx()[1])
            elif v=='{' and isinstance(x,Fn): s.nx(); x=call(x,s.args('}'))
            else: return x
    def prim(s):
        k,v,ln=s.nx()
        if k=='str':
            S,us=lit(v)
            while s.t[s.i][0]=='str':
                S2,u2=lit(s.nx()[1]); us=us+u2; S=S2 if S=='char' else S
            return Str(us,S)
        if k=='chr':
            S,us=lit(v)
            if len(us)!=1: raise E('multi char')
            return Chr(us[0],S)
        if k=='num': return number(v)
        if v=='(':
            j=s.i; ty=[]
            while s.t[j][0]=='id' or s.t[j][1] in('*',): ty.append(s.t[j][1]); j+=1
            name=' '.join(ty)
            if s.t[j][1]==')' and (name in TYPES):
                s.i=j+1; return cast(name,s.unary())
            x=s.expr(0); s.ex(')'); return x
        if v=='{': return Arr(s.args('}'))
        if v=='[':
            s.ex(']'); s.ex('('); ty=s.nx()[1]; p=s.nx()[1]; s.ex(')'); s.ex('{')
            if s.pk()!='return': raise E('lambda')
            s.nx(); b=s.i
            d=0
            while not(s.pk()==';' and d==0):
                if s.pk() in '({': d+=1
                if s.pk() in ')}': d-=1
                s.nx()
            e=s.i; s.nx(); s.ex('}')
            toks_=s.t; env=dict(s.env)
            return Lambda(p,lambda val: P(toks_,b,{**env,p:val}).expr(0))
        if k=='id':
            if v in('true','false'): return Bool(v=='true')
            if v in('char16_t','char32_t') and s.pk() in('(','{'): return Fn(('cast',v))
            if v in TYPES and s.pk() in('(','{'): return Fn(('cast',v))
            if v in s.env:
                return s.env[v]
            if istempl(v) and s.pk()=='<':
                ta=s.targs(); return Fn((v,ta))
            if v.startswith('strf::transcode_flags::'): return Flg({v.split('::')[-1]})
            if v.startswith('strf::transcode_stop_reason::'): return v.split('::')[-1]
            if v.startswith('strf::lettercase::'): return Facet('.facet .lettercase (.lettercase .%s)'%v.split('::')[-1])
            if v in('strf::uppercase','strf::lowercase','strf::mixedcase'): return Facet('.facet .lettercase (.lettercase .%s)'%v[6:11])
            if v in('strf::fast_width','strf::width_as_fast_u32len','strf::width_as_u32len','strf::std_width_calc'):
                n={'strf::fast_width':'fast','strf::width_as_fast_u32len':'fastU32len','strf::width_as_u32len':'u32len','strf::std_width_calc':'std'}[v]
                return Facet('.facet .widthCalc (.widthCalc .%s)'%n)
            m=re.match(r'strf::((?:iso_8859_\d+)|(?:windows_\d+)|utf|ascii)$',v)
            if m and s.pk()=='<': return charset(m.group(1),s.targs())
            if v.startswith('strf::') or v.startswith('make_'): return Fn((v,None))
            raise E('id '+v)
        raise E('prim %s'%v)
def number(t):
    m=re.match(r"(0[xX][0-9a-fA-F]+|0[bB][01]+|\d+)([uUlL]*)$",t)
    if m:
        b=m.group(1); suf=m.group(2).lower()
        if b[:2].lower()=='0x': v=int(b,16); dec=False
        elif b[:2].lower()=='0b': v=int(b[2:],2); dec=False
        elif len(b)>1 and b[0]=='0': v=int(b,8); dec=False
        else: v=int(b); dec=True
        u='u' in suf; l=suf.count('l')
        cands=[('int','unsigned')] if l==0 else []
        if l<=1: cands.append(('long','ulong'))
        cands.append(('llong','ullong'))
        for sg,us in cands:
            n=BITS[KINDS[sg][0]]
            if not u and v<1<<(n-1): return Int(v,sg)
            if (u or not dec) and v<1<<n: return Int(v,us)
        raise E('big')
    if t.endswith('_w'): return ('w',float(t[:-2]))
    if t[-1] in 'fF':
        return Flt(f32bits(t[:-1]),'float')
    return Flt(struct.unpack('<Q',struct.pack('<d',float(t)))[0],'double')
def f32bits(t):
    # correctly rounded
    from fractions import Fraction
    x=Fraction(t) if 'e' not in t.lower() else Fraction(t)
    if x==0: return 0
    b=struct.unpack('<I',struct.pack('<f',float(t)))[0]
    best=None
    for c in (b-1,b,b+1):
        v=Fraction(struct.unpack('<f',struct.pack('<I',c))[0]); d=abs(v-x)
        if best is None or d<best[0] or (d==best[0] and c%2==0): best=(d,c)
    return best[1]
def cast(name,x):
    if name in('char16_t','char','char8_t'): return Chr(x.v if isinstance(x,Int) else x.u,{'char16_t':'char16'}.get(name,'char'))
    if name=='char32_t': return Chr(x.v if isinstance(x,Int) else x.u,'char32')
    if isinstance(x,Int): return Int(x.v,TYPES[name])
    if isinstance(x,Chr): return Int(x.u,TYPES[name])
    raise E('cast')
def charset(n,ty):
    S={'char':'char','char8_t':'char','char16_t':'char16','char32_t':'char32','wchar_t':'wchar'}[ty.strip()]
    if n=='utf': name={'char':'.utf .utf8','char16':'.utf .utf16','char32':'.utf .utf32','wchar':'.utf .utf32'}[S]
    else: name='.sbc %d'%SBCIDX[n]
    return Facet('.facet (.charset %s) (.charset %s ⟨%s, true⟩)'%(T(S),T(S),name),'⟨%s, true⟩'%name)
def T(S): return '(.wchar true)' if S=='wchar' else '.'+S
def base_of(x):
    return x.base if isinstance(x,Fmt) else x
def fmt(x,*calls):
    if isinstance(x,Fmt): return Fmt(x.base,x.calls+list(calls))
    return Fmt(x,list(calls))
def wid(x):
    if isinstance(x,Int): return x.v*65536
    if isinstance(x,tuple) and x[0]=='w': return int(x[1]*65536)
    raise E('width')
def u32(x):
    if isinstance(x,Chr): return x.u
    if isinstance(x,Int): return x.v
    raise E('fill')
def binop(op,l,r):
    if isinstance(l,Flg): return Flg(l.x|r.x)
    if isinstance(l,Int) and isinstance(r,Int):
        ty=l.ty
        return Int({'+':l.v+r.v,'-':l.v-r.v,'*':l.v*r.v,'<<':l.v<<max(r.v,0),'^':l.v^r.v,'&':l.v&r.v,'|':l.v|r.v}[op],ty)
    if op in '<>^' : return fmt(l,({'<':'left','>':'right','^':'center'}[op],wid(r)))
    if op=='+' and isinstance(l,Arr): return ArrPos(l.l,r.v)
    raise E('binop '+op)
def unop(op,x):
    if isinstance(x,Int):
        if op=='-': return Int(-x.v,x.ty)
        if op=='+': return x
    if isinstance(x,Flt):
        if op=='-': return x.neg()
        if op=='+': return x
    if op in '+*!~': return fmt(x,{'+':'plus','*':'star','!':'punct','~':'fillSign'}[op])
    raise E('unop '+op)
def call(f,a):
    if isinstance(f,Member): return member(f.o,f.n,a)
    if isinstance(f,JoinAl): return Fmt(Join(a),[('set',f.f,f.w,f.a)])
    if isinstance(f,With): return Inner(f.fs,a)
    if isinstance(f,NPM): return NP(f.base,[x.v for x in a],0x2e,f.ts)
    if isinstance(f,Facet) and not a: return f
    if isinstance(f,NP) and True: raise E('np call')
    if not isinstance(f,Fn): raise E('call')
    n,ta=f.n
    if n=='err_handler': return Skip()
    if n=='cast': return cast(ta,a[0])
    if n=='static_cast': return cast(ta,a[0])
    if n in('strf::numpunct','strf::default_numpunct'): return NP(int(ta),[x.v for x in a])
    if n=='numpunct_maker': return NPM(int(ta),u32(a[0]))
    if n=='strf::detail::int_min':
        k=TYPES[ta]; b=BITS[KINDS[k][0]]; return Int(-(1<<(b-1)) if KINDS[k][1] else 0,k)
    if n=='strf::detail::int_max':
        k=TYPES[ta]; b=BITS[KINDS[k][0]]; return Int((1<<(b-1))-1 if KINDS[k][1] else (1<<b)-1,k)
    if n in('float_max','make_nan','make_infinity','make_negative_nan'):
        e,m=(11,52) if ta=='double' else (8,23)
        mx=(1<<e)-1
        ex,man,sg={'float_max':(mx-1,(1<<m)-1,0),'make_nan':(mx,1,0),'make_negative_nan':(mx,1,1),'make_infinity':(mx,0,0)}[n]
        return Flt(sg<<(e+m)|ex<<m|man,ta)
    if n=='strf::detail::bit_cast':
        t0=ta.split(',')[0].strip()
        if t0 in('float','double'): return Flt(a[0].v,t0)
        if t0 in('void *','const void *'): return Ptr(a[0].v)
        raise E('bit_cast')
    if n=='make_normal_double':
        d=a[0].v; ex=a[1].v if len(a)>1 else 0
        k=d.bit_length()-1; frac=d-(1<<k)
        sh=52-k
        frac=frac<<sh if sh>=0 else frac>>-sh
        return Flt(((1023+ex)<<52)|frac,'double')
    if n=='make_subnormal_double':
        d=a[0].v; k=d.bit_length()-1; frac=d-(1<<k); return Flt(frac<<(52-k),'double')
    m=re.match(r'strf::(iso_8859_\d+|windows_\d+|utf|ascii)_t$',n)
    if m: return charset(m.group(1),ta)
    if n=='strf::constrain':
        pr={'std::is_pointer':'fun t => t = .pointer','strf::is_bool':'fun t => t = .bool','strf::is_int_number':'fun t => match t with | .int _ => true | _ => false'}
        if ta not in pr: raise E('constrain '+ta)
        return Facet('.constrained (%s) (%s)'%(pr[ta],facet(a[0])))
    if not n.startswith('strf::'): raise E('fn '+n)
    n=n[6:]
    if n=='fmt': return fmt(a[0])
    if n in('hex','dec','oct','bin','sci','fixed','gen','punct'):
        if len(a)==2: return fmt(a[0],n,('p',a[1]))
        if len(a)!=1: raise E('arity')
        return fmt(a[0],n)
    if n in('transcode','conv','sani','unsafe_transcode'):
        if n=='conv': n='transcode'
        return fmt(a[0],(n,a[1].cs if len(a)>1 else None))
    if n=='pad0': return fmt(a[0],('pad0',a[1].v))
    if n=='multi': return fmt(a[0],('multi',a[1].v))
    if n in('left','right','center'):
        if len(a)==2: return fmt(a[0],(n,wid(a[1])))
        return fmt(a[0],('set',u32(a[2]),wid(a[1]),n))
    if n in('join_left','join_right','join_center'):
        return JoinAl(n[5:],wid(a[0]),u32(a[1]) if len(a)>1 else 0x20)
    if n=='join': return Join(a)
    if n=='with': return With([facet(x) for x in a])
    if n=='pack': return Facet('.pack [%s]'%', '.join(facet(x) for x in a))
    if n=='tr': return Tr(a[0],a[1:])
    if n in('range','fmt_range','separated_range','fmt_separated_range'):
        fm=n.startswith('fmt_'); sep=None; func=None
        a=list(a)
        if isinstance(a[-1],Lambda): func=a.pop()
        if 'separated' in n: sep=a.pop()
        if len(a)==2 and isinstance(a[1],(ArrPos,Arr)): el=a[0].l[:a[1].i if isinstance(a[1],ArrPos) else 0]
        elif len(a)==1 and isinstance(a[0],Arr): el=a[0].l
        else: raise E('range')
        r=Range(el,sep,fm,func)
        return Fmt(r,[]) if fm else r
    raise E('fn '+n)
def member(o,n,a):
    if isinstance(o,NP):
        if n=='thousands_sep': return NP(o.base,o.grp,o.dp,u32(a[0]))
        if n=='decimal_point': return NP(o.base,o.grp,u32(a[0]),o.ts)
        raise E('np.'+n)
    if n=='fill': return fmt(o,('fill',u32(a[0])))
    if n=='p': return fmt(o,('p',a[0]))
    if n=='pad0': return fmt(o,('pad0',a[0].v))
    if n=='multi': return fmt(o,('multi',a[0].v))
    if n=='fill_sign': return fmt(o,'fillSign')
    if n=='base': return fmt(o,('base',a[0].v))
    if n in('hex','dec','oct','bin','sci','fixed','gen','punct'): return fmt(o,n)
    if n in('transcode','conv','sani','unsafe_transcode'):
        return fmt(o,('transcode' if n=='conv' else n,a[0].cs if a else None))
    raise E('.'+n)
def facet(x):
    if isinstance(x,Skip): return None
    if isinstance(x,Facet): return x.lean
    if isinstance(x,NP):
        if x.ts is None: raise E('np')
        g='Numpunct.ctor2 [%s]'%', '.join(map(str,x.grp)) if x.grp else 'Numpunct.emptyWord'
        return '.facet (.numpunct %d) (.numpunct %d ⟨%s, %d, %d⟩)'%(x.base,x.base,g,x.dp,x.ts)
    raise E('facet')
def isfacet(x): return isinstance(x,(Facet,NP,Skip))
def num(v): return '(%d)'%v if v<0 else str(v)
def acall(c):
    if c[0] in('left','right','center'): return '.%s %s'%(c[0],num(c[1]))
    if c[0]=='fill': return '.fill %d'%c[1]
    if c[0]=='set': return '.set %d %s .%s'%(c[1],num(c[2]),c[3])
    return None
def alignfold(calls):
    f,w,a=0x20,0,'right'
    for c in calls:
        if c[0] in('left','right','center'): a=c[0]; w=c[1]
        elif c[0]=='fill': f=c[1]
        elif c[0]=='set': f,w,a=c[1:]
        else: raise E('join fmt %r'%(c,))
    return '⟨%d, .%s, %s⟩'%(f,a,num(w))
def arg(x):
    f=isinstance(x,Fmt); b=x.base if f else x; cs=x.calls if f else []
    if isinstance(b,Tr) or isinstance(b,Inner):
        if f: raise E('fmt of tr')
    if isinstance(b,Int):
        k,sg=KINDS[b.ty]; ks='.long true' if k=='long' else '.'+k
        l=[]
        for c in cs:
            if isinstance(c,str): l.append('.'+c)
            elif acall(c): l.append('.align (%s)'%acall(c))
            elif c[0] in('p',): l.append('.p %s'%num(c[1].v))
            elif c[0] in('pad0','base'): l.append('.%s %s'%(c[0],num(c[1])))
            else: raise E('int '+str(c))
        return '.int ⟨%s, %s⟩ [%s] %s'%(ks,'true' if sg else 'false',', '.join(l),num(b.v))
    if isinstance(b,Flt):
        l=[]
        for c in cs:
            if isinstance(c,str): l.append('.'+c)
            elif acall(c): l.append('.align (%s)'%acall(c))
            elif c[0]=='p': l.append('.p %s'%num(c[1].v))
            elif c[0]=='pad0': l.append('.pad0 %s'%num(c[1]))
            else: raise E('float '+str(c))
        return '.float .%s [%s] %d'%(b.F,', '.join(l),b.bits)
    if isinstance(b,Str):
        l=[]
        for c in cs:
            if isinstance(c,str): raise E('str '+c)
            if acall(c): l.append('.align (%s)'%acall(c))
            elif c[0]=='p': l.append('.p %d'%wid(c[1]))
            else:
                nm={'transcode':'transcode','sani':'sani','unsafe_transcode':'unchecked'}[c[0]]
                l.append('.%s %s'%(nm,'none' if c[1] is None else '(some %s)'%c[1]))
        us=b.us
        if 0 in us: us=us[:us.index(0)]
        return '.str %s [%s] %s'%(T(b.S),', '.join(l),us)
    if isinstance(b,Chr):
        if not f: return '.rawChr %s %d'%(T(b.S),b.u)
        l=[]
        for c in cs:
            if isinstance(c,str): raise E('chr '+c)
            if acall(c): l.append('.align (%s)'%acall(c))
            elif c[0]=='multi': l.append('.multi %s'%num(c[1]))
            else: raise E('chr')
        return '.chr %s [%s] %d'%(T(b.S),', '.join(l),b.u)
    if isinstance(b,(Bool,Ptr)):
        l='[%s]'%', '.join(acall(c) for c in cs)
        if isinstance(b,Ptr): return '.ptr %s %d'%(l,b.a)
        return '.bool %s %s'%('(some %s)'%l if f else 'none','true' if b.b else 'false')
    if isinstance(b,Join):
        if not f: return '.join [%s]'%args(b.args)
        return '.alignedJoin %s [%s]'%(alignfold(cs),args(b.args))
    if isinstance(b,Range):
        if b.func:
            el=[b.func.body(e) for e in b.elems]
        else: el=[fmt(e,*cs) if f else e for e in b.elems]
        if b.sep is None: return '.range [%s]'%args(el)
        return '.separatedRange %s %s [%s]'%('true' if f else 'false',b.sep.us,args(el))
    if isinstance(b,Tr): return '.tr %s [%s]'%(b.st.us,args(b.args))
    if isinstance(b,Inner): return '.inner [%s] [%s]'%(', '.join(b.fs),args(b.args))
    raise E('arg %s'%type(b).__name__)
CSOF={'char':'.utf .utf8','char8_t':'.utf .utf8','char16_t':'.utf .utf16','char32_t':'.utf .utf32','wchar_t':'.utf .utf32'}
TOF={'char':'.char','char8_t':'.char8','char16_t':'.char16','char32_t':'.char32','wchar_t':'(.wchar true)'}
def units(l):
    o=[]
    for x in l:
        if isinstance(x,Str):
            us=x.us
            o+=us[:us.index(0)] if 0 in us else us
        elif isinstance(x,Chr): o.append(x.u)
        else: raise E('units %s'%type(x).__name__)
    return o
def unit8(x,one):
    v=x.u if isinstance(x,Chr) else x.v
    return v%256 if one else v
def transcoding(p,macro,fname):
    if 'UTF' in macro:
        p.ex('('); a=p.nx()[1]; p.ex(','); b=p.nx()[1]; p.ex(')')
    elif fname!='single_byte_charsets':
        a,b={'utf16':('char16_t','char16_t'),'utf32':('char32_t','char32_t'),'utf16_to_utf32':('char16_t','char32_t'),'utf32_to_utf16':('char32_t','char16_t')}[fname]
    else: a=b=None
    if a: S,D,sc,dc=TOF[a],TOF[b],'⟨%s, true⟩'%CSOF[a],'⟨%s, true⟩'%CSOF[b]; one=a in('char','char8_t')
    else:
        p.ex('('); l=p.args(')')
        ch=lambda f: re.match(r'\.facet \(\.charset (\S+)\)',f.lean).group(1)
        S,D,sc,dc=ch(l[0]),ch(l[1]),l[0].cs,l[1].cs; one=S=='.char'
    src=exp=[]; room=200; why='completed'; fl=set(); inv=[]; uns=[]
    while p.pk()=='.':
        p.nx(); n=p.nx()[1]; p.ex('('); l=p.args(')')
        if n=='input': src=units(l)
        elif n=='expect': exp=units(l)
        elif n=='destination_size': room=l[0].v
        elif n=='flags': fl=l[0].x if l else set()
        elif n=='expect_stop_reason': why=l[0]
        elif n=='expect_invalid_sequences': inv=[[unit8(u,one) for u in x.l] for x in l[0].l]
        elif n=='expect_unsupported_codepoints': uns=[unit8(x,False) for x in l[0].l]
        else: raise E(n)
    why={'completed':'completed','insufficient_output_space':'insufficient','invalid_sequence':'invalid','unsupported_codepoint':'unsupported'}[why]
    b=lambda n: 'true' if n in fl else 'false'
    return '⟨%s, %s, %s, %s, %s, ⟨%s, %s, %s⟩, %d, %s, %s, .%s, %s, %s⟩'%('false' if 'UNSAFE' in macro else 'true',S,D,sc,dc,b('lax_surrogate_policy'),b('stop_on_invalid_sequence'),b('stop_on_unsupported_codepoint'),room,src,exp,why,inv,uns)
def args(l): return ', '.join(arg(x) for x in l)
def run(path,cs=None):
    t=toks(strip(open(path).read()).replace('<FloatT>','<double>')); i=0; envs=[{**({'cs':P(toks('strf::%s<char>;'%cs),0,{}).expr(0)} if cs else {}),'fp':Facet('.pack []'),'err_handler':Fn(('err_handler',None)),'log':Skip()}]; out=[]; fails=[]; total=0; cout=[]; ctotal=0
    while t[i][0]!='eof':
        k,v,ln=t[i]
        if v=='{': envs.append(dict(envs[-1])); i+=1; continue
        if v=='}': 
            if len(envs)>1: envs.pop()
            i+=1; continue
        if v==';': i+=1; continue
        # statement
        isT=v in('TEST','TESTF')
        isC='TRANSCODE' in v and v.startswith('TEST_')
        decl=v in('std::string_view','auto','constexpr','const','std::string','std::wstring','std::u16string','char','int','void','using','unsigned','strf::numpunct','strf::transcoding_error_notifier_ptr')
        j=i; d=0
        while t[j][0]!='eof':
            w=t[j][1]
            if w in '([' and t[j][0]=='op': d+=1
            elif w in ')]' and t[j][0]=='op': d-=1
            elif w=='{' and d==0 and not(isT or isC or decl): break
            elif w=='{' and d==0 and decl and '=' not in [x[1] for x in t[i:j]] and t[j-1][1] in (')','const','noexcept','override'): break
            elif w=='{' : d+=1
            elif w=='}' : 
                d-=1
                if d<0: break
            elif w==';' and d<=0: break
            j+=1
        st=t[i:j]; 
        if isT:
            total+=1
            try:
                p=P(t,i+1,envs[-1]); p.ex('('); e=p.expr(0); p.ex(')')
                withs=[]
                while p.pk()=='.':
                    p.nx(); n=p.nx()[1]
                    if n!='with': raise E('TEST.'+n)
                    p.ex('('); withs.append(p.args(')'))
                p.ex('('); a=p.args(')')
                fs=[]
                while a and isfacet(a[0]): fs.append(a.pop(0))
                W='['+', '.join('['+', '.join(filter(None,(facet(x) for x in w)))+']' for w in withs)+']'
                F='['+', '.join(filter(None,(facet(x) for x in fs)))+']'
                out.append((ln,T(e.S),'⟨%s, %s, [%s], false⟩'%(W,F,args(a)),e.us))
            except (E,KeyError,AttributeError,IndexError,TypeError,ValueError) as ex:
                fails.append((ln,repr(ex)))
            i=j+1 if t[j][1]==';' else j
            continue
        if isC:
            ctotal+=1
            try: cout.append((ln,transcoding(P(t,i+1,envs[-1]),v,path.split('/')[-1][:-4])))
            except (E,KeyError,AttributeError,IndexError,TypeError,ValueError) as ex: fails.append((ln,v+repr(ex)))
            i=j+1 if t[j][1]==';' else j
            continue
        # declarations
        try:
            ws=[x[1] for x in st]
            if ws and ws[0]=='using' and '=' in ws:
                name=ws[1]; p=P(t,i+3,envs[-1]); n=p.nx()[1]; 
                if istempl(n): envs[-1][name]=Fn((n,p.targs()))
            elif decl and '=' in ws:
                q=ws.index('='); name=[x for x in st[:q] if x[0]=='id'][-1][1]
                envs[-1].pop(name,None)
                p=P(t,i+q+1,envs[-1]); val=p.expr(0)
                if isinstance(val,Arr):
                    for ty in ('char16_t','char32_t','wchar_t','char8_t'):
                        if ty in ws[:q]: val=Str([u32(x) for x in val.l],{'char16_t':'char16','char32_t':'char32','wchar_t':'wchar','char8_t':'char'}[ty])
                envs[-1][name]=val
            elif 'strf::transcoding_error_notifier_ptr' in ws:
                envs[-1][ws[1]]=Skip()
            elif decl and ('{' in ws or '(' in ws):
                q=min(ws.index(z) for z in '{(' if z in ws); name=ws[q-1]
                envs[-1].pop(name,None)
                p=P(t,i+q+1,envs[-1]); al=p.args('}' if ws[q]=='{' else ')')
                if ws[0].startswith('std::') and 'string' in ws[0] and 'view' not in ws[0]: envs[-1][name]=al[0]
                elif 'std::string_view' in ws: envs[-1][name]=Str(al[0].us[:al[1].v],al[0].S)
                elif 'simple_array' in ws: envs[-1][name]=al[0]
                elif 'strf::dynamic_charset' in ws: envs[-1][name]=Facet(al[0].lean.replace(', true⟩',', false⟩'),al[0].cs.replace(', true⟩',', false⟩'))
                elif 'strf::digits_grouping' in ws: envs[-1][name]=al
                elif 'strf::numpunct' in ws and al and isinstance(al[0],list): envs[-1][name]=NP(10,[x.v for x in al[0]])
                elif 'strf::numpunct' in ws: envs[-1][name]=NP(int(ws[ws.index('strf::numpunct')+2]),[x.v for x in al])
                elif 'numpunct_maker' in ws: envs[-1][name]=NPM(int(ws[ws.index('numpunct_maker')+2]),u32(al[0]))
                else: raise E('decl')
        except (E,KeyError,AttributeError,IndexError,TypeError,ValueError) as ex:
            if isT is False and decl and '=' in [x[1] for x in st]: fails.append((ln,'decl '+repr(ex)))
        if t[j][1]==';': i=j+1
        elif t[j][0]=='eof': i=j
        else: i=j if j>i else i+1
    return out,fails,total,cout,ctotal
names='''ascii, iso_8859_1, iso_8859_2, iso_8859_3, iso_8859_4, iso_8859_5, iso_8859_6, iso_8859_7, iso_8859_8,
  iso_8859_9, iso_8859_10, iso_8859_11, iso_8859_13, iso_8859_14, iso_8859_15, iso_8859_16, windows_1250,
  windows_1251, windows_1252, windows_1253, windows_1254, windows_1255, windows_1256, windows_1257, windows_1258'''
SBCIDX={n.strip():i for i,n in enumerate(names.split(','))}

FILES=['input_int','input_float','input_string','input_char','input_char32','input_bool','join','input_range','input_tr_string','numpunct','input_facets_pack','add_and_override_printable_types','override_printable','utf8_to_utf16','utf8_to_utf32','utf8','utf16','utf32','utf16_to_utf8','utf16_to_utf32','utf32_to_utf8','utf32_to_utf16','single_byte_charsets']
HEAD="""import Verif.Conformance.Base
/-! Generated by tools/conformance.py from /repo/tests: see Verif/Conformance/Base.lean. Tests of the model, not proofs. -/
namespace Strf.Program
open Strf.Format
"""
def widths(repo,lean):
    src=open(repo+'/tests/std_width_calculator.cpp').read(); src=re.sub(r'//[^\n]*','',src); src=re.sub(r'#define.*(\\\n.*)*','',src)
    env={}; W=[]; Q=[]; n=0
    for m in re.finditer(r'constexpr char32_t (\w+)\s*=\s*(\w+);|TEST_(WIDTH|POS)\s*\(((?:[^()]|\([^()]*\))*)\)\s*;',src):
        if m.group(1): env[m.group(1)]=int(m.group(2),0); continue
        n+=1
        try: a=eval('('+re.sub(r'([0-9.]+)_w',lambda w:str(int(float(w.group(1))*65536)),m.group(4))+',)',{'sizes':lambda *l: list(l),**env})
        except Exception as ex:
            if len(sys.argv)>3: print('   ',m.group(0),ex)
            continue
        if m.group(3)=='WIDTH': W.append('(%d, %s, %s)'%(a[0],a[1],list(a[2:])))
        else: Q.append('(%d, %d, %s)'%(a[0],a[1],list(a[2:])))
    print('std_width_calculator: %d statements, %d translated'%(n,len(W)+len(Q)))
    with open(lean+'/Verif/Conformance/Width.lean','w') as g:
        g.write("import Verif.Conformance.WidthBase\n/-! Generated by tools/conformance.py from /repo/tests/std_width_calculator.cpp: see Verif/Conformance/WidthBase.lean. Tests of the\nmodel, not proofs. -/\nnamespace Strf.WidthCalc\n")
        for nm,l in (('widthTest',W),('posTest',Q)):
            for q in range(0,len(l),100):
                g.write('\nset_option maxRecDepth 100000 in\nexample : List.all [\n  '+',\n  '.join(l[q:q+100])+'] '+nm+' = true := by decide +kernel\n')
        g.write('\nend Strf.WidthCalc\n')
def main():
    repo,lean=sys.argv[1:3]; all_=[]; total=0; call_=[]; ctotal=0
    for f in FILES:
        one=f=='single_byte_charsets'
        out,fails,n,cout,cn=run('%s/tests/%s.cpp'%(repo,f),'iso_8859_7' if one else None); total+=n; ctotal+=cn
        # the functions of single_byte_charsets.cpp that take a charset are called twice, 2128-2136
        if one: cout+=[x for x in run('%s/tests/%s.cpp'%(repo,f),'iso_8859_1')[3] if 1461<=x[0]<1950]
        all_+=[(f,)+o for o in out]; call_+=[(f,)+o for o in cout]
        print('%s: %d printing statements, %d translated; %d transcoding statements, %d translated'%(f,n,len(out),cn,len(cout)))
        if len(sys.argv)>3:
            for x in fails: print('   ',x)
    print('in all %d of %d, and %d of %d'%(len(all_),total,len(call_),ctotal))
    with open('%s/Verif/Conformance/Transcoding.lean'%lean,'w') as g:
        g.write(HEAD.replace('Conformance.Base','Conformance.TranscodingBase').replace('Base.lean','TranscodingBase.lean').replace('Program','Transcode'))
        for q in range(0,len(call_),40):
            g.write('\nset_option maxRecDepth 100000 in\nexample : allTranscode [')
            g.write(','.join('\n  /- %s.cpp %d -/ %s'%(f,ln,c) for f,ln,c in call_[q:q+40]))
            g.write('] = true := by decide +kernel\n')
        g.write('\nend Strf.Transcode\n')
    widths(repo,lean)
    M=6; per=-(-len(all_)//M)
    for m in range(M):
        part=all_[m*per:(m+1)*per]
        with open('%s/Verif/Conformance/T%d.lean'%(lean,m+1),'w') as g:
            g.write(HEAD)
            for q in range(0,len(part),40):
                g.write('\nset_option maxRecDepth 100000 in\nexample : allPrint [')
                g.write(','.join('\n  /- %s.cpp %d -/ (%s, %s, %s)'%(f,ln,S,c,e) for f,ln,S,c,e in part[q:q+40]))
                g.write('] = true := by decide +kernel\n')
            g.write('\nend Strf.Program\n')
if __name__=='__main__': main()

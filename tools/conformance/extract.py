#!/usr/bin/env python3
"""Translate the table tests of jscandec_test.go into sessions of the Lean model (run emit.py afterwards).

Expected values: what encoding/json gives (a small oracle below, as TestOK compares with encoding/json), the Expect value of TestOKPrepare, or the index and the error of testErr.
The array length 512 of TestDecodeMapStringStruct512 is reduced to 16. Not translated: the three tests whose input is a large file of testdata."""
import re, struct, sys, json
SRC=open('/repo/jscandec_test.go').read()

# ---------- Go lexer ----------
class Tok:
    def __init__(s,k,v,p): s.k,s.v,s.p=k,v,p
    def __repr__(s): return f'{s.k}:{s.v!r}'
def lex(src):
    i=0; out=[]
    while i<len(src):
        c=src[i]
        if c in ' \t\r\n': 
            if c=='\n': out.append(Tok('nl','\n',i))
            i+=1; continue
        if src.startswith('//',i):
            j=src.find('\n',i); i=len(src) if j<0 else j; continue
        if src.startswith('/*',i):
            i=src.index('*/',i)+2; continue
        if c=='`':
            j=src.index('`',i+1); out.append(Tok('str',src[i+1:j].replace('\r','').encode(),i)); i=j+1; continue
        if c=='"':
            j=i+1; b=b''
            while src[j]!='"':
                if src[j]=='\\':
                    e=src[j+1]
                    m={'n':b'\n','t':b'\t','r':b'\r','\\':b'\\','"':b'"','b':b'\b','f':b'\f','v':b'\v','a':b'\a'}
                    if e in m: b+=m[e]; j+=2
                    elif e=='u': b+=chr(int(src[j+2:j+6],16)).encode(); j+=6
                    elif e=='U': b+=chr(int(src[j+2:j+10],16)).encode(); j+=10
                    elif e=='x': b+=bytes([int(src[j+2:j+4],16)]); j+=4
                    else: raise Exception('esc '+e)
                else: b+=src[j].encode(); j+=1
            out.append(Tok('str',b,i)); i=j+1; continue
        if c=="'":
            j=src.index("'",i+2); out.append(Tok('chr',src[i+1:j],i)); i=j+1; continue
        m=re.compile(r'0[xX][0-9a-fA-F_]+|[0-9][0-9_]*(\.[0-9_]*)?([eE][+-]?[0-9]+)?').match(src,i)
        if m and c.isdigit(): out.append(Tok('num',m.group().replace('_',''),i)); i=m.end(); continue
        m=re.compile(r'[A-Za-z_][A-Za-z_0-9]*').match(src,i)
        if m: out.append(Tok('id',m.group(),i)); i=m.end(); continue
        for op in ('...',':=','==','!=','&&','||','<-','++','--','+=','<=','>='):
            if src.startswith(op,i): out.append(Tok('op',op,i)); i+=len(op); break
        else: out.append(Tok('op',c,i)); i+=1
    out.append(Tok('eof','',len(src)))
    return out

class Skip(Exception): pass

# ---------- types ----------
# ('bool',) ('int',kind) ('float',32|64) ('string',) ('any',) ('number',) ('slice',t) ('array',n,t) ('map',k,v) ('ptr',t) ('struct',[(name,tag,t)]) ('ref',scopeid,name)
INTS={'int':8,'int8':1,'int16':2,'int32':4,'int64':8,'uint':8,'uint8':1,'uint16':2,'uint32':4,'uint64':8,'byte':1,'rune':4}
UTYPES={'jsonUnmarshalerImpl':('json',False),'unmarshalerImplErr':('json',True),'textUnmarshalerImpl':('text',False),'textUnmarshalerImplErr':('text',True)}
class P:
    def __init__(s,toks,i,scope): s.t,s.i,s.sc=toks,i,scope
    def skipnl(s):
        while s.t[s.i].k=='nl': s.i+=1
    def peek(s): s.skipnl(); return s.t[s.i]
    def next(s): s.skipnl(); t=s.t[s.i]; s.i+=1; return t
    def eat(s,v):
        t=s.next()
        if t.v!=v: raise Skip(f'expected {v} got {t} at {line(t.p)}')
    def type(s):
        t=s.next()
        if t.v=='[':
            if s.peek().v==']': s.next(); return ('slice',s.type())
            n=s.next()
            if n.k!='num': raise Skip('array len')
            s.eat(']'); return ('array',16 if n.v=='512' else int(n.v),s.type()) # [512] is too large for the kernel
        if t.v=='*': return ('ptr',s.type())
        if t.v=='(':
            r=s.type(); s.eat(')'); return r
        if t.k!='id': raise Skip(f'type {t}')
        if t.v=='map':
            s.eat('['); k=s.type(); s.eat(']'); return ('map',k,s.type())
        if t.v=='struct':
            s.eat('{'); fs=[]
            while True:
                x=s.peek()
                if x.v=='}': s.next(); break
                if x.v==';': s.next(); continue
                names=[s.next().v]
                if s.t[s.i].k=='nl' or s.t[s.i].v in('}','.'): raise Skip('embedded')
                while s.peek().v==',':
                    s.next(); names.append(s.next().v)
                ty=s.type(); tag=b''
                if s.t[s.i].k=='str':
                    m=re.search(rb'json:"((?:[^"\\]|\\.)*)"',s.next().v)
                    if m: tag=json.loads(b'"'+m.group(1)+b'"').encode()
                for n in names: fs.append((n,tag,ty))
            return ('struct',tuple(fs))
        if t.v=='interface':
            s.eat('{'); s.eat('}'); return ('any',)
        if t.v=='any': return ('any',)
        if t.v=='bool': return ('bool',)
        if t.v=='string': return ('string',)
        if t.v=='byte': return ('int','uint8')
        if t.v in INTS: return ('int',t.v)
        if t.v=='float32': return ('float',32)
        if t.v=='float64': return ('float',64)
        if t.v=='jscandec':
            s.eat('.')
            if s.next().v=='Number': return ('number',)
            raise Skip('jscandec type')
        if t.v in UTYPES: return ('u',t.v)
        if t.v in s.sc: return ('ref',s.sc['#'],t.v)
        raise Skip('type '+str(t.v))
def line(p): return SRC.count('\n',0,p)+1
SCOPES={}
def res(t):
    while t[0]=='ref': t=SCOPES[t[1]][t[2]]
    return t

# ---------- Go values ----------
# python values: bool/int; float: ('f',bits); str bytes; slice list|None; array list; map list of [k,v]|None; ptr None|('p',v); struct list; any None|('a',type-ish)
def fbits(x,w): return struct.unpack('<Q',struct.pack('<d',x))[0] if w==64 else struct.unpack('<I',struct.pack('<f',x))[0]
def zero(t):
    t=res(t); k=t[0]
    return {'bool':False,'int':0,'float':('f',0),'string':b'','number':b'','u':b'','any':None,'slice':None,'map':None,'ptr':None}.get(k) if k not in('array','struct') else ([zero(t[2]) for _ in range(t[1])] if k=='array' else [zero(f[2]) for f in t[1]])
CONST={'MaxInt8':127,'MaxInt16':32767,'MaxInt32':2**31-1,'MaxInt64':2**63-1,'MinInt8':-128,'MinInt16':-32768,'MinInt32':-2**31,'MinInt64':-2**63,'MaxUint8':255,'MaxUint16':65535,'MaxUint32':2**32-1,'MaxUint64':2**64-1}
def starttype(p):
    t=p.peek()
    return t.v in('[','map','struct') or (t.k=='id' and (t.v in p.sc or t.v in INTS or t.v in('bool','string','any','float32','float64','interface','jscandec')))
def lit(p,t):
    """parse composite literal body {...} of type t"""
    r=res(t); p.eat('{')
    if r[0] in('slice','array'):
        out=[]
        while p.peek().v!='}':
            out.append(expr(p,r[-1]))
            if p.peek().v==',': p.next()
        p.next()
        if r[0]=='array': out+= [zero(r[2]) for _ in range(r[1]-len(out))]
        return out
    if r[0]=='map':
        out=[]
        while p.peek().v!='}':
            k=expr(p,r[1]); p.eat(':'); v=expr(p,r[2]); out.append([k,v])
            if p.peek().v==',': p.next()
        p.next(); return out
    if r[0]=='struct':
        v=zero(r); names=[f[0] for f in r[1]]; n=0
        while p.peek().v!='}':
            i=p.i
            p.skipnl()
            if p.t[p.i].k=='id' and p.t[p.i].v in names:
                j=p.i+1
                if p.t[j].v==':':
                    nm=p.next().v; p.eat(':'); x=names.index(nm); v[x]=expr(p,r[1][x][2])
                    if p.peek().v==',': p.next()
                    continue
            v[n]=expr(p,r[1][n][2]); n+=1
            if p.peek().v==',': p.next()
        p.next(); return v
    raise Skip('lit '+str(r))
def conv(v,t):
    r=res(t)
    if r[0]=='float' and not isinstance(v,tuple): return ('f',fbits(float(v),r[1]))
    return v
def expr(p,t):
    r=res(t)
    tok=p.peek()
    if r[0]=='any':
        if tok.v=='nil': p.next(); return None
        if tok.k=='str': return ('as',p.next().v)
        if tok.v in('true','false'): p.next(); return ('ab',tok.v=='true')
        if tok.v=='float64':
            p.next(); p.eat('('); x=expr(p,('float',64)); p.eat(')'); return ('af',x[1])
        if tok.v=='[':
            ty=p.type()
            if res(ty)!=('slice',('any',)): raise Skip('any slice type')
            return ('aa',lit(p,ty))
        if tok.v=='map':
            ty=p.type(); return ('ao',lit(p,ty))
        raise Skip('any expr')
    if tok.v=='{':
        if r[0]=='ptr': return ('p',lit(p,r[1]))
        return lit(p,t)
    if tok.v=='&':
        p.next()
        ty=p.type()
        return ('p',lit(p,ty))
    if r[0]=='u':
        raise Skip('u literal')
    if tok.v=='nil': p.next(); return None
    if tok.v in('true','false') : p.next(); return tok.v=='true'
    if tok.k=='str': p.next(); return tok.v
    if tok.v=='-':
        p.next(); x=p.next()
        if x.k!='num': raise Skip('neg')
        if r[0]=='float': return ('f',fbits(-float(x.v),r[1]))
        return -int(x.v)
    if tok.k=='num':
        p.next()
        if r[0]=='float': return ('f',fbits(float(tok.v),r[1]))
        return int(tok.v,0)
    if tok.v=='math':
        p.next(); p.eat('.'); n=p.next().v
        if n in CONST: return conv(CONST[n],t)
        raise Skip('math.'+n)
    if tok.v=='Ptr':
        p.next(); p.eat('(')
        x=expr(p,r[1]); p.eat(')'); return ('p',x)
    if starttype(p):
        ty=p.type()
        if p.peek().v=='(':
            p.next(); x=expr(p,ty); p.eat(')'); return conv(x,t)
        return lit(p,ty)
    raise Skip(f'expr {tok} line {line(tok.p)}')

# ---------- JSON, encoding/json oracle ----------
def jparse(s):
    i=0
    def ws():
        nonlocal i
        while i<len(s) and s[i] in b' \t\r\n': i+=1
    def string():
        nonlocal i
        j=i+1; b=b''
        while s[j]!=34:
            if s[j]==92:
                e=s[j+1]
                m={110:b'\n',116:b'\t',114:b'\r',92:b'\\',34:b'"',98:b'\b',102:b'\f',47:b'/'}
                if e in m: b+=m[e]; j+=2
                else:
                    c=int(s[j+2:j+6],16); b+=(chr(c).encode() if not 0xd800<=c<0xe000 else b'\xef\xbf\xbd'); j+=6
            else: b+=s[j:j+1]; j+=1
        i=j+1; return b
    def val():
        nonlocal i
        ws(); st=i; r=val0(); return r+(None,)*(3-len(r))+(s[st:i],)
    def val0():
        nonlocal i
        st=i; c=s[i:i+1]
        if c==b'{':
            i+=1; ms=[]; ws()
            if s[i:i+1]==b'}': i+=1; return ('obj',ms)
            while True:
                ws(); k=string(); ws(); i+=1; v=val(); ms.append((k,v)); ws()
                i+=1
                if s[i-1:i]==b'}': return ('obj',ms)
        if c==b'[':
            i+=1; es=[]; ws()
            if s[i:i+1]==b']': i+=1; return ('arr',es)
            while True:
                es.append(val()); ws(); i+=1
                if s[i-1:i]==b']': return ('arr',es)
        if c==b'"': raw=string(); return ('str',raw,s[st:i])
        for w in (b'null',b'true',b'false'):
            if s.startswith(w,i): i+=len(w); return (w.decode(),)
        m=re.compile(rb'-?[0-9]+(\.[0-9]+)?([eE][+-]?[0-9]+)?').match(s,i)
        i=m.end(); return ('num',m.group())
    return val()
def jany(v):
    k=v[0]
    if k=='null': return None
    if k in('true','false'): return ('ab',k=='true')
    if k=='num': return ('af',fbits(float(v[1]),64))
    if k=='str': return ('as',v[1])
    if k=='arr': return ('aa',[jany(x) for x in v[1]])
    d=[]
    for m,x in v[1]:
        for e in d:
            if e[0]==m: e[1]=jany(x); break
        else: d.append([m,jany(x)])
    return ('ao',d)
class Fail(Exception): pass
def fname(f):
    n,tag,t=f
    if tag==b'': return n.encode(),False
    a=tag.split(b',',1)
    return (a[0] or n.encode()),(len(a)>1 and a[1]==b'string')
def dec(t,v,old,q=False):
    r=res(t); k=r[0]
    if k=='any': return jany(v)
    if k=='u' and UTYPES[r[1]][0]=='json': return v[3]
    if v[0]=='null':
        return None if k in('slice','map','ptr') else old
    if k=='ptr':
        x=old[1] if old is not None else zero(r[1])
        return ('p',dec(r[1],v,x,q))
    if q:
        if v[0]!='str': raise Fail
        v=jparse(v[1]); return dec(t,v,old)
    if k=='bool': 
        if v[0] in('true','false'): return v[0]=='true'
    if k=='int' and v[0]=='num': return int(v[1])
    if k=='float' and v[0]=='num': return ('f',fbits(float(v[1]),r[1]))
    if k=='string' and v[0]=='str': return v[1]
    if k=='u' and v[0]=='str': return v[1]
    if k=='number' and v[0] in('num','str'): return v[1]
    if k=='array' and v[0]=='arr':
        out=list(old)
        for i in range(min(len(out),len(v[1]))): out[i]=dec(r[2],v[1][i],out[i])
        for i in range(len(v[1]),len(out)): out[i]=zero(r[2])
        return out
    if k=='slice' and v[0]=='arr':
        out=[]
        for i,x in enumerate(v[1]): out.append(dec(r[1],x,old[i] if old and i<len(old) else zero(r[1])))
        return out
    if k=='map' and v[0]=='obj':
        d=[list(e) for e in old] if old else []
        for m,x in v[1]:
            kk=m if res(r[1])[0] in('string','u') else int(m)
            nv=dec(r[2],x,zero(r[2]))
            for e in d:
                if e[0]==kk: e[1]=nv; break
            else: d.append([kk,nv])
        return d
    if k=='struct' and v[0]=='obj':
        out=list(old)
        for m,x in v[1]:
            cand=[i for i,f in enumerate(r[1]) if fname(f)[0]==m and fname(f)[0]!=b'-'] or [i for i,f in enumerate(r[1]) if fname(f)[0].lower()==m.lower() and fname(f)[0]!=b'-']
            if cand:
                i=cand[0]; qq=fname(r[1][i])[1] and res(r[1][i][2])[0] in('bool','int','float','string')
                out[i]=dec(r[1][i][2],x,out[i],qq)
        return out
    raise Fail(f'{r} {v}')

# ---------- Lean ----------
TYPES=[]; TID={}; ERRT=[]
def size_align(t):
    r=res(t); k=r[0]
    if k=='bool': return 1,1
    if k=='int': return INTS[r[1]],INTS[r[1]]
    if k=='float': return r[1]//8,r[1]//8
    if k in('string','number','any','u'): return 16,8
    if k=='slice': return 24,8
    if k in('map','ptr'): return 8,8
    if k=='array':
        s,a=size_align(r[2]); return s*r[1],a
    off=0;al=1;last0=False
    for f in r[1]:
        s,a=size_align(f[2]); off=(off+a-1)//a*a+s; al=max(al,a); last0=(s==0)
    if last0 and off>0: off+=1
    return (off+al-1)//al*al,al
def offsets(r):
    off=0; o=[]
    for f in r[1]:
        s,a=size_align(f[2]); off=(off+a-1)//a*a; o.append(off); off+=s
    return o
def lb(b):
    if b and all(32<=c<127 for c in b): return 'b!"'+b.decode().replace('\\','\\\\').replace('"','\\"')+'"'
    return '[' + ', '.join(str(c) for c in b) + ']'
def tid(t):
    key=t
    # aliases and named types: identity by structure reference
    if t[0]=='ref':
        u=SCOPES[t[1]][t[2]]
        if SCOPES[t[1]].get('='+t[2]) : return tid(u)
        if u[0] not in('struct',) : 
            pass
    if key in TID: return TID[key]
    n=len(TYPES); TID[key]=n; TYPES.append(None)
    r=res(t); k=r[0]; s=size_align(t)[0]
    if k=='bool': x=f'kind := .bool, size := 1'
    elif k=='int': x=f'kind := .int .{r[1]}, size := {s}'
    elif k=='float': x=f'kind := .float .f{r[1]}, size := {s}'
    elif k=='string': x='kind := .string, size := 16'
    elif k=='number': x='kind := .string, size := 16, isNumber := true'
    elif k=='u':
        x=f'kind := .struct, size := 16, fields := [⟨{lb(b"Value")}, [], {tid(("string",))}, 0⟩], impl{"JSON" if UTYPES[r[1]][0]=="json" else "Text"} := true'
        if UTYPES[r[1]][1]: ERRT.append(n)
    elif k=='any': x='kind := .interface, size := 16'
    elif k=='slice': x=f'kind := .slice, size := 24, elem := {tid(r[1])}'
    elif k=='array': x=f'kind := .array, size := {s}, len := {r[1]}, elem := {tid(r[2])}'
    elif k=='map': x=f'kind := .map, size := 8, key := {tid(r[1])}, elem := {tid(r[2])}'
    elif k=='ptr': x=f'kind := .pointer, size := 8, elem := {tid(r[1])}'
    else:
        fs=', '.join(f'⟨{lb(f[0].encode())}, {lb(f[1])}, {tid(f[2])}, {o}⟩' for f,o in zip(r[1],offsets(r)))
        x=f'kind := .struct, size := {s}, fields := [{fs}]'
    TYPES[n]='{ '+x+' }'
    return n
def run(xs):
    """a list expression, with long runs compressed"""
    out=[]; i=0
    while i<len(xs):
        j=i
        while j<len(xs) and xs[j]==xs[i]: j+=1
        out.append(f'List.replicate {j-i} ({xs[i]})' if j-i>16 else '['+', '.join(xs[i:j])+']'); i=j
    return '['+', '.join(xs)+']' if not any('replicate' in o for o in out) else '('+' ++ '.join(out)+')'
def cv(t,v):
    r=res(t); k=r[0]
    if k=='any': return cany(v)
    if k in('slice','map','ptr') and v is None: return '.nil'
    if k=='bool': return f'.b {str(v).lower()}'
    if k=='int': return f'.i ({v})'
    if k=='float': return f'.f {v[1]}'
    if k in('string','number','u'): return f'.s {lb(v)}'
    if k=='ptr': return f'.p ({cv(r[1],v[1])})'
    if k=='slice': return '.l '+run([cv(r[1],x) for x in v])
    if k=='array': return '.l '+run([cv(r[2],x) for x in v])
    if k=='struct': return '.l ['+', '.join(cv(f[2],x) for f,x in zip(r[1],v) if fname(f)[0]!=b'-' or True)+']'
    if k=='map': return '.m ['+', '.join(f'({cv(r[1],a)}, {cv(r[2],b)})' for a,b in v)+']'
def cany(v):
    if v is None: return '.nil'
    k=v[0]
    if k=='ab': return f'.b {str(v[1]).lower()}'
    if k=='af': return f'.f {v[1]}'
    if k=='as': return f'.s {lb(v[1])}'
    if k=='aa': return '.l ['+', '.join(map(cany,v[1]))+']'
    return '.m ['+', '.join(f'(.s {lb(a)}, {cany(b)})' for a,b in v[1])+']'
ERR={'ErrUnexpectedValue':'.unexpectedValue','ErrIntegerOverflow':'.integerOverflow','ErrUnknownField':'.unknownField'}

NUMS=set()
SESS=[]; skipped=[]
toks=lex(SRC)
# top-level test functions
GLOBAL={}
def scan_types(i,end,scope):
    """parse 'type X ...' at token i; returns new i"""
    p=P(toks,i+1,scope); name=p.next().v
    alias=False
    scope[name]=None
    if p.peek().v=='=': p.next(); alias=True
    ty=p.type(); scope[name]=ty
    if alias: scope['='+name]=True
    return p.i
i=0
def run_func(name,i,end):
    scope={'#':name}; SCOPES[name]=scope
    setups={}
    j=i
    cur=None
    while j<end:
        t=toks[j]
        if t.k=='id' and t.v=='type' and toks[j+1].k=='id':
            try: j=scan_types(j,end,scope); continue
            except Skip as e:
                scope.pop(toks[j+1].v,None); skipped.append((line(t.p),'type '+str(e))); j+=1; continue
        # setup
        if t.k=='id' and toks[j+1].v==':=' and toks[j+2].v=='newTestSetup' or t.v=='newTestSetup':
            var=t.v; q=j+3 if t.v!='newTestSetup' else j+1
            p=P(toks,q,scope)
            try:
                p.eat('['); ty=p.type(); p.eat(']'); p.eat('('); p.eat('t'); p.eat(',')
                opts=[False,False,False]
                if p.peek().v=='*':
                    p.next();p.eat('jscandec');p.eat('.');p.eat('DefaultOptions')
                else:
                    p.eat('jscandec');p.eat('.');p.eat('DecodeOptions'); p.eat('{')
                    while p.peek().v!='}':
                        n=p.next().v; p.eat(':'); b=p.next().v=='true'
                        opts[['DisallowUnknownFields','DisableFieldNameUnescaping','DisableCaseInsensitiveMatching'].index(n)]=b
                        if p.peek().v==',': p.next()
                    p.next()
                p.eat(')')
                sess={'name':name,'line':line(t.p),'type':ty,'opts':opts,'tests':[]}
                SESS.append(sess)
                if t.v!='newTestSetup': setups[var]=sess
                else: setups['$']=sess
                j=p.i
                if t.v=='newTestSetup':
                    if p.peek().v=='.': do_test(p,sess,name); j=p.i
                continue
            except Skip as e:
                skipped.append((line(t.p),'setup '+str(e)))
                if t.v!='newTestSetup': setups[var]=None
                j+=3; continue
        if t.k=='id' and t.v in setups and toks[j+1].v=='.' and toks[j+2].v in('TestOK','testErr','TestOKPrepare','testErrCheck'):
            p=P(toks,j+1,scope)
            if setups[t.v] is None: skipped.append((line(t.p),'no setup')); j+=3; continue
            do_test(p,setups[t.v],name)
            j+=3; continue
        if t.k=='id' and t.v.startswith('testOK') and toks[j+1].v=='(' and toks[j+2].k=='str':
            sess=setups['s']; p=P(toks,j+2,scope); gostr(p); p.eat(','); src=gostr(p)
            sess['tests'].append((line(t.p),src,None,('ok',dec(sess['type'],jparse(src),zero(sess['type'])))))
        j+=1
def gostr(p):
    b=b''
    while True:
        t=p.next()
        if t.k!='str': raise Skip('non-literal input')
        b+=t.v
        if p.peek().v=='+': p.next(); continue
        return b
def do_test(p,sess,name):
    ln=line(p.peek().p)
    try:
        p.eat('.'); kind=p.next().v; p.eat('('); p.eat('t'); p.eat(',')
        nm=gostr(p).decode(); p.eat(',')
        src=gostr(p)
        ty=sess['type']
        if kind=='TestOK':
            want=dec(ty,jparse(src),zero(ty))
            sess['tests'].append((ln,src,None,('ok',want)))
        elif kind=='testErr':
            p.eat(','); idx=int(p.next().v); p.eat(','); p.eat('jscandec'); p.eat('.'); e=p.next().v
            sess['tests'].append((ln,src,None,('err',idx,ERR[e])))
        elif kind=='testErrCheck':
            body=SRC[p.t[p.i].p:p.t[p.i].p+400]
            m=re.search(r'ErrorIs\(t, err, strconv.ErrRange\)\s*require.Equal\(t, (\d+), errIndex\)',body)
            if not m and 'UnmarshalerImpl, err)' in body.split('})')[0]:
                sess['tests'].append((ln,src,None,('errany','.user 7'))); return
            if not m: raise Skip('check')
            sess['tests'].append((ln,src,None,('err',int(m.group(1)),'.parse 2')))
        else:
            p.eat(','); p.eat('Test'); p.eat('['); p.type(); p.eat(']'); p.eat('{')
            init=None; want=None
            while p.peek().v!='}':
                n=p.next().v; p.eat(':')
                if n=='PrepareJscan':
                    p.eat('func');p.eat('(');p.eat(')'); rt=p.type(); p.eat('{'); p.eat('return')
                    if res(ty)[0]=='any':
                        init=('other',); dd=0
                        while True:
                            x=p.next()
                            if x.v=='{': dd+=1
                            if x.v=='}':
                                dd-=1
                                if dd<0: break
                    else: init=expr(p,rt); p.eat('}')
                elif n=='Expect':
                    want=(expr(p,ty if not starttype(p) or res(ty)[0] in('any','float','int') else ty),)
                elif n=='Check':
                    body=SRC[p.t[p.i].p:p.t[p.i].p+250]
                    if 'require.Equal(t, S{}, vJscan)' in body: want=(zero(ty),)
                    elif 'require.Nil(t, vJscan)' in body: want=(None,)
                    else: raise Skip('Check')
                    break
                else: raise Skip('field '+n)
                if p.peek().v==',': p.next()
            if want is None: want=(dec(ty,jparse(src),init if init is not None else zero(ty)),)
            sess['tests'].append((ln,src,init,('ok',want[0])))
        for m in re.finditer(rb'-?[0-9]+(\.[0-9]+)?([eE][+-]?[0-9]+)?',src): NUMS.add(m.group())
    except (Skip,Fail,AttributeError,IndexError,KeyError,ValueError,TypeError) as e:
        skipped.append((ln,f'{type(e).__name__} {e}'))
k=0
while k<len(toks):
    if toks[k].v=='func' and toks[k+1].k=='id' and toks[k+1].v.startswith('Test'):
        d=0; j=k
        while toks[j].v!='{': j+=1
        st=j
        while True:
            if toks[j].k=='op' and toks[j].v=='{': d+=1
            if toks[j].k=='op' and toks[j].v=='}':
                d-=1
                if d==0: break
            j+=1
        run_func(toks[k+1].v,st,j); k=j
    k+=1
n=sum(len(s['tests']) for s in SESS)
print('tests',n,'skipped',len(skipped),file=sys.stderr)
for s in skipped: print(' skip',s,file=sys.stderr)
out=[]
sess_out=[]
def block(t,v):
    """cells"""
    r=res(t); k=r[0]; s=size_align(t)[0]
    if k=='any':
        return f'seg 16 (.any (.other 0))' if v is not None else 'zeros 16'
    if v==zero(t) or v is None: return f'zeros {s}'
    if k=='bool': return f'seg 1 (.bool {str(v).lower()})'
    if k=='int': return f'seg {s} (.int ({v}))'
    if k=='float': return f'seg {s} (.flt {v[1]})'
    if k in('string','number'): return f'seg 16 (.str ⟨{lb(v)}, false⟩)'
    if k=='ptr': return f'seg 8 (.ptr ({block(r[1],v[1])}))'
    if k=='slice': return f'seg 24 (.slice {len(v)} {len(v)} ({" ++ ".join(block(r[1],x) for x in v) or "[]"}))'
    if k=='array':
        n=len(v)
        while n>0 and v[n-1]==zero(r[2]): n-=1
        return ' ++ '.join(['('+block(r[2],x)+')' for x in v[:n]]+([f'zeros {(len(v)-n)*size_align(r[2])[0]}'] if n<len(v) else []))
    if k=='map':
        def key(a): return f'.str ⟨{lb(a)}, false⟩' if res(r[1])[0]=='string' else f'.int ({a})'
        return f'seg 8 (.map [{", ".join(f"({key(a)}, {block(r[2],b)})" for a,b in v)}])'
    o=offsets(r); pos=0; parts=[]
    for f,off,x in zip(r[1],o,v):
        if off>pos: parts.append(f'zeros {off-pos}')
        parts.append('('+block(f[2],x)+')'); pos=off+size_align(f[2])[0]
    if s>pos: parts.append(f'zeros {s-pos}')
    return ' ++ '.join(parts)
for q,s in enumerate(SESS):
    if not s['tests']: continue
    t=s['type']; T=tid(t); sz=size_align(t)[0]
    rows=[]
    for ln,src,init,exp in s['tests']:
        b=f'zeros {sz}' if init is None else block(t,init)
        e=f'.ok ({cv(t,exp[1])})' if exp[0]=='ok' else f'.errAny ({exp[1]})' if exp[0]=='errany' else f'.err {exp[1]} ({exp[2]})'
        rows.append((ln,f'⟨{lb(src)}, {b}, {e}⟩'))
    sess_out.append((s['name'],s['line'],T,s['opts'],rows))
json.dump({'types':TYPES,'sess':sess_out,'errt':ERRT,'nums':sorted(x.decode() for x in NUMS)},open('/tmp/conformance.json','w'))

"""Translate TestAppendTypeToStack of jscandec_internal_test.go into lean/Verif/Conform/Frames.lean."""
import re, os, sys, io
HERE=os.path.dirname(os.path.abspath(__file__))
src=open(HERE+'/extract.py').read()
g={'__name__':'x'}
# only the lexer, the type parser and the type translation of extract.py
exec(src[:src.index('NUMS=set()')],g)
T=open('/repo/jscandec_internal_test.go').read()
g['SRC']=T
toks=g['lex'](T); P=g['P']; SC=g['SCOPES']
scope={'#':'F'}; SC['F']=scope
U=g['UTYPES']; U.clear()
for n,k in (('testImplJSONUnmarshaler','json'),('testImplTextUnmarshaler','text'),('testImplUnmarshalerWithUnmarshalerFields','json')): U[n]=(k,False)
# sizes of the unmarshaler types: one int, one int, two interfaces
USIZE={'testImplJSONUnmarshaler':8,'testImplTextUnmarshaler':8,'testImplUnmarshalerWithUnmarshalerFields':32}
osa=g['size_align']
def size_align(t):
    r=g['res'](t)
    if r[0]=='u': return USIZE[r[1]],8
    return osa(t)
g['size_align']=size_align
IM={'int8':'i8','int16':'i16','int32':'i32','int64':'i64','uint8':'u8','uint16':'u16','uint32':'u32','uint64':'u64','int':'int','uint':'uint'}
TYPES=g['TYPES']; TID=g['TID']; otid=g['tid']
def tid(t):
    r=g['res'](t)
    if t in TID: return TID[t]
    if r[0]=='u' :
        n=len(TYPES); TID[t]=n
        TYPES.append('{ kind := .struct, size := %d, fields := [⟨b!"f", [], %s, 0⟩], impl%s := true }'%(USIZE[r[1]],'INT','JSON' if U[r[1]][0]=='json' else 'Text')); return n
    if r[0]=='ptr' and g['res'](r[1])[0]=='u':
        e=tid(r[1]); n=len(TYPES); TID[t]=n
        TYPES.append('{ kind := .pointer, size := 8, elem := %d, impl%s := true }'%(e,'JSON' if U[g['res'](r[1])[1]][0]=='json' else 'Text')); return n
    return otid(t)
g['tid']=tid
# types of the test function; S2 has an embedded struct
i=next(k for k,t in enumerate(toks) if t.v=='TestAppendTypeToStack')
end=next(k for k,t in enumerate(toks) if t.v=='ExpectStack')
k=i
T2=re.sub(r'\n\t\tS1\n','\n\t\tS1 S1\n',T)
toks=g['lex'](T2); g['SRC']=T2
while k<end:
    if toks[k].v=='type' and toks[k].k=='id' and toks[k+1].k=='id':
        p=P(toks,k+1,scope); n=p.next().v; scope[n]=None; scope[n]=p.type(); k=p.i
    else: k+=1
def typeof(p):
    """the type of a Go expression in reflect.TypeOf(…)"""
    t=p.peek()
    if t.v=='Ptr':
        p.next(); p.eat('('); r=typeof(p); p.eat(')'); return ('ptr',r)
    if t.v=='&':
        p.next(); r=p.type(); p.eat('{'); p.eat('}'); return ('ptr',r)
    if t.v=='(':
        # (*T)(nil), possibly in parentheses
        p.next()
        if p.peek().v=='(': r=typeof(p); p.eat(')'); return r
        r=p.type(); p.eat(')'); p.eat('('); p.eat('nil'); p.eat(')'); return r
    r=p.type()
    o=p.next().v; d=1
    while d:
        x=p.next().v
        if x==o: d+=1
        elif (o,x) in(('(',')'),('{','}')): d-=1
    return r
def rtypeof(p):
    if p.peek().v=='tpEmptyIface': p.next(); return ('any',)
    if p.peek().v in('tpS3','tpS4','tpS5'): return ('ref','F',p.next().v[2:])
    p.eat('reflect');p.eat('.');p.eat('TypeOf');p.eat('(')
    r=typeof(p)
    if p.peek().v==',': p.next()
    p.eat(')'); return r
KS={'Bool':'.bool','Str':'.str','String':'.str','Float32':'(.flt .f32)','Float64':'(.flt .f64)'}
for a,b in IM.items(): KS[a[0].upper()+a[1:]]=f'(.int .{b})'
def etype(n):
    n=n[len('ExpectType'):]
    fixed={'Number':'.number','JSONUnmarshaler':'.jsonUnmarshaler','TextUnmarshaler':'.textUnmarshaler','Ptr':'.ptr','PtrRecur':'.ptrRecur','Any':'.any','Map':'.map','MapStringString':'.mapStringString','MapRecur':'.mapRecur','Array':'.array','ArrayLen0':'.arrayLen0','Slice':'.slice','SliceRecur':'.sliceRecur','SliceEmptyStruct':'.sliceEmptyStruct','Struct':'.struct','StructRecur':'.structRecur','EmptyStruct':'.emptyStruct'}
    if n in fixed: return fixed[n]
    if n.startswith('Slice'): return f'.sliceOf {KS[n[5:]]}'
    if n.endswith('String') and n[:-6] in KS: return f'.quoted {KS[n[:-6]]}'
    return f'.scalar {KS[n]}'
cases=[]
k=end+1
while k<len(toks) and toks[k].v!='actual':
    if toks[k].v=='Input' and toks[k+1].v==':':
        p=P(toks,k+2,scope); ln=g['line'](toks[k].p); ty=typeof(p); p.eat(',')
        p.eat('ExpectStack');p.eat(':');p.eat('[');p.eat(']');p.eat('stackFrame');p.eat('[');p.eat('string');p.eat(']');p.eat('{')
        frames=[]
        while p.peek().v!='}':
            p.eat('{'); f={'type':None,'size':'0','fields':'[]','rtype':'none','cap':'0','recur':'0','fast':'false','offset':'0','parent':'none','typ':'none','mvt':'none','mvs':'0'}
            while p.peek().v!='}':
                n=p.next().v; p.eat(':')
                if n=='Type': f['type']=etype(p.next().v)
                elif n=='Typ' or n=='MapValueType':
                    p.eat('getTyp');p.eat('('); x=rtypeof(p)
                    if p.peek().v==',': p.next()
                    p.eat(')')
                    if n=='Typ': f['typ']=f'some {tid(x)}'
                    else: f['mvt']=f'some {tid(x)}'; f['mvs']=str(size_align(x)[0])
                elif n=='RType': f['rtype']=f'some {tid(rtypeof(p))}'
                elif n=='Size':
                    x=rtypeof(p); p.eat('.');p.eat('Size');p.eat('(');p.eat(')'); f['size']=str(size_align(x)[0])
                elif n=='ParentFrameIndex':
                    v=p.next(); f['parent']='none' if v.v=='noParentFrame' else f'some {v.v}'
                elif n=='Cap': f['cap']=p.next().v
                elif n=='RecurFrame': f['recur']=p.next().v
                elif n=='MapCanUseAssignFaststr': f['fast']=p.next().v
                elif n=='RecursionStack':
                    while p.next().v!=')': pass
                elif n=='Offset':
                    if p.peek().k=='num': f['offset']=p.next().v
                    else:
                        x=rtypeof(p); p.eat('.');p.eat('Field');p.eat('('); q=int(p.next().v); p.eat(')');p.eat('.');p.eat('Offset')
                        f['offset']=str(g['offsets'](g['res'](x))[q])
                elif n=='Fields':
                    p.eat('[');p.eat(']');p.eat('fieldStackFrame');p.eat('{'); fs=[]
                    while p.peek().v!='}':
                        p.eat('{'); a={}
                        while p.peek().v!='}':
                            m=p.next().v; p.eat(':'); a[m]=p.next().v
                            if p.peek().v==',': p.next()
                        p.next(); fs.append(f'({g["lb"](a["Name"])}, {a["FrameIndex"]})')
                        if p.peek().v==',': p.next()
                    p.next(); f['fields']='['+', '.join(fs)+']'
                else: raise Exception(n)
                if p.peek().v==',': p.next()
            p.next(); frames.append(f)
            if p.peek().v==',': p.next()
        cases.append((ln,tid(ty),frames)); k=p.i
    else: k+=1
intid=tid(('int','int'))
types=[re.sub(r'kind := \.int \.(\w+)',lambda m:'kind := .int .'+IM[m.group(1)],t).replace('INT',str(intid)) for t in TYPES]
o=open(HERE+'/../../lean/Verif/Conform/Frames.lean','w')
o.write('''import Verif.Model.AppendType
/-!
# The frames built for a type, compared with TestAppendTypeToStack (generated by tools/conformance)

The number in front of each case is its line in jscandec_internal_test.go. `ptrImpl` is not compared (the code has no such field). `Typ` and `MapValueType` are pointers to
values of size 0, which the test compares with reflect.DeepEqual: it would accept any. Three of its cases (lines 538, 1017, 1041) have copies of the wrong line there; in these the two fields are not compared.
-/
namespace Verif.Conform.Frames
open Verif.Model

/-- The types of the test. -/
def types : List TypeInfo := [
'''+',\n'.join(f'  /- {i} -/ {t}' for i,t in enumerate(types))+''']

/-- The program under test. -/
def testEnv : TypeEnv := fun t => types.getD t { kind := .other }

/-- A frame without the parts the test does not compare. -/
def strip (f : Frame) : Frame := { f with ptrImpl := false }

/-- The frame without type descriptors. -/
def bare (f : Frame) : Frame := { strip f with typ := none, mapValueTyp := none, mapValueSize := 0 }

/-- The frames built for a type. -/
def framesOf (g : Frame → Frame) (t : TypeId) : Option (List Frame) :=
  match appendType testEnv 8 (some defaultInitOptions) 20 [] (some t) with
  | .ok fs => some (fs.map g)
  | _ => none
''')
for ln,t,fs in cases:
    wrong=ln in(538,1017,1041)
    if wrong:
        for f in fs: f['typ']=f['mvt']='none'; f['mvs']='0'
    o.write(f'\n/- {ln} -/\nexample : framesOf {["strip","bare"][wrong]} {t} = some [\n'+',\n'.join('    { type := %s, size := %s, fields := %s, rtype := %s, cap := %s, faststr := %s, recurFrame := %s, offset := %s, parent := %s, typ := %s, mapValueSize := %s, mapValueTyp := %s }'%(f['type'],f['size'],f['fields'],f['rtype'],f['cap'],f['fast'],f['recur'],f['offset'],f['parent'],f['typ'],f['mvs'],f['mvt']) for f in fs)+'] := by decide +kernel\n')
o.write('\nend Verif.Conform.Frames\n')
o.close()
print(len(cases),'cases')

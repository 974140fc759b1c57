"""Write lean/Verif/Conform/*.lean from the output of extract.py."""
import os
OUT=os.path.join(os.path.dirname(os.path.abspath(__file__)),"../../lean/Verif/Conform")
import json,struct,re,math
d=json.load(open('/tmp/conformance.json'))
IM={'int8':'i8','int16':'i16','int32':'i32','int64':'i64','uint8':'u8','uint16':'u16','uint32':'u32','uint64':'u64','int':'int','uint':'uint','byte':'u8','rune':'i32'}
types=[re.sub(r'kind := \.int \.(\w+)',lambda m:'kind := .int .'+IM[m.group(1)],t) for t in d['types']]
def lb(b): return '['+', '.join(map(str,b))+']'
def f64(s):
    x=float(s)
    return None if math.isinf(x) else struct.unpack('<Q',struct.pack('<d',x))[0]
from fractions import Fraction
def f32(s):
    # correctly rounded
    try: fr=Fraction(s)
    except Exception: fr=Fraction(float(s))
    x=float(s)
    if math.isinf(x): return None
    try: r=struct.pack('<f',x)
    except OverflowError: return None
    b=struct.unpack('<I',r)[0]
    # double rounding correction
    def val(b): return Fraction(struct.unpack('<f',struct.pack('<I',b))[0])
    best=b
    for c in (b-1,b+1):
        if c>=0 and (c&0x7f800000)!=0x7f800000 and (c>>31)==(b>>31):
            if abs(val(c)-fr)<abs(val(best)-fr): best=c
    return best
rows=[]
for n in d['nums']:
    a,b=f32(n),f64(n)
    rows.append(f'({lb(n.encode())}, {"none" if a is None else f"some {a}"}, {"none" if b is None else f"some {b}"})')

o=open(OUT+'/Types.lean','w')
o.write('''import Verif.Conform.Base
/-!
# The types and numbers of the tests of the repository (generated by tools/conformance)
-/
namespace Verif.Conform
open Verif.Model Verif.Spec

/-- The numbers in the test inputs with the bits of the nearest `float32` and `float64` (`none`: out of range). -/
def numTbl : List (Bytes × Option Nat × Option Nat) := [
'''+',\n'.join('  '+r for r in rows)+''']

/-- The test types whose unmarshaler methods fail: jscandec_test.go:3490-3514. -/
def errTypes : List Nat := '''+str(d['errt'])+'''

/-- The Go types of the tests; each test function declares its own. The array length 512 of TestDecodeMapStringStruct512 is reduced to 16. -/
def types : List TypeInfo := [
'''+',\n'.join(f'  /- {i} -/ {t}' for i,t in enumerate(types))+''']

/-- The program under test. -/
def testEnv : TypeEnv := fun t => types.getD t { kind := .other }

/-- The 64-bit platform of the tests. The unmarshaler methods store their input (jscandec_test.go:3482-3512). -/
def testX (str : Bool) : Ext where
  is64 := true
  strInput := str
  parseFloat32 := fun s => numOf numTbl s fun e => e.1
  parseFloat64 := fun s => numOf numTbl s fun e => e.2
  f32OfInt := fun i => numOfInt numTbl i fun e => e.1
  f64OfInt := fun i => numOfInt numTbl i fun e => e.2
  tokInt32 := demoInt
  tokInt64 := demoInt
  tokFloat64 := fun s => numOf numTbl s fun e => e.2
  equalFold := demoX.equalFold
  unmarshalJSON := fun t old s => if errTypes.contains t then (old, some 7) else (seg 16 (.user s), none)
  unmarshalText := fun t old s => if errTypes.contains t then (old, some 7) else (seg 16 (.user s), none)
  unmarshalKey := fun t s => if errTypes.contains t then .error 7 else .ok s

/-- A test setup (jscandec_test.go:41-60): one decoder, used for all tests in order, with `[]byte` and with `string` input. -/
def session (T : TypeId) (o : Options) (ts : List Test) : Bool :=
  match newDecoder testEnv 8 (some defaultInitOptions) 20 (some T) with
  | .ok d => checkAll testEnv (testX false) T o d ts && checkAll testEnv (testX true) T o d ts
  | _ => false

end Verif.Conform
''')
o.close()
K=6
parts=[[] for _ in range(K)]; load=[0]*K
for s in sorted(d['sess'],key=lambda s:-sum(len(r) for _,r in s[4])):
    k=load.index(min(load)); parts[k].append(s); load[k]+=sum(len(r) for _,r in s[4])
for k,p in enumerate(parts):
    o=open(f'{OUT}/Part{k+1}.lean','w')
    o.write('import Verif.Conform.Types\n/-!\n# Tests of the repository, run in the model (generated by tools/conformance)\n\nThe number in front of each test is its line in jscandec_test.go.\n-/\nnamespace Verif.Conform\nopen Verif.Model Verif.Spec\n')
    for name,line,T,opts,rs in sorted(p,key=lambda s:s[1]):
        ob='⟨'+', '.join(str(x).lower() for x in opts)+'⟩'
        o.write(f'\n/- {name}, jscandec_test.go:{line} -/\nexample : session {T} {ob} [\n'+',\n'.join(f'    /- {ln} -/ {r}' for ln,r in rs)+'] = true := by decide +kernel\n')
    o.write('\nend Verif.Conform\n')
    o.close()

out=[]; w=out.append
w('''import Verif.Basic
/-!
# Model of `internal/jsonnum/jsonnum.go`

Every label of `ReadNumber` is a function; the 8-way unrolled loops are kept, with the slice expressions of
the source (`s[k:]` is `s.drop k`). The functions return `(trailing, rc)`.
-/
namespace Verif.Model.JsonNum

/-- `ReturnCode`: jsonnum.go:3-9. -/
inductive RC
  | err      -- ReturnCodeErr
  | integer  -- ReturnCodeInteger
  | number   -- ReturnCodeNumber
  deriving DecidableEq, Repr

/-- `c < '0' || c > '9'`. -/
def notDigit (c : UInt8) : Bool := c < 48 || c > 57

/-- `c == 'e' || c == 'E'`. -/
def isE (c : UInt8) : Bool := c == 101 || c == 69

/-- Tail loop after the exponent: jsonnum.go:316-324. `cs` is `s[i:]`. -/
def expTail (s : Bytes) : Bytes → Nat → Bytes × RC
  | [], i => (s.drop i, .number)
  | c :: cs, i => if notDigit c then (s.drop i, .number) else expTail s cs (i + 1)
''')
names=[f'b{i}' for i in range(8)]
pat=' :: '.join(names)+' :: rest'
w('/-- Unrolled loop over the exponent digits: jsonnum.go:274-315. -/')
w('def expLoop : Bytes → Bytes × RC')
w(f'  | {pat} =>')
w(f'    let s := {pat}')
for i in range(8):
    w(f'    {"else " if i else ""}if notDigit b{i} then ({"s" if i==0 else f"s.drop {i}"}, .number)')
w('    else expLoop rest')
w('  | s => expTail s s 0\n')
w('''/-- Label `EXPONENT_SIGN`: jsonnum.go:260-272. -/
def exponentSign (s : Bytes) : Bytes × RC :=
  match s with
  | [] => (s, .err)
  | c :: cs =>
    let s := if c == 45 || c == 43 then cs else s
    match s with
    | [] => (s, .err)
    | d :: ds => if notDigit d then (s, .err) else expLoop ds

/-- Tail loop of the fraction: jsonnum.go:243-258. `cs` is `s[i:]`. -/
def fracTail (s : Bytes) : Bytes → Nat → Bytes × RC
  | [], i =>
    let s := s.drop i
    if s.length < 1 then (s, .number) else exponentSign s
  | c :: cs, i =>
    if notDigit c then
      if isE c then exponentSign (s.drop (i + 1)) else (s.drop i, .number)
    else fracTail s cs (i + 1)
''')
w('/-- Unrolled loop over the fraction digits: jsonnum.go:177-242. -/')
w('def fracLoop : Bytes → Bytes × RC')
w(f'  | {pat} =>')
w(f'    let s := {pat}')
for i in range(8):
    w(f'    {"else " if i else ""}if notDigit b{i} then')
    w(f'      if isE b{i} then exponentSign (s.drop {i+1}) else ({"s" if i==0 else f"s.drop {i}"}, .number)')
w('    else fracLoop rest')
w('  | s => fracTail s s 0\n')
w('''/-- Label `FRACTION`: jsonnum.go:170-175. -/
def fraction (s : Bytes) : Bytes × RC :=
  match s with
  | [] => (s, .err)
  | c :: cs => if notDigit c then (s, .err) else fracLoop cs

/-- Tail loop of the integer part: jsonnum.go:149-168. `cs` is `s[i:]`. -/
def intTail (s : Bytes) : Bytes → Nat → Bytes × RC
  | [], i =>
    let s := s.drop i
    if s.length < 1 then (s, .integer) else fraction s
  | c :: cs, i =>
    if notDigit c then
      if isE c then exponentSign (s.drop (i + 1))
      else if c == 46 then fraction (s.drop (i + 1))
      else (s.drop i, .integer)
    else intTail s cs (i + 1)
''')
w('/-- Unrolled loop over the integer digits: jsonnum.go:51-148. -/')
w('def intLoop : Bytes → Bytes × RC')
w(f'  | {pat} =>')
w(f'    let s := {pat}')
for i in range(8):
    w(f'    {"else " if i else ""}if notDigit b{i} then')
    w(f'      if isE b{i} then exponentSign (s.drop {i+1})')
    w(f'      else if b{i} == 46 then fraction (s.drop {i+1})')
    w(f'      else ({"s" if i==0 else f"s.drop {i}"}, .integer)')
w('    else intLoop rest')
w('  | s => intTail s s 0\n')
w('''/-- Body of `ReadNumber` after the sign: jsonnum.go:26-50. `none` is the panic of `s[0]` on an empty
text. -/
def unsignedNumber (s : Bytes) : Option (Bytes × RC) :=
  match s with
  | [] => none
  | c :: cs =>
    if c == 48 then
      match cs with
      | [] => some (cs, .integer)
      | d :: ds =>
        if d == 46 then some (fraction ds)
        else if isE d then some (exponentSign ds)
        else some (cs, .integer)
    else if c < 49 || c > 57 then some (s, .err)
    else some (intLoop cs)

/-- `ReadNumber`: jsonnum.go:13-325. `none` is the panic of `s[0]` on an empty text. -/
def readNumber (s : Bytes) : Option (Bytes × RC) :=
  match s with
  | [] => none
  | c :: cs =>
    if c == 45 then
      if cs.length < 1 then some (cs, .err) else unsignedNumber cs
    else unsignedNumber s

end Verif.Model.JsonNum''')
open('/verif/lean/Verif/Model/JsonNum.lean','w').write('\n'.join(out)+'\n')

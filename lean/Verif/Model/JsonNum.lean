import Verif.Basic
/-!
# Model of `internal/jsonnum/jsonnum.go`

Every label of `ReadNumber` is a function; the 8-way unrolled loops are kept, with the slice expressions of
the source (`s[k:]` is `s.drop k`). The functions return `(trailing, rc)`.
-/
namespace Verif.Model.JsonNum

/-- `ReturnCode`: jsonnum.go:3-9. -/
inductive RC
  | err      -- ReturnCodeErr
  | integer  -- ReturnCodeInteger
  | number   -- ReturnCodeNumber
  deriving DecidableEq, Repr

/-- `c < '0' || c > '9'`. -/
def notDigit (c : UInt8) : Bool := c < 48 || c > 57

/-- `c == 'e' || c == 'E'`. -/
def isE (c : UInt8) : Bool := c == 101 || c == 69

/-- Tail loop after the exponent: jsonnum.go:316-324. `cs` is `s[i:]`. -/
def expTail (s : Bytes) : Bytes → Nat → Bytes × RC
  | [], i => (s.drop i, .number)
  | c :: cs, i => if notDigit c then (s.drop i, .number) else expTail s cs (i + 1)

/-- Unrolled loop over the exponent digits: jsonnum.go:274-315. -/
def expLoop : Bytes → Bytes × RC
  | b0 :: b1 :: b2 :: b3 :: b4 :: b5 :: b6 :: b7 :: rest =>
    let s := b0 :: b1 :: b2 :: b3 :: b4 :: b5 :: b6 :: b7 :: rest
    if notDigit b0 then (s, .number)
    else if notDigit b1 then (s.drop 1, .number)
    else if notDigit b2 then (s.drop 2, .number)
    else if notDigit b3 then (s.drop 3, .number)
    else if notDigit b4 then (s.drop 4, .number)
    else if notDigit b5 then (s.drop 5, .number)
    else if notDigit b6 then (s.drop 6, .number)
    else if notDigit b7 then (s.drop 7, .number)
    else expLoop rest
  | s => expTail s s 0

/-- Label `EXPONENT_SIGN`: jsonnum.go:260-272. -/
def exponentSign (s : Bytes) : Bytes × RC :=
  match s with
  | [] => (s, .err)
  | c :: cs =>
    let s := if c == 45 || c == 43 then cs else s
    match s with
    | [] => (s, .err)
    | d :: ds => if notDigit d then (s, .err) else expLoop ds

/-- Tail loop of the fraction: jsonnum.go:243-258. `cs` is `s[i:]`. -/
def fracTail (s : Bytes) : Bytes → Nat → Bytes × RC
  | [], i =>
    let s := s.drop i
    if s.length < 1 then (s, .number) else exponentSign s
  | c :: cs, i =>
    if notDigit c then
      if isE c then exponentSign (s.drop (i + 1)) else (s.drop i, .number)
    else fracTail s cs (i + 1)

/-- Unrolled loop over the fraction digits: jsonnum.go:177-242. -/
def fracLoop : Bytes → Bytes × RC
  | b0 :: b1 :: b2 :: b3 :: b4 :: b5 :: b6 :: b7 :: rest =>
    let s := b0 :: b1 :: b2 :: b3 :: b4 :: b5 :: b6 :: b7 :: rest
    if notDigit b0 then
      if isE b0 then exponentSign (s.drop 1) else (s, .number)
    else if notDigit b1 then
      if isE b1 then exponentSign (s.drop 2) else (s.drop 1, .number)
    else if notDigit b2 then
      if isE b2 then exponentSign (s.drop 3) else (s.drop 2, .number)
    else if notDigit b3 then
      if isE b3 then exponentSign (s.drop 4) else (s.drop 3, .number)
    else if notDigit b4 then
      if isE b4 then exponentSign (s.drop 5) else (s.drop 4, .number)
    else if notDigit b5 then
      if isE b5 then exponentSign (s.drop 6) else (s.drop 5, .number)
    else if notDigit b6 then
      if isE b6 then exponentSign (s.drop 7) else (s.drop 6, .number)
    else if notDigit b7 then
      if isE b7 then exponentSign (s.drop 8) else (s.drop 7, .number)
    else fracLoop rest
  | s => fracTail s s 0

/-- Label `FRACTION`: jsonnum.go:170-175. -/
def fraction (s : Bytes) : Bytes × RC :=
  match s with
  | [] => (s, .err)
  | c :: cs => if notDigit c then (s, .err) else fracLoop cs

/-- Tail loop of the integer part: jsonnum.go:149-168. `cs` is `s[i:]`. -/
def intTail (s : Bytes) : Bytes → Nat → Bytes × RC
  | [], i =>
    let s := s.drop i
    if s.length < 1 then (s, .integer) else fraction s
  | c :: cs, i =>
    if notDigit c then
      if isE c then exponentSign (s.drop (i + 1))
      else if c == 46 then fraction (s.drop (i + 1))
      else (s.drop i, .integer)
    else intTail s cs (i + 1)

/-- Unrolled loop over the integer digits: jsonnum.go:51-148. -/
def intLoop : Bytes → Bytes × RC
  | b0 :: b1 :: b2 :: b3 :: b4 :: b5 :: b6 :: b7 :: rest =>
    let s := b0 :: b1 :: b2 :: b3 :: b4 :: b5 :: b6 :: b7 :: rest
    if notDigit b0 then
      if isE b0 then exponentSign (s.drop 1)
      else if b0 == 46 then fraction (s.drop 1)
      else (s, .integer)
    else if notDigit b1 then
      if isE b1 then exponentSign (s.drop 2)
      else if b1 == 46 then fraction (s.drop 2)
      else (s.drop 1, .integer)
    else if notDigit b2 then
      if isE b2 then exponentSign (s.drop 3)
      else if b2 == 46 then fraction (s.drop 3)
      else (s.drop 2, .integer)
    else if notDigit b3 then
      if isE b3 then exponentSign (s.drop 4)
      else if b3 == 46 then fraction (s.drop 4)
      else (s.drop 3, .integer)
    else if notDigit b4 then
      if isE b4 then exponentSign (s.drop 5)
      else if b4 == 46 then fraction (s.drop 5)
      else (s.drop 4, .integer)
    else if notDigit b5 then
      if isE b5 then exponentSign (s.drop 6)
      else if b5 == 46 then fraction (s.drop 6)
      else (s.drop 5, .integer)
    else if notDigit b6 then
      if isE b6 then exponentSign (s.drop 7)
      else if b6 == 46 then fraction (s.drop 7)
      else (s.drop 6, .integer)
    else if notDigit b7 then
      if isE b7 then exponentSign (s.drop 8)
      else if b7 == 46 then fraction (s.drop 8)
      else (s.drop 7, .integer)
    else intLoop rest
  | s => intTail s s 0

/-- Body of `ReadNumber` after the sign: jsonnum.go:26-50. `none` is the panic of `s[0]` on an empty
text. -/
def unsignedNumber (s : Bytes) : Option (Bytes × RC) :=
  match s with
  | [] => none
  | c :: cs =>
    if c == 48 then
      match cs with
      | [] => some (cs, .integer)
      | d :: ds =>
        if d == 46 then some (fraction ds)
        else if isE d then some (exponentSign ds)
        else some (cs, .integer)
    else if c < 49 || c > 57 then some (s, .err)
    else some (intLoop cs)

/-- `ReadNumber`: jsonnum.go:13-325. `none` is the panic of `s[0]` on an empty text. -/
def readNumber (s : Bytes) : Option (Bytes × RC) :=
  match s with
  | [] => none
  | c :: cs =>
    if c == 45 then
      if cs.length < 1 then some (cs, .err) else unsignedNumber cs
    else unsignedNumber s

end Verif.Model.JsonNum

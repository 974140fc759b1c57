import Verif.Model.AppendType
import Verif.Model.Fields
import Verif.Model.Any
/-!
# The token loop of `Decode`

A small-step machine: the program counter ranges over the head of the token loop and the labels of the Go code; `step` executes the code from one label to the
next `continue`/`goto`. `crash` is a Go panic or an access outside owned memory.
-/
namespace Verif.Model

/-- `recursionStackFrame`: jscandec.go:395-404. `epoch` (not in the code) says in which `Decode` call the entry was pushed. -/
structure RecFrame where
  dest : Ptr
  offset : Nat
  container : Nat
  epoch : Nat
  deriving DecidableEq, Repr

/-- The part of a `stackFrame` that `Decode` changes (jscandec.go:406-461). The top of the recursion stack is the head of the list. -/
structure Dyn where
  dest : Ptr := .nil
  offset : Nat := 0
  len : Nat := 0
  rstack : List RecFrame := []
  deriving DecidableEq, Repr

/-- Labels: head of the token loop, `ON_RECUR_OBJ_END`, `ON_VAL_END`, `ON_PTR`, `ON_JSON_UNMARSHALER`. -/
inductive PC
  | loop | recurObjEnd | valEnd | onPtr | onJSON
  deriving DecidableEq, Repr

/-- Machine state: token index, stack index, the mutable part of the frames, and the destination memory. -/
structure St where
  ti : Nat
  si : Nat
  pc : PC
  dyn : Nat → Dyn
  mem : Block

/-- What is fixed during one `Decode` call. `options = none` is a nil pointer. `epoch` numbers the calls. -/
structure Prog where
  x : Ext
  src : Bytes
  toks : List Token
  frames : List Frame
  options : Option Options
  epoch : Nat := 0

/-- Outcome of a step or run. -/
inductive Out
  | run (s : St)
  | done (s : St)                       -- the callback returned false
  | err (index : Nat) (e : Err) (s : St) -- the callback returned true
  | crash

/-- `noParentFrame`, also the value of `si` after `si--` at 0: jscandec.go:465. -/
def maxU32 : Nat := 4294967295

/-- Assignment to one frame. -/
def upd (d : Nat → Dyn) (i : Nat) (f : Dyn → Dyn) : Nat → Dyn := fun j => if j = i then f (d i) else d j

/-- `for i := range fields { stackExp[fields[i].FrameIndex].Dest = p }`. -/
def setFieldDests (p : Ptr) : List (Bytes × Nat) → (Nat → Dyn) → (Nat → Dyn)
  | [], d => d
  | f :: fs, d => setFieldDests p fs (upd d f.2 fun y => { y with dest := p })

/-- The pointer `uintptr(Dest) + Offset` of frame `si`. -/
def St.p (s : St) : Ptr := (s.dyn s.si).dest.add (s.dyn s.si).offset

/-! ## Scalars -/

/-- Width in bytes of a scalar. -/
def SKind.bytes (x : Ext) : SKind → Nat
  | .bool => 1
  | .str => 2 * x.W
  | .int k => k.bits x.is64 / 8
  | .flt .f32 => 4
  | .flt .f64 => 8

/-- What a scalar token does to the current frame. -/
inductive Act
  | store (n : Nat) (c : Cell) -- assign the n-byte value at p
  | clear (n : Nat)            -- assign the n-byte zero value at p
  | nop
  | text (b : Bytes)           -- call UnmarshalText(b) on the value at p
  | toPtr                      -- goto ON_PTR
  | toJSON                     -- goto ON_JSON_UNMARSHALER
  | err (e : Err)              -- return with this error at the token's index
  | crash

/-- `case TokenTypeFalse, TokenTypeTrue`: jscandec.go:735-757. -/
def onBool (x : Ext) (ty : EType) (v : Bool) : Act :=
  match ty with
  | .any => .store (2 * x.W) (.any (.bool v))
  | .scalar .bool => .store 1 (.bool v)
  | .ptr => .toPtr
  | .jsonUnmarshaler => .toJSON
  | _ => .err .unexpectedValue

/-- An integer parser result stored or reported as `e`. -/
def storeInt (x : Ext) (k : IKind) (tv : Bytes) (e : Err) : Act :=
  match parseInt x.is64 k tv with
  | none => .crash
  | some (_, true) => .err e
  | some (v, false) => .store (k.bits x.is64 / 8) (.int v)

/-- Parsed float stored or its error reported. -/
def storeFlt (n : Nat) : Except Nat Flt → Act
  | .ok f => .store n (.flt f)
  | .error e => .err (.parse e)

/-- Fast path of float decoding for short integers: jscandec.go:891-927 (`float32`: fewer than 8 characters, `float64`: fewer than 16). -/
def intFlt (x : Ext) (k : FKind) (tv : Bytes) : Except Nat Flt :=
  match k with
  | .f32 => if tv.length < 8 then (x.tokInt32 tv).map x.f32OfInt else x.parseFloat32 tv
  | .f64 => if tv.length < 16 then (x.tokInt64 tv).map x.f64OfInt else x.parseFloat64 tv

/-- The parser of a float kind. -/
def parseFlt (x : Ext) : FKind → Bytes → Except Nat Flt
  | .f32 => x.parseFloat32
  | .f64 => x.parseFloat64

/-- `case TokenTypeInteger`: jscandec.go:759-943; `tv = s[Index:End]`. -/
def onInteger (x : Ext) (ty : EType) (tv : Bytes) : Act :=
  match ty with
  | .any =>
    match x.parseFloat64 tv with
    | .ok f => .store (2 * x.W) (.any (.num f))
    | .error e => .err (.parse e)
  | .scalar (.int k) =>
    if k.signed = false then
      match tv with
      | [] => .crash -- s[tokens[ti].Index] is read before; an integer token is never empty
      | c :: _ => if c = 45 then .err .unexpectedValue else storeInt x k tv .integerOverflow
    else storeInt x k tv .integerOverflow
  | .scalar (.flt k) => storeFlt ((SKind.flt k).bytes x) (intFlt x k tv)
  | .number => .store (2 * x.W) (.str (x.mkStr tv))
  | .ptr => .toPtr
  | .jsonUnmarshaler => .toJSON
  | _ => .err .unexpectedValue

/-- `case TokenTypeNumber`: jscandec.go:945-992. -/
def onNumber (x : Ext) (ty : EType) (tv : Bytes) : Act :=
  match ty with
  | .any =>
    match x.parseFloat64 tv with
    | .ok f => .store (2 * x.W) (.any (.num f))
    | .error e => .err (.parse e)
  | .scalar (.flt k) => storeFlt ((SKind.flt k).bytes x) (parseFlt x k tv)
  | .number => .store (2 * x.W) (.str (x.mkStr tv))
  | .ptr => .toPtr
  | .jsonUnmarshaler => .toJSON
  | _ => .err .unexpectedValue

/-- A quoted integer or an integer map key: scanner, sign check for unsigned kinds, parser: jscandec.go:1086-1215 and 2381-2509. `none` is a panic,
`some none` is `ErrUnexpectedValue`. -/
def quotedInt (x : Ext) (k : IKind) (tv : Bytes) : Option (Option Int) :=
  match JsonNum.readNumber tv with
  | none => none
  | some (_, rc) =>
    if rc ≠ .integer then some none
    else if k.signed = false ∧ tv.head? = some 45 then some none
    else match parseInt x.is64 k tv with
      | none => none
      | some (_, true) => some none
      | some (v, false) => some (some v)

/-- `case TokenTypeString`: jscandec.go:994-1226; `tv = s[Index+1:End-1]`. -/
def onString (x : Ext) (ty : EType) (tv : Bytes) : Act :=
  match ty with
  | .textUnmarshaler =>
    match Unescape.valid tv with
    | none => .crash
    | some b => .text b
  | .any =>
    match x.unescStr tv with
    | none => .crash
    | some s => .store (2 * x.W) (.any (.str s))
  | .scalar .str =>
    match x.unescStr tv with
    | none => .crash
    | some s => .store (2 * x.W) (.str s)
  | .quoted .bool =>
    if tv = b!"true" then .store 1 (.bool true)
    else if tv = b!"false" then .store 1 (.bool false)
    else .err .unexpectedValue
  | .quoted .str =>
    if tv.length < 4 ∨ tv.take 2 ≠ [92, 34] ∨ tv.drop (tv.length - 2) ≠ [92, 34] then .err .unexpectedValue
    else
      let val := (tv.drop 2).take (tv.length - 4)
      if (Unescape.indexBackslash val).isSome then .err .unexpectedValue
      else .store (2 * x.W) (.str (x.mkStr val))
  | .number =>
    match JsonNum.readNumber tv with
    | none => .crash
    | some (_, rc) => if rc = .err then .err .unexpectedValue else .store (2 * x.W) (.str (x.mkStr tv))
  | .quoted (.flt k) =>
    match JsonNum.readNumber tv with
    | none => .crash
    | some (_, rc) =>
      if rc = .err then .err .unexpectedValue else storeFlt ((SKind.flt k).bytes x) (parseFlt x k tv)
  | .quoted (.int k) =>
    match quotedInt x k tv with
    | none => .crash
    | some none => .err .unexpectedValue
    | some (some v) => .store (k.bits x.is64 / 8) (.int v)
  | .ptr => .toPtr
  | .jsonUnmarshaler => .toJSON
  | _ => .err .unexpectedValue

/-- `case TokenTypeNull`: jscandec.go:1228-1310. -/
def onNull (x : Ext) (ty : EType) : Act :=
  match ty with
  | .emptyStruct => .nop
  | .any => .clear (2 * x.W)
  | .mapStringString | .map | .mapRecur => .clear x.W
  | .slice | .sliceRecur => .clear (3 * x.W)
  | .struct | .structRecur => .nop
  | .ptr | .ptrRecur => .clear x.W
  | .scalar k => .clear (k.bytes x)
  | .number => .clear (2 * x.W)
  | .sliceOf _ => .clear (3 * x.W)
  | .jsonUnmarshaler => .toJSON
  | .arrayLen0 | .array | .sliceEmptyStruct | .textUnmarshaler | .quoted _ => .nop -- no case

/-- Execution of an action for the token `t`: `ti++; goto ON_VAL_END` after a store. -/
def exec (pr : Prog) (s : St) (f : Frame) (t : Token) : Act → Out
  | .store n c =>
    match writeSeg s.mem s.p (seg n c) with
    | none => .crash
    | some m => .run { s with mem := m, ti := s.ti + 1, pc := .valEnd }
  | .clear n =>
    match writeSeg s.mem s.p (zeros n) with
    | none => .crash
    | some m => .run { s with mem := m, ti := s.ti + 1, pc := .valEnd }
  | .nop => .run { s with ti := s.ti + 1, pc := .valEnd }
  | .text b => -- jscandec.go:1000-1010
    match f.ptrImpl, f.rtype, readSeg s.mem s.p f.size with
    | true, some rt, some old =>
      let r := pr.x.unmarshalText rt old b
      match writeSeg s.mem s.p (fit f.size r.1) with
      | none => .crash
      | some m =>
        match r.2 with
        | some e => .err t.index (.user e) { s with mem := m }
        | none => .run { s with mem := m, ti := s.ti + 1, pc := .valEnd }
    | _, _, _ => .crash
  | .toPtr => .run { s with pc := .onPtr }
  | .toJSON => .run { s with pc := .onJSON }
  | .err e => .err t.index e s
  | .crash => .crash

/-! ## Specialised slices -/

/-- One element of a specialised slice: jscandec.go:1491-1503 (bool), 1528-1540 (string), 1565-1580 (integers), 1985-2022 (floats). -/
def elemOf (x : Ext) (src : Bytes) (k : SKind) (t : Token) : Act :=
  match t.type with
  | .null => .clear (k.bytes x)
  | .true_ => match k with
    | .bool => .store 1 (.bool true)
    | _ => .err .unexpectedValue
  | .false_ => match k with
    | .bool => .store 1 (.bool false)
    | _ => .err .unexpectedValue
  | .string => match k with
    | .str =>
      match (slice src (t.index + 1) (t.end_ - 1)).bind x.unescStr with
      | none => .crash
      | some s => .store (2 * x.W) (.str s)
    | _ => .err .unexpectedValue
  | .integer => match k with
    | .int k =>
      match slice src t.index t.end_ with
      | none => .crash
      | some tv => onInteger x (.scalar (.int k)) tv
    | .flt k =>
      match slice src t.index t.end_ with
      | none => .crash
      | some tv => storeFlt ((SKind.flt k).bytes x) (intFlt x k tv)
    | _ => .err .unexpectedValue
  | .number => match k with
    | .flt k =>
      match slice src t.index t.end_ with
      | none => .crash
      | some tv => storeFlt ((SKind.flt k).bytes x) (parseFlt x k tv)
    | _ => .err .unexpectedValue
  | _ => .err .unexpectedValue

/-- Result of the element loop: the array so far and possibly an error at an index. -/
inductive SliceRes
  | ok (arr : Block)
  | err (index : Nat) (e : Err) (arr : Block)
  | crash

/-- `for i := range tokens { … sl[i] = … }` over the tokens between the brackets. -/
def sliceElems (x : Ext) (src : Bytes) (k : SKind) : List Token → Nat → Block → SliceRes
  | [], _, arr => .ok arr
  | t :: ts, i, arr =>
    match elemOf x src k t with
    | .store n c =>
      match blit arr (i * k.bytes x) (seg n c) with
      | none => .crash
      | some arr => sliceElems x src k ts (i + 1) arr
    | .clear n =>
      match blit arr (i * k.bytes x) (zeros n) with
      | none => .crash
      | some arr => sliceElems x src k ts (i + 1) arr
    | .err e => .err t.index e arr
    | _ => .crash

/-- A slice header read from memory: nil or length, capacity and array. -/
def sliceHdr : Option Cell → Option (Nat × Nat × Block)
  | some .zero => some (0, 0, [])
  | some (.slice l c a) => some (l, c, a)
  | _ => none

/-- Specialised slice types: jscandec.go:1471-2087. -/
def onSliceOf (pr : Prog) (s : St) (t : Token) (k : SKind) : Out :=
  let W := pr.x.W
  let n := t.elements
  if n < 1 then
    match writeSeg s.mem s.p (seg (3 * W) (.slice 0 0 [])) with
    | none => .crash
    | some m => .run { s with mem := m, ti := s.ti + 2, pc := .valEnd }
  else match sliceHdr (readCell s.mem s.p) with
  | none => .crash
  | some (l, c, a) =>
    let inner := (pr.toks.take t.end_).drop (s.ti + 1)
    if t.end_ < s.ti + 1 ∨ pr.toks.length < t.end_ then .crash
    else if c < n then
      -- a fresh array, visible only after success
      match sliceElems pr.x pr.src k inner 0 (zeros (n * k.bytes pr.x)) with
      | .crash => .crash
      | .err i e _ => .err i e s
      | .ok arr =>
        match writeSeg s.mem s.p (seg (3 * W) (.slice n n arr)) with
        | none => .crash
        | some m => .run { s with mem := m, ti := s.ti + (inner.length + 2), pc := .valEnd }
    else
      -- the elements are written into the existing array, the header at the end. The slice expression sl[:elems] bounds the writes.
      match sliceElems pr.x pr.src k inner 0 (a.take (n * k.bytes pr.x)) with
      | .crash => .crash
      | .err i e arr =>
        match writeSeg s.mem s.p (seg (3 * W) (.slice l c (arr ++ a.drop (n * k.bytes pr.x)))) with
        | none => .crash
        | some m => .err i e { s with mem := m }
      | .ok arr =>
        match writeSeg s.mem s.p (seg (3 * W) (.slice n c (arr ++ a.drop (n * k.bytes pr.x)))) with
        | none => .crash
        | some m => .run { s with mem := m, ti := s.ti + (inner.length + 2), pc := .valEnd }

/-! ## Arrays -/

/-- Slice preparation: the header to store and whether the array is reused: jscandec.go:1367-1390 (`Slice`, with `copyOld` = `isElemComposite` of the element frame)
and 1421-1441 (`SliceRecur`, `copyOld = true`). `esz` is the element size. -/
def growSlice (esz n : Nat) (copyOld : Bool) (l c : Nat) (a : Block) : Cell :=
  if c < n then
    if copyOld ∧ l ≠ 0 then .slice n n ((a.take (l * esz)) ++ zeros (n * esz - l * esz))
    else .slice n n (zeros (n * esz))
  else .slice n c a

/-- `case TokenTypeArray`: jscandec.go:1312-2098. -/
def onArray (pr : Prog) (s : St) (f : Frame) (t : Token) : Out :=
  let W := pr.x.W
  match f.type with
  | .any =>
    match decodeAny pr.x pr.src (pr.toks.length + 1) (pr.toks.drop s.ti) with
    | .crash => .crash
    | .err _ => .err t.index .unexpectedValue s
    | .ok v tail =>
      match writeSeg s.mem s.p (seg (2 * W) (.any v)) with
      | none => .crash
      | some m => .run { s with mem := m, ti := pr.toks.length - tail.length, pc := .valEnd }
  | .arrayLen0 => .run { s with ti := t.end_ + 1, pc := .valEnd }
  | .array =>
    if t.elements < 1 then .run { s with ti := s.ti + 2, pc := .valEnd }
    else .run { s with ti := s.ti + 1, si := s.si + 1,
                       dyn := upd s.dyn (s.si + 1) fun y => { y with dest := s.p, len := 0, offset := 0 } }
  | .slice =>
    match pr.frames[s.si + 1]? with
    | none => .crash
    | some fe =>
      if t.elements = 0 then
        match writeSeg s.mem s.p (seg (3 * W) (.slice 0 0 [])) with
        | none => .crash
        | some m => .run { s with mem := m, ti := s.ti + 2, pc := .valEnd }
      else match sliceHdr (readCell s.mem s.p), s.p with
        | some (l, c, a), .at ad =>
          match writeSeg s.mem s.p (seg (3 * W) (growSlice fe.size t.elements fe.type.isElemComposite l c a)) with
          | none => .crash
          | some m => .run { s with mem := m, ti := s.ti + 1, si := s.si + 1,
                                    dyn := upd s.dyn (s.si + 1) fun y => { y with dest := .at (ad.into .arr), offset := 0 } }
        | _, _ => .crash
  | .sliceRecur =>
    match pr.frames[f.recurFrame]? with
    | none => .crash
    | some fr =>
      if t.elements = 0 then
        match writeSeg s.mem s.p (seg (3 * W) (.slice 0 0 [])) with
        | none => .crash
        | some m =>
          if (s.dyn f.recurFrame).rstack.length < 1 then .run { s with mem := m, ti := s.ti + 2, pc := .valEnd }
          else .run { s with mem := m, ti := s.ti + 2, si := f.recurFrame }
      else match sliceHdr (readCell s.mem s.p), s.p with
        | some (l, c, a), .at ad =>
          match writeSeg s.mem s.p (seg (3 * W) (growSlice fr.size t.elements true l c a)) with
          | none => .crash
          | some m =>
            .run { s with mem := m, ti := s.ti + 1, si := f.recurFrame,
                          dyn := upd s.dyn f.recurFrame fun y =>
                            { y with dest := .at (ad.into .arr), offset := 0,
                                     rstack := ⟨y.dest, y.offset, s.si, pr.epoch⟩ :: y.rstack } }
        | _, _ => .crash
  | .sliceEmptyStruct =>
    match writeSeg s.mem s.p (seg (3 * W) (.slice t.elements t.elements [])) with
    | none => .crash
    | some m => .run { s with mem := m, ti := t.end_ + 1, pc := .valEnd }
  | .sliceOf k => onSliceOf pr s t k
  | .ptr => .run { s with pc := .onPtr }
  | .jsonUnmarshaler => .run { s with pc := .onJSON }
  | _ => .err t.index .unexpectedValue s

/-! ## Objects -/

/-- The loop over a `map[string]string`: jscandec.go:2207-2223. `ts` are the tokens between the braces. -/
def mapSSLoop (x : Ext) (src : Bytes) (W : Nat) : List Token → List (Key × Block) → Option (Except (Nat × Err) (List (Key × Block)))
  | k :: v :: ts, m =>
    match v.type with
    | .string =>
      match (slice src (k.index + 1) (k.end_ - 1)).bind x.unescStr, (slice src (v.index + 1) (v.end_ - 1)).bind x.unescStr with
      | some ks, some vs => mapSSLoop x src W ts (mapAssign (.str ks) (seg (2 * W) (.str vs)) m)
      | _, _ => none
    | .null =>
      match (slice src (k.index + 1) (k.end_ - 1)).bind x.unescStr with
      | some ks => mapSSLoop x src W ts (mapAssign (.str ks) (zeros (2 * W)) m)
      | none => none
    | _ => some (.error (v.index, .unexpectedValue))
  | [_], _ => none -- tokens[ti+1] would be the closing token; excluded by the contract of the tokenizer
  | [], m => some (.ok m)
where
  /-- `m[k] = v`. -/
  mapAssign (k : Key) (b : Block) (m : List (Key × Block)) : List (Key × Block) :=
    match lookupKey k m with
    | some _ => putKey k b m
    | none => m ++ [(k, b)]

/-- The pointer cell of a map: nil or its entries. -/
def mapHdr : Option Cell → Option (Option (List (Key × Block)))
  | some .zero => some none
  | some (.map es) => some (some es)
  | _ => none

/-- `if *(*unsafe.Pointer)(p) == nil { *p = makemap(…) }`: jscandec.go:2167-2172, 2183-2188. -/
def ensureMap (W : Nat) (m : Block) (p : Ptr) : Option Block :=
  match mapHdr (readCell m p) with
  | none => none
  | some (some _) => some m
  | some none => writeSeg m p (seg W (.map []))

/-- `case TokenTypeObject`: jscandec.go:2100-2268. -/
def onObject (pr : Prog) (s : St) (f : Frame) (t : Token) : Out :=
  let W := pr.x.W
  match f.type with
  | .emptyStruct => .run { s with ti := t.end_, pc := .valEnd }
  | .any =>
    match decodeAny pr.x pr.src (pr.toks.length + 1) (pr.toks.drop s.ti) with
    | .crash => .crash
    | .err _ => .err t.index .unexpectedValue s
    | .ok v tail =>
      match writeSeg s.mem s.p (seg (2 * W) (.any v)) with
      | none => .crash
      | some m => .run { s with mem := m, ti := pr.toks.length - tail.length, pc := .valEnd }
  | .ptrRecur =>
    match pr.frames[f.recurFrame]?, s.p with
    | some fr, .at ad =>
      let d := upd s.dyn f.recurFrame fun y => { y with rstack := ⟨y.dest, y.offset, s.si, pr.epoch⟩ :: y.rstack }
      let m? := match readCell s.mem s.p with
        | some (.ptr _) => some s.mem
        | some .zero => writeSeg s.mem s.p (seg W (.ptr (zeros fr.size)))
        | _ => none
      match m? with
      | none => .crash
      | some m =>
        let dp := Ptr.at (ad.into .deref)
        let d := upd d f.recurFrame fun y => { y with dest := dp }
        if t.elements = 0 then .run { s with mem := m, dyn := d, ti := s.ti + 2, si := f.recurFrame, pc := .recurObjEnd }
        else .run { s with mem := m, dyn := setFieldDests dp fr.fields d, ti := s.ti + 1, si := f.recurFrame }
    | _, _ => .crash
  | .mapRecur =>
    match pr.frames[f.recurFrame]? with
    | none => .crash
    | some _ =>
      let d := upd s.dyn f.recurFrame fun y => { y with rstack := ⟨y.dest, y.offset, s.si, pr.epoch⟩ :: y.rstack }
      match ensureMap W s.mem s.p with
      | none => .crash
      | some m =>
        if t.elements = 0 then .run { s with mem := m, dyn := d, ti := s.ti + 2, pc := .valEnd }
        else .run { s with mem := m, dyn := d, ti := s.ti + 1 }
  | .map =>
    match ensureMap W s.mem s.p with
    | none => .crash
    | some m =>
      if t.elements = 0 then .run { s with mem := m, ti := s.ti + 2, pc := .valEnd }
      else .run { s with mem := m, ti := s.ti + 1 }
  | .mapStringString =>
    if t.elements = 0 then
      match writeSeg s.mem s.p (seg W (.map [])) with
      | none => .crash
      | some m => .run { s with mem := m, ti := s.ti + 2, pc := .valEnd }
    else if pr.toks.length ≤ t.end_ then .crash
    else match mapSSLoop pr.x pr.src W ((pr.toks.take t.end_).drop (s.ti + 1)) [] with
      | none => .crash
      | some (.error (i, e)) => .err i e s
      | some (.ok es) =>
        match writeSeg s.mem s.p (seg W (.map es)) with
        | none => .crash
        | some m => .run { s with mem := m, ti := t.end_ + 1, pc := .valEnd }
  | .struct =>
    if t.elements = 0 then .run { s with ti := s.ti + 2, pc := .valEnd }
    else .run { s with ti := s.ti + 1, dyn := setFieldDests s.p f.fields s.dyn }
  | .structRecur =>
    if t.elements = 0 then .run { s with ti := s.ti + 2, pc := .recurObjEnd }
    else .run { s with ti := s.ti + 1, dyn := setFieldDests s.p f.fields s.dyn }
  | .ptr => .run { s with pc := .onPtr }
  | .jsonUnmarshaler => .run { s with pc := .onJSON }
  | _ => .err t.index .unexpectedValue s

/-! ## Keys -/

/-- Result of the loop `SCAN_KEYVALS`. -/
inductive ScanRes
  | found (ti frameIndex : Nat)
  | unknown (index : Nat)  -- ErrUnknownField at this byte index
  | brk (ti : Nat)         -- `break SCAN_KEYVALS` with this `ti`
  | crash

/-- The loop `SCAN_KEYVALS` with the inner skip loop: jscandec.go:2273-2343. `ts` are the tokens from `ti` on; `skip = some l` while skipping the value of an unknown
key, with nesting level `l`. -/
def scanKeys (x : Ext) (src : Bytes) (o : Options) (fields : List (Bytes × Nat)) (skip : Option Nat) : List Token → Nat → ScanRes
  | [], _ => .crash -- tokens[ti]: index out of range
  | t :: ts, ti =>
    let atKey : Unit → ScanRes := fun _ =>
      match (slice src (t.index + 1) (t.end_ - 1)).bind (keyName o) with
      | none => .crash
      | some name =>
        match findField x o fields name with
        | some fi => .found ti fi
        | none =>
          if o.disallowUnknownFields then .unknown t.index
          else scanKeys x src o fields (some 0) ts (ti + 1)
    match skip with
    | none => atKey ()
    | some l =>
      match t.type with
      | .key => if l < 1 then atKey () else scanKeys x src o fields (some l) ts (ti + 1)
      | .object => scanKeys x src o fields (some (l + 1)) ts (ti + 1)
      | .objectEnd => if l ≤ 1 then .brk (ti - 1) else scanKeys x src o fields (some (l - 1)) ts (ti + 1)
      | _ => scanKeys x src o fields (some l) ts (ti + 1)

/-- The map key made from the key text: jscandec.go:2348-2510. `none`: panic; `some (error e)`; `some (ok none)`: a key type without a case (`pNewData` stays nil). -/
def mapKeyOf (x : Ext) (fk : Frame) (key : Bytes) : Option (Except Err (Option Key)) :=
  match fk.type with
  | .textUnmarshaler =>
    match fk.ptrImpl, fk.rtype, Unescape.valid key with
    | true, some rt, some b =>
      match x.unmarshalKey rt b with
      | .error e => some (.error (.user e))
      | .ok k => some (.ok (some (.opaque k)))
    | _, _, _ => none
  | .scalar .str => (x.unescStr key).map fun k => .ok (some (.str k))
  | .scalar (.int k) =>
    match quotedInt x k key with
    | none => none
    | some none => some (.error .unexpectedValue)
    | some (some v) => some (.ok (some (.int v)))
  | _ => some (.ok none)

/-- `mapassign`: makes sure the map at `a` has an entry for `k` and returns the address of its value. -/
def assignEntry (W vsz : Nat) (m : Block) (a : Addr) (k : Key) : Option Block :=
  match mapHdr (readCell m (.at a)) with
  | some (some es) =>
    match lookupKey k es with
    | some _ => some m
    | none => writeSeg m (.at a) (seg W (.map (es ++ [(k, zeros vsz)])))
  | _ => none -- assignment to an entry in a nil map

/-- The choice between `mapassign` and `mapassign_faststr`: jscandec.go:2362-2514, for a map frame `f` with key frame `fk`. The second is taken for string keys if `MapCanUseAssignFaststr` is set; the runtime stores values of
more than 128 bytes indirectly, which `mapassign_faststr` does not know: calling it for such a map is outside its contract. -/
def mapAssign (W : Nat) (f fk : Frame) (m : Block) (a : Addr) (k : Key) : Option Block :=
  if fk.type = .scalar .str ∧ f.faststr = true ∧ 128 < f.mapValueSize then none
  else assignEntry W f.mapValueSize m a k

/-- `case TokenTypeKey`: jscandec.go:2270-2533. -/
def onKey (pr : Prog) (s : St) (f : Frame) (t : Token) : Out :=
  match f.type with
  | .struct | .structRecur =>
    match pr.options with
    | none => .crash
    | some o =>
      match scanKeys pr.x pr.src o f.fields none (pr.toks.drop s.ti) s.ti with
      | .crash => .crash
      | .unknown i => .err i .unknownField s
      | .brk ti => .run { s with ti := ti + 1 }
      | .found ti fi => .run { s with ti := ti + 1, si := fi }
  | .map | .mapRecur =>
    match slice pr.src (t.index + 1) (t.end_ - 1), pr.frames[s.si + 1]?, s.p with
    | some key, some fk, .at ad =>
      match mapKeyOf pr.x fk key with
      | none => .crash
      | some (.error e) => .err t.index e s
      | some (.ok k?) =>
        let mp : Option (Block × Ptr) := match k? with
          | none => some (s.mem, .nil)
          | some k => (mapAssign pr.x.W f fk s.mem ad k).map fun m => (m, .at (ad.into (.entry k)))
        match mp with
        | none => .crash
        | some (m, pNew) =>
          let si := if f.type = .mapRecur then f.recurFrame else s.si + 2
          match pr.frames[si]? with
          | none => .crash
          | some fv =>
            let d := upd s.dyn si fun y => { y with dest := pNew }
            if fv.type = .struct ∨ fv.type = .structRecur then
              match writeSeg m pNew (zeros f.mapValueSize) with
              | none => .crash
              | some m => .run { s with mem := m, dyn := d, si := si, ti := s.ti + 1 }
            else .run { s with mem := m, dyn := d, si := si, ti := s.ti + 1 }
    | _, _, _ => .crash
  | _ => .err t.index .unexpectedValue s

/-! ## Ends -/

/-- The `Dest` of a popped recursion frame. -/
def RecFrame.destAt (r : RecFrame) (epoch : Nat) : Ptr :=
  if r.epoch = epoch then r.dest else match r.dest with
    | .nil => .nil
    | _ => .stale

/-- "Reset to parent context" and "Pop recursion stack" for frame `i` with top `r`: jscandec.go:2549-2561, 2576-2588, 2610-2621. -/
def popRec (pr : Prog) (d : Nat → Dyn) (i : Nat) (fields : List (Bytes × Nat)) (r : RecFrame) (rest : List RecFrame) : Nat → Dyn :=
  setFieldDests (r.destAt pr.epoch) fields
    (upd d i fun y => { y with dest := r.destAt pr.epoch, offset := r.offset, rstack := rest })

/-- Parent frame index as a stack index. -/
def parentIdx (f : Frame) : Nat := f.parent.getD maxU32

/-- `case TokenTypeObjectEnd`: jscandec.go:2535-2565. -/
def onObjectEnd (pr : Prog) (s : St) (f : Frame) : Out :=
  let s := { s with ti := s.ti + 1 }
  match f.type with
  | .struct => .run { s with pc := .valEnd }
  | .mapRecur =>
    match pr.frames[f.recurFrame]? with
    | none => .crash
    | some fr =>
      match (s.dyn f.recurFrame).rstack with
      | [] => .run { s with si := f.recurFrame, pc := .valEnd }
      | r :: rest => .run { s with dyn := popRec pr s.dyn f.recurFrame fr.fields r rest, si := parentIdx f }
  | _ => .run { s with pc := .recurObjEnd }

/-- `si--` on a `uint32`. -/
def decSi (si : Nat) : Nat := if si = 0 then maxU32 else si - 1

/-- `case TokenTypeArrayEnd`: jscandec.go:2567-2593. -/
def onArrayEnd (pr : Prog) (s : St) (f : Frame) : Out :=
  let s := { s with ti := s.ti + 1 }
  if f.type = .structRecur then
    match (s.dyn s.si).rstack with
    | [] => .run { s with pc := .valEnd }
    | r :: rest =>
      match pr.frames[r.container]? with
      | none => .crash
      | some fc => .run { s with dyn := popRec pr s.dyn s.si f.fields r rest, si := parentIdx fc }
  else .run { s with si := decSi s.si, pc := .valEnd }

/-- Label `ON_RECUR_OBJ_END`: jscandec.go:2597-2633. -/
def onRecurObjEnd (pr : Prog) (s : St) (f : Frame) : Out :=
  match (s.dyn s.si).rstack with
  | [] => .run { s with pc := .valEnd }
  | r :: rest =>
    match pr.frames[r.container]? with
    | none => .crash
    | some fc =>
      match fc.type with
      | .sliceRecur => .run { s with pc := .loop, dyn := upd s.dyn s.si fun y => { y with offset := y.offset + f.size } }
      | .ptrRecur => .run { s with pc := .loop, dyn := popRec pr s.dyn s.si f.fields r rest, si := parentIdx fc }
      | .mapRecur => .run { s with pc := .loop, si := r.container,
                                   dyn := upd s.dyn r.container fun y => { y with dest := r.destAt pr.epoch } }
      | _ => .run { s with pc := .loop }

/-- The loop `SKIP_ALL_EXTRA_VALUES`: jscandec.go:2645-2656; number of tokens up to the closing bracket at level `l`. -/
def skipExtra : Nat → List Token → Option Nat
  | _, [] => none -- tokens[ti]: index out of range
  | l, t :: ts =>
    match t.type with
    | .array => (skipExtra (l + 1) ts).map (· + 1)
    | .arrayEnd => if l ≤ 1 then some 0 else (skipExtra (l - 1) ts).map (· + 1)
    | _ => (skipExtra l ts).map (· + 1)

/-- Label `ON_VAL_END`: jscandec.go:2636-2671. -/
def onValEnd (pr : Prog) (s : St) (f : Frame) : Out :=
  let s := { s with pc := .loop }
  match f.parent with
  | none => .run s
  | some siCon =>
    match pr.frames[siCon]? with
    | none => .crash
    | some fc =>
      match fc.type with
      | .ptr => .run { s with si := decSi s.si }
      | .array =>
        let s := { s with dyn := upd s.dyn s.si fun y => { y with len := y.len + 1 } }
        if (s.dyn s.si).len ≥ f.cap then
          match skipExtra 1 (pr.toks.drop s.ti) with
          | none => .crash
          | some n => .run { s with ti := s.ti + n }
        else .run { s with dyn := upd s.dyn s.si fun y => { y with offset := y.offset + f.size } }
      | .slice => .run { s with dyn := upd s.dyn s.si fun y => { y with offset := y.offset + f.size } }
      | .map | .struct | .structRecur => .run { s with si := siCon }
      | _ => .run s

/-- Label `ON_PTR`: jscandec.go:2673-2687. -/
def onPtr (pr : Prog) (s : St) : Out :=
  match pr.frames[s.si + 1]? with
  | none => .crash
  | some fe =>
    match writeSeg s.mem s.p (seg pr.x.W (.ptr (zeros fe.size))) with
    | none => .crash
    | some m =>
      if fe.size = 0 then .run { s with mem := m, si := s.si + 1, pc := .loop }
      else match s.p with
        | .at ad => .run { s with mem := m, si := s.si + 1, pc := .loop,
                                  dyn := upd s.dyn (s.si + 1) fun y => { y with dest := .at (ad.into .deref) } }
        | _ => .crash

/-- The raw text of the value whose first token is `t` (at `ti`), and the index of the next token: jscandec.go:2694-2705. -/
def rawValue (pr : Prog) (ti : Nat) (t : Token) : Option (Bytes × Nat) :=
  if t.type = .object ∨ t.type = .array then
    match pr.toks[t.end_]? with
    | none => none
    | some te => (slice pr.src t.index (te.index + 1)).map fun r => (r, t.end_ + 1)
  else (slice pr.src t.index t.end_).map fun r => (r, ti + 1)

/-- Label `ON_JSON_UNMARSHALER`: jscandec.go:2689-2713. -/
def onJSONUnmarshaler (pr : Prog) (s : St) (f : Frame) (t : Token) : Out :=
  match rawValue pr s.ti t, f.ptrImpl, f.rtype, readSeg s.mem s.p f.size with
  | some (raw, ti), true, some rt, some old =>
    let r := pr.x.unmarshalJSON rt old raw
    match writeSeg s.mem s.p (fit f.size r.1) with
    | none => .crash
    | some m =>
      match r.2 with
      | some e => .err t.index (.user e) { s with mem := m }
      | none => .run { s with mem := m, ti := ti, pc := .valEnd }
  | _, _, _, _ => .crash

/-! ## The loop -/

/-- `switch tokens[ti].Type`: jscandec.go:734-2595. -/
def dispatch (pr : Prog) (s : St) (f : Frame) (t : Token) : Out :=
  match t.type with
  | .false_ => exec pr s f t (onBool pr.x f.type false)
  | .true_ => exec pr s f t (onBool pr.x f.type true)
  | .integer =>
    match slice pr.src t.index t.end_ with
    | none => .crash
    | some tv => exec pr s f t (onInteger pr.x f.type tv)
  | .number =>
    match slice pr.src t.index t.end_ with
    | none => .crash
    | some tv => exec pr s f t (onNumber pr.x f.type tv)
  | .string =>
    match slice pr.src (t.index + 1) (t.end_ - 1) with
    | none => .crash
    | some tv => exec pr s f t (onString pr.x f.type tv)
  | .null => exec pr s f t (onNull pr.x f.type)
  | .array => onArray pr s f t
  | .object => onObject pr s f t
  | .key => onKey pr s f t
  | .objectEnd => onObjectEnd pr s f
  | .arrayEnd => onArrayEnd pr s f

/-- One step. -/
def step (pr : Prog) (s : St) : Out :=
  match s.pc with
  | .loop =>
    match pr.toks[s.ti]? with
    | none => .done s -- ti >= len(tokens)
    | some t =>
      match pr.frames[s.si]? with
      | none => .crash
      | some f => dispatch pr s f t
  | .recurObjEnd =>
    match pr.frames[s.si]? with
    | none => .crash
    | some f => onRecurObjEnd pr s f
  | .valEnd =>
    match pr.frames[s.si]? with
    | none => .crash
    | some f => onValEnd pr s f
  | .onPtr => onPtr pr s
  | .onJSON =>
    match pr.toks[s.ti]?, pr.frames[s.si]? with
    | some t, some f => onJSONUnmarshaler pr s f t
    | _, _ => .crash

/-- At most `n` steps; `run` as a result means that the machine is still running. -/
def run (pr : Prog) : Nat → St → Out
  | 0, s => .run s
  | n + 1, s =>
    match step pr s with
    | .run s' => run pr n s'
    | o => o

end Verif.Model

import Verif.Model.Decode
import Verif.Big.Any
/-!
# The type-directed reading of a document

`Ty` is a Go type as a tree (non-recursive types), `dec ty v b off` decodes the syntax tree `v` into the value of type `ty` at offset `off`
of the memory block `b`. It is a recursive function over type and document, with no token array, no stack frames, no pointers into other blocks: the value is written
where it belongs. `unsup` marks the combinations of type and document outside the fragment in which `Decode` follows this reading (see `Props/`).
-/
namespace Verif.Big
open Verif.Model

/-- Key types of maps; `other` are key types the decoder has no case for. -/
inductive KeyTy
  | str | int (k : IKind) | text (rt : TypeId) (impl : Bool) | other
  deriving DecidableEq, Repr

/-- Go types as trees. Struct fields: JSON name, offset, type. `quoted k` is a scalar field with the `string` option. `jsonU` and `textU` are types with an unmarshaler method
(`impl`: the method is callable on a pointer to the value). -/
inductive Ty
  | any | number | scalar (k : SKind) | quoted (k : SKind)
  | jsonU (rt : TypeId) (size : Nat) (impl : Bool)
  | textU (rt : TypeId) (size : Nat) (impl : Bool)
  | array0
  | array (n : Nat) (e : Ty)
  | slice (e : Ty)
  | sliceOf (k : SKind)
  | sliceES
  | mapSS
  | map (k : KeyTy) (e : Ty)
  | struct (size : Nat) (fields : List (Bytes × Nat × Ty))
  | emptyStruct
  | ptr (e : Ty)

/-- The `ExpectType` of a type. -/
def Ty.etype : Ty → EType
  | .any => .any
  | .number => .number
  | .scalar k => .scalar k
  | .quoted k => .quoted k
  | .jsonU _ _ _ => .jsonUnmarshaler
  | .textU _ _ _ => .textUnmarshaler
  | .array0 => .arrayLen0
  | .array _ _ => .array
  | .slice _ => .slice
  | .sliceOf k => .sliceOf k
  | .sliceES => .sliceEmptyStruct
  | .mapSS => .mapStringString
  | .map _ _ => .map
  | .struct _ _ => .struct
  | .emptyStruct => .emptyStruct
  | .ptr _ => .ptr

/-- Size in bytes. -/
def Ty.size (x : Ext) : Ty → Nat
  | .any | .number => 2 * x.W
  | .scalar k | .quoted k => k.bytes x
  | .jsonU _ n _ | .textU _ n _ => n
  | .array0 | .emptyStruct => 0
  | .array n e => n * e.size x
  | .slice _ | .sliceOf _ | .sliceES => 3 * x.W
  | .mapSS | .map _ _ | .ptr _ => x.W
  | .struct n _ => n

/-- Outcome: the new block; an error with its byte index and what was written before; a crash; outside the fragment. -/
inductive Res
  | ok (b : Block)
  | err (i : Nat) (e : Err) (b : Block)
  | crash
  | unsup

/-- Apply `f` to the block of a result. -/
def Res.bindB (r : Res) (f : Block → Option Block) : Res :=
  match r with
  | .ok b => match f b with
    | some b => .ok b
    | none => .crash
  | .err i e b => match f b with
    | some b => .err i e b
    | none => .crash
  | .crash => .crash
  | .unsup => .unsup

/-- The action of a scalar token on a value of the given kind. -/
def leaf (x : Ext) (src : Bytes) (et : EType) : JVal → Act
  | .null _ _ => onNull x et
  | .bool b _ _ => onBool x et b
  | .num true i e => match Model.slice src i e with
    | none => .crash
    | some tv => onInteger x et tv
  | .num false i e => match Model.slice src i e with
    | none => .crash
    | some tv => onNumber x et tv
  | .str i e => match Model.slice src (i + 1) (e - 1) with
    | none => .crash
    | some tv => onString x et tv
  | _ => .err .unexpectedValue

/-- The text of a method call's result put back, or its error. -/
def callB (b : Block) (off size idx : Nat) (r : Block × Option Nat) : Res :=
  match blit b off (fit size r.1) with
  | none => .crash
  | some b' => match r.2 with
    | some e => .err idx (.user e) b'
    | none => .ok b'

/-- Effect of an action at offset `off`; `rt size impl` describe the receiver of `UnmarshalText`. -/
def execB (x : Ext) (rt : Option TypeId) (size : Nat) (impl : Bool) (b : Block) (off idx : Nat) : Act → Res
  | .store n c => match blit b off (seg n c) with
    | none => .crash
    | some b => .ok b
  | .clear n => match blit b off (zeros n) with
    | none => .crash
    | some b => .ok b
  | .nop => .ok b
  | .text t =>
    match impl, rt with
    | true, some rt =>
      if off + size ≤ b.length then callB b off size idx (x.unmarshalText rt ((b.drop off).take size) t) else .crash
    | _, _ => .crash
  | .err e => .err idx e b
  | .crash => .crash
  | .toPtr | .toJSON => .unsup

/-- The text between the quotes of a string exists (`s[i+1:e-1]` does not panic). -/
def innerOK (src : Bytes) : JVal → Bool
  | .str i e => (Model.slice src (i + 1) (e - 1)).isSome
  | _ => true

/-- `UnmarshalJSON` on the text of the value. -/
def jsonB (x : Ext) (src : Bytes) (rt : TypeId) (size : Nat) (impl : Bool) (v : JVal) (b : Block) (off : Nat) : Res :=
  match Model.slice src v.index v.stop, innerOK src v, impl with
  | some raw, true, true =>
    if off + size ≤ b.length then callB b off size v.index (x.unmarshalJSON rt ((b.drop off).take size) raw) else .crash
  | _, _, _ => .crash

/-- An array or object into an `any`. -/
def anyB (x : Ext) (src : Bytes) (v : JVal) (b : Block) (off : Nat) : Res :=
  match anyOf x src v with
  | none => .crash
  | some (.error _) => .err v.index .unexpectedValue b
  | some (.ok a) => match blit b off (seg (2 * x.W) (.any a)) with
    | none => .crash
    | some b => .ok b

/-- Consecutive elements of `esz` bytes from `off` on. -/
def elemsB (f : JVal → Block → Nat → Res) (esz : Nat) : List JVal → Block → Nat → Res
  | [], b, _ => .ok b
  | v :: vs, b, off =>
    match f v b off with
    | .ok b => elemsB f esz vs b (off + esz)
    | r => r

/-- The block with the memory owned by the cell at `off` replaced. -/
def putIn (b : Block) (off : Nat) (s : Sel) (n : Block) : Option Block := putBlock b [⟨off, s⟩] n

/-- A JSON array into a slice of non-scalar elements. -/
def sliceB (x : Ext) (f : JVal → Block → Nat → Res) (esz : Nat) (composite : Bool) (vs : List JVal) (b : Block) (off : Nat) : Res :=
  if vs = [] then
    match blit b off (seg (3 * x.W) (.slice 0 0 [])) with
    | none => .crash
    | some b => .ok b
  else match sliceHdr b[off]? with
    | none => .crash
    | some (l, c, a) =>
      match blit b off (seg (3 * x.W) (growSlice esz vs.length composite l c a)) with
      | none => .crash
      | some b =>
        match getBlock b [⟨off, .arr⟩] with
        | none => .crash
        | some arr => (elemsB f esz vs arr 0).bindB (putIn b off .arr)

/-- One element of a slice of scalars. -/
def elemAct (x : Ext) (src : Bytes) (k : SKind) : JVal → Act
  | .null _ _ => .clear (k.bytes x)
  | .bool b _ _ => match k with
    | .bool => .store 1 (.bool b)
    | _ => .err .unexpectedValue
  | .num isInt i e =>
    match k with
    | .int k => if isInt then
        match Model.slice src i e with
        | none => .crash
        | some tv => onInteger x (.scalar (.int k)) tv
      else .err .unexpectedValue
    | .flt k =>
      match Model.slice src i e with
      | none => .crash
      | some tv => storeFlt ((SKind.flt k).bytes x) (if isInt then intFlt x k tv else parseFlt x k tv)
    | _ => .err .unexpectedValue
  | .str i e => match k with
    | .str =>
      match (Model.slice src (i + 1) (e - 1)).bind x.unescStr with
      | none => .crash
      | some s => .store (2 * x.W) (.str s)
    | _ => .err .unexpectedValue
  | _ => .err .unexpectedValue

/-- Decoder of an element of a slice of scalars. -/
def elemB (x : Ext) (src : Bytes) (k : SKind) (v : JVal) (b : Block) (off : Nat) : Res :=
  execB x none 0 false b off v.index (elemAct x src k v)

/-- A JSON array into a slice of scalars: a new array replaces the old one only after success; an array with enough capacity is written in place. -/
def sliceOfB (x : Ext) (src : Bytes) (k : SKind) (vs : List JVal) (b : Block) (off : Nat) : Res :=
  let n := vs.length
  let put (h : Cell) : Option Block := blit b off (seg (3 * x.W) h)
  if vs = [] then
    match put (.slice 0 0 []) with
    | none => .crash
    | some b => .ok b
  else match sliceHdr b[off]? with
    | none => .crash
    | some (l, c, a) =>
      if c < n then
        match elemsB (elemB x src k) (k.bytes x) vs (zeros (n * k.bytes x)) 0 with
        | .ok arr => match put (.slice n n arr) with
          | none => .crash
          | some b => .ok b
        | .err i e _ => .err i e b
        | r => r
      else
        let rest := a.drop (n * k.bytes x)
        match elemsB (elemB x src k) (k.bytes x) vs (a.take (n * k.bytes x)) 0 with
        | .ok arr => match put (.slice n c (arr ++ rest)) with
          | none => .crash
          | some b => .ok b
        | .err i e arr => match put (.slice l c (arr ++ rest)) with
          | none => .crash
          | some b => .err i e b
        | r => r

/-- The members of an object into a `map[string]string`, starting from the entries `m`. -/
def mapSSB (x : Ext) (src : Bytes) : List ((Nat × Nat) × JVal) → List (Key × Block) → Option (Except (Nat × Err) (List (Key × Block)))
  | [], m => some (.ok m)
  | ((i, e), v) :: ms, m =>
    match v with
    | .str vi ve =>
      match (Model.slice src (i + 1) (e - 1)).bind x.unescStr, (Model.slice src (vi + 1) (ve - 1)).bind x.unescStr with
      | some ks, some vs => mapSSB x src ms (mapSSLoop.mapAssign (.str ks) (seg (2 * x.W) (.str vs)) m)
      | _, _ => none
    | .null _ _ =>
      match (Model.slice src (i + 1) (e - 1)).bind x.unescStr with
      | some ks => mapSSB x src ms (mapSSLoop.mapAssign (.str ks) (zeros (2 * x.W)) m)
      | none => none
    | v => some (.error (v.index, .unexpectedValue))

/-- The key made of a key text; `none`: crash. -/
def KeyTy.key (x : Ext) (key : Bytes) : KeyTy → Option (Except Err Key)
  | .str => (x.unescStr key).map fun k => .ok (.str k)
  | .int k => match quotedInt x k key with
    | none => none
    | some none => some (.error .unexpectedValue)
    | some (some v) => some (.ok (.int v))
  | .text rt impl => match impl, Unescape.valid key with
    | true, some b => match x.unmarshalKey rt b with
      | .error e => some (.error (.user e))
      | .ok k => some (.ok (.opaque k))
    | _, _ => none
  | .other => none

/-- The members of an object into the map at `off`: find or make the entry, clear it if the values are structs, decode the value into it. -/
def mapB (x : Ext) (src : Bytes) (f : JVal → Block → Nat → Res) (k : KeyTy) (vsz : Nat) (isStruct : Bool) :
    List ((Nat × Nat) × JVal) → Block → Nat → Res
  | [], b, _ => .ok b
  | ((i, e), v) :: ms, b, off =>
    match Model.slice src (i + 1) (e - 1) with
    | none => .crash
    | some key =>
      match k.key x key with
      | none => .crash
      | some (.error er) => .err i er b
      | some (.ok k') =>
        match assignEntry x.W vsz b ⟨[], off⟩ k' with
        | none => .crash
        | some b =>
          match getBlock b [⟨off, .entry k'⟩] with
          | none => .crash
          | some eb =>
            match (if isStruct then blit eb 0 (zeros vsz) else some eb) with
            | none => .crash
            | some eb =>
              match (f v eb 0).bindB (putIn b off (.entry k')) with
              | .ok b => mapB x src f k vsz isStruct ms b off
              | r => r

mutual
/-- The value contains an object. -/
def hasObj : JVal → Bool
  | .obj _ _ _ => true
  | .arr _ es _ => hasObjL es
  | _ => false
/-- Some element contains an object. -/
def hasObjL : List JVal → Bool
  | [] => false
  | v :: vs => hasObj v || hasObjL vs
end

/-- The members of an object into the fields of the struct at `off`; `fs` gives JSON name, offset and decoder of each field. -/
def structB (x : Ext) (src : Bytes) (o : Options) (fs : List (Bytes × Nat × (JVal → Block → Nat → Res))) :
    List ((Nat × Nat) × JVal) → Block → Nat → Res
  | [], b, _ => .ok b
  | ((i, e), v) :: ms, b, off =>
    match (Model.slice src (i + 1) (e - 1)).bind (keyName o) with
    | none => .crash
    | some name =>
      match findField x o ((fs.map (·.1)).zipIdx) name with
      | some j =>
        match fs[j]? with
        | none => .crash
        | some (_, fo, f) =>
          match f v b (off + fo) with
          | .ok b => structB x src o fs ms b off
          | r => r
      | none =>
        if o.disallowUnknownFields then .err i .unknownField b
        else if hasObj v then .unsup
        else structB x src o fs ms b off

mutual
/-- The type-directed decoder. -/
def dec (x : Ext) (src : Bytes) (o : Option Options) : Ty → JVal → Block → Nat → Res
  | .jsonU rt size impl => fun v b off => jsonB x src rt size impl v b off
  | .textU rt size impl => fun v b off => execB x (some rt) size impl b off v.index (leaf x src .textUnmarshaler v)
  | .any => fun v b off =>
    match v with
    | .arr _ _ _ | .obj _ _ _ => anyB x src v b off
    | v => execB x none 0 false b off v.index (leaf x src .any v)
  | .array0 => fun v b off =>
    match v with
    | .arr _ _ _ => .ok b
    | v => execB x none 0 false b off v.index (leaf x src .arrayLen0 v)
  | .array n e => fun v b off =>
    match v with
    | .arr _ vs _ => elemsB (dec x src o e) (e.size x) (vs.take n) b off
    | v => execB x none 0 false b off v.index (leaf x src .array v)
  | .slice e => fun v b off =>
    match v with
    | .arr _ vs _ => sliceB x (dec x src o e) (e.size x) e.etype.isElemComposite vs b off
    | v => execB x none 0 false b off v.index (leaf x src .slice v)
  | .sliceOf k => fun v b off =>
    match v with
    | .arr _ vs _ => sliceOfB x src k vs b off
    | v => execB x none 0 false b off v.index (leaf x src (.sliceOf k) v)
  | .sliceES => fun v b off =>
    match v with
    | .arr _ vs _ => match blit b off (seg (3 * x.W) (.slice vs.length vs.length [])) with
      | none => .crash
      | some b => .ok b
    | v => execB x none 0 false b off v.index (leaf x src .sliceEmptyStruct v)
  | .mapSS => fun v b off =>
    match v with
    | .obj _ ms _ => match mapSSB x src ms [] with
      | none => .crash
      | some (.error (i, e)) => .err i e b
      | some (.ok es) => match blit b off (seg x.W (.map es)) with
        | none => .crash
        | some b => .ok b
    | v => execB x none 0 false b off v.index (leaf x src .mapStringString v)
  | .map k e => fun v b off =>
    match v with
    | .obj _ ms _ => match ensureMap x.W b (.at ⟨[], off⟩) with
      | none => .crash
      | some b => if k = .other ∧ ms ≠ [] then .unsup
        else mapB x src (dec x src o e) k (e.size x) (e.etype == .struct) ms b off
    | v => execB x none 0 false b off v.index (leaf x src .map v)
  | .struct _ fields => fun v b off =>
    match v with
    | .obj _ ms _ =>
      if ms = [] then .ok b
      else match o with
        | none => .crash
        | some o' => structB x src o' (decFields x src o fields) ms b off
    | v => execB x none 0 false b off v.index (leaf x src .struct v)
  | .emptyStruct => fun v b off =>
    match v with
    | .obj _ _ _ => .unsup
    | v => execB x none 0 false b off v.index (leaf x src .emptyStruct v)
  | .ptr _ => fun v b off =>
    match v with
    | .null _ _ => execB x none 0 false b off v.index (leaf x src .ptr v)
    | _ => .unsup
  | .number => fun v b off => execB x none 0 false b off v.index (leaf x src .number v)
  | .scalar k => fun v b off => execB x none 0 false b off v.index (leaf x src (.scalar k) v)
  | .quoted k => fun v b off => execB x none 0 false b off v.index (leaf x src (.quoted k) v)
/-- The decoders of the fields of a struct. -/
def decFields (x : Ext) (src : Bytes) (o : Option Options) :
    List (Bytes × Nat × Ty) → List (Bytes × Nat × (JVal → Block → Nat → Res))
  | [] => []
  | (n, fo, t) :: fs => (n, fo, dec x src o t) :: decFields x src o fs
end

end Verif.Big

import Verif.Big.Top
/-!
# Specification: Go values, the memory that holds them, and decoding as a function on values

`Val` are Go values as the user sees them; `Holds x ty b off V` says that the memory block `b` holds the value `V` of type `ty` at byte offset `off`. `decV` is the
decoding of a JSON value into a Go value: a recursive function over type and JSON value, without memory, tokens, frames or pointers.
-/
namespace Verif.Spec
open Verif.Model Verif.Big

/-- Go values. `slice es spare`: the elements, and the elements of the backing array beyond the length. `user`: the contents of a value with an unmarshaler method. `nil`: a nil
pointer, slice or map. -/
inductive Val
  | bool (b : Bool)
  | int (i : Int)
  | flt (f : Flt)
  | str (s : Str)
  | any (a : AnyVal)
  | user (b : Block)
  | nil
  | ptr (v : Val)
  | arr (es : List Val)
  | slice (es spare : List Val)
  | map (es : List (Key × Val))
  | struct (fs : List Val)

/-- Zero value of a scalar kind. -/
def zeroS : SKind → Val
  | .bool => .bool false
  | .str => .str ⟨[], false⟩
  | .int _ => .int 0
  | .flt _ => .flt 0

mutual
/-- The zero value of a type. -/
def zeroV (x : Ext) : Ty → Val
  | .any => .any .null
  | .number => .str ⟨[], false⟩
  | .scalar k | .quoted k => zeroS k
  | .jsonU _ n _ | .textU _ n _ => .user (zeros n)
  | .array0 => .arr []
  | .emptyStruct => .struct []
  | .array n e => .arr (List.replicate n (zeroV x e))
  | .slice _ | .sliceOf _ | .sliceES | .mapSS | .map _ _ | .ptr _ => .nil
  | .struct _ fs => .struct (zeroF x fs)
/-- The zero values of fields. -/
def zeroF (x : Ext) : List (Bytes × Nat × Ty) → List Val
  | [] => []
  | (_, _, t) :: fs => zeroV x t :: zeroF x fs
end

mutual
/-- The layout of structs: fields lie inside the struct and do not overlap. -/
def OK (x : Ext) : Ty → Prop
  | .array _ e | .slice e | .map _ e | .ptr e => OK x e
  | .struct size fs => OKF x size fs
  | _ => True
/-- The fields of a struct of the given size. -/
def OKF (x : Ext) (size : Nat) : List (Bytes × Nat × Ty) → Prop
  | [] => True
  | (_, o, t) :: fs => o + t.size x ≤ size ∧ OK x t ∧ (∀ g ∈ fs, o + t.size x ≤ g.2.1 ∨ g.2.1 + g.2.2.size x ≤ o) ∧ OKF x size fs
end

/-- A memory cell that holds a scalar. -/
def HoldsS (k : SKind) (c : Option Cell) (V : Val) : Prop :=
  (c = some .zero ∧ V = zeroS k) ∨
  match k with
  | .bool => ∃ b, c = some (.bool b) ∧ V = .bool b
  | .str => ∃ s, c = some (.str s) ∧ V = .str s
  | .int _ => ∃ i, c = some (.int i) ∧ V = .int i
  | .flt _ => ∃ f, c = some (.flt f) ∧ V = .flt f

/-- A memory cell that holds a slice with elements of `esz` bytes, each satisfying `P` at its offset. -/
def HoldsSlice (esz : Nat) (P : Block → Nat → Val → Prop) (c : Option Cell) (V : Val) : Prop :=
  (c = some .zero ∧ V = .nil) ∨
  ∃ a es sp, c = some (.slice es.length (es ++ sp).length a) ∧ V = .slice es sp ∧ a.length = (es ++ sp).length * esz ∧
    ∀ i W, (es ++ sp)[i]? = some W → P a (i * esz) W

/-- The entries of a map in memory, with values of `vsz` bytes each satisfying `P`. -/
def HoldsEntries (vsz : Nat) (P : Block → Nat → Val → Prop) : List (Key × Block) → List (Key × Val) → Prop
  | [], [] => True
  | e :: es, W :: Ws => e.1 = W.1 ∧ e.2.length = vsz ∧ P e.2 0 W.2 ∧ HoldsEntries vsz P es Ws
  | _, _ => False

/-- A memory cell that holds a map. -/
def HoldsMap (vsz : Nat) (P : Block → Nat → Val → Prop) (c : Option Cell) (V : Val) : Prop :=
  (c = some .zero ∧ V = .nil) ∨ ∃ es Vs, c = some (.map es) ∧ V = .map Vs ∧ HoldsEntries vsz P es Vs

mutual
/-- The block holds a value of the type at the offset. -/
def Holds (x : Ext) : Ty → Block → Nat → Val → Prop
  | .any, b, off, V => off + 2 * x.W ≤ b.length ∧ ((b[off]? = some .zero ∧ V = .any .null) ∨ ∃ a, b[off]? = some (.any a) ∧ V = .any a)
  | .number, b, off, V => off + 2 * x.W ≤ b.length ∧ HoldsS .str b[off]? V
  | .scalar k, b, off, V => off + k.bytes x ≤ b.length ∧ HoldsS k b[off]? V
  | .quoted k, b, off, V => off + k.bytes x ≤ b.length ∧ HoldsS k b[off]? V
  | .jsonU _ n _, b, off, V => off + n ≤ b.length ∧ V = .user ((b.drop off).take n)
  | .textU _ n _, b, off, V => off + n ≤ b.length ∧ V = .user ((b.drop off).take n)
  | .array0, b, off, V => off ≤ b.length ∧ V = .arr []
  | .emptyStruct, b, off, V => off ≤ b.length ∧ V = .struct []
  | .array n e, b, off, V => off + n * e.size x ≤ b.length ∧ ∃ es, V = .arr es ∧ es.length = n ∧ ∀ i W, es[i]? = some W → Holds x e b (off + i * e.size x) W
  | .slice e, b, off, V => off + 3 * x.W ≤ b.length ∧ HoldsSlice (e.size x) (Holds x e) b[off]? V
  | .sliceOf k, b, off, V => off + 3 * x.W ≤ b.length ∧
      HoldsSlice (k.bytes x) (fun b off V => off + k.bytes x ≤ b.length ∧ HoldsS k b[off]? V) b[off]? V
  | .sliceES, b, off, V => off + 3 * x.W ≤ b.length ∧ HoldsSlice 0 (fun _ _ V => V = .struct []) b[off]? V
  | .mapSS, b, off, V => off + x.W ≤ b.length ∧
      HoldsMap (2 * x.W) (fun b off V => off + 2 * x.W ≤ b.length ∧ HoldsS .str b[off]? V) b[off]? V
  | .map _ e, b, off, V => off + x.W ≤ b.length ∧ HoldsMap (e.size x) (Holds x e) b[off]? V
  | .struct size fs, b, off, V => off + size ≤ b.length ∧ ∃ Ws, V = .struct Ws ∧ HoldsF x fs b off Ws
  | .ptr e, b, off, V => off + x.W ≤ b.length ∧ ((b[off]? = some .zero ∧ V = .nil) ∨
      ∃ blk W, b[off]? = some (.ptr blk) ∧ V = .ptr W ∧ blk.length = e.size x ∧ Holds x e blk 0 W)
/-- The fields of a struct at the offset. -/
def HoldsF (x : Ext) : List (Bytes × Nat × Ty) → Block → Nat → List Val → Prop
  | [], _, _, Ws => Ws = []
  | (_, o, t) :: fs, b, off, Ws => ∃ W Ws', Ws = W :: Ws' ∧ Holds x t b (off + o) W ∧ HoldsF x fs b off Ws'
end

/-- Outcome of decoding: the new value; an error with its byte index and the value written so far; a panic; outside the fragment in which `Decode` follows this reading. -/
inductive R (α : Type)
  | ok (a : α)
  | err (i : Nat) (e : Err) (a : α)
  | crash
  | unsup

/-- Apply a function to the value of an outcome. -/
def R.map {α β : Type} (f : α → β) : R α → R β
  | .ok a => .ok (f a)
  | .err i e a => .err i e (f a)
  | .crash => .crash
  | .unsup => .unsup

/-- The value in a cell written by a scalar token. -/
def cellV : Cell → Val
  | .bool b => .bool b
  | .int i => .int i
  | .flt f => .flt f
  | .str s => .str s
  | .any a => .any a
  | _ => .nil

/-- Effect of the action of a scalar token on a value; `z` is the zero value of its type, `call` the unmarshaler method. -/
def actV (idx : Nat) (z : Val) (call : Option (Block → Bytes → Block × Option Nat)) (V : Val) : Act → R Val
  | .store _ c => .ok (cellV c)
  | .clear _ => .ok z
  | .nop => .ok V
  | .text t => match call, V with
    | some f, .user old => match f old t with
      | (new, none) => .ok (.user new)
      | (new, some e) => .err idx (.user e) (.user new)
    | _, _ => .crash
  | .err e => .err idx e V
  | .crash => .crash
  | .toPtr | .toJSON => .unsup

/-- Decode values one by one into the corresponding existing values, up to the end of the shorter list. -/
def elemsV (f : JVal → Val → R Val) : List JVal → List Val → R (List Val)
  | v :: vs, W :: Ws =>
    match f v W with
    | .ok W => (elemsV f vs Ws).map (W :: ·)
    | .err i e W => .err i e (W :: Ws)
    | .crash => .crash
    | .unsup => .unsup
  | _, Ws => .ok Ws

/-- The elements and the spare elements of a slice value. -/
def sliceParts : Val → List Val × List Val
  | .slice es sp => (es, sp)
  | _ => ([], [])

/-- The `n` values a JSON array of `n` elements is decoded into, and the spare elements behind them: the array is reused if its capacity suffices; otherwise it is a new one with
the old elements copied if `copyOld`. -/
def prepSlice (z : Val) (copyOld : Bool) (n : Nat) (V : Val) : List Val × List Val :=
  let (es, sp) := sliceParts V
  if (es ++ sp).length < n then
    if copyOld then (es ++ List.replicate (n - es.length) z, []) else (List.replicate n z, [])
  else ((es ++ sp).take n, (es ++ sp).drop n)

/-- A JSON array into a slice. -/
def sliceV (f : JVal → Val → R Val) (z : Val) (copyOld : Bool) (vs : List JVal) (V : Val) : R Val :=
  if vs = [] then .ok (.slice [] [])
  else
    let (base, sp) := prepSlice z copyOld vs.length V
    (elemsV f vs base).map fun es => .slice es sp

/-- A JSON array into a slice of scalars: as `sliceV`, except that the length only changes on success, and a too small slice is left alone on failure. -/
def sliceOfV (f : JVal → Val → R Val) (z : Val) (vs : List JVal) (V : Val) : R Val :=
  if vs = [] then .ok (.slice [] [])
  else
    let (es, sp) := sliceParts V
    if (es ++ sp).length < vs.length then
      match elemsV f vs (List.replicate vs.length z) with
      | .ok es => .ok (.slice es [])
      | .err i e _ => .err i e V
      | .crash => .crash
      | .unsup => .unsup
    else
      match elemsV f vs ((es ++ sp).take vs.length) with
      | .ok es' => .ok (.slice es' ((es ++ sp).drop vs.length))
      | .err i e es' =>
        let all := es' ++ (es ++ sp).drop vs.length
        .err i e (.slice (all.take es.length) (all.drop es.length))
      | .crash => .crash
      | .unsup => .unsup

/-- Entry of a map. -/
def lookupV (k : Key) : List (Key × Val) → Option Val
  | [] => none
  | e :: es => if e.1.same k then some e.2 else lookupV k es

/-- `m[k] = v`. -/
def assignV (k : Key) (v : Val) : List (Key × Val) → List (Key × Val)
  | [] => [(k, v)]
  | e :: es => if e.1.same k then (e.1, v) :: es else e :: assignV k v es

/-- The members of an object into a map: each value is decoded into the current value of its key (the zero value if there is none or if `fresh`). -/
def mapV (x : Ext) (src : Bytes) (f : JVal → Val → R Val) (k : KeyTy) (z : Val) (fresh : Bool) :
    List ((Nat × Nat) × JVal) → List (Key × Val) → R (List (Key × Val))
  | [], m => .ok m
  | ((i, e), v) :: ms, m =>
    match (Model.slice src (i + 1) (e - 1)).bind fun key => k.key x key with
    | none => .crash
    | some (.error er) => .err i er m
    | some (.ok k') =>
      let old := if fresh then z else (lookupV k' m).getD z
      match f v old with
      | .ok W => mapV x src f k z fresh ms (assignV k' W m)
      | .err i e W => .err i e (assignV k' W m)
      | .crash => .crash
      | .unsup => .unsup

/-- The members of an object into a `map[string]string`. -/
def mapSSV (x : Ext) (src : Bytes) : List ((Nat × Nat) × JVal) → List (Key × Val) → Option (Except (Nat × Err) (List (Key × Val)))
  | [], m => some (.ok m)
  | ((i, e), v) :: ms, m =>
    match v with
    | .str vi ve =>
      match (Model.slice src (i + 1) (e - 1)).bind x.unescStr, (Model.slice src (vi + 1) (ve - 1)).bind x.unescStr with
      | some ks, some vs => mapSSV x src ms (assignV (.str ks) (.str vs) m)
      | _, _ => none
    | .null _ _ =>
      match (Model.slice src (i + 1) (e - 1)).bind x.unescStr with
      | some ks => mapSSV x src ms (assignV (.str ks) (.str ⟨[], false⟩) m)
      | none => none
    | v => some (.error (v.index, .unexpectedValue))

/-- The entries of a map value. -/
def mapParts : Val → List (Key × Val)
  | .map es => es
  | _ => []

/-- The members of an object into the fields of a struct; `fs` gives JSON name and decoder of each field. -/
def structV (x : Ext) (src : Bytes) (o : Options) (fs : List (Bytes × (JVal → Val → R Val))) :
    List ((Nat × Nat) × JVal) → List Val → R (List Val)
  | [], Ws => .ok Ws
  | ((i, e), v) :: ms, Ws =>
    match (Model.slice src (i + 1) (e - 1)).bind (keyName o) with
    | none => .crash
    | some name =>
      match findField x o ((fs.map (·.1)).zipIdx) name with
      | some j =>
        match fs[j]?, Ws[j]? with
        | some (_, f), some W =>
          match f v W with
          | .ok W => structV x src o fs ms (Ws.set j W)
          | .err i e W => .err i e (Ws.set j W)
          | .crash => .crash
          | .unsup => .unsup
        | _, _ => .crash
      | none =>
        if o.disallowUnknownFields then .err i .unknownField Ws
        else if hasObj v then .unsup
        else structV x src o fs ms Ws

/-- `UnmarshalJSON` on the text of the value. -/
def jsonV (x : Ext) (src : Bytes) (rt : TypeId) (n : Nat) (impl : Bool) (v : JVal) (V : Val) : R Val :=
  match Model.slice src v.index v.stop, innerOK src v, impl, V with
  | some raw, true, true, .user old =>
    match x.unmarshalJSON rt old raw with
    | (new, none) => .ok (.user (fit n new))
    | (new, some e) => .err v.index (.user e) (.user (fit n new))
  | _, _, _, _ => .crash

/-- The method of a value with `UnmarshalText`. -/
def textCall (x : Ext) (rt : TypeId) (n : Nat) : Bool → Option (Block → Bytes → Block × Option Nat)
  | true => some fun old t => (fit n (x.unmarshalText rt old t).1, (x.unmarshalText rt old t).2)
  | false => none

/-- A JSON array or object into an `any`. -/
def anyV (x : Ext) (src : Bytes) (v : JVal) (V : Val) : R Val :=
  match anyOf x src v with
  | none => .crash
  | some (.error _) => .err v.index .unexpectedValue V
  | some (.ok a) => .ok (.any a)

/-- A scalar token (or a value of the wrong kind) into a value of a type. -/
def leafV (x : Ext) (src : Bytes) (ty : Ty) (v : JVal) (V : Val) : R Val :=
  actV v.index (zeroV x ty) none V (leaf x src ty.etype v)

/-- What a pointer inside a destination points to, or a new zero value `z`. -/
def pointee (z : Val) : Val → Val
  | .ptr W => W
  | _ => z

mutual
/-- Decoding a JSON value into a value of a type. -/
def decV (x : Ext) (src : Bytes) (o : Option Options) : Ty → JVal → Val → R Val
  | .jsonU rt n impl => fun v V => jsonV x src rt n impl v V
  | .textU rt n impl => fun v V => actV v.index (.user (zeros n)) (textCall x rt n impl) V (leaf x src .textUnmarshaler v)
  | .any => fun v V =>
    match v with
    | .arr _ _ _ | .obj _ _ _ => anyV x src v V
    | v => leafV x src .any v V
  | .array0 => fun v V =>
    match v with
    | .arr _ _ _ => .ok V
    | v => leafV x src .array0 v V
  | .array n e => fun v V =>
    match v, V with
    | .arr _ vs _, .arr Ws => (elemsV (decV x src o e) vs Ws).map .arr
    | v, V => leafV x src (.array n e) v V
  | .slice e => fun v V =>
    match v with
    | .arr _ vs _ => sliceV (decV x src o e) (zeroV x e) e.etype.isElemComposite vs V
    | v => leafV x src (.slice e) v V
  | .sliceOf k => fun v V =>
    match v with
    | .arr _ vs _ => sliceOfV (fun v W => actV v.index (zeroS k) none W (elemAct x src k v)) (zeroS k) vs V
    | v => leafV x src (.sliceOf k) v V
  | .sliceES => fun v V =>
    match v with
    | .arr _ vs _ => .ok (.slice (List.replicate vs.length (.struct [])) [])
    | v => leafV x src .sliceES v V
  | .mapSS => fun v V =>
    match v with
    | .obj _ ms _ => match mapSSV x src ms [] with
      | none => .crash
      | some (.error (i, e)) => .err i e V
      | some (.ok es) => .ok (.map es)
    | v => leafV x src .mapSS v V
  | .map k e => fun v V =>
    match v with
    | .obj _ ms _ => if k = .other ∧ ms ≠ [] then .unsup
      else (mapV x src (decV x src o e) k (zeroV x e) (e.etype == .struct) ms (mapParts V)).map .map
    | v => leafV x src (.map k e) v V
  | .struct n fields => fun v V =>
    match v, V with
    | .obj _ ms _, .struct Ws =>
      if ms = [] then .ok (.struct Ws)
      else match o with
        | none => .crash
        | some o' => (structV x src o' (decVF x src o fields) ms Ws).map .struct
    | v, V => leafV x src (.struct n fields) v V
  | .emptyStruct => fun v V =>
    match v with
    | .obj _ _ _ => .unsup
    | v => leafV x src .emptyStruct v V
  | .ptr e => fun v V =>
    match v with
    | .null _ _ => .ok .nil
    | v => (decV x src o e v (pointee (zeroV x e) V)).map .ptr
  | .number => fun v V => leafV x src .number v V
  | .scalar k => fun v V => leafV x src (.scalar k) v V
  | .quoted k => fun v V => leafV x src (.quoted k) v V
/-- JSON names and decoders of the fields of a struct. -/
def decVF (x : Ext) (src : Bytes) (o : Option Options) : List (Bytes × Nat × Ty) → List (Bytes × (JVal → Val → R Val))
  | [] => []
  | (n, _, t) :: fs => (n, decV x src o t) :: decVF x src o fs
end

/-- Decoding a whole document into the root destination: as `decV`, except that a pointer gets a new zero value which is decoded into, and that `struct{}` accepts an object. -/
def decTopV (x : Ext) (src : Bytes) (o : Option Options) : Ty → JVal → Val → R Val
  | .ptr e => fun v _ =>
    match v with
    | .null _ _ => .ok .nil
    | v =>
      if tokOK src v = false then .crash
      else if e.size x = 0 then .unsup
      else (decTopV x src o e v (zeroV x e)).map .ptr
  | .emptyStruct => fun v V =>
    match v with
    | .obj _ _ _ => .ok V
    | v => decV x src o .emptyStruct v V
  | ty => fun v V => decV x src o ty v V

end Verif.Spec

import Verif.Big.Rec
/-!
# Recursive struct types inside other types: the type-directed reading of a document

`RTy` are the types built by arrays, slices, maps and structs from types without recursion and recursive struct types. `decX n` decodes a document into a value of such a type, with `decR n` for the recursive struct types.
-/
namespace Verif.Big
open Verif.Model

/-- Go types with recursive struct types inside. -/
inductive RTy
  | plain (t : Ty)
  | self (size : Nat) (fs : RFields)
  | array (n : Nat) (e : RTy)
  | slice (e : RTy)
  | map (k : KeyTy) (e : RTy)
  | struct (size : Nat) (fields : List (Bytes × Nat × RTy))

/-- The type is itself a recursive struct type. -/
def RTy.isSelf : RTy → Bool
  | .self _ _ => true
  | _ => false

mutual
/-- The type with the recursion cut off at depth `n`. -/
def RTy.ty (n : Nat) : RTy → Ty
  | .plain t => t
  | .self size fs => unroll size fs (n + 1)
  | .array m e => .array m (e.ty n)
  | .slice e => .slice (e.ty n)
  | .map k e => .map k (e.ty n)
  | .struct size fs => .struct size (tysX n fs)
/-- The types of the fields. -/
def tysX (n : Nat) : List (Bytes × Nat × RTy) → List (Bytes × Nat × Ty)
  | [] => []
  | (nm, o, t) :: fs => (nm, o, t.ty n) :: tysX n fs
end

mutual
/-- Number of frames of a type. -/
def RTy.width : RTy → Nat
  | .plain t => t.width
  | .self _ fs => 1 + widthR fs
  | .array _ e | .slice e => 1 + e.width
  | .map _ e => 2 + e.width
  | .struct _ fs => 1 + widthX fs
/-- Number of frames of the fields. -/
def widthX : List (Bytes × Nat × RTy) → Nat
  | [] => 0
  | (_, _, t) :: fs => t.width + widthX fs
end

/-- The `ExpectType` of a type. -/
def RTy.etype : RTy → EType
  | .plain t => t.etype
  | .self _ _ => .structRecur
  | .array _ _ => .array
  | .slice _ => .slice
  | .map _ _ => .map
  | .struct _ _ => .struct

/-- Size in bytes. -/
def RTy.size (x : Ext) : RTy → Nat
  | .plain t => t.size x
  | .self n _ => n
  | .array n e => n * e.size x
  | .slice _ => 3 * x.W
  | .map _ _ => x.W
  | .struct n _ => n

/-- Values of the type are cleared before they are decoded into an entry of a map. -/
def RTy.cleared (t : RTy) : Bool := t.etype == .struct || t.etype == .structRecur

mutual
/-- The frames from `b` on describe the type. -/
def RepX (x : Ext) (fr : List Frame) : RTy → Nat → Prop
  | .plain t, b => Rep x fr t b
  | .self size fs, b => RepRec x fr size fs b
  | .array n e, b => (∃ f, fr[b]? = some f ∧ f.type = .array ∧ f.size = n * e.size x) ∧ 0 < n ∧
      Linked fr b (b + 1) (fun c => c.cap = n) ∧ RepX x fr e (b + 1)
  | .slice e, b => (∃ f, fr[b]? = some f ∧ f.type = .slice ∧ f.size = 3 * x.W) ∧ Linked fr b (b + 1) (fun _ => True) ∧ RepX x fr e (b + 1)
  | .map k e, b => (∃ f, fr[b]? = some f ∧ f.type = .map ∧ f.size = x.W ∧ f.mapValueSize = e.size x ∧ (f.faststr = true → f.mapValueSize ≤ 128)) ∧
      Linked fr b (b + 1) k.Rep ∧ Linked fr b (b + 2) (fun c => c.offset = 0) ∧ RepX x fr e (b + 2)
  | .struct size fs, b => ∃ f, fr[b]? = some f ∧ f.type = .struct ∧ f.size = size ∧ RepFieldsX x fr b fs (b + 1) f.fields
/-- The frames from `pos` on describe the fields of the struct at `b`, whose field table is the last argument. -/
def RepFieldsX (x : Ext) (fr : List Frame) (b : Nat) : List (Bytes × Nat × RTy) → Nat → List (Bytes × Nat) → Prop
  | [], _, tbl => tbl = []
  | (n, o, t) :: fs, pos, tbl => ∃ tbl', tbl = (n, pos) :: tbl' ∧ Linked fr b pos (fun c => c.offset = o) ∧ RepX x fr t pos ∧
      RepFieldsX x fr b fs (pos + t.width) tbl'
end

mutual
/-- The type-directed decoder; recursive struct types are decoded for documents nested at most `n` deep. -/
def decX (x : Ext) (src : Bytes) (o : Option Options) (n : Nat) : RTy → JVal → Block → Nat → Res
  | .plain t => dec x src o t
  | .self size fs => decR x src o size fs n
  | .array m e => fun v b off =>
    match v with
    | .arr _ vs _ => elemsB (decX x src o n e) (e.size x) (vs.take m) b off
    | v => execB x none 0 false b off v.index (leaf x src .array v)
  | .slice e => fun v b off =>
    match v with
    | .arr _ vs _ => sliceB x (decX x src o n e) (e.size x) e.etype.isElemComposite vs b off
    | v => execB x none 0 false b off v.index (leaf x src .slice v)
  | .map k e => fun v b off =>
    match v with
    | .obj _ ms _ => match ensureMap x.W b (.at ⟨[], off⟩) with
      | none => .crash
      | some b => if k = .other ∧ ms ≠ [] then .unsup
        else mapB x src (decX x src o n e) k (e.size x) e.cleared ms b off
    | v => execB x none 0 false b off v.index (leaf x src .map v)
  | .struct _ fields => fun v b off =>
    match v with
    | .obj _ ms _ =>
      if ms = [] then .ok b
      else match o with
        | none => .crash
        | some o' => structB x src o' (decXF x src o n fields) ms b off
    | v => execB x none 0 false b off v.index (leaf x src .struct v)
/-- The decoders of the fields of a struct. -/
def decXF (x : Ext) (src : Bytes) (o : Option Options) (n : Nat) :
    List (Bytes × Nat × RTy) → List (Bytes × Nat × (JVal → Block → Nat → Res))
  | [] => []
  | (nm, fo, t) :: fs => (nm, fo, decX x src o n t) :: decXF x src o n fs
end

end Verif.Big

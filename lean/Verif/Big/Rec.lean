import Verif.Big.Rep
/-!
# Recursive struct types: the type-directed reading of a document

A struct type `T` some of whose fields are of type `*T`, `[]T` or `map[K]T`; the others have types without recursion. `decR n` decodes a document into a value of type `T`, as `dec` does for types without
recursion; `n` bounds the nesting depth.
-/
namespace Verif.Big
open Verif.Model

/-- Types of the fields of a recursive struct type `T`: a type without recursion, `*T`, `[]T`, `map[K]T`. -/
inductive RField
  | plain (t : Ty)
  | ptr
  | slice
  | map (k : KeyTy)

/-- The fields of a recursive struct type: JSON name, offset, type. -/
abbrev RFields := List (Bytes × Nat × RField)

/-- The type of the field if `T` is replaced by `e`. -/
def RField.ty (e : Ty) : RField → Ty
  | .plain t => t
  | .ptr => .ptr e
  | .slice => .slice e
  | .map k => .map k e

/-- The types of all fields if `T` is replaced by `e`. -/
def tyF (e : Ty) (fs : RFields) : List (Bytes × Nat × Ty) := fs.map fun f => (f.1, f.2.1, f.2.2.ty e)

/-- The recursive type unrolled `n` times: a type without recursion that has the same values up to nesting depth `n`. -/
def unroll (size : Nat) (fs : RFields) : Nat → Ty
  | 0 => .emptyStruct
  | n + 1 => .struct size (tyF (unroll size fs n) fs)

/-- Number of frames of a field. -/
def RField.width : RField → Nat
  | .plain t => t.width
  | .ptr | .slice => 1
  | .map _ => 2

/-- Number of frames of the fields. -/
def widthR : RFields → Nat
  | [] => 0
  | f :: fs => f.2.2.width + widthR fs

/-- The frames of a field from `p` on; `r` is the frame of `T`, `size` its size. -/
def RField.Rep (x : Ext) (fr : List Frame) (r size : Nat) : RField → Nat → Prop
  | .plain t, p => Big.Rep x fr t p
  | .ptr, p => ∃ f, fr[p]? = some f ∧ f.type = .ptrRecur ∧ f.recurFrame = r
  | .slice, p => ∃ f, fr[p]? = some f ∧ f.type = .sliceRecur ∧ f.recurFrame = r
  | .map k, p => (∃ f, fr[p]? = some f ∧ f.type = .mapRecur ∧ f.recurFrame = r ∧ f.mapValueSize = size ∧ (f.faststr = true → f.mapValueSize ≤ 128)) ∧ Linked fr p (p + 1) k.Rep

/-- The frames from `pos` on describe the fields of the recursive struct at `r`, whose field table is the last argument. -/
def RepR (x : Ext) (fr : List Frame) (r size : Nat) : RFields → Nat → List (Bytes × Nat) → Prop
  | [], _, tbl => tbl = []
  | (n, o, t) :: fs, pos, tbl => ∃ tbl', tbl = (n, pos) :: tbl' ∧ Linked fr r pos (fun c => c.offset = o) ∧ t.Rep x fr r size pos ∧
      RepR x fr r size fs (pos + t.width) tbl'

/-- The frames of the recursive struct type. -/
def RepRec (x : Ext) (fr : List Frame) (size : Nat) (fs : RFields) (r : Nat) : Prop :=
  ∃ f, fr[r]? = some f ∧ f.type = .structRecur ∧ f.size = size ∧ RepR x fr r size fs (r + 1) f.fields

/-- An object into a pointer `*T`: into the value pointed to, or into a new zero value. -/
def ptrB (x : Ext) (src : Bytes) (f : JVal → Block → Nat → Res) (size : Nat) (v : JVal) (b : Block) (off : Nat) : Res :=
  match v with
  | .obj _ _ _ =>
    match b[off]? with
    | some (.ptr pb) => (f v pb 0).bindB (putIn b off .deref)
    | some .zero =>
      match blit b off (seg x.W (.ptr (zeros size))) with
      | none => .crash
      | some b => (f v (zeros size) 0).bindB (putIn b off .deref)
    | _ => .crash
  | v => execB x none 0 false b off v.index (leaf x src .ptrRecur v)

/-- The decoder of a field; `g` is the decoder of `T`. -/
def fieldB (x : Ext) (src : Bytes) (o : Option Options) (size : Nat) (g : JVal → Block → Nat → Res) : RField → JVal → Block → Nat → Res
  | .plain t => dec x src o t
  | .ptr => ptrB x src g size
  | .slice => fun v b off =>
    match v with
    | .arr _ vs _ => sliceB x g size true vs b off
    | v => execB x none 0 false b off v.index (leaf x src .slice v)
  | .map k => fun v b off =>
    match v with
    | .obj _ ms _ => match ensureMap x.W b (.at ⟨[], off⟩) with
      | none => .crash
      | some b => mapB x src g k size true ms b off
    | v => execB x none 0 false b off v.index (leaf x src .map v)

/-- The decoders of the fields. -/
def decRF (x : Ext) (src : Bytes) (o : Option Options) (size : Nat) (g : JVal → Block → Nat → Res) (fs : RFields) : List (Bytes × Nat × (JVal → Block → Nat → Res)) :=
  fs.map fun f => (f.1, f.2.1, fieldB x src o size g f.2.2)

/-- The decoder of the recursive struct type, for documents nested at most `n` deep. -/
def decR (x : Ext) (src : Bytes) (o : Option Options) (size : Nat) (fs : RFields) : Nat → JVal → Block → Nat → Res
  | 0 => fun _ _ _ => .unsup
  | n + 1 => fun v b off =>
    match v with
    | .obj _ ms _ =>
      if ms = [] then .ok b
      else match o with
        | none => .crash
        | some o' => structB x src o' (decRF x src o size (decR x src o size fs n) fs) ms b off
    | v => execB x none 0 false b off v.index (leaf x src .struct v)

end Verif.Big

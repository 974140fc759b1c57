import Verif.Spec.Value
/-!
# Specification: where pointers inside a destination work

A pointer that is not the destination itself and gets a value other than `null` is left unfinished by `Decode`: the end of the value is not passed on to the container. This goes unnoticed if nothing but closing brackets follows
up to the end of an array, or up to the end of the document. `Right` describes these documents: the value for the pointer is at the right end of an array, or of the document.
-/
namespace Verif.Spec
open Verif.Model Verif.Big

/-- Where a value stands: somewhere inside the document; at the right end of an array, with nothing but closing braces behind it up to the bracket; at the right end of the document, with nothing but closing braces behind it. -/
inductive Place
  | inside | last | final
  deriving DecidableEq

/-- All members of the list but the last satisfy `P`, the last one satisfies `Q`. -/
def ButLast {α : Type} (P Q : α → Prop) : List α → Prop
  | [] => True
  | [a] => Q a
  | a :: b :: l => P a ∧ ButLast P Q (b :: l)

/-- A member of an object for a struct with fields of these names: its value is fine for the field, or the key is unknown and its value contains no object. -/
def RightM (x : Ext) (src : Bytes) (o : Options) (names : List Bytes) (T : List (Place → JVal → Prop)) (p : Place) (m : (Nat × Nat) × JVal) : Prop :=
  ∀ raw name, Model.slice src (m.1.1 + 1) (m.1.2 - 1) = some raw → keyName o raw = some name →
    match findField x o names.zipIdx name with
    | some j => ∀ R, T[j]? = some R → R p m.2
    | none => o.disallowUnknownFields = true ∨ hasObj m.2 = false

mutual
/-- The value can be decoded into the type at the place. As `Tame`, except that a pointer gets a value at the right end of an array or of the document, and a `struct{}` an object at the right end of the document. -/
def Right (x : Ext) (src : Bytes) (o : Option Options) : Ty → Place → JVal → Prop
  | .array n e => fun _ v =>
    match v with
    | .arr _ vs _ => if vs.length ≤ n then ButLast (Right x src o e .inside) (Right x src o e .last) vs else ∀ w ∈ vs.take n, Right x src o e .inside w
    | _ => True
  | .slice e => fun _ v =>
    match v with
    | .arr _ vs _ => ButLast (Right x src o e .inside) (Right x src o e .last) vs
    | _ => True
  | .map k e => fun p v =>
    match v with
    | .obj _ ms _ => (k = .other → ms = []) ∧ ButLast (fun m => Right x src o e .inside m.2) (fun m => Right x src o e p m.2) ms
    | _ => True
  | .struct _ fs => fun p v =>
    match v with
    | .obj _ ms _ => ∀ o', o = some o' → ButLast (RightM x src o' (fs.map (·.1)) (RightF x src o fs) .inside) (RightM x src o' (fs.map (·.1)) (RightF x src o fs) p) ms
    | _ => True
  | .emptyStruct => fun p v =>
    match v with
    | .obj _ _ _ => p = .final
    | _ => True
  | .ptr e => fun p v =>
    match v with
    | .null _ _ => True
    | v => e.size x ≠ 0 ∧ match p with
      | .inside => False
      | .last => Right x src o e .inside v
      | .final => Right x src o e .final v
  | _ => fun _ _ => True
/-- The fields of a struct. -/
def RightF (x : Ext) (src : Bytes) (o : Option Options) : List (Bytes × Nat × Ty) → List (Place → JVal → Prop)
  | [] => []
  | (_, _, t) :: fs => Right x src o t :: RightF x src o fs
end

/-- The document can be decoded into a destination of the type. -/
def RightDoc (x : Ext) (src : Bytes) (o : Option Options) (ty : Ty) (v : JVal) : Prop := Right x src o ty .final v

mutual
/-- Decoding a JSON value into a value of a type, as `encoding/json` does it for a destination without pointers: as `decV`, except that a pointer always gets a new zero value which is decoded into, and that `struct{}` accepts an object everywhere. -/
def decPV (x : Ext) (src : Bytes) (o : Option Options) : Ty → JVal → Val → R Val
  | .array n e => fun v V =>
    match v, V with
    | .arr _ vs _, .arr Ws => (elemsV (decPV x src o e) vs Ws).map .arr
    | v, V => leafV x src (.array n e) v V
  | .slice e => fun v V =>
    match v with
    | .arr _ vs _ => sliceV (decPV x src o e) (zeroV x e) e.etype.isElemComposite vs V
    | v => leafV x src (.slice e) v V
  | .map k e => fun v V =>
    match v with
    | .obj _ ms _ => if k = .other ∧ ms ≠ [] then .unsup
      else (mapV x src (decPV x src o e) k (zeroV x e) (e.etype == .struct) ms (mapParts V)).map .map
    | v => leafV x src (.map k e) v V
  | .struct n fields => fun v V =>
    match v, V with
    | .obj _ ms _, .struct Ws =>
      if ms = [] then .ok (.struct Ws)
      else match o with
        | none => .crash
        | some o' => (structV x src o' (decPVF x src o fields) ms Ws).map .struct
    | v, V => leafV x src (.struct n fields) v V
  | .emptyStruct => fun v V =>
    match v with
    | .obj _ _ _ => .ok V
    | v => leafV x src .emptyStruct v V
  | .ptr e => fun v _ =>
    match v with
    | .null _ _ => .ok .nil
    | v => (decPV x src o e v (zeroV x e)).map .ptr
  | ty => decV x src o ty
/-- JSON names and decoders of the fields of a struct. -/
def decPVF (x : Ext) (src : Bytes) (o : Option Options) : List (Bytes × Nat × Ty) → List (Bytes × (JVal → Val → R Val))
  | [] => []
  | (n, _, t) :: fs => (n, decPV x src o t) :: decPVF x src o fs
end

end Verif.Spec

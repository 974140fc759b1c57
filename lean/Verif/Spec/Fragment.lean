import Verif.Big.Top
/-!
# Specification: the documents on which `Decode` is specified, for a type and options

Three things make the decoder leave the document (see `Props/Refuted.lean`): a pointer that is not the destination itself and does not get `null`; a `struct{}` that is not the
destination itself and gets an object; an unknown key whose value contains an object. `Tame` excludes them where they would be reached.
-/
namespace Verif.Spec
open Verif.Model Verif.Big

mutual
/-- The value can be decoded into the type anywhere inside a destination. -/
def Tame (x : Ext) (src : Bytes) (o : Option Options) : Ty → JVal → Prop
  | .array n e => fun v =>
    match v with
    | .arr _ vs _ => ∀ w ∈ vs.take n, Tame x src o e w
    | _ => True
  | .slice e => fun v =>
    match v with
    | .arr _ vs _ => ∀ w ∈ vs, Tame x src o e w
    | _ => True
  | .map k e => fun v =>
    match v with
    | .obj _ ms _ => (k = .other → ms = []) ∧ ∀ m ∈ ms, Tame x src o e m.2
    | _ => True
  | .struct _ fs => fun v =>
    match v with
    | .obj _ ms _ => ∀ m ∈ ms, ∀ o', o = some o' → ∀ raw name, Model.slice src (m.1.1 + 1) (m.1.2 - 1) = some raw → keyName o' raw = some name →
        match findField x o' ((fs.map (·.1)).zipIdx) name with
        | some j => ∀ T, (TameF x src o fs)[j]? = some T → T m.2
        | none => o'.disallowUnknownFields = true ∨ hasObj m.2 = false
    | _ => True
  | .emptyStruct => fun v =>
    match v with
    | .obj _ _ _ => False
    | _ => True
  | .ptr _ => fun v =>
    match v with
    | .null _ _ => True
    | _ => False
  | _ => fun _ => True
/-- The fields of a struct. -/
def TameF (x : Ext) (src : Bytes) (o : Option Options) : List (Bytes × Nat × Ty) → List (JVal → Prop)
  | [] => []
  | (_, _, t) :: fs => Tame x src o t :: TameF x src o fs
end

/-- The document can be decoded into a destination of the type. -/
def TameDoc (x : Ext) (src : Bytes) (o : Option Options) : Ty → JVal → Prop
  | .ptr e => fun v =>
    match v with
    | .null _ _ => True
    | v => e.size x ≠ 0 ∧ TameDoc x src o e v
  | .emptyStruct => fun _ => True
  | ty => fun v => Tame x src o ty v

mutual
/-- No pointers, no `struct{}`, no unsupported map keys inside the type. -/
def _root_.Verif.Big.Ty.plain : Ty → Bool
  | .array _ e | .slice e => e.plain
  | .map k e => k != .other && e.plain
  | .struct _ fs => plainF fs
  | .emptyStruct | .ptr _ => false
  | _ => true
/-- The fields of a struct. -/
def plainF : List (Bytes × Nat × Ty) → Bool
  | [] => true
  | (_, _, t) :: fs => t.plain && plainF fs
end

end Verif.Spec

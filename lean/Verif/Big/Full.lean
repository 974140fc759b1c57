import Verif.Big.Top
/-!
# The type-directed reading of a document with pointers and `struct{}` everywhere

`decP` is `dec` without the two places where that stops: a pointer inside gets a new zero value which is decoded into, and a `struct{}` inside accepts an object. `Decode` does not follow this reading everywhere (C35, C36);
`Spec/Right.lean` says where it does.
-/
namespace Verif.Big
open Verif.Model

mutual
/-- The type-directed decoder. -/
def decP (x : Ext) (src : Bytes) (o : Option Options) : Ty → JVal → Block → Nat → Res
  | .array n e => fun v b off =>
    match v with
    | .arr _ vs _ => elemsB (decP x src o e) (e.size x) (vs.take n) b off
    | v => execB x none 0 false b off v.index (leaf x src .array v)
  | .slice e => fun v b off =>
    match v with
    | .arr _ vs _ => sliceB x (decP x src o e) (e.size x) e.etype.isElemComposite vs b off
    | v => execB x none 0 false b off v.index (leaf x src .slice v)
  | .map k e => fun v b off =>
    match v with
    | .obj _ ms _ => match ensureMap x.W b (.at ⟨[], off⟩) with
      | none => .crash
      | some b => if k = .other ∧ ms ≠ [] then .unsup
        else mapB x src (decP x src o e) k (e.size x) (e.etype == .struct) ms b off
    | v => execB x none 0 false b off v.index (leaf x src .map v)
  | .struct _ fields => fun v b off =>
    match v with
    | .obj _ ms _ =>
      if ms = [] then .ok b
      else match o with
        | none => .crash
        | some o' => structB x src o' (decPF x src o fields) ms b off
    | v => execB x none 0 false b off v.index (leaf x src .struct v)
  | .emptyStruct => fun v b off =>
    match v with
    | .obj _ _ _ => .ok b
    | v => execB x none 0 false b off v.index (leaf x src .emptyStruct v)
  | .ptr e => fun v b off =>
    match v with
    | .null _ _ => execB x none 0 false b off v.index (leaf x src .ptr v)
    | v => match blit b off (seg x.W (.ptr (zeros (e.size x)))) with
      | none => .crash
      | some b => (decP x src o e v (zeros (e.size x)) 0).bindB (putIn b off .deref)
  | ty => dec x src o ty
/-- The decoders of the fields of a struct. -/
def decPF (x : Ext) (src : Bytes) (o : Option Options) :
    List (Bytes × Nat × Ty) → List (Bytes × Nat × (JVal → Block → Nat → Res))
  | [] => []
  | (n, fo, t) :: fs => (n, fo, decP x src o t) :: decPF x src o fs
end

end Verif.Big

import Verif.Big.Inside
import Verif.Spec.Recursive
/-!
# Specification: recursive struct types inside other types

The documents on which `Decode` is specified for a type with recursive struct types inside.
-/
namespace Verif.Spec
open Verif.Model Verif.Big

mutual
/-- The value can be decoded into the type anywhere inside a destination. `zero`: the place has the offset 0 in its parent. Excluded are, besides what `Tame` and `TameR` exclude: elements of an array or slice of a
recursive struct type; and, in a recursive struct that is not at offset 0 of its parent, what `TameR` excludes in an element of a `[]T` other than the first. -/
def TameX (x : Ext) (src : Bytes) (o : Option Options) (n : Nat) : RTy → Bool → JVal → Prop
  | .plain t, _ => Tame x src o t
  | .self _ fs, zero => TameR x src o fs n zero zero
  | .array m e, _ => fun v =>
    match v with
    | .arr _ vs _ => (e.isSelf = true → vs = []) ∧ ∀ w ∈ vs.take m, TameX x src o n e false w
    | _ => True
  | .slice e, _ => fun v =>
    match v with
    | .arr _ vs _ => (e.isSelf = true → vs = []) ∧ ∀ w ∈ vs, TameX x src o n e false w
    | _ => True
  | .map k e, _ => fun v =>
    match v with
    | .obj _ ms _ => (k = .other → ms = []) ∧ ∀ m ∈ ms, TameX x src o n e true m.2
    | _ => True
  | .struct _ fs, _ => fun v =>
    match v with
    | .obj _ ms _ => ∀ m ∈ ms, ∀ o', o = some o' → ∀ raw name, Model.slice src (m.1.1 + 1) (m.1.2 - 1) = some raw → keyName o' raw = some name →
        match findField x o' ((fs.map (·.1)).zipIdx) name with
        | some j => ∀ T, (TameXF x src o n fs)[j]? = some T → T m.2
        | none => o'.disallowUnknownFields = true ∨ hasObj m.2 = false
    | _ => True
/-- The fields of a struct. -/
def TameXF (x : Ext) (src : Bytes) (o : Option Options) (n : Nat) : List (Bytes × Nat × RTy) → List (JVal → Prop)
  | [] => []
  | (_, fo, t) :: fs => TameX x src o n t (fo == 0) :: TameXF x src o n fs
end

/-- The document can be decoded into a destination of the type. A slice of a recursive struct type may have elements here: the first as the struct at offset 0, the others as elements of a `[]T`. -/
def TameDocX (x : Ext) (src : Bytes) (o : Option Options) (n : Nat) : RTy → JVal → Prop
  | .slice (.self _ fs) => fun v =>
    match v with
    | .arr _ vs _ => ∀ (j : Nat) w, vs[j]? = some w → TameR x src o fs n (j == 0) (j == 0) w
    | _ => True
  | t => TameX x src o n t true

/-! ## The trees of types with recursive struct types inside -/

/-- A field type with or without the `string` option, as `withString`. -/
def withStringX (allow : Bool) (opt : Bool) : RTy → Option RTy
  | .plain t => (withString allow opt t).map .plain
  | t => if opt = true ∧ allow = false then none else some t

/-- The fields of a struct: JSON name, offset and tree of each field that is not ignored. -/
def fieldTreesX (tree : List TypeId → TypeId → Option (RTy × List TypeId)) (allow : Bool) : List TypeId → List FieldInfo → Option (List (Bytes × Nat × RTy) × List TypeId)
  | seen, [] => some ([], seen)
  | seen, f :: fs =>
    match parseTag f.name f.tag with
    | none => fieldTreesX tree allow seen fs
    | some (name, optionString) =>
      match tree seen f.type with
      | none => none
      | some (ty, seen) =>
        match withStringX allow optionString ty with
        | none => none
        | some ty => (fieldTreesX tree allow seen fs).map fun r => ((name, f.offset, ty) :: r.1, r.2)

/-- The tree of a type: `typeTree` if the type is without recursion; a recursive struct type (`recFields`) that did not occur before; or an array, slice, map or struct type of such types. -/
def rtyTree (env : TypeEnv) (allow : Bool) : Nat → List TypeId → TypeId → Option (RTy × List TypeId)
  | 0, _, _ => none
  | depth + 1, seen, t =>
    let i := env t
    let e := env i.elem
    let recur := isStruct1 e && seen.contains i.elem
    match typeTree env allow (depth + 1) seen t with
    | some r => some (.plain r.1, r.2)
    | none =>
      if i.implJSON = true ∨ i.implText = true then none
      else match i.kind with
        | .array => if i.len = 0 then none else (rtyTree env allow depth seen i.elem).map fun r => (.array i.len r.1, r.2)
        | .slice =>
          if e.kind = .struct ∧ e.size = 0 ∨ (sliceScalar e).isSome = true ∨ recur = true then none
          else (rtyTree env allow depth seen i.elem).map fun r => (.slice r.1, r.2)
        | .map =>
          if recur = true ∨ (env i.key).kind = .string ∧ e.kind = .string then none
          else match keyTree env i.key with
            | none => none
            | some (k, s) => (rtyTree env allow depth (s ++ t :: seen) i.elem).map fun r => (.map k r.1, r.2)
        | .struct =>
          if i.fields = [] then none
          else match recFields env allow depth t (t :: seen) i.fields with
            | some (fs, s) => if fs.any (fun f => RField.recursive f.2.2) = true ∧ 0 < i.size ∧ seen.contains t = false then some (.self i.size fs, s) else none
            | none => (fieldTreesX (rtyTree env allow depth) allow (t :: seen) i.fields).map fun r => (.struct i.size r.1, r.2)
        | _ => none

/-- The Go type `t` is described by the tree `ty`. -/
def InsideType (env : TypeEnv) (x : Ext) (opts : Option InitOptions) (depth : Nat) (t : TypeId) (ty : RTy) : Prop :=
  Layout env x ∧ ∃ allow seen, (allow = true → ∃ o, opts = some o ∧ o.disallowStringTagOptOnUnsupportedTypes = false) ∧ rtyTree env allow depth [] t = some (ty, seen)

/-- `d` was made by `NewDecoder` for a type with recursive struct types inside; since then it has been used for calls that failed because the destination was nil or the input no valid JSON, and for calls within
`TameDocX` that succeeded. -/
inductive InsideDecoder (x : Ext) (ty : RTy) : Decoder → Prop
  | new {env : TypeEnv} {opts : Option InitOptions} {depth : Nat} {t : TypeId} {d : Decoder} :
      InsideType env x opts depth t ty → newDecoder env x.W opts depth (some t) = .ok d → InsideDecoder x ty d
  | refused {d : Decoder} {src : Bytes} {doc : Except (Nat × Nat) JVal} {t : Option Block} {o : Option Options} {r : DecodeRes} :
      InsideDecoder x ty d → (t = none ∨ ∃ i c, doc = .error (i, c)) → decode x d src doc t o = some r → InsideDecoder x ty r.dec
  | call {d : Decoder} {src : Bytes} {v : JVal} {mem : Block} {o : Option Options} {r : DecodeRes} {n : Nat} {V : Val} :
      InsideDecoder x ty d → TameDocX x src o n ty v → Dest x (ty.ty n) mem V → decode x d src (.ok v) (some mem) o = some r → r.err = none →
      InsideDecoder x ty r.dec

end Verif.Spec

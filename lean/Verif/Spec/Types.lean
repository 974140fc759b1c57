import Verif.Spec.Value
/-!
# Specification: memory layout of Go types, and the tree of a type
-/
namespace Verif.Spec
open Verif.Model Verif.Big

/-- Sizes and offsets are those of the Go memory layout. -/
def Layout (env : TypeEnv) (x : Ext) : Prop :=
  ∀ t, match (env t).kind with
    | .bool => (env t).size = 1
    | .string => (env t).size = 2 * x.W
    | .int k => (env t).size = k.bits x.is64 / 8
    | .float .f32 => (env t).size = 4
    | .float .f64 => (env t).size = 8
    | .interface => (env t).size = 2 * x.W
    | .array => (env t).size = (env t).len * (env (env t).elem).size
    | .slice => (env t).size = 3 * x.W
    | .map | .pointer => (env t).size = x.W
    | .struct => ((env t).fields = [] → (env t).size = 0) ∧ FieldsIn env (env t).size (env t).fields
    | .other => True
where
  /-- Fields lie inside the struct and do not overlap. -/
  FieldsIn (env : TypeEnv) (size : Nat) : List FieldInfo → Prop
    | [] => True
    | f :: fs => f.offset + (env f.type).size ≤ size ∧
        (∀ g ∈ fs, f.offset + (env f.type).size ≤ g.offset ∨ g.offset + (env g.type).size ≤ f.offset) ∧ FieldsIn env size fs

/-- Whether the unmarshaler method of a type can be called on a pointer to a value of the type. -/
def callable (i : TypeInfo) : Bool := decide (i.kind ≠ .pointer ∧ i.kind ≠ .interface)

/-- Key types of maps with the types they mention; `none`: composite key types. -/
def keyTree (env : TypeEnv) (t : TypeId) : Option (KeyTy × List TypeId) :=
  let i := env t
  if i.implJSON then some (.other, [t])
  else if i.implText then some (.text t (callable i), [t])
  else match i.kind with
    | .string => some (if i.isNumber then .other else .str, [])
    | .int k => some (.int k, [])
    | .bool | .float _ => some (.other, [])
    | .interface => if i.numMethod = 0 then some (.other, []) else none
    | _ => none

/-- Struct types with at least one byte: the only types whose recursion the decoder looks for. -/
def isStruct1 (i : TypeInfo) : Bool := decide (i.kind = .struct ∧ 0 < i.size)

/-- Slices of these element types have a decoder of their own: scalars, but not `Number`. -/
def sliceScalar (e : TypeInfo) : Option SKind :=
  if e.kind = .string ∧ e.isNumber = true then none else e.kind.scalar?

/-- A field type with or without the `string` option; the option is not supported on other types than scalars, where it is an error unless `allow`. -/
def withString (allow : Bool) : Bool → Ty → Option Ty
  | false, ty => some ty
  | true, .scalar k => some (.quoted k)
  | true, ty => if allow then some ty else none

/-- The fields of a struct: JSON name, offset and tree of each field that is not ignored. A scalar field with the `string` option is `quoted`; on other types the option is ignored if `allow`. -/
def fieldTrees (tree : List TypeId → TypeId → Option (Ty × List TypeId)) (allow : Bool) : List TypeId → List FieldInfo → Option (List (Bytes × Nat × Ty) × List TypeId)
  | seen, [] => some ([], seen)
  | seen, f :: fs =>
    match parseTag f.name f.tag with
    | none => fieldTrees tree allow seen fs
    | some (name, optionString) =>
      match tree seen f.type with
      | none => none
      | some (ty, seen) =>
        match withString allow optionString ty with
        | none => none
        | some ty => (fieldTrees tree allow seen fs).map fun r => ((name, f.offset, ty) :: r.1, r.2)

/-- The tree of a type, `none` if the type has an unsupported kind or key type, is nested deeper than `depth`, or mentions, as element of a slice, map or pointer,
a struct type (or map or unmarshaler type) that occurs before it. `seen` are the types that occurred before. -/
def typeTree (env : TypeEnv) (allow : Bool) : Nat → List TypeId → TypeId → Option (Ty × List TypeId)
  | 0, _, _ => none
  | depth + 1, seen, t =>
    let i := env t
    let e := env i.elem
    let recur := isStruct1 e && seen.contains i.elem
    if i.implJSON then some (.jsonU t i.size (callable i), t :: seen)
    else if i.implText then some (.textU t i.size (callable i), t :: seen)
    else match i.kind with
      | .interface => if i.numMethod = 0 then some (.any, seen) else none
      | .array => if i.len = 0 then some (.array0, seen) else (typeTree env allow depth seen i.elem).map fun r => (.array i.len r.1, r.2)
      | .slice =>
        if e.kind = .struct ∧ e.size = 0 then some (.sliceES, seen)
        else match sliceScalar e with
          | some k => some (.sliceOf k, seen)
          | none => if recur then none else (typeTree env allow depth seen i.elem).map fun r => (.slice r.1, r.2)
      | .map =>
        if recur then none
        else if (env i.key).kind = .string ∧ e.kind = .string then some (.mapSS, t :: seen)
        else match keyTree env i.key with
          | none => none
          | some (k, s) => (typeTree env allow depth (s ++ t :: seen) i.elem).map fun r => (.map k r.1, r.2)
      | .struct =>
        if i.fields = [] then some (.emptyStruct, seen)
        else (fieldTrees (typeTree env allow depth) allow (t :: seen) i.fields).map fun r => (.struct i.size r.1, r.2)
      | .pointer => if recur then none else (typeTree env allow depth seen i.elem).map fun r => (.ptr r.1, r.2)
      | .string => some (if i.isNumber then .number else .scalar .str, seen)
      | .bool => some (.scalar .bool, seen)
      | .int k => some (.scalar (.int k), seen)
      | .float k => some (.scalar (.flt k), seen)
      | .other => none

end Verif.Spec

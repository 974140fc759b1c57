import Verif.Spec.Types
/-!
# Specification: struct tags, the graph of types that a decoder for a type needs, and which types are supported
-/
namespace Verif.Spec
open Verif.Model Verif.Big

/-- The tag text is `name`, or `name`, a comma and more text; `name` has no comma. -/
def TagSplit (tag name : Bytes) (rest : Option Bytes) : Prop :=
  44 ∉ name ∧ match rest with
    | none => tag = name
    | some r => tag = name ++ 44 :: r

/-- What the `json` tag of a field says: `none` if the field is ignored, otherwise its JSON name and whether it has the option `string`. -/
inductive TagMeans (goName tag : Bytes) : Option (Bytes × Bool) → Prop
  | ignored {rest : Option Bytes} : TagSplit tag b!"-" rest → TagMeans goName tag none
  | unnamed {rest : Option Bytes} : TagSplit tag [] rest → TagMeans goName tag (some (goName, decide (rest = some b!"string")))
  | named {name : Bytes} {rest : Option Bytes} : TagSplit tag name rest → name ≠ [] → name ≠ b!"-" → TagMeans goName tag (some (name, decide (rest = some b!"string")))

/-- The type of a field, taking the `string` option into account: it only matters on bool, string and number types. -/
def fieldTy : Bool → Ty → Ty
  | true, .scalar k => .quoted k
  | _, ty => ty

/-- The fields of a decoder for a struct with the given Go fields: one for each that is not ignored, in order, with the name in its tag, its offset and a tree `ty` of its type (`Tree`). -/
inductive FieldsOf (Tree : TypeId → Ty → Prop) : List FieldInfo → List (Bytes × Nat × Ty) → Prop
  | nil : FieldsOf Tree [] []
  | ignored {f : FieldInfo} {fs : List FieldInfo} {l : List (Bytes × Nat × Ty)} : TagMeans f.name f.tag none → FieldsOf Tree fs l → FieldsOf Tree (f :: fs) l
  | field {f : FieldInfo} {fs : List FieldInfo} {l : List (Bytes × Nat × Ty)} {name : Bytes} {string : Bool} {ty : Ty} : TagMeans f.name f.tag (some (name, string)) → Tree f.type ty →
      FieldsOf Tree fs l → FieldsOf Tree (f :: fs) ((name, f.offset, fieldTy string ty) :: l)

/-- The field table of a frame for a struct with the given Go fields: one entry for each that is not ignored, in order, with the name in its tag and the index of a frame with its offset. -/
inductive FrameFields (frames : List Frame) : List FieldInfo → List (Bytes × Nat) → Prop
  | nil : FrameFields frames [] []
  | ignored {f : FieldInfo} {fs : List FieldInfo} {l : List (Bytes × Nat)} : TagMeans f.name f.tag none → FrameFields frames fs l → FrameFields frames (f :: fs) l
  | field {f : FieldInfo} {fs : List FieldInfo} {l : List (Bytes × Nat)} {name : Bytes} {string : Bool} {j : Nat} {g : Frame} : TagMeans f.name f.tag (some (name, string)) →
      frames[j]? = some g → g.offset = f.offset → FrameFields frames fs l → FrameFields frames (f :: fs) ((name, j) :: l)

/-- The type has unmarshaler methods. -/
def TypeInfo.unmarshaler (i : TypeInfo) : Bool := i.implJSON || i.implText

/-- bool, string and number types, without unmarshaler methods and other than `Number`. -/
def plainScalar (i : TypeInfo) : Bool := !TypeInfo.unmarshaler i && !(decide (i.kind = .string) && i.isNumber) &&
  match i.kind with
  | .bool | .string | .int _ | .float _ => true
  | _ => false

/-- Element types for which slices have a decoder of their own: scalar kinds (methods do not count) other than `Number`, and structs of size 0. -/
def sliceLeaf (e : TypeInfo) : Bool :=
  match e.kind with
  | .bool | .int _ | .float _ => true
  | .string => !e.isNumber
  | .struct => e.size == 0
  | _ => false

/-- `Child env t c`: a decoder for the type `t` needs one for the type `c`. -/
inductive Child (env : TypeEnv) (t : TypeId) : TypeId → Prop
  | array : TypeInfo.unmarshaler (env t) = false → (env t).kind = .array → (env t).len ≠ 0 → Child env t (env t).elem
  | slice : TypeInfo.unmarshaler (env t) = false → (env t).kind = .slice → sliceLeaf (env (env t).elem) = false → Child env t (env t).elem
  | key : TypeInfo.unmarshaler (env t) = false → (env t).kind = .map → ¬ ((env (env t).key).kind = .string ∧ (env (env t).elem).kind = .string) → Child env t (env t).key
  | value : TypeInfo.unmarshaler (env t) = false → (env t).kind = .map → ¬ ((env (env t).key).kind = .string ∧ (env (env t).elem).kind = .string) → Child env t (env t).elem
  | pointer : TypeInfo.unmarshaler (env t) = false → (env t).kind = .pointer → Child env t (env t).elem
  | field {f : FieldInfo} {r : Bytes × Bool} : TypeInfo.unmarshaler (env t) = false → (env t).kind = .struct → f ∈ (env t).fields → TagMeans f.name f.tag (some r) → Child env t f.type

/-- The types a decoder for `t` needs, directly or not. -/
inductive Reach (env : TypeEnv) (t : TypeId) : TypeId → Prop
  | self : Reach env t t
  | step {c c' : TypeId} : Reach env t c → Child env c c' → Reach env t c'

/-- chan, func, complex, uintptr or unsafe pointer without unmarshaler methods. -/
def BadKind (env : TypeEnv) (t : TypeId) : Prop := TypeInfo.unmarshaler (env t) = false ∧ (env t).kind = .other

/-- An interface type with methods (but not those of an unmarshaler). -/
def BadInterface (env : TypeEnv) (t : TypeId) : Prop := TypeInfo.unmarshaler (env t) = false ∧ (env t).kind = .interface ∧ (env t).numMethod ≠ 0

/-- A struct with a field that has the `string` option although its type does not support it. -/
def BadTag (env : TypeEnv) (t : TypeId) : Prop :=
  TypeInfo.unmarshaler (env t) = false ∧ (env t).kind = .struct ∧ ∃ f ∈ (env t).fields, ∃ name, TagMeans f.name f.tag (some (name, true)) ∧ plainScalar (env f.type) = false

/-- The field `f'` is `f`, without the `string` option if the type of `f` does not support it. -/
def Unstrung (env : TypeEnv) (f f' : FieldInfo) : Prop :=
  f' = f ∨ f'.name = f.name ∧ f'.type = f.type ∧ f'.offset = f.offset ∧ plainScalar (env f.type) = false ∧ ∃ name, TagMeans f.name f.tag (some (name, true)) ∧ TagMeans f.name f'.tag (some (name, false))

/-- The fields of one list are those of the other one by one, up to `string` options on unsupported types. -/
inductive UnstrungL (env : TypeEnv) : List FieldInfo → List FieldInfo → Prop
  | nil : UnstrungL env [] []
  | cons {f f' : FieldInfo} {fs fs' : List FieldInfo} : Unstrung env f f' → UnstrungL env fs fs' → UnstrungL env (f :: fs) (f' :: fs')

/-- The types of `env'` are those of `env`, up to `string` options on unsupported types. -/
def SameTypes (env env' : TypeEnv) : Prop := ∀ t, ∃ fs, UnstrungL env (env t).fields fs ∧ env' t = { env t with fields := fs }

/-- The decoder handles recursion through this step: from a pointer, slice or map to a non-empty struct type, which is not also the key type. -/
def Tied (env : TypeEnv) (t c : TypeId) : Prop :=
  ((env t).kind = .pointer ∨ (env t).kind = .slice ∨ (env t).kind = .map ∧ c ≠ (env t).key) ∧ c = (env t).elem ∧ (env c).kind = .struct ∧ 0 < (env c).size

/-- Byte `j` belongs to an ignored field of a value of type `t` at offset `off`. -/
inductive Ignored (env : TypeEnv) : TypeId → Nat → Nat → Prop
  | here {t : TypeId} {f : FieldInfo} {off j : Nat} : TypeInfo.unmarshaler (env t) = false → (env t).kind = .struct → f ∈ (env t).fields → TagMeans f.name f.tag none →
      off + f.offset ≤ j → j < off + f.offset + (env f.type).size → Ignored env t off j
  | field {t : TypeId} {f : FieldInfo} {r : Bytes × Bool} {off j : Nat} : TypeInfo.unmarshaler (env t) = false → (env t).kind = .struct → f ∈ (env t).fields → TagMeans f.name f.tag (some r) →
      Ignored env f.type (off + f.offset) j → Ignored env t off j
  | elem {t : TypeId} {i off j : Nat} : TypeInfo.unmarshaler (env t) = false → (env t).kind = .array → i < (env t).len →
      Ignored env (env t).elem (off + i * (env (env t).elem).size) j → Ignored env t off j

end Verif.Spec

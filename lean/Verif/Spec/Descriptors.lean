import Verif.Spec.TypeGraph
/-!
# Specification: a frame table that describes the Go types

Every place in memory that `Decode` writes to is reached through a frame. The table describes the types if the frame for a place of type `t` holds the descriptor and the size of `t`, and the frames it leads to
(elements, pointees, keys, map values, fields) are those of the types `reflect` gives for `t`. The descriptors are what the memory of arrays, pointees and maps is allocated with: `newarray(frame.Typ, n)`,
`mallocgc(frame.Size, frame.Typ, true)`, `makemap(frame.Typ, n)`; the garbage collector looks for pointers where they say.
-/
namespace Verif.Spec
open Verif.Model

/-- Frame `j` holds the descriptor of the type `t`. -/
def HasTyp (frames : List Frame) (j : Nat) (t : TypeId) : Prop := ∃ g, frames[j]? = some g ∧ g.typ = some t

/-- The field table of a frame for a struct with the given Go fields: one entry for each that is not ignored, in order, with the name in its tag and the index of a frame for its type. -/
inductive FieldTypes (frames : List Frame) : List FieldInfo → List (Bytes × Nat) → Prop
  | nil : FieldTypes frames [] []
  | ignored {f : FieldInfo} {fs : List FieldInfo} {l : List (Bytes × Nat)} : TagMeans f.name f.tag none → FieldTypes frames fs l → FieldTypes frames (f :: fs) l
  | field {f : FieldInfo} {fs : List FieldInfo} {l : List (Bytes × Nat)} {name : Bytes} {string : Bool} {j : Nat} : TagMeans f.name f.tag (some (name, string)) →
      HasTyp frames j f.type → FieldTypes frames fs l → FieldTypes frames (f :: fs) ((name, j) :: l)

/-- Frame `j` is that of a recursive struct type `t`. -/
def RecursTo (frames : List Frame) (j : Nat) (t : TypeId) : Prop := ∃ g, frames[j]? = some g ∧ g.typ = some t ∧ g.type = .structRecur

/-- Frames without frames for parts of the value behind them. -/
def leafFrame : EType → Bool
  | .slice | .array | .ptr | .map | .mapRecur | .struct | .structRecur => false
  | _ => true

/-- The kind of a scalar. -/
def scalarOf : Kind → Option SKind
  | .bool => some .bool
  | .string => some .str
  | .int k => some (.int k)
  | .float k => some (.flt k)
  | _ => none

/-- Frame `i`, which is `f`, is right for the type `t`. -/
def FrameFits (env : TypeEnv) (frames : List Frame) (i : Nat) (f : Frame) (t : TypeId) : Prop :=
  match f.type with
  | .jsonUnmarshaler => (env t).implJSON = true
  | .textUnmarshaler => (env t).implText = true
  | .any => (env t).kind = .interface
  | .number => (env t).kind = .string ∧ (env t).isNumber = true
  | .scalar k | .quoted k => scalarOf (env t).kind = some k
  | .sliceOf k => (env t).kind = .slice ∧ scalarOf (env (env t).elem).kind = some k
  | .sliceEmptyStruct => (env t).kind = .slice ∧ (env (env t).elem).kind = .struct ∧ (env (env t).elem).size = 0
  | .mapStringString => (env t).kind = .map ∧ (env (env t).key).kind = .string ∧ (env (env t).elem).kind = .string
  | .arrayLen0 => (env t).kind = .array ∧ (env t).len = 0
  | .emptyStruct => (env t).kind = .struct ∧ (env t).fields = []
  | .array => (env t).kind = .array ∧ ∃ g, frames[i + 1]? = some g ∧ g.typ = some (env t).elem ∧ g.cap = (env t).len
  | .slice => (env t).kind = .slice ∧ HasTyp frames (i + 1) (env t).elem
  | .ptr => (env t).kind = .pointer ∧ HasTyp frames (i + 1) (env t).elem
  | .sliceRecur => (env t).kind = .slice ∧ RecursTo frames f.recurFrame (env t).elem
  | .ptrRecur => (env t).kind = .pointer ∧ RecursTo frames f.recurFrame (env t).elem
  | .map => (env t).kind = .map ∧ f.mapValueTyp = some (env t).elem ∧ f.mapValueSize = (env (env t).elem).size ∧
      ∃ g, frames[i + 1]? = some g ∧ g.typ = some (env t).key ∧ (leafFrame g.type = true → HasTyp frames (i + 2) (env t).elem)
  | .mapRecur => (env t).kind = .map ∧ f.mapValueTyp = some (env t).elem ∧ f.mapValueSize = (env (env t).elem).size ∧ HasTyp frames (i + 1) (env t).key ∧ RecursTo frames f.recurFrame (env t).elem
  | .struct | .structRecur => (env t).kind = .struct ∧ (TypeInfo.unmarshaler (env t) = false → FieldTypes frames (env t).fields f.fields)

end Verif.Spec

import Verif.Spec.Encode
import Verif.Spec.Recursive
/-!
# Specification: values of recursive struct types whose JSON text is read back
-/
namespace Verif.Spec
open Verif.Model Verif.Big

mutual
/-- No map in the value is empty (a nil map is none). -/
def fullMaps : Val → Bool
  | .ptr V => fullMaps V
  | .arr Vs => fullMapsL Vs
  | .slice Vs _ => fullMapsL Vs
  | .map es => !es.isEmpty && fullMapsE es
  | .struct Vs => fullMapsL Vs
  | _ => true
/-- Elements and fields. -/
def fullMapsL : List Val → Bool
  | [] => true
  | V :: Vs => fullMaps V && fullMapsL Vs
/-- Entries of a map. -/
def fullMapsE : List (Key × Val) → Bool
  | [] => true
  | (_, V) :: es => fullMaps V && fullMapsE es
end

/-- Every recursive field is the last field, and no map. -/
def RecursiveLast (fs : RFields) : Prop := ∀ (j : Nat) f, fs[j]? = some f → RField.recursive f.2.2 = true → j + 1 = fs.length ∧ ∀ k, f.2.2 ≠ .map k

/-- The recursive struct types whose values are read back: the types of the fields that are not recursive have no pointers and no `struct{}` inside, and either there is no field `[]T` (lists, trees of pointers, trees of
maps), or the only recursive field is the last one and no map. -/
def RoundR (fs : RFields) : Prop := (∀ f ∈ fs, ∀ t, f.2.2 = .plain t → t.plain = true) ∧ ((∀ f ∈ fs, f.2.2 ≠ .slice) ∨ RecursiveLast fs)

/-- If the type has a field `map[K]T`, no map in the value is empty. -/
def MapsFull (fs : RFields) (V : Val) : Prop := (∀ f ∈ fs, ∀ k, f.2.2 ≠ .map k) ∨ fullMaps V = true

/-- As `NamesOK`: the names of the fields are distinct, here and inside; if field names are not unescaped, they have nothing to escape. -/
def NamesOKR (o : Options) (fs : RFields) : Prop :=
  (fs.map (·.1)).Nodup ∧ ∀ f ∈ fs, (o.disableFieldNameUnescaping = true → escape f.1 = f.1) ∧ ∀ t, f.2.2 = .plain t → NamesOK o t

/-- The value of the recursive struct type is nested at most `n` deep and can be written: it is a value of every deeper unrolling. -/
def CanEncodeR (x : Ext) (fmt : FKind → Flt → Bytes) (size : Nat) (fs : RFields) (n : Nat) (V : Val) : Prop := ∀ m, n ≤ m → CanEncode x fmt (unroll size fs m) V

end Verif.Spec

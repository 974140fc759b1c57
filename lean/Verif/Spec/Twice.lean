import Verif.Spec.Means
/-!
# Specification: what makes decoding a document twice the same as decoding it once
-/
namespace Verif.Spec
open Verif.Model Verif.Big

mutual
/-- The keys of every object that is decoded into a map denote keys of that map. (Integer keys with trailing bytes are accepted by the decoder too, C07; they denote no key.) -/
def Keyed (x : Ext) (src : Bytes) (o : Options) : Ty → JVal → Prop
  | .array n e, v => ∀ i vs k, v = .arr i vs k → ∀ w ∈ vs.take n, Keyed x src o e w
  | .slice e, v => ∀ i vs k, v = .arr i vs k → ∀ w ∈ vs, Keyed x src o e w
  | .map k e, v => ∀ i ms z, v = .obj i ms z → ∀ m ∈ ms, (∃ K, KeyOf x k (inner src m.1.1 m.1.2) K) ∧ Keyed x src o e m.2
  | .struct _ fs, v => ∀ i ms z, v = .obj i ms z → ∀ m ∈ ms, ∀ (j : Nat) P, KeySelects x src o (fs.map (·.1)) m.1 j → (KeyedF x src o fs)[j]? = some P → P m.2
  | .ptr e, v => Keyed x src o e v
  | _, _ => True
/-- The fields of a struct. -/
def KeyedF (x : Ext) (src : Bytes) (o : Options) : List (Bytes × Nat × Ty) → List (JVal → Prop)
  | [] => []
  | (_, _, t) :: fs => Keyed x src o t :: KeyedF x src o fs
end

/-- The unmarshaler methods of the program: called again with the same text on the contents they left, they succeed and leave the same contents. `n` is the size of the value in memory. -/
def MethodsTwice (x : Ext) : Prop :=
  (∀ rt n old raw new, x.unmarshalJSON rt old raw = (new, none) → ∃ new', x.unmarshalJSON rt (fit n new) raw = (new', none) ∧ fit n new' = fit n new) ∧
  ∀ rt n old raw new, x.unmarshalText rt old raw = (new, none) → ∃ new', x.unmarshalText rt (fit n new) raw = (new', none) ∧ fit n new' = fit n new

end Verif.Spec

import Verif.Spec.Keys
/-!
# Specification: a document without some of its unknown members
-/
namespace Verif.Spec
open Verif.Model Verif.Big

/-- Item by item. -/
def Pairs {α : Type} (P : α → α → Prop) : List α → List α → Prop
  | [], bs => bs = []
  | a :: as, bs => ∃ b bs', bs = b :: bs' ∧ P a b ∧ Pairs P as bs'

/-- The members of an object decoded into a struct with the given JSON names, without some of those whose keys match no field; `P` are the relations for the values of the fields. -/
def DropMembers (x : Ext) (src : Bytes) (o : Options) (names : List Bytes) (P : List (JVal → JVal → Prop)) : List ((Nat × Nat) × JVal) → List ((Nat × Nat) × JVal) → Prop
  | [], ms' => ms' = []
  | m :: ms, ms' =>
    (KeyUnknown x src o names m.1 ∧ DropMembers x src o names P ms ms') ∨
    ∃ w ms'', ms' = (m.1, w) :: ms'' ∧ (m.2 = w ∨ ∃ j Q, KeySelects x src o names m.1 j ∧ P[j]? = some Q ∧ Q m.2 w) ∧ DropMembers x src o names P ms ms''

mutual
/-- `w` is `v` without some members (key and value) of objects decoded into structs whose keys match no field of the struct, where `v` is decoded into the type. The other tokens keep their positions
in the text. -/
def Without (x : Ext) (src : Bytes) (o : Options) : Ty → JVal → JVal → Prop
  | .array _ e => fun v w => v = w ∨ ∃ i vs ws k, v = .arr i vs k ∧ w = .arr i ws k ∧ Pairs (Without x src o e) vs ws
  | .slice e => fun v w => v = w ∨ ∃ i vs ws k, v = .arr i vs k ∧ w = .arr i ws k ∧ Pairs (Without x src o e) vs ws
  | .map _ e => fun v w => v = w ∨ ∃ i ms ms' k, v = .obj i ms k ∧ w = .obj i ms' k ∧ Pairs (fun m m' => m.1 = m'.1 ∧ Without x src o e m.2 m'.2) ms ms'
  | .struct _ fs => fun v w => v = w ∨ ∃ i ms ms' k, v = .obj i ms k ∧ w = .obj i ms' k ∧ DropMembers x src o (fs.map (·.1)) (WithoutF x src o fs) ms ms'
  | .ptr e => fun v w => Without x src o e v w
  | _ => fun v w => v = w
/-- The same for each field of a struct. -/
def WithoutF (x : Ext) (src : Bytes) (o : Options) : List (Bytes × Nat × Ty) → List (JVal → JVal → Prop)
  | [] => []
  | (_, _, t) :: fs => Without x src o t :: WithoutF x src o fs
end

end Verif.Spec

import Verif.Spec.Keys
/-!
# Specification: the keys of a document that match no field, in the order in which the decoder meets them
-/
namespace Verif.Spec
open Verif.Model Verif.Big

/-- `L` is the concatenation of lists related to the items. -/
def Concat {α : Type} (P : α → List Nat → Prop) : List α → List Nat → Prop
  | [], L => L = []
  | a :: as, L => ∃ L1 L2, L = L1 ++ L2 ∧ P a L1 ∧ Concat P as L2

/-- One member of an object decoded into a struct with the given JSON names: a key that matches no field counts and its value does not; for a key that matches a field the value does. -/
def UnknownMember (x : Ext) (src : Bytes) (o : Options) (names : List Bytes) (P : List (JVal → List Nat → Prop)) (m : (Nat × Nat) × JVal) (L : List Nat) : Prop :=
  (KeyUnknown x src o names m.1 ∧ L = [m.1.1]) ∨ ∃ j Q, KeySelects x src o names m.1 j ∧ P[j]? = some Q ∧ Q m.2 L

mutual
/-- `L` are the byte indices of the keys that match no field when the value is decoded into the type, in order of decoding. Surplus array elements are not decoded. -/
def UnknownKeys (x : Ext) (src : Bytes) (o : Options) : Ty → JVal → List Nat → Prop
  | .array n e => fun v L =>
    match v with
    | .arr _ vs _ => Concat (UnknownKeys x src o e) (vs.take n) L
    | _ => L = []
  | .slice e => fun v L =>
    match v with
    | .arr _ vs _ => Concat (UnknownKeys x src o e) vs L
    | _ => L = []
  | .map _ e => fun v L =>
    match v with
    | .obj _ ms _ => Concat (fun m => UnknownKeys x src o e m.2) ms L
    | _ => L = []
  | .struct _ fs => fun v L =>
    match v with
    | .obj _ ms _ => Concat (UnknownMember x src o (fs.map (·.1)) (UnknownKeysF x src o fs)) ms L
    | _ => L = []
  | .ptr e => fun v L => UnknownKeys x src o e v L
  | _ => fun _ L => L = []
/-- The same for each field of a struct. -/
def UnknownKeysF (x : Ext) (src : Bytes) (o : Options) : List (Bytes × Nat × Ty) → List (JVal → List Nat → Prop)
  | [] => []
  | (_, _, t) :: fs => UnknownKeys x src o t :: UnknownKeysF x src o fs
end

mutual
/-- Byte indices of the keys of all objects in the value. -/
def keyStarts : JVal → List Nat
  | .arr _ es _ => keyStartsL es
  | .obj _ ms _ => keyStartsM ms
  | _ => []
def keyStartsL : List JVal → List Nat
  | [] => []
  | v :: vs => keyStarts v ++ keyStartsL vs
def keyStartsM : List ((Nat × Nat) × JVal) → List Nat
  | [] => []
  | m :: ms => m.1.1 :: (keyStarts m.2 ++ keyStartsM ms)
end

/-- The options without and with DisallowUnknownFields. -/
def lenient (o : Options) : Options := { o with disallowUnknownFields := false }
def strict (o : Options) : Options := { o with disallowUnknownFields := true }

end Verif.Spec

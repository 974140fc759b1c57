import Verif.Spec.Fragment
import Verif.Spec.Keys
import Verif.Spec.Value
/-!
# Specification: a type that gets new fields

An `ETy` is a type before and after some of the struct types in it got new fields. `Sees e V W`: the value `V` of the old type is the value `W` of the new type without the new fields. `Unaware`: the document does not mention new fields.
-/
namespace Verif.Spec
open Verif.Model Verif.Big

/-- A type and a later version of it. `same`: nothing has changed. A field of a struct is given by its JSON name, its offset before and after, whether it is new, and its type. -/
inductive ETy
  | same (t : Ty)
  | array (n : Nat) (e : ETy)
  | slice (e : ETy)
  | map (k : KeyTy) (e : ETy)
  | ptr (e : ETy)
  | struct (size size' : Nat) (fs : List (Bytes × Nat × Nat × Bool × ETy))

mutual
/-- The type before. -/
def ETy.old : ETy → Ty
  | .same t => t
  | .array n e => .array n e.old
  | .slice e => .slice e.old
  | .map k e => .map k e.old
  | .ptr e => .ptr e.old
  | .struct n _ fs => .struct n (oldF fs)
def oldF : List (Bytes × Nat × Nat × Bool × ETy) → List (Bytes × Nat × Ty)
  | [] => []
  | (n, o, _, isNew, e) :: fs => if isNew then oldF fs else (n, o, e.old) :: oldF fs
end

mutual
/-- The type after. -/
def ETy.new : ETy → Ty
  | .same t => t
  | .array n e => .array n e.new
  | .slice e => .slice e.new
  | .map k e => .map k e.new
  | .ptr e => .ptr e.new
  | .struct _ n fs => .struct n (newF fs)
def newF : List (Bytes × Nat × Nat × Bool × ETy) → List (Bytes × Nat × Ty)
  | [] => []
  | (n, _, o, _, e) :: fs => (n, o, e.new) :: newF fs
end

/-- Two lists of the same length, related element by element. -/
def AllPairs {α β : Type} (P : α → β → Prop) : List α → List β → Prop
  | [], [] => True
  | a :: l, b :: r => P a b ∧ AllPairs P l r
  | _, _ => False

mutual
/-- The value of the old type is the value of the new type without the new fields. -/
def Sees : ETy → Val → Val → Prop
  | .same _ => fun V W => V = W
  | .array n e => fun V W => ∃ Vs Ws, V = .arr Vs ∧ W = .arr Ws ∧ Vs.length = n ∧ AllPairs (Sees e) Vs Ws
  | .slice e => fun V W => (V = .nil ∧ W = .nil) ∨ ∃ Vs sp Ws sq, V = .slice Vs sp ∧ W = .slice Ws sq ∧ AllPairs (Sees e) Vs Ws ∧ AllPairs (Sees e) sp sq
  | .map _ e => fun V W => (V = .nil ∧ W = .nil) ∨ ∃ Vs Ws, V = .map Vs ∧ W = .map Ws ∧ AllPairs (fun a b => a.1 = b.1 ∧ Sees e a.2 b.2) Vs Ws
  | .ptr e => fun V W => (V = .nil ∧ W = .nil) ∨ ∃ V' W', V = .ptr V' ∧ W = .ptr W' ∧ Sees e V' W'
  | .struct _ _ fs => fun V W => ∃ Vs Ws, V = .struct Vs ∧ W = .struct Ws ∧ SeesF fs Vs Ws
/-- Field by field; new fields are only in the second list. -/
def SeesF : List (Bytes × Nat × Nat × Bool × ETy) → List Val → List Val → Prop
  | [] => fun Vs Ws => Vs = [] ∧ Ws = []
  | (_, _, _, isNew, e) :: fs => fun Vs Ws =>
    if isNew then ∃ W Ws', Ws = W :: Ws' ∧ SeesF fs Vs Ws'
    else ∃ V Vs' W Ws', Vs = V :: Vs' ∧ Ws = W :: Ws' ∧ Sees e V W ∧ SeesF fs Vs' Ws'
end

mutual
/-- No key of an object for a struct selects a new field. -/
def Unaware (x : Ext) (src : Bytes) (o : Options) : ETy → JVal → Prop
  | .same _ => fun _ => True
  | .array n e => fun v => match v with | .arr _ vs _ => ∀ w ∈ vs.take n, Unaware x src o e w | _ => True
  | .slice e => fun v => match v with | .arr _ vs _ => ∀ w ∈ vs, Unaware x src o e w | _ => True
  | .map _ e => fun v => match v with | .obj _ ms _ => ∀ m ∈ ms, Unaware x src o e m.2 | _ => True
  | .ptr e => fun v => Unaware x src o e v
  | .struct _ _ fs => fun v => match v with
    | .obj _ ms _ => ∀ m ∈ ms, ∀ j P, KeySelects x src o (fs.map (·.1)) m.1 j → (UnawareF x src o fs)[j]? = some P → P m.2
    | _ => True
/-- What is allowed for each field. -/
def UnawareF (x : Ext) (src : Bytes) (o : Options) : List (Bytes × Nat × Nat × Bool × ETy) → List (JVal → Prop)
  | [] => []
  | (_, _, _, isNew, e) :: fs => (fun v => isNew = false ∧ Unaware x src o e v) :: UnawareF x src o fs
end

mutual
/-- A struct with new fields is not smaller than before. -/
def ETy.Grows : ETy → Prop
  | .same _ => True
  | .array _ e | .slice e | .map _ e | .ptr e => e.Grows
  | .struct n n' fs => n ≤ n' ∧ GrowsF fs
def GrowsF : List (Bytes × Nat × Nat × Bool × ETy) → Prop
  | [] => True
  | (_, _, _, _, e) :: fs => e.Grows ∧ GrowsF fs
end

end Verif.Spec

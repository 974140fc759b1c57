import Verif.Spec.Evolve
/-!
# Specification: a type whose fields are declared in another order

An `FTy` is a type before and after the fields of struct types in it, at any depth, were put into another order. `Moved f V W`: the value `W` of the type after is the value `V` of the type before, field by field.
-/
namespace Verif.Spec
open Verif.Model Verif.Big

/-- A type and another version of it. A field of a struct is given by its JSON name, its offset before and after, and its type, in the order before; `order` lists, in the order after, the numbers the fields had before. -/
inductive FTy
  | same (t : Ty)
  | array (n : Nat) (e : FTy)
  | slice (e : FTy)
  | map (k : KeyTy) (e : FTy)
  | ptr (e : FTy)
  | struct (size size' : Nat) (fs : List (Bytes × Nat × Nat × FTy)) (order : List Nat)

/-- The members of a list with the given numbers. -/
def pick {α : Type} (order : List Nat) (l : List α) : List α := order.filterMap fun j => l[j]?

mutual
/-- The type before. -/
def FTy.old : FTy → Ty
  | .same t => t
  | .array n e => .array n e.old
  | .slice e => .slice e.old
  | .map k e => .map k e.old
  | .ptr e => .ptr e.old
  | .struct n _ fs _ => .struct n (oldG fs)
def oldG : List (Bytes × Nat × Nat × FTy) → List (Bytes × Nat × Ty)
  | [] => []
  | (n, o, _, e) :: fs => (n, o, e.old) :: oldG fs
end

mutual
/-- The type after. -/
def FTy.new : FTy → Ty
  | .same t => t
  | .array n e => .array n e.new
  | .slice e => .slice e.new
  | .map k e => .map k e.new
  | .ptr e => .ptr e.new
  | .struct _ n fs order => .struct n (pick order (newG fs))
def newG : List (Bytes × Nat × Nat × FTy) → List (Bytes × Nat × Ty)
  | [] => []
  | (n, _, o, e) :: fs => (n, o, e.new) :: newG fs
end

/-- No two of the names are equal, and no key matches two of them up to case. -/
def Apart (x : Ext) (names : List Bytes) : Prop :=
  ∀ (i j : Nat) (a b : Bytes), names[i]? = some a → names[j]? = some b → i ≠ j →
    a ≠ b ∧ ∀ key : Bytes, ¬ ((a.length = key.length ∧ x.equalFold a key = true) ∧ (b.length = key.length ∧ x.equalFold b key = true))

mutual
/-- `order` lists every field once; the names of a struct are apart; a struct that has a size before has one after and vice versa. -/
def FTy.Ok (x : Ext) : FTy → Prop
  | .same _ => True
  | .array _ e | .slice e | .map _ e | .ptr e => e.Ok x
  | .struct n n' fs order => order.Perm (List.range fs.length) ∧ Apart x (fs.map (·.1)) ∧ (n = 0 ↔ n' = 0) ∧ OkG x fs
def OkG (x : Ext) : List (Bytes × Nat × Nat × FTy) → Prop
  | [] => True
  | (_, _, _, e) :: fs => e.Ok x ∧ OkG x fs
end

mutual
/-- The values have the same fields. -/
def Moved : FTy → Val → Val → Prop
  | .same _ => fun V W => V = W
  | .array n e => fun V W => ∃ Vs Ws, V = .arr Vs ∧ W = .arr Ws ∧ Vs.length = n ∧ AllPairs (Moved e) Vs Ws
  | .slice e => fun V W => (V = .nil ∧ W = .nil) ∨ ∃ Vs sp Ws sq, V = .slice Vs sp ∧ W = .slice Ws sq ∧ AllPairs (Moved e) Vs Ws ∧ AllPairs (Moved e) sp sq
  | .map _ e => fun V W => (V = .nil ∧ W = .nil) ∨ ∃ Vs Ws, V = .map Vs ∧ W = .map Ws ∧ AllPairs (fun a b => a.1 = b.1 ∧ Moved e a.2 b.2) Vs Ws
  | .ptr e => fun V W => (V = .nil ∧ W = .nil) ∨ ∃ V' W', V = .ptr V' ∧ W = .ptr W' ∧ Moved e V' W'
  | .struct _ _ fs order => fun V W => ∃ Vs Ws, V = .struct Vs ∧ W = .struct Ws ∧ Vs.length = fs.length ∧ Ws.length = fs.length ∧
    ∀ (k j : Nat), order[k]? = some j → ∀ P, (MovedG fs)[j]? = some P → ∀ A B, Vs[j]? = some A → Ws[k]? = some B → P A B
/-- For each field. -/
def MovedG : List (Bytes × Nat × Nat × FTy) → List (Val → Val → Prop)
  | [] => []
  | (_, _, _, e) :: fs => Moved e :: MovedG fs
end

end Verif.Spec

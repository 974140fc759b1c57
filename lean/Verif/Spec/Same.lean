import Verif.Spec.Value
/-!
# Specification: equal Go values

Two values are the same for a Go program if they differ only in where the bytes of their strings live, and in the order of the entries of a `map[string]any`.
-/
namespace Verif.Spec
open Verif.Model

mutual
/-- The contents of two `any` are equal. -/
def SameAny : AnyVal → AnyVal → Prop
  | .null, B => B = .null
  | .bool b, B => B = .bool b
  | .num f, B => B = .num f
  | .str s, B => ∃ t, B = .str t ∧ t.bytes = s.bytes
  | .arr as, B => ∃ bs, B = .arr bs ∧ SameAnyL as bs
  | .obj m, B => ∃ m', B = .obj m' ∧ SameAnyE m m' ∧ ∀ e' ∈ m', ∃ e ∈ m, e.1.bytes = e'.1.bytes
  | .other i, B => B = .other i
/-- Element by element. -/
def SameAnyL : List AnyVal → List AnyVal → Prop
  | [], bs => bs = []
  | a :: as, bs => ∃ b bs', bs = b :: bs' ∧ SameAny a b ∧ SameAnyL as bs'
/-- Every entry is also in the other map. -/
def SameAnyE : List (Str × AnyVal) → List (Str × AnyVal) → Prop
  | [], _ => True
  | (k, a) :: m, m' => (∃ e' ∈ m', e'.1.bytes = k.bytes ∧ SameAny a e'.2) ∧ SameAnyE m m'
end

mutual
/-- Two values are equal. -/
def SameVal : Val → Val → Prop
  | .bool b, W => W = .bool b
  | .int i, W => W = .int i
  | .flt f, W => W = .flt f
  | .str s, W => ∃ t, W = .str t ∧ t.bytes = s.bytes
  | .any a, W => ∃ b, W = .any b ∧ SameAny a b
  | .user b, W => W = .user b
  | .nil, W => W = .nil
  | .ptr V, W => ∃ V', W = .ptr V' ∧ SameVal V V'
  | .arr es, W => ∃ es', W = .arr es' ∧ SameVals es es'
  | .slice es sp, W => ∃ es' sp', W = .slice es' sp' ∧ SameVals es es' ∧ SameVals sp sp'
  | .map es, W => ∃ es', W = .map es' ∧ SameEntries es es'
  | .struct fs, W => ∃ fs', W = .struct fs' ∧ SameVals fs fs'
/-- Element by element. -/
def SameVals : List Val → List Val → Prop
  | [], Ws => Ws = []
  | V :: Vs, Ws => ∃ W Ws', Ws = W :: Ws' ∧ SameVal V W ∧ SameVals Vs Ws'
/-- Entry by entry. -/
def SameEntries : List (Key × Val) → List (Key × Val) → Prop
  | [], Ws => Ws = []
  | (k, V) :: Vs, Ws => ∃ k' W Ws', Ws = (k', W) :: Ws' ∧ k.same k' = true ∧ SameVal V W ∧ SameEntries Vs Ws'
end

end Verif.Spec

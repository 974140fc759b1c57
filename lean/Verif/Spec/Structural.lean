import Verif.Spec.Session
/-!
# Specification: types that differ only in their identity
-/
namespace Verif.Spec
open Verif.Model Verif.Big

/-- The fields of two structs agree in names, tags and offsets, and their types are related by `R`. -/
def SameFields (R : TypeId → TypeId → Prop) : List FieldInfo → List FieldInfo → Prop
  | [], [] => True
  | f :: fs, g :: gs => f.name = g.name ∧ f.tag = g.tag ∧ f.offset = g.offset ∧ R f.type g.type ∧ SameFields R fs gs
  | _, _ => False

/-- The types look the same down to nesting depth `n`, whatever they are called. -/
def SameTo (env : TypeEnv) : Nat → TypeId → TypeId → Prop
  | 0, _, _ => True
  | n + 1, t, u => (env t).kind = (env u).kind ∧ (env t).size = (env u).size ∧ (env t).len = (env u).len ∧ (env t).numMethod = (env u).numMethod ∧ (env t).isNumber = (env u).isNumber ∧
      (env t).implJSON = (env u).implJSON ∧ (env t).implText = (env u).implText ∧ SameTo env n (env t).elem (env u).elem ∧ SameTo env n (env t).key (env u).key ∧
      SameFields (SameTo env n) (env t).fields (env u).fields

/-- The types have the same structure: a type and a copy of its declaration under another name, or with some of the recursion written out. -/
def SameStructure (env : TypeEnv) (t u : TypeId) : Prop := ∀ n, SameTo env n t u

end Verif.Spec

import Verif.Basic
/-!
# Specification: which declared field an object key selects

Fields are (JSON name, id) pairs in declaration order.
-/
namespace Verif.Spec

/-- `FirstField P fs i`: the first field whose name satisfies `P` has id `i`. -/
inductive FirstField (P : Bytes → Prop) : List (Bytes × Nat) → Nat → Prop
  | here {f fs} : P f.1 → FirstField P (f :: fs) f.2
  | there {f fs i} : ¬ P f.1 → FirstField P fs i → FirstField P (f :: fs) i

/-- No field has a name satisfying `P`. -/
def NoField (P : Bytes → Prop) (fs : List (Bytes × Nat)) : Prop := ∀ f ∈ fs, ¬ P f.1

/-- The field selected by a name when case folding (`fold`) is allowed as a second choice. -/
inductive Selects (fold : Bytes → Bytes → Bool) (fs : List (Bytes × Nat)) (name : Bytes) : Nat → Prop
  | exact {i} : FirstField (· = name) fs i → Selects fold fs name i
  | folded {i} : NoField (· = name) fs → FirstField (fun n => n.length = name.length ∧ fold n name = true) fs i → Selects fold fs name i

end Verif.Spec

import Verif.Props.Structs
import Verif.Spec.Structural
/-!
# Recursive struct types and struct types used more than once: C51
-/
namespace Verif.Props
open Verif.Model Verif.Spec Verif.Big Verif.Proof Verif.Proof.Demo

/-- The full statement of C51: what `Decode` does depends on the structure of the type only, not on which of its parts have the same identity. -/
def StructureOnly (x : Ext) : Prop :=
  ∀ (env : TypeEnv) (depth depth' : Nat) (t u : TypeId) (d d' : Decoder), Layout env x → SameStructure env t u → newDecoder env x.W (some defaultInitOptions) depth (some t) = .ok d →
    newDecoder env x.W (some defaultInitOptions) depth' (some u) = .ok d' → ∀ (src : Bytes) (v : JVal) (mem : Block) (o : Options), tokenize src = .ok v → Wf src v →
    observe (decode x d src (.ok v) (some mem) (some o)) = observe (decode x d' src (.ok v) (some mem) (some o))

theorem sameFields_refl {R : TypeId → TypeId → Prop} (h : ∀ t, R t t) : ∀ fs, SameFields R fs fs
  | [] => trivial
  | _ :: fs => ⟨rfl, rfl, rfl, h _, sameFields_refl h fs⟩

/-- A type has its own structure. -/
theorem sameTo_refl {env : TypeEnv} : ∀ n t, SameTo env n t t
  | 0, _ => trivial
  | n + 1, t => ⟨rfl, rfl, rfl, rfl, rfl, rfl, rfl, sameTo_refl n _, sameTo_refl n _, sameFields_refl (sameTo_refl n) _⟩

/-- Is slice element 0 at `off` of the destination, when `Decode` succeeds, an integer, and which? -/
def firstInt (off : Nat) (r : Option (Int × Option Err × Option Block)) : Option Int :=
  match r with
  | some (_, none, some m) => (sliceAt off m).bind (intAt 0)
  | _ => none

/-- The string at an offset of the destination after success. -/
def strOf (off : Nat) (r : Option (Int × Option Err × Option Block)) : Option Bytes :=
  match r with
  | some (_, none, some m) => strAt off m
  | _ => none

/-- **C51 is false of the code**: `{"A":[{"X":1}],"B":[{"X":2}]}` into `struct{A []Q; B []Q}` loses B, because the second use of Q is taken for recursion, while it decodes B if the two slices have element types with different
names. -/
theorem C51_refuted : ¬ StructureOnly demoX := by
  intro h
  have hdoc := demo_doc (src := b!"{\"A\":[{\"X\":1}],\"B\":[{\"X\":2}]}") (by decide)
  have hs : SameStructure demoEnv 71 74 := by
    intro n
    match n with
    | 0 => trivial
    | 1 => exact ⟨rfl, rfl, rfl, rfl, rfl, rfl, rfl, trivial, trivial, rfl, rfl, rfl, trivial, rfl, rfl, rfl, trivial, trivial⟩
    | 2 => exact ⟨rfl, rfl, rfl, rfl, rfl, rfl, rfl, sameTo_refl _ _, sameTo_refl _ _, rfl, rfl, rfl, sameTo_refl _ _, rfl, rfl, rfl, ⟨rfl, rfl, rfl, rfl, rfl, rfl, rfl, trivial, trivial, trivial⟩, trivial⟩
    | n + 3 =>
      exact ⟨rfl, rfl, rfl, rfl, rfl, rfl, rfl, sameTo_refl _ _, sameTo_refl _ _, rfl, rfl, rfl, sameTo_refl _ _, rfl, rfl, rfl,
        ⟨rfl, rfl, rfl, rfl, rfl, rfl, rfl, ⟨rfl, rfl, rfl, rfl, rfl, rfl, rfl, sameTo_refl _ _, sameTo_refl _ _, rfl, rfl, rfl, sameTo_refl _ _, rfl, rfl, rfl, sameTo_refl _ _, trivial⟩,
          sameTo_refl _ _, trivial⟩, trivial⟩
  have h1 := h demoEnv 20 20 71 74 (demoDec 71) (demoDec 74) demo_layout hs rfl rfl _ _ (zeros 48) defaultOptions hdoc.1 hdoc.2
  have h2 := congrArg (firstInt 24) h1
  revert h2
  decide +kernel

/-- The same with a recursive type T and a copy of its declaration under another name: `{"Kids":[{"Name":"a"}],"Name":"b"}` into a T has the name b, into the copy it has no name. -/
theorem C51_refuted_unrolled : ¬ StructureOnly demoX := by
  intro h
  have hdoc := demo_doc (src := b!"{\"Kids\":[{\"Name\":\"a\"}],\"Name\":\"b\"}") (by decide)
  have hs : SameStructure demoEnv 12 70 := by
    intro n
    match n with
    | 0 => trivial
    | n + 1 => exact ⟨rfl, rfl, rfl, rfl, rfl, rfl, rfl, sameTo_refl _ _, sameTo_refl _ _, rfl, rfl, rfl, sameTo_refl _ _, rfl, rfl, rfl, sameTo_refl _ _, trivial⟩
  have h1 := h demoEnv 20 20 12 70 (demoDec 12) (demoDec 70) demo_layout hs rfl rfl _ _ (zeros 40) defaultOptions hdoc.1 hdoc.2
  have h2 := congrArg (strOf 24) h1
  revert h2
  decide +kernel

/-- With DisallowUnknownFields the same document is rejected. -/
theorem C51_refuted_strict : (demoDec 71).frames ≠ [] ∧
    (decode demoX (demoDec 71) b!"{\"A\":[{\"X\":1}],\"B\":[{\"X\":2}]}" (tokenize b!"{\"A\":[{\"X\":1}],\"B\":[{\"X\":2}]}") (some (zeros 48)) (some ⟨true, false, false⟩)).map (fun r => (r.errIndex, r.err)) =
      some (15, some .unknownField) := by
  decide +kernel

end Verif.Props

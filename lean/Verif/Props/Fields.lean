import Verif.Proof.Fields
import Verif.Proof.Unescape
import Verif.Spec.Fields
import Verif.Spec.JsonString
/-!
# Object keys and struct fields (C14-C16)

`findField x o fields name` is the look-up the decoder does for the key name `name` in the struct with the given (name, frame index) list;
`keyName o raw` is the name it looks up for the raw key text.
-/
namespace Verif.Props
open Verif.Spec Verif.Model Verif.Proof.Fields

theorem firstField_iff (P : Bytes → Bool) (fs : List (Bytes × Nat)) (i : Nat) :
    (fs.find? fun f => P f.1).map Prod.snd = some i ↔ FirstField (fun n => P n = true) fs i := by
  induction fs with
  | nil => simp; intro h; cases h
  | cons f fs ih =>
    rw [List.find?_cons]
    cases h : P f.1
    · rw [ih]
      constructor
      · exact fun hf => .there (by simp [h]) hf
      · intro hf
        cases hf with
        | here hp => rw [h] at hp; cases hp
        | there _ hf => exact hf
    · constructor
      · intro he; simp at he; subst he; exact .here h
      · intro hf
        cases hf with
        | here hp => rfl
        | there hp _ => exact absurd h hp

theorem noField_iff (P : Bytes → Bool) (fs : List (Bytes × Nat)) :
    (fs.find? fun f => P f.1) = none ↔ NoField (fun n => P n = true) fs := by
  simp [NoField, List.find?_eq_none]

/-- **C14**: with default matching a name selects the first field with exactly that name, else the first field of the same length equal up to
case folding; it is unknown exactly if no field qualifies. -/
theorem C14_default_matching (x : Ext) (o : Options) (ho : o.disableCaseInsensitiveMatching = false)
    (fields : List (Bytes × Nat)) (name : Bytes) :
    (∀ i, findField x o fields name = some i ↔ Selects x.equalFold fields name i) ∧
    (findField x o fields name = none ↔
      NoField (fun n => n = name ∨ n.length = name.length ∧ x.equalFold n name = true) fields) := by
  have e : findField x o fields name = fieldFrameIndexByName x fields name := by simp [findField, ho]
  have h1 := firstField_iff (· == name) fields
  have h1' := noField_iff (· == name) fields
  have h2 := firstField_iff (fun n => n.length == name.length && x.equalFold n name) fields
  have h2' := noField_iff (fun n => n.length == name.length && x.equalFold n name) fields
  simp only [beq_iff_eq, Bool.and_eq_true] at h1 h2 h1' h2'
  rw [e, byName_eq]
  constructor
  · intro i
    constructor
    · intro h
      rw [Option.or_eq_some_iff] at h
      rcases h with h | ⟨hn, h⟩
      · exact .exact ((h1 i).1 h)
      · rw [Option.map_eq_none_iff] at hn
        exact .folded (h1'.1 hn) ((h2 i).1 h)
    · intro h
      rw [Option.or_eq_some_iff]
      cases h with
      | exact h => exact .inl ((h1 i).2 h)
      | folded hn h => exact .inr ⟨by rw [h1'.2 hn]; rfl, (h2 i).2 h⟩
  · simp only [Option.or_eq_none_iff, Option.map_eq_none_iff, h1', h2', NoField]
    constructor
    · intro h f hf hc
      rcases hc with hc | hc
      · exact h.1 f hf hc
      · exact h.2 f hf hc
    · intro h
      exact ⟨fun f hf hc => h f hf (.inl hc), fun f hf hc => h f hf (.inr hc)⟩

/-- **C15**: with `DisableCaseInsensitiveMatching` only the first field with exactly the name is selected. -/
theorem C15_exact_matching (x : Ext) (o : Options) (ho : o.disableCaseInsensitiveMatching = true)
    (fields : List (Bytes × Nat)) (name : Bytes) :
    (∀ i, findField x o fields name = some i ↔ FirstField (· = name) fields i) ∧
    (findField x o fields name = none ↔ NoField (· = name) fields) := by
  have e : findField x o fields name = exactSearch fields name := by simp [findField, ho]
  have h1 := firstField_iff (· == name) fields
  have h1' := noField_iff (· == name) fields
  simp only [beq_iff_eq] at h1 h1'
  rw [e, exactSearch_eq]
  exact ⟨h1, by rw [Option.map_eq_none_iff]; exact h1'⟩

/-- **C15**: a field selected by exact matching is also the one selected with the option off. -/
theorem C15_agrees (x : Ext) (o o' : Options) (ho : o.disableCaseInsensitiveMatching = true)
    (ho' : o'.disableCaseInsensitiveMatching = false) (fields : List (Bytes × Nat)) (name : Bytes) (i : Nat)
    (h : findField x o fields name = some i) : findField x o' fields name = some i :=
  ((C14_default_matching x o' ho' fields name).1 i).2 (.exact (((C15_exact_matching x o ho fields name).1 i).1 h))

/-- **C16**: key texts that denote the same string select the same field; with `DisableFieldNameUnescaping` the raw text is looked up. -/
theorem C16_key_text (o : Options) :
    (o.disableFieldNameUnescaping = false → ∀ raw out, Denotes raw out → keyName o raw = some out) ∧
    (o.disableFieldNameUnescaping = true → ∀ raw, keyName o raw = some raw) := by
  constructor
  · intro h raw out hd
    simp only [keyName, h, Bool.false_eq_true, if_false]
    exact Proof.Unescape.valid_eq hd
  · intro h raw
    simp [keyName, h]

section Examples
/-- ASCII case folding, for examples. -/
def asciiFold (a b : Bytes) : Bool :=
  let low : UInt8 → UInt8 := fun c => if 65 ≤ c ∧ c ≤ 90 then c + 32 else c
  a.map low == b.map low

/-- An environment for examples. -/
def exExt : Ext where
  is64 := true
  strInput := true
  parseFloat32 b := .ok b.length
  parseFloat64 b := .ok b.length
  f32OfInt i := i.natAbs
  f64OfInt i := i.natAbs
  tokInt32 _ := .ok 1
  tokInt64 _ := .ok 1
  tokFloat64 b := .ok b.length
  equalFold := asciiFold
  unmarshalJSON _ _ raw := ([.user raw], none)
  unmarshalText _ _ raw := ([.user raw], none)
  unmarshalKey _ b := .ok b

/-- Six fields, two of them differing in case only. -/
def exFields : List (Bytes × Nat) := [(b!"a", 1), (b!"bc", 2), (b!"Foo", 3), (b!"d", 4), (b!"foo", 5), (b!"FOO", 6)]

example : findField exExt defaultOptions exFields b!"foo" = some 5 := by decide
example : findField exExt defaultOptions exFields b!"fOO" = some 3 := by decide
example : findField exExt defaultOptions exFields b!"fo" = none := by decide
example : findField exExt { defaultOptions with disableCaseInsensitiveMatching := true } exFields b!"fOO" = none := by decide
example : findField exExt { defaultOptions with disableCaseInsensitiveMatching := true } exFields b!"FOO" = some 6 := by decide
example : keyName defaultOptions b!"\\u0061" = some b!"a" := by decide
example : keyName { defaultOptions with disableFieldNameUnescaping := true } b!"\\u0061" = some b!"\\u0061" := by decide
end Examples

end Verif.Props

import Verif.Props.Decode
import Verif.Proof.Reuse
/-!
# C38: a decoder does not remember earlier calls

For every type whose tree has no array types, and every document. With arrays it is false even if all earlier calls succeeded.
-/
namespace Verif.Props
open Verif Verif.Model Verif.Spec Verif.Big Verif.Proof Verif.Proof.Demo

/-- **C38 for types without arrays and recursion, every document**: whatever calls the decoder has served (successful ones, failed ones, with any destinations, documents and options), the next call returns the same
index and error and leaves the same destination as with a new decoder, or both panic. Nothing is assumed of the document or the destination: this also covers documents that the code decodes wrongly. -/
theorem C38_everything {env : TypeEnv} {x : Ext} {opts : Option InitOptions} {depth : Nat} {t : Option TypeId} {ty : Ty} {d₀ d : Decoder} (h : HasTree env x opts depth t ty)
    (hn : newDecoder env x.W opts depth t = .ok d₀) (hs : Served x d₀ d) (ha : ty.noArrays = true) (src : Bytes) (doc : Except (Nat × Nat) JVal) (dest : Option Block) (o : Option Options) :
    observe (decode x d src doc dest o) = observe (decode x d₀ src doc dest o) :=
  Proof.Reuse.decode_served h hn hs ha src doc dest o

/-- Two decoders for the same type, with the same options, whatever each has served. -/
theorem C38_interchangeable {env : TypeEnv} {x : Ext} {opts : Option InitOptions} {depth : Nat} {t : Option TypeId} {ty : Ty} {d₀ d d' : Decoder} (h : HasTree env x opts depth t ty)
    (hn : newDecoder env x.W opts depth t = .ok d₀) (hs : Served x d₀ d) (hs' : Served x d₀ d') (ha : ty.noArrays = true) (src : Bytes) (doc : Except (Nat × Nat) JVal) (dest : Option Block)
    (o : Option Options) : observe (decode x d src doc dest o) = observe (decode x d' src doc dest o) :=
  (C38_everything h hn hs ha src doc dest o).trans (C38_everything h hn hs' ha src doc dest o).symm

/-- A history with a failed call inside a slice: `[]struct{X int; Y string}` fed `[{"X":1},{"Y":2}]`. The next document is one on which the code goes wrong by itself: an unknown key with an object value. -/
example : ∃ r, decode demoX (demoDec 5) b!"[{\"X\":1},{\"Y\":2}]" (tokenize b!"[{\"X\":1},{\"Y\":2}]") (some (zeros 24)) (some defaultOptions) = some r ∧ r.err = some .unexpectedValue ∧
    observe (demoDecode r.dec b!"[{\"Z\":{\"a\":1},\"X\":2},{\"X\":3}]" (zeros 24)) = observe (demoDecode (demoDec 5) b!"[{\"Z\":{\"a\":1},\"X\":2},{\"X\":3}]" (zeros 24)) := by
  have ho : true = true → ∃ o, some defaultInitOptions = some o ∧ o.disallowStringTagOptOnUnsupportedTypes = false := fun _ => ⟨_, rfl, rfl⟩
  obtain ⟨r, hr, he⟩ : ∃ r, decode demoX (demoDec 5) b!"[{\"X\":1},{\"Y\":2}]" (tokenize b!"[{\"X\":1},{\"Y\":2}]") (some (zeros 24)) (some defaultOptions) = some r ∧ r.err = some .unexpectedValue := ⟨_, rfl, rfl⟩
  exact ⟨r, hr, he, C38_everything (env := demoEnv) (opts := some defaultInitOptions) (depth := 20) (t := some 5) (ty := demoTree 5) ⟨demo_layout, true, _, ho, rfl⟩ rfl (.call .new hr) (by decide) _ _ _ _⟩

/-! ## With arrays -/

/-- `int`, `[3]int`, `*int`, `**int`, `struct{A [3]int; F **int}`, a slice of it, `struct{L []struct{A [3]int; F **int}}`. -/
def arrTypes : List TypeInfo := [
  { kind := .int .int, size := 8 },
  { kind := .array, size := 24, len := 3, elem := 0 },
  { kind := .pointer, size := 8, elem := 0 },
  { kind := .pointer, size := 8, elem := 2 },
  { kind := .struct, size := 32, fields := [⟨b!"A", [], 1, 0⟩, ⟨b!"F", [], 3, 24⟩] },
  { kind := .slice, size := 24, elem := 4 },
  { kind := .struct, size := 24, fields := [⟨b!"L", [], 5, 0⟩] }]

/-- The program with these types. -/
def arrEnv : TypeEnv := fun t => arrTypes.getD t { kind := .other }

theorem arr_layout : Layout arrEnv demoX := by
  intro t
  rcases Nat.lt_or_ge t arrTypes.length with h | h
  · replace h : t < 7 := h
    iterate 7 (rcases t with _ | t; · first | rfl | exact True.intro | exact ⟨by decide, by simp [Layout.FieldsIn, arrEnv, arrTypes]⟩)
    exact absurd h (Nat.not_lt.2 (Nat.le_add_left 7 t))
  · have : arrEnv t = { kind := .other } := by simp only [arrEnv, List.getD_eq_getElem?_getD, List.getElem?_eq_none h, Option.getD_none]
    rw [this]; trivial

/-- The decoder of `type T struct{L []struct{A [3]int; F **int}}`. -/
def arrDec : Decoder := match newDecoder arrEnv 8 (some defaultInitOptions) 20 (some 6) with
  | .ok d => d
  | _ => ⟨[], fun _ => {}, 0⟩

/-- **C38 is false of the code** also without recursion and without failed calls: `type T struct{L []struct{A [3]int; F **int}}` has a tree; a new decoder decodes `{"L":[{"F":1}]}` without an error; the same decoder,
after it has decoded `{"L":[{"A":[1]}]}` without an error, panics on it. -/
theorem C38_refuted_success : ∃ (ty : Ty) (r : DecodeRes), HasTree arrEnv demoX (some defaultInitOptions) 20 (some 6) ty ∧
    newDecoder arrEnv demoX.W (some defaultInitOptions) 20 (some 6) = .ok arrDec ∧
    decode demoX arrDec b!"{\"L\":[{\"A\":[1]}]}" (tokenize b!"{\"L\":[{\"A\":[1]}]}") (some (zeros 24)) (some defaultOptions) = some r ∧ r.err = none ∧
    (∃ r', decode demoX arrDec b!"{\"L\":[{\"F\":1}]}" (tokenize b!"{\"L\":[{\"F\":1}]}") (some (zeros 24)) (some defaultOptions) = some r' ∧ r'.err = none) ∧
    decode demoX r.dec b!"{\"L\":[{\"F\":1}]}" (tokenize b!"{\"L\":[{\"F\":1}]}") (some (zeros 24)) (some defaultOptions) = none := by
  have ho : true = true → ∃ o, some defaultInitOptions = some o ∧ o.disallowStringTagOptOnUnsupportedTypes = false := fun _ => ⟨_, rfl, rfl⟩
  have h1 : ((decode demoX arrDec b!"{\"L\":[{\"A\":[1]}]}" (tokenize b!"{\"L\":[{\"A\":[1]}]}") (some (zeros 24)) (some defaultOptions)).map fun r => (r.err.isNone,
      (decode demoX r.dec b!"{\"L\":[{\"F\":1}]}" (tokenize b!"{\"L\":[{\"F\":1}]}") (some (zeros 24)) (some defaultOptions)).isNone)) = some (true, true) := by decide +kernel
  have h2 : ((decode demoX arrDec b!"{\"L\":[{\"F\":1}]}" (tokenize b!"{\"L\":[{\"F\":1}]}") (some (zeros 24)) (some defaultOptions)).map fun r => r.err.isNone) = some true := by decide +kernel
  obtain ⟨r, hr, e⟩ := Option.map_eq_some_iff.1 h1
  obtain ⟨r', hr', e'⟩ := Option.map_eq_some_iff.1 h2
  simp only [Prod.mk.injEq, Option.isNone_iff_eq_none] at e e'
  exact ⟨_, r, ⟨arr_layout, true, _, ho, rfl⟩, rfl, hr, e.1, ⟨r', hr', e'⟩, e.2⟩

end Verif.Props

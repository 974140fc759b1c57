import Verif.Spec.Descriptors
import Verif.Proof.Descriptors
import Verif.Props.FastStr
/-!
# C63: the frame table describes the Go types: descriptors and sizes
-/
namespace Verif.Props
open Verif Verif.Model Verif.Spec Verif.Proof.Append Verif.Proof.Reads Verif.Proof.Descriptors Verif.Proof.Demo

/-- **C63 (the table).** In a decoder for the type `t`, at any time of its life, the first frame holds the descriptor of `t`, and every frame holds the descriptor and the size of a type
that it is right for: the frames of its elements, pointee, key, value and fields hold the descriptors of the types that `reflect` reports for them, and the frame a recursion goes back to holds that of
the type of the elements, pointee or values. -/
theorem C63_table {env : TypeEnv} {x : Ext} {opts : Option InitOptions} {depth : Nat} {t : TypeId} {d₀ d : Decoder} (hL : Layout env x) (hn : newDecoder env x.W opts depth (some t) = .ok d₀)
    (hs : Served x d₀ d) :
    HasTyp d.frames 0 t ∧ ∀ (i : Nat) (f : Frame), d.frames[i]? = some f → ∃ u, f.typ = some u ∧ f.size = (env u).size ∧ FrameFits env d.frames i f u := by
  rw [served_frames hs]
  simp only [newDecoder] at hn
  split at hn <;> cases hn
  rename_i s hs'
  have R := append_res hL depth [] t s (fun j g hg => by rw [List.getElem?_nil] at hg; cases hg) hs'
  obtain ⟨g, h1, h2, -⟩ := R.head
  exact ⟨⟨g, h1, h2⟩, fun i f hf => R.fits i (Nat.zero_le i) f hf⟩

/-- **C63 (allocation of elements).** The frame whose descriptor a slice's new backing array is allocated with (`newarray(frames[i+1].Typ, cap)`) is that of the element type, with its size. -/
theorem C63_elements {env : TypeEnv} {x : Ext} {opts : Option InitOptions} {depth : Nat} {t : TypeId} {d₀ d : Decoder} (hL : Layout env x) (hn : newDecoder env x.W opts depth (some t) = .ok d₀)
    (hs : Served x d₀ d) {i : Nat} {f : Frame} (hf : d.frames[i]? = some f) (hk : f.type = .slice ∨ f.type = .ptr ∨ f.type = .array) :
    ∃ u g, f.typ = some u ∧ d.frames[i + 1]? = some g ∧ g.typ = some (env u).elem ∧ g.size = (env (env u).elem).size ∧
      (env u).kind = (if f.type = .slice then .slice else if f.type = .ptr then .pointer else .array) := by
  obtain ⟨-, h⟩ := C63_table hL hn hs
  obtain ⟨u, h1, -, h3⟩ := h i f hf
  have key : ∀ g, d.frames[i + 1]? = some g → g.typ = some (env u).elem → g.size = (env (env u).elem).size := by
    intro g hg ht
    obtain ⟨v, k1, k2, -⟩ := h _ g hg
    rw [ht] at k1; cases k1
    exact k2
  rcases hk with hk | hk | hk <;> simp only [FrameFits, hk] at h3
  · obtain ⟨a, g, b, c⟩ := h3
    exact ⟨u, g, h1, b, c, key g b c, by simp [hk, a]⟩
  · obtain ⟨a, g, b, c⟩ := h3
    exact ⟨u, g, h1, b, c, key g b c, by simp [hk, a]⟩
  · obtain ⟨a, g, b, c, -⟩ := h3
    exact ⟨u, g, h1, b, c, key g b c, by simp [hk, a]⟩

/-- **C63 (allocation in recursions).** The frame whose descriptor and size the elements, pointees and map values of a recursive type are allocated with is that of the struct type they have. -/
theorem C63_recursion {env : TypeEnv} {x : Ext} {opts : Option InitOptions} {depth : Nat} {t : TypeId} {d₀ d : Decoder} (hL : Layout env x) (hn : newDecoder env x.W opts depth (some t) = .ok d₀)
    (hs : Served x d₀ d) {i : Nat} {f : Frame} (hf : d.frames[i]? = some f) (hk : f.type = .sliceRecur ∨ f.type = .ptrRecur ∨ f.type = .mapRecur) :
    ∃ u g, f.typ = some u ∧ d.frames[f.recurFrame]? = some g ∧ g.type = .structRecur ∧ g.typ = some (env u).elem ∧ g.size = (env (env u).elem).size ∧ (env (env u).elem).kind = .struct := by
  obtain ⟨-, h⟩ := C63_table hL hn hs
  obtain ⟨u, h1, -, h3⟩ := h i f hf
  have key : RecursTo d.frames f.recurFrame (env u).elem →
      ∃ u g, f.typ = some u ∧ d.frames[f.recurFrame]? = some g ∧ g.type = .structRecur ∧ g.typ = some (env u).elem ∧ g.size = (env (env u).elem).size ∧ (env (env u).elem).kind = .struct := by
    rintro ⟨g, a, b, c⟩
    obtain ⟨v, k1, k2, k3⟩ := h _ g a
    rw [b] at k1; cases k1
    simp only [FrameFits, c] at k3
    exact ⟨u, g, h1, a, c, b, k2, k3.1⟩
  rcases hk with hk | hk | hk <;> simp only [FrameFits, hk] at h3
  · exact key h3.2
  · exact key h3.2
  · exact key h3.2.2.2.2

/-- **C63 (allocation of maps).** The descriptor `makemap` and `mapassign` are called with is that of a map type, and the value type and size kept beside it are those of its values. -/
theorem C63_maps {env : TypeEnv} {x : Ext} {opts : Option InitOptions} {depth : Nat} {t : TypeId} {d₀ d : Decoder} (hL : Layout env x) (hn : newDecoder env x.W opts depth (some t) = .ok d₀)
    (hs : Served x d₀ d) {i : Nat} {f : Frame} (hf : d.frames[i]? = some f) (hk : f.type = .map ∨ f.type = .mapRecur) :
    ∃ u, f.typ = some u ∧ (env u).kind = .map ∧ f.mapValueTyp = some (env u).elem ∧ f.mapValueSize = (env (env u).elem).size ∧ HasTyp d.frames (i + 1) (env u).key := by
  obtain ⟨-, h⟩ := C63_table hL hn hs
  obtain ⟨u, h1, -, h3⟩ := h i f hf
  rcases hk with hk | hk <;> simp only [FrameFits, hk] at h3
  · obtain ⟨a, b, c, g, e, e', -⟩ := h3
    exact ⟨u, h1, a, b, c, g, e, e'⟩
  · exact ⟨u, h1, h3.1, h3.2.1, h3.2.2.1, h3.2.2.2.1⟩

/-- The frame types and descriptors in the decoder of a type. -/
def tableOf (env : TypeEnv) (t : TypeId) : List (EType × Option TypeId × Option TypeId) :=
  match newDecoder env 8 (some defaultInitOptions) 40 (some t) with
  | .ok d => d.frames.map fun f => (f.type, f.typ, f.mapValueTyp)
  | _ => []

/-- The theorems apply to the recursive demo types. -/
example : Layout demoEnv demoX ∧ (∃ d, newDecoder demoEnv demoX.W (some defaultInitOptions) 40 (some 12) = .ok d) ∧ (∃ d, newDecoder demoEnv demoX.W (some defaultInitOptions) 40 (some 40) = .ok d) ∧
    ∃ d, newDecoder demoEnv demoX.W (some defaultInitOptions) 40 (some 52) = .ok d := ⟨demo_layout, ⟨_, rfl⟩, ⟨_, rfl⟩, ⟨_, rfl⟩⟩

/-- The tables of two of them: `type R struct{Kids []R; Name string}` and `type M struct{Kids map[string]M; V int}`. -/
example : tableOf demoEnv 12 = [(.structRecur, some 12, none), (.sliceRecur, some 13, none), (.scalar .str, some 2, none)] ∧
    tableOf demoEnv 52 = [(.structRecur, some 52, none), (.mapRecur, some 53, some 52), (.scalar .str, some 2, none), (.scalar (.int .int), some 1, none)] ∧
    (demoEnv 13).kind = .slice ∧ (demoEnv 13).elem = 12 ∧ (demoEnv 53).kind = .map ∧ (demoEnv 53).key = 2 ∧ (demoEnv 53).elem = 52 := by decide +kernel

/-- `int`, `struct{A int; B string}`, `map[struct{A int; B string}]string`, `string`. -/
def keyEnv : TypeEnv := fun t => ([{ kind := .int .int, size := 8 },
  { kind := .struct, size := 24, fields := [{ name := b!"A", type := 0, tag := [], offset := 0 }, { name := b!"B", type := 3, tag := [], offset := 8 }] },
  { kind := .map, size := 8, key := 1, elem := 3 }, { kind := .string, size := 16 }] : List TypeInfo).getD t { kind := .other }

/-- The condition on the key in `FrameFits` cannot be left out: `Decode` takes the frame two after a map's for the values' frame. For a map with struct keys that is the frame of the key's first field. -/
example : tableOf keyEnv 2 = [(.map, some 2, some 3), (.struct, some 1, none), (.scalar (.int .int), some 0, none), (.scalar .str, some 3, none), (.scalar .str, some 3, none)] := by decide +kernel

end Verif.Props

import Verif.Spec.Footprint
import Verif.Proof.FootRun
import Verif.Proof.Demo
import Verif.Props.FastStr
import Verif.Props.RoundTrip
/-!
# C61: memory use is linear in the size of the input

`footprint m` (`Spec/Footprint.lean`) is the number of bytes the value in `m` keeps alive, `factor` a number that depends on the type of the decoder only (through the frames `NewDecoder` has made).
-/
namespace Verif.Props
open Verif.Model Verif.Big Verif.Spec Verif.Proof Verif.Proof.Demo

/-- The variable has the size of the type of the decoder. -/
def FitsType (d : Decoder) (mem : Block) : Prop := ∀ f0, d.frames.head? = some f0 → mem.length = f0.size

/-- **C61 (one call).** Whatever the document, the old contents of the variable, the options and the state of the decoder, and whether decoding succeeds or fails: the variable afterwards keeps alive at most `factor` bytes per
byte of input (and `factor` more) on top of what it kept alive before. -/
theorem C61_memory {x : Ext} {c : Nat} (hx : Frugal x c) {src : Bytes} {v : JVal} (hv : IsDoc src v) {d : Decoder} {mem : Block} (hm : FitsType d mem) {o : Option Options} {r : DecodeRes}
    (h : decode x d src (.ok v) (some mem) o = some r) : ∃ m, r.mem = some m ∧ footprint m ≤ footprint mem + factor c d.frames * (src.length + 1) := by
  obtain ⟨m, h1, h2, -⟩ := Foot.decode_foot hx hv hm h
  exact ⟨m, h1, h2⟩

/-- Decoding texts of `n` bytes (plus one for each text) into the same variable with the same decoder, valid and invalid ones, with or without success. -/
inductive Session (x : Ext) (d : Decoder) (mem : Block) : Nat → Decoder → Block → Prop
  | start : Session x d mem 0 d mem
  | call {n : Nat} {d' : Decoder} {m m' : Block} {src : Bytes} {doc : Except (Nat × Nat) JVal} {o : Option Options} {r : DecodeRes} : Session x d mem n d' m →
      (∀ v, doc = .ok v → IsDoc src v) → decode x d' src doc (some m) o = some r → r.mem = some m' → Session x d mem (n + (src.length + 1)) r.dec m'

theorem session_inv {x : Ext} {c : Nat} (hx : Frugal x c) {d : Decoder} {mem : Block} (hm : FitsType d mem) {n : Nat} {d' : Decoder} {m : Block} (h : Session x d mem n d' m) :
    d'.frames = d.frames ∧ FitsType d m ∧ footprint m ≤ footprint mem + factor c d.frames * n := by
  induction h with
  | start => exact ⟨rfl, hm, by omega⟩
  | call hs hdoc hr hm' ih =>
    obtain ⟨h1, h2, h3⟩ := ih
    refine ⟨(Proof.Reads.decode_frames hr).trans h1, ?_⟩
    rename_i n d' m m' src doc o r
    rw [Nat.mul_add]
    cases doc with
    | ok v =>
      have h2' : FitsType d' m := by unfold FitsType; rw [h1]; exact h2
      obtain ⟨m'', g1, g2, g3⟩ := Foot.decode_foot hx (hdoc v rfl) h2' hr
      rw [h1] at g2
      rw [g1] at hm'
      cases hm'
      exact ⟨fun f0 hf => g3.trans (h2 f0 hf), by omega⟩
    | error e =>
      simp only [decode] at hr
      split at hr <;> cases hr
      cases hm'
      exact ⟨h2, by omega⟩

/-- **C61 (any number of calls).** However often a decoder made by `NewDecoder` is used on the same variable, with valid and invalid inputs, the variable keeps alive at most `factor` bytes per byte of input. -/
theorem C61_history {env : TypeEnv} {x : Ext} {opts : Option InitOptions} {depth : Nat} {t : Option TypeId} {d₀ d d' : Decoder} {c : Nat} (hx : Frugal x c)
    (hn : newDecoder env x.W opts depth t = .ok d₀) (hs : Served x d₀ d) {mem : Block} (hm : FitsType d mem) {n : Nat} {m : Block} (h : Session x d mem n d' m) :
    footprint m ≤ footprint mem + factor c d₀.frames * n := by
  have := (session_inv hx hm h).2.2
  rwa [served_frames hs] at this

/-- **C61 (`Unmarshal`).** -/
theorem C61_unmarshal {env : TypeEnv} {x : Ext} {depth : Nat} {t : Option TypeId} {d : Decoder} {c : Nat} (hx : Frugal x c) (hn : newDecoder env x.W (some defaultInitOptions) depth t = .ok d)
    {src : Bytes} {v : JVal} (hv : IsDoc src v) {mem : Block} (hm : FitsType d mem) {e : Option Err} {m? : Option Block} (h : unmarshal x env depth t src (.ok v) (some mem) = .ret e m?) :
    ∃ m, m? = some m ∧ footprint m ≤ footprint mem + factor c d.frames * (src.length + 1) := by
  simp only [unmarshal, hn] at h
  split at h
  · cases h
  · rename_i r hr
    obtain ⟨m, h1, h2⟩ := C61_memory hx hv hm hr
    split at h <;> cases h <;> exact ⟨m, h1, h2⟩

/-- The methods of the examples keep the text they get. -/
theorem demo_frugal : Frugal demoX 1 where
  json := by
    intro rt old b
    simp only [demoX]
    split
    · simp
    · simp [footprint, cellBytes]; omega
  text := by
    intro rt old b
    simp only [demoX]
    split
    · simp
    · simp [footprint, cellBytes]; omega
  key := by
    intro rt b k h
    simp only [demoX] at h
    split at h <;> cases h
    simp

/-- The document `[{},{}]`. -/
theorem demo_two : IsDoc b!"[{},{}]" (.arr 0 [.obj 1 [] 2, .obj 4 [] 5] 6) := by
  refine ⟨[], b!"[{},{}]", [], rfl, (fun _ h => by cases h), (fun _ h => by cases h), b!"{},{}", rfl, rfl, rfl, ?_⟩
  refine .inr ⟨by simp, b!"{}", b!"{}", rfl, ⟨[], b!"{}", [], rfl, (fun _ h => by cases h), (fun _ h => by cases h), [], rfl, rfl, rfl, fun _ h => by cases h⟩, ?_⟩
  exact .inl ⟨rfl, [], b!"{}", [], rfl, (fun _ h => by cases h), (fun _ h => by cases h), [], rfl, rfl, rfl, fun _ h => by cases h⟩

/-- Memory kept alive after an `Unmarshal`. -/
def keeps (t : TypeId) (src : Bytes) (mem : Block) : Option Nat := (okMem (demoUnmarshal t src mem)).map footprint

/-- Two empty structs of 24 bytes each take 48 bytes, within the bound for a text of 7 bytes. -/
example : keeps 5 b!"[{},{}]" (zeros 24) = some 48 ∧ factor 1 (demoDec 5).frames * 8 = 6840 := by decide +kernel

example : ∃ r m, decode demoX (demoDec 5) b!"[{},{}]" (.ok (.arr 0 [.obj 1 [] 2, .obj 4 [] 5] 6)) (some (zeros 24)) (some defaultOptions) = some r ∧ r.mem = some m ∧ footprint m ≤ 6840 := by
  have hf : FitsType (demoDec 5) (zeros 24) := by
    intro f0 h
    have : (demoDec 5).frames.head?.map (·.size) = some 24 := by decide +kernel
    rw [h] at this
    simpa [zeros] using this.symm
  have hs : ((decode demoX (demoDec 5) b!"[{},{}]" (.ok (.arr 0 [.obj 1 [] 2, .obj 4 [] 5] 6)) (some (zeros 24)) (some defaultOptions)).isSome = true) := by decide +kernel
  obtain ⟨r, hr⟩ := Option.isSome_iff_exists.1 hs
  obtain ⟨m, h1, h2⟩ := C61_memory demo_frugal demo_two hf hr
  refine ⟨r, m, hr, h1, Nat.le_trans h2 ?_⟩
  have : factor 1 (demoDec 5).frames * 8 = 6840 := by decide +kernel
  rw [Foot.foot_zeros]
  show 0 + factor 1 (demoDec 5).frames * 8 ≤ 6840
  omega

end Verif.Props

import Verif.Proof.FastStr
import Verif.Proof.Session
import Verif.Proof.Demo
/-!
# C60: the runtime's map function for string keys is only used on maps it supports
-/
namespace Verif.Props
open Verif Verif.Model Verif.Spec Verif.Proof.Append Verif.Proof.Reads

/-- `runtime.mapassign_faststr` supports the maps with keys of kind string whose values take at most 128 bytes: bigger values are stored behind a pointer (see `mapfast` in the Go
compiler). -/
def RuntimeFast (env : TypeEnv) (mapType : TypeId) : Prop :=
  (env (env mapType).key).kind = .string ∧ (env (env mapType).elem).size ≤ 128

theorem canUse_iff {env : TypeEnv} {t : TypeId} : canUseAssignFaststr env t = true ↔ RuntimeFast env t := by
  simp only [canUseAssignFaststr, RuntimeFast, Bool.and_eq_true, decide_eq_true_eq]
  exact and_comm

theorem served_frames {x : Ext} {d₀ d : Decoder} (hs : Served x d₀ d) : d.frames = d₀.frames := by
  induction hs with
  | new => rfl
  | call _ hr ih => rw [decode_frames hr, ih]

/-- **C60 (the flag).** In a decoder for any type, at any time of its life, every map frame stands for a map type, and is marked for `mapassign_faststr` exactly if the runtime supports that for the type. -/
theorem C60_flag {env : TypeEnv} {x : Ext} {opts : Option InitOptions} {depth : Nat} {t : Option TypeId} {d₀ d : Decoder} (hn : newDecoder env x.W opts depth t = .ok d₀)
    (hs : Served x d₀ d) {f : Frame} (hf : f ∈ d.frames) (ht : f.type = .map ∨ f.type = .mapRecur) :
    ∃ mt, (env mt).kind = .map ∧ f.mapValueSize = (env (env mt).elem).size ∧ (f.faststr = true ↔ RuntimeFast env mt) := by
  rw [served_frames hs] at hf
  simp only [newDecoder] at hn
  split at hn <;> cases hn
  rename_i s hs'
  obtain ⟨mt, h1, h2, h3⟩ := append_fast env x.W opts depth [] t s (fun _ h => by cases h) hs' f hf (.inr ht)
  exact ⟨mt, h1, h2, by rw [h3]; exact canUse_iff⟩

/-- **C60 (every insertion).** Whatever the document, the destination and the key, inserting an entry into a map through a frame of such a decoder never calls the runtime outside its contract: it has the effect of `m[k]`. -/
theorem C60_insert {env : TypeEnv} {x : Ext} {opts : Option InitOptions} {depth : Nat} {t : Option TypeId} {d₀ d : Decoder} (hn : newDecoder env x.W opts depth t = .ok d₀)
    (hs : Served x d₀ d) {f : Frame} (hf : f ∈ d.frames) (fk : Frame) (m : Block) (a : Addr) (k : Key) :
    mapAssign x.W f fk m a k = assignEntry x.W f.mapValueSize m a k := by
  refine if_neg fun ⟨_, h2, h3⟩ => ?_
  rw [served_frames hs] at hf
  simp only [newDecoder] at hn
  split at hn <;> cases hn
  rename_i s hs'
  obtain ⟨mt, -, h5, h6⟩ := append_fast env x.W opts depth [] t s (fun _ h => by cases h) hs' f hf (.inl h2)
  have := (canUse_iff.1 (h6.symm.trans h2)).2
  omega

/-- `string`, `int`, `[16]int`, `map[string][16]int`, `[17]int`, `map[string][17]int`, `map[int][16]int`. -/
def wideEnv : TypeEnv := fun t => ([{ kind := .string, size := 16 }, { kind := .int .int, size := 8 }, { kind := .array, size := 128, elem := 1, len := 16 },
  { kind := .map, size := 8, key := 0, elem := 2 }, { kind := .array, size := 136, elem := 1, len := 17 }, { kind := .map, size := 8, key := 0, elem := 4 },
  { kind := .map, size := 8, key := 1, elem := 2 }] : List TypeInfo).getD t { kind := .other }

/-- The flag of the first frame of the decoder of a type. -/
def firstFlag (t : TypeId) : Option (EType × Bool × Nat) :=
  match newDecoder wideEnv 8 (some defaultInitOptions) 20 (some t) with
  | .ok d => d.frames.head?.map fun f => (f.type, f.faststr, f.mapValueSize)
  | _ => none

/-- Values of exactly 128 bytes may be used, bigger ones and other keys may not. -/
example : firstFlag 3 = some (.map, true, 128) ∧ firstFlag 5 = some (.map, false, 136) ∧ firstFlag 6 = some (.map, false, 128) := by decide +kernel

end Verif.Props

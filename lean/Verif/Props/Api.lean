import Verif.Proof.Session
import Verif.Proof.Append
import Verif.Proof.WfB
import Verif.Spec.Demo
/-!
# Properties of `Decode`, `Unmarshal` and `NewDecoder` that hold for every type and every decoder history

`decode x d src doc t o = some r`: the call returns `r`; `none`: it panics. `doc` is the result of the tokenizer on `src`. `Served x d₀ d`: `d` is the decoder `d₀` after any
calls.
-/
namespace Verif.Props
open Verif.Model Verif.Spec Verif.Big Verif.Proof Verif.Proof.Reads

/-! ## C21: nil destinations -/

/-- **C21**: with a nil destination `Decode` returns `(0, ErrNilDest)`, whatever input, tokens and options are, and the decoder is left as it was: every later call behaves as if
this one had not happened. For every type, and after every history of calls. -/
theorem C21_decode_nil {x : Ext} {env : TypeEnv} {opts : Option InitOptions} {depth : Nat} {t : Option TypeId} {d₀ d : Decoder}
    (hn : newDecoder env x.W opts depth t = .ok d₀) (hs : Served x d₀ d) (src : Bytes) (doc : Except (Nat × Nat) JVal) (o : Option Options) :
    decode x d src doc none o = some ⟨0, some .nilDest, none, d⟩ := by
  simp only [decode]
  rw [reset_nil (served_nilDests (fresh_nilDests hn) hs)]

/-- **C21**: `Unmarshal` into nil returns `ErrNilDest`, for every type and input, even if the type is not supported. -/
theorem C21_unmarshal_nil (x : Ext) (env : TypeEnv) (depth : Nat) (ty : Option TypeId) (src : Bytes) (doc : Except (Nat × Nat) JVal) :
    unmarshal x env depth ty src doc none = .ret (some .nilDest) none := rfl

/-- The hypotheses of C21 are met by a used decoder. -/
example : ∃ d₀ r, newDecoder demoEnv demoX.W (some defaultInitOptions) 20 (some 12) = .ok d₀ ∧
    decode demoX d₀ b!"{\"Kids\":[1]}" (tokenize b!"{\"Kids\":[1]}") (some (zeros 40)) (some defaultOptions) = some r ∧ r.err = some .unexpectedValue ∧
    Served demoX d₀ r.dec :=
  ⟨demoDec 12, _, rfl, rfl, rfl,
    .call (src := b!"{\"Kids\":[1]}") (doc := tokenize b!"{\"Kids\":[1]}") (t := some (zeros 40)) (o := some defaultOptions) .new rfl⟩

/-! ## C22: the error index -/

/-- **C22**: `errIndex` is `-1` exactly if there is no error. For every decoder, type, input, destination and option set. -/
theorem C22_index_iff {x : Ext} {d : Decoder} {src : Bytes} {doc : Except (Nat × Nat) JVal} {t : Option Block} {o : Option Options} {r : DecodeRes}
    (hr : decode x d src doc t o = some r) : r.errIndex = -1 ↔ r.err = none := by
  have neg : ∀ n : Nat, (n : Int) ≠ -1 := fun n => by omega
  cases t with
  | none => cases hr; simp
  | some mem =>
    cases doc with
    | error ic =>
      simp only [decode] at hr
      split at hr <;> cases hr
      simp [neg]
    | ok v =>
      simp only [decode] at hr
      split at hr
      · cases hr
      · split at hr
        · cases hr; simp [neg]
        · split at hr <;> cases hr
          simp
        · cases hr

/-- **C22**: the index of an error found while decoding is the byte index of a token of the document: of a value, a key or a closing bracket. -/
theorem C22_index_token {x : Ext} {d : Decoder} {src : Bytes} {v : JVal} {mem : Block} {o : Option Options} {r : DecodeRes} {e : Err}
    (hr : decode x d src (.ok v) (some mem) o = some r) (he : r.err = some e) : ∃ i, i ∈ starts v ∧ r.errIndex = i := by
  simp only [decode] at hr
  split at hr
  · cases hr
  · split at hr
    · rename_i i e' s hrun
      cases hr
      obtain ⟨t, ht, rfl⟩ := Proof.ErrIdx.run_idx _ _ hrun
      refine ⟨t.index, ?_, rfl⟩
      rw [← flatten_starts v 0]
      exact List.mem_map.2 ⟨t, ht, rfl⟩
    · split at hr <;> cases hr
      cases he
    · cases hr

/-- **C22**: and lies inside the input. -/
theorem C22_index_inside {x : Ext} {d : Decoder} {src : Bytes} {v : JVal} (hw : Wf src v) {mem : Block} {o : Option Options} {r : DecodeRes} {e : Err}
    (hr : decode x d src (.ok v) (some mem) o = some r) (he : r.err = some e) : 0 ≤ r.errIndex ∧ r.errIndex < src.length := by
  obtain ⟨i, hi, h⟩ := C22_index_token hr he
  have := starts_lt v hw i hi
  omega

/-- An error in the middle of a document. -/
example : ∃ v r, tokenize b!"{\"X\":1,\"Y\":[]}" = .ok v ∧ Wf b!"{\"X\":1,\"Y\":[]}" v ∧
    decode demoX (demoDec 4) b!"{\"X\":1,\"Y\":[]}" (.ok v) (some (zeros 24)) (some defaultOptions) = some r ∧ r.err = some .unexpectedValue ∧ r.errIndex = 11 :=
  ⟨_, _, rfl, Proof.WfB.wfB_sound (by decide), rfl, rfl, rfl⟩

/-! ## C23: syntax errors -/

/-- **C23**: if the tokenizer rejects the input, `Decode` returns its error and index, the destination keeps its contents and the decoder stays as it was. For every
type for which there is a decoder, and every history. -/
theorem C23_syntax_error {x : Ext} {env : TypeEnv} {opts : Option InitOptions} {depth : Nat} {t : Option TypeId} {d₀ d : Decoder}
    (hn : newDecoder env x.W opts depth t = .ok d₀) (hs : Served x d₀ d) (src : Bytes) (i c : Nat) (mem : Block) (o : Option Options) :
    decode x d src (.error (i, c)) (some mem) o = some ⟨i, some (.syntax c), some mem, d⟩ := by
  have hf : d.frames ≠ [] := by
    have : d.frames = d₀.frames := by
      clear hn
      induction hs with
      | new => rfl
      | call _ hr ih => rw [decode_frames hr, ih]
    rw [this]; exact Proof.Append.new_frames hn
  simp only [decode, if_neg hf]
  rw [reset_init (served_nilDests (fresh_nilDests hn) hs)]

/-- **C23** for `Unmarshal`: the tokenizer's error is returned and the destination keeps its contents, for every supported type. -/
theorem C23_unmarshal {x : Ext} {env : TypeEnv} {depth : Nat} {t : Option TypeId} {d₀ : Decoder}
    (hn : newDecoder env x.W (some defaultInitOptions) depth t = .ok d₀) (src : Bytes) (i c : Nat) (mem : Block) :
    unmarshal x env depth t src (.error (i, c)) (some mem) = .ret (some (.syntax c)) (some mem) := by
  simp only [unmarshal, hn]
  rw [C23_syntax_error hn .new]
  simp

example : tokenize b!"{\"X\":1" = .error (0, 1) ∧ (∃ d, newDecoder demoEnv demoX.W (some defaultInitOptions) 20 (some 45) = .ok d) := ⟨rfl, _, rfl⟩

/-! ## C39: the decoder keeps no destination pointers -/

/-- No frame of the decoder has a destination pointer, and no recursion stack holds one. -/
def KeepsNoPointer (d : Decoder) : Prop := ∀ i, (d.dyn i).dest = .nil ∧ ∀ r ∈ (d.dyn i).rstack, r.dest = .nil

/-- **C39, partial**: after `Decode` returns, successfully or not, no frame has a destination pointer: every type, every history. Missing: the recursion stacks of recursive types
(`C39_refuted`); types without recursion have none (`C39_no_recursion`). -/
theorem C39_frames_partial {x : Ext} {env : TypeEnv} {opts : Option InitOptions} {depth : Nat} {t : Option TypeId} {d₀ d : Decoder}
    (hn : newDecoder env x.W opts depth t = .ok d₀) (hs : Served x d₀ d) : ∀ i, (d.dyn i).dest = .nil :=
  served_nilDests (fresh_nilDests hn) hs

/-- **C39** for types without recursion: the decoder keeps no pointer at all. -/
theorem C39_no_recursion {x : Ext} {ty : Ty} {d : Decoder} (h : DecoderFor x ty d) : KeepsNoPointer d := by
  have hr := decoderFor_ready h
  obtain ⟨env, opts, depth, t, d₀, h1, h2, h3⟩ := h
  intro i
  refine ⟨C39_frames_partial h2 h3 i, ?_⟩
  rw [hr.dyn.rs i (fun f hf hc => absurd (hr.table.nr hf hc) (by decide))]
  intro r hr
  cases hr

/-- **C39 is false of the code** for recursive types: after a failed `Decode` the recursion stack still holds a pointer into the destination. -/
theorem C39_refuted : ∃ d₀ r, newDecoder demoEnv demoX.W (some defaultInitOptions) 20 (some 12) = .ok d₀ ∧
    demoDecode d₀ b!"{\"Kids\":[1]}" (zeros 40) = some r ∧ ¬ KeepsNoPointer r.dec := by
  refine ⟨demoDec 12, _, rfl, rfl, fun h => ?_⟩
  have := (h 0).2 _ (List.mem_cons_self ..)
  revert this
  decide

/-! ## C45: termination -/

/-- The bound on the number of steps of the decoding loop: linear in the number of tokens, for a given type. -/
def stepBound (d : Decoder) (v : JVal) : Nat := ((starts v).length + 1) * (2 * d.frames.length + 3)

/-- **C45**: the decoding loop ends after at most `stepBound` steps, for every decoder (every type, recursive or not, every history), every document, destination and option
set. -/
theorem C45_terminates (x : Ext) (d : Decoder) (src : Bytes) (v : JVal) (mem : Block) (o : Option Options) (s : St) :
    run { x := x, src := src, toks := flatten 0 v, frames := d.frames, options := o, epoch := d.calls } (stepBound d v) (initSt d.dyn mem) ≠ .run s := by
  have := Proof.Term.run_stops (pr := { x := x, src := src, toks := flatten 0 v, frames := d.frames, options := o, epoch := d.calls })
    (Proof.Term.tokOK_flatten v) d.dyn mem s
  have hl : (flatten 0 v).length = (starts v).length := by rw [← flatten_starts v 0, List.length_map]
  simpa only [fuelFor, stepBound, hl] using this

example : stepBound (demoDec 12) (.arr 0 [.null 1 5, .null 6 10] 10) = 45 := by decide

end Verif.Props

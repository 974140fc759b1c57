import Verif.Proof.NilOpts
import Verif.Proof.NewDecoder
import Verif.Props.FastStr
import Verif.Props.NewDecoder
/-!
# C62: nil options
-/
namespace Verif.Props
open Verif Verif.Model Verif.Spec Verif.Proof.Append Verif.Proof.NilOpts Verif.Proof.Demo

/-- **C62 (no silent default).** With nil `DecodeOptions`, `Decode` panics, or it does exactly what it does with any other options (result, destination and decoder), whatever the decoder, the document and the destination.
So a call that returns has not been influenced by a made-up default. -/
theorem C62_or (x : Ext) (d : Decoder) (src : Bytes) (doc : Except (Nat × Nat) JVal) (t : Option Block) :
    decode x d src doc t none = none ∨ ∀ o, decode x d src doc t none = decode x d src doc t (some o) := by
  by_cases h : decode x d src doc t none = none
  · exact .inl h
  · refine .inr fun o => ?_
    rcases decode_nil (x := x) (d := d) (src := src) (doc := doc) (t := t) (o := o) with h1 | ⟨-, h1⟩
    · exact h1
    · exact absurd h1 h

/-- **C62 (types without structs).** If no struct type is needed for the type of the decoder, nil options are as good as any, for all documents and at any time of the decoder's life. -/
theorem C62_structfree {env : TypeEnv} {x : Ext} {opts : Option InitOptions} {depth : Nat} {t : TypeId} {d₀ d : Decoder} (hn : newDecoder env x.W opts depth (some t) = .ok d₀) (hs : Served x d₀ d)
    (hfree : ∀ t', Reach env t t' → (env t').kind ≠ .struct) (src : Bytes) (doc : Except (Nat × Nat) JVal) (dst : Option Block) (o : Options) :
    decode x d src doc dst none = decode x d src doc dst (some o) := by
  rcases decode_nil (x := x) (d := d) (src := src) (doc := doc) (t := dst) (o := o) with h | ⟨⟨f, hf, ht⟩, -⟩
  · exact h
  · rw [served_frames hs] at hf
    simp only [newDecoder] at hn
    split at hn <;> cases hn
    rename_i s hs'
    obtain ⟨t', h1, h2⟩ := append_structs depth [] t s .self (fun _ h => by cases h) hs' f hf ht
    exact absurd h2 (hfree t' h1)

/-- The first frame of a decoder for a struct type. -/
theorem struct_head {env : TypeEnv} {W : Nat} {opts : Option InitOptions} {depth : Nat} {t : TypeId} {d : Decoder} (hn : newDecoder env W opts depth (some t) = .ok d)
    (hk : (env t).kind = .struct) (hu : TypeInfo.unmarshaler (env t) = false) (hf : (env t).fields ≠ []) : ∃ f fs, d.frames = f :: fs ∧ (f.type = .struct ∨ f.type = .structRecur) := by
  simp only [newDecoder] at hn
  split at hn <;> cases hn
  rename_i s hs
  simp only [TypeInfo.unmarshaler, Bool.or_eq_false_iff] at hu
  cases depth with
  | zero => cases hs
  | succ n =>
    rw [appendType] at hs
    simp only [hu.1, hu.2, hk, hf, Bool.false_eq_true, if_false] at hs
    obtain ⟨f, h1, h2⟩ := fields_structAt (fun a b c h => append_ext env W opts n a (some b) c h) _ _ _ (show StructAt 0 _ from ⟨_, rfl, .inl rfl⟩) hs
    cases s with
    | nil => cases h1
    | cons g gs => cases h1; exact ⟨f, gs, rfl, h2⟩

/-- **C62 (structs).** For a struct type with fields, nil options panic on every non-empty object. -/
theorem C62_struct {env : TypeEnv} {x : Ext} {opts : Option InitOptions} {depth : Nat} {t : TypeId} {d₀ d : Decoder} (hn : newDecoder env x.W opts depth (some t) = .ok d₀) (hs : Served x d₀ d)
    (hk : (env t).kind = .struct) (hu : TypeInfo.unmarshaler (env t) = false) (hf : (env t).fields ≠ []) (src : Bytes) {i j : Nat} {ms : List ((Nat × Nat) × JVal)} (hne : ms ≠ []) (dst : Block) :
    decode x d src (.ok (.obj i ms j)) (some dst) none = none := by
  obtain ⟨f, fs, h1, h2⟩ := struct_head hn hk hu hf
  rw [← served_frames hs] at h1
  obtain ⟨⟨⟨k, e⟩, v⟩, ms', rfl⟩ : ∃ m ms', ms = m :: ms' := by cases ms with
    | nil => exact absurd rfl hne
    | cons m ms' => exact ⟨m, ms', rfl⟩
  unfold decode
  simp only [h1]
  obtain ⟨fuel, hfuel⟩ : ∃ fuel, fuelFor { x := x, src := src, toks := flatten 0 (.obj i (((k, e), v) :: ms') j), frames := f :: fs, options := none, epoch := d.calls } = fuel + 2 :=
    ⟨_, (Nat.sub_add_cancel (Nat.le_trans (show 2 ≤ 1 * 3 by decide) (Nat.mul_le_mul (by omega) (by omega)))).symm⟩
  rw [hfuel]
  have hrun : ∀ (s : St), s.pc = .loop → s.ti = 0 → s.si = 0 →
      run { x := x, src := src, toks := flatten 0 (.obj i (((k, e), v) :: ms') j), frames := f :: fs, options := none, epoch := d.calls } (fuel + 2) s = .crash := by
    intro s hpc hti hsi
    simp only [run, step, hpc, hti, hsi, flatten, flattenM, List.getElem?_cons_zero, dispatch]
    rcases h2 with h2 | h2 <;>
    · simp only [onObject, h2, List.length_cons, Nat.succ_ne_zero, if_false, hpc, hti, hsi, Nat.zero_add]
      simp [onKey, h2]
  rw [hrun _ rfl rfl rfl]

/-- **C62 (`NewDecoder`).** With nil `InitOptions`, `NewDecoder` panics, or does exactly what it does with any other options. -/
theorem C62_new (env : TypeEnv) (W depth : Nat) (t : Option TypeId) :
    newDecoder env W none depth t = .panic ∨ ∀ o, newDecoder env W none depth t = newDecoder env W (some o) depth t := by
  by_cases h : appendType env W none depth [] t = .panic
  · left; simp only [newDecoder, h]
  · right
    intro o
    rcases append_nil (env := env) (W := W) (o := o) depth [] t with h1 | h1
    · simp only [newDecoder, h1]
    · exact absurd h1 h

/-- `NewDecoder` panics for nil options only if it has to decide what to do with a `string` option on a type that does not support it (or about an interface type with methods, as with any options). -/
theorem C62_new_panic {env : TypeEnv} {W depth : Nat} {t : TypeId} (h : newDecoder env W none depth (some t) = .panic) :
    ∃ c, Reach env t c ∧ (BadInterface env c ∨ BadTag env c) := by
  have h' := C20_outcomes (env := env) (W := W) (opts := none) (depth := depth) (t := t)
  rw [h] at h'
  rcases h' with ⟨c, h1, h2⟩ | ⟨-, c, h1, h2⟩
  · exact ⟨c, h1, .inl h2⟩
  · exact ⟨c, h1, .inr h2⟩

/-- `struct{X int; Y string}`: nil options panic on `{"X":1}`, and do no harm on `{}` and `null`. -/
example : (decode demoX (demoDec 4) b!"{\"X\":1}" (tokenize b!"{\"X\":1}") (some (zeros 24)) none).isNone = true ∧
    (decode demoX (demoDec 4) b!"{}" (tokenize b!"{}") (some (zeros 24)) none).isSome = true ∧
    (decode demoX (demoDec 4) b!"null" (tokenize b!"null") (some (zeros 24)) none).isSome = true := by decide +kernel

/-- `C62_struct` applies to it. -/
example : (demoEnv 4).kind = .struct ∧ TypeInfo.unmarshaler (demoEnv 4) = false ∧ (demoEnv 4).fields ≠ [] ∧ ∃ d, newDecoder demoEnv demoX.W none 20 (some 4) = .ok d :=
  ⟨rfl, rfl, (by intro h; cases h), _, rfl⟩

/-- `C62_structfree` applies to `map[string][16]int`. -/
example : (∀ t', Reach wideEnv 3 t' → (wideEnv t').kind ≠ .struct) ∧ ∃ d, newDecoder wideEnv 8 none 20 (some 3) = .ok d := by
  refine ⟨fun t' _ => ?_, _, rfl⟩
  match t' with
  | 0 | 1 | 2 | 3 | 4 | 5 | 6 => decide
  | _ + 7 => intro h; cases h

/-- A `string` option on a slice field: nil init options panic. -/
example : (match newDecoder (fun t => ([{ kind := .int .int, size := 8 }, { kind := .slice, size := 24, elem := 0 },
      { kind := .struct, size := 24, fields := [{ name := b!"S", type := 1, tag := b!"s,string", offset := 0 }] }] : List TypeInfo).getD t { kind := .other }) 8 none 20 (some 2) with
    | .panic => true
    | _ => false) = true := by decide +kernel

end Verif.Props

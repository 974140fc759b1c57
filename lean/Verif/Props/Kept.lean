import Verif.Proof.Kept
import Verif.Proof.Ignored
import Verif.Proof.Session
import Verif.Props.NewDecoder
/-!
# C71: whatever the input, the destination stays a value of its type
-/
namespace Verif.Props
open Verif Verif.Model Verif.Spec Verif.Big Verif.Proof Verif.Proof.Demo Verif.Proof.Reads

/-- **C71 for types without recursion**: the destination holds a value of its type; then whatever the input is (a document that does not fit the type, a text that is no JSON, any options, any history of the decoder), after a
call that returns, with or without an error, it again holds a value of its type: where the type has a string there is a string, where it has a pointer there is nil or a pointer to a value of its element type, where it has a slice
there are length, capacity and an array of that many values of its element type, and so on. -/
theorem C71_kept_partial {x : Ext} {ty : Ty} {d : Decoder} (hd : DecoderFor x ty d) {src : Bytes} {doc : Except (Nat × Nat) JVal} {mem : Block} {V : Val} (hV : Dest x ty mem V) {o : Option Options} {r : DecodeRes}
    (hr : decode x d src doc (some mem) o = some r) : ∃ mem' V', r.mem = some mem' ∧ Dest x ty mem' V' := by
  have hrdy := decoderFor_ready hd
  have hnil : NilDests d := by
    obtain ⟨env, opts, depth, t, d₀, -, h2, h3⟩ := hd
    exact served_nilDests (fresh_nilDests h2) h3
  obtain ⟨mem', h1, V', hV'⟩ := Kept.decode_fine hrdy hrdy.ok hnil ⟨V, hV.2⟩ hr
  obtain ⟨mem2, h2, hsame⟩ := C18_outside_partial hd hr
  rw [h1] at h2; cases h2
  refine ⟨mem', V', h1, ?_, hV'⟩
  have hle := Val.holds_len hV'
  have hnc : ¬ Covered x ty 0 (ty.size x) := fun hc => by
    have := (Ignored.cov_range ty hrdy.ok hc).2
    omega
  have h3 := hsame _ hnc
  rw [List.getElem?_eq_none (Nat.le_of_eq hV.1), List.getElem?_eq_none_iff] at h3
  omega

/-- A decoder used for a sequence of calls that all decode into the same variable. -/
inductive Refilled (x : Ext) (d₀ : Decoder) (mem₀ : Block) : Decoder → Block → Prop
  | start : Refilled x d₀ mem₀ d₀ mem₀
  | call {d : Decoder} {mem mem' : Block} {src : Bytes} {doc : Except (Nat × Nat) JVal} {o : Option Options} {r : DecodeRes} :
      Refilled x d₀ mem₀ d mem → decode x d src doc (some mem) o = some r → r.mem = some mem' → Refilled x d₀ mem₀ r.dec mem'

/-- **C71 along a history**: after any number of calls, with any inputs and outcomes, the variable holds a value of its type. -/
theorem C71_history_partial {x : Ext} {ty : Ty} {d₀ d : Decoder} (hd : DecoderFor x ty d₀) {mem₀ mem : Block} {V : Val} (hV : Dest x ty mem₀ V) (h : Refilled x d₀ mem₀ d mem) : ∃ V', Dest x ty mem V' := by
  suffices DecoderFor x ty d ∧ ∃ V', Dest x ty mem V' from this.2
  induction h with
  | start => exact ⟨hd, V, hV⟩
  | call _ hr hm ih =>
    obtain ⟨hd1, V1, hV1⟩ := ih
    refine ⟨?_, ?_⟩
    · obtain ⟨env, opts, depth, t, d', h1, h2, h3⟩ := hd1
      exact ⟨env, opts, depth, t, d', h1, h2, .call h3 hr⟩
    · obtain ⟨mem', V', h1, h2⟩ := C71_kept_partial hd1 hV1 hr
      rw [hm] at h1; cases h1
      exact ⟨V', h2⟩

/-- A case: `struct{X int; Y string}` slices after a document on which the code goes wrong (C26) and after one with an error inside. -/
example (mem : Block) (V : Val) (hV : Dest demoX (demoTree 5) mem V) {o : Option Options} {r : DecodeRes}
    (hr : decode demoX (demoDec 5) b!"[{\"Z\":{\"a\":1},\"X\":2},{\"Y\":3}]" (tokenize b!"[{\"Z\":{\"a\":1},\"X\":2},{\"Y\":3}]") (some mem) o = some r) : ∃ mem' V', r.mem = some mem' ∧ Dest demoX (demoTree 5) mem' V' :=
  C71_kept_partial (demo_for' (by decide)) hV hr

/-- The call returns with an error. -/
example : ∃ r, decode demoX (demoDec 5) b!"[{\"X\":1},{\"Y\":2}]" (tokenize b!"[{\"X\":1},{\"Y\":2}]") (some (zeros 24)) (some defaultOptions) = some r ∧ r.err = some .unexpectedValue := ⟨_, rfl, rfl⟩

/-! ## Recursive types -/

/-- The cell of a string header. -/
def IsString : Option Cell → Prop
  | some .zero | some (.str _) => True
  | _ => False

/-- A consequence of C71 in full, for all types: a field of type `string` of the destination still is a string after the call. -/
def StringsKept (x : Ext) : Prop :=
  ∀ (env : TypeEnv) (opts : Option InitOptions) (depth : Nat) (t : TypeId) (d₀ d : Decoder), Layout env x → newDecoder env x.W opts depth (some t) = .ok d₀ → Served x d₀ d →
    ∀ (src : Bytes) (v : JVal) (mem mem' : Block) (o : Option Options) (r : DecodeRes), Wf src v → mem = zeros (env t).size → decode x d src (.ok v) (some mem) o = some r → r.mem = some mem' →
    (env t).kind = .struct → ∀ f ∈ (env t).fields, (env f.type).kind = .string → IsString mem'[f.offset]?

/-- `int`, `string`, `Q = struct{X int; Next *Q}`, `*Q` and `struct{S string; R Q}`. -/
def confTypes : List TypeInfo := [
  { kind := .int .int, size := 8 },
  { kind := .string, size := 16 },
  { kind := .struct, size := 16, fields := [⟨b!"X", [], 0, 0⟩, ⟨b!"Next", [], 3, 8⟩] },
  { kind := .pointer, size := 8, elem := 2 },
  { kind := .struct, size := 32, fields := [⟨b!"S", [], 1, 0⟩, ⟨b!"R", [], 2, 16⟩] }]

/-- A program with these types. -/
def confEnv : TypeEnv := fun t => confTypes.getD t { kind := .other }

theorem conf_layout : Layout confEnv demoX := by
  intro t
  rcases t with _ | _ | _ | _ | _ | t
  · rfl
  · rfl
  · exact ⟨by decide, by simp [Layout.FieldsIn, confEnv, confTypes]⟩
  · rfl
  · exact ⟨by decide, by simp [Layout.FieldsIn, confEnv, confTypes]⟩
  · exact True.intro

/-- **C71 is false of the code for recursive types**: `struct{S string; R Q}` with `Q = struct{X int; Next *Q}` and the document `{"R":{"Next":{"X":1},"X":5}}`, decoded by a new decoder into a zero value without an error. After the recursion
the member `X` of `R` is written at the beginning of the whole struct: the data pointer of the string `S` becomes the integer 5. The program crashes, or reads foreign memory, when it uses `S`. -/
theorem C71_refuted : ¬ StringsKept demoX := by
  intro h
  obtain ⟨d, hd⟩ : ∃ d, newDecoder confEnv demoX.W (some defaultInitOptions) 20 (some 4) = .ok d := ⟨_, rfl⟩
  have hdoc := demo_doc (src := b!"{\"R\":{\"Next\":{\"X\":1},\"X\":5}}") (by decide)
  have hk : (match newDecoder confEnv demoX.W (some defaultInitOptions) 20 (some 4) with
      | .ok d => ((decode demoX d b!"{\"R\":{\"Next\":{\"X\":1},\"X\":5}}" (.ok (demoDoc b!"{\"R\":{\"Next\":{\"X\":1},\"X\":5}}")) (some (zeros 32)) (some defaultOptions)).bind fun r => if r.err = none then r.mem else none).bind (intAt 0)
      | _ => none) = some 5 := by decide +kernel
  rw [hd] at hk
  simp only [Option.bind_eq_some_iff] at hk
  obtain ⟨m, ⟨r, hr, hm⟩, h0⟩ := hk
  split at hm
  case isFalse => cases hm
  have := h confEnv _ 20 4 d d conf_layout hd .new _ _ _ _ _ _ hdoc.2 rfl hr hm rfl ⟨b!"S", [], 1, 0⟩ (by show _ ∈ [(⟨b!"S", [], 1, 0⟩ : FieldInfo), ⟨b!"R", [], 2, 16⟩]; simp) rfl
  have this : IsString m[0]? := this
  unfold intAt at h0
  split at h0 <;> simp_all [IsString]

end Verif.Props

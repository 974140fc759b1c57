import Verif.Props.Decode
import Verif.Proof.Judge
/-!
# C66: whether `Decode` fails does not depend on what the destination contains
-/
namespace Verif.Props
open Verif Verif.Model Verif.Spec Verif.Proof Verif.Proof.Demo

/-- **C66**: two calls of the same decoder (new or used, of any type), with the same document and options and with any two destinations, return the same index and the same error if neither panics, and agree in
whether there is an error. Nothing is assumed of the document, the type or the contents of the destinations. -/
theorem C66_verdict {x : Ext} {d : Decoder} (hm : MethodsJudge x d) {src : Bytes} {doc : Except (Nat × Nat) JVal} {o : Option Options} {m m' : Block} {r r' : DecodeRes}
    (h : decode x d src doc (some m) o = some r) (h' : decode x d src doc (some m') o = some r') : r.errIndex = r'.errIndex ∧ r.err = r'.err :=
  let q := Proof.Judge.decode_C ⟨rfl, rfl, fun _ => ⟨rfl, rfl⟩⟩ hm h h'
  ⟨q.1, q.2.1⟩

/-- **C66 for sequences of calls**: the same sequence of documents and options decoded by one decoder into one list of destinations and, starting from the same decoder, into another list of destinations: the calls
return the same indexes and errors. So what the destinations of earlier calls contained does not influence the errors of later calls either. -/
theorem C66_session {x : Ext} {d : Decoder} (hm : MethodsJudge x d) {cs : List Call} {ms ms' : List Block} (hl : ms.length = ms'.length) {l l' : List (Int × Option Err)}
    (h : verdicts x d cs ms = some l) (h' : verdicts x d cs ms' = some l') : l = l' :=
  Proof.Judge.verdicts_C cs ms ms' ⟨rfl, rfl, fun _ => ⟨rfl, rfl⟩⟩ hm hl h h'

/-- **C66 for `Unmarshal`** into a variable of a type that is not an interface type: the returned error does not depend on the value of the variable. -/
theorem C66_unmarshal {x : Ext} {env : TypeEnv} {depth : Nat} {t : Option TypeId} (hm : ∀ d, newDecoder env x.W (some defaultInitOptions) depth t = .ok d → MethodsJudge x d) {src : Bytes}
    {doc : Except (Nat × Nat) JVal} {m m' : Block} {e e' : Option Err} {b b' : Option Block} (h : unmarshal x env depth t src doc (some m) = .ret e b)
    (h' : unmarshal x env depth t src doc (some m') = .ret e' b') : e = e' := by
  simp only [unmarshal] at h h'
  cases hd : newDecoder env x.W (some defaultInitOptions) depth t with
  | diverges => rw [hd] at h; cases h
  | panic => rw [hd] at h; cases h
  | err e0 => rw [hd] at h h'; cases h; cases h'; rfl
  | ok d =>
    rw [hd] at h h'
    simp only [] at h h'
    cases h1 : decode x d src doc (some m) (some defaultOptions) with
    | none => rw [h1] at h; cases h
    | some r =>
    cases h2 : decode x d src doc (some m') (some defaultOptions) with
    | none => rw [h2] at h'; cases h'
    | some r' =>
      rw [h1] at h; rw [h2] at h'
      have he := (C66_verdict (hm d hd) h1 h2).2
      simp only [he] at h h'
      split at h
      · rename_i hs
        rw [if_pos hs] at h'
        cases h; cases h'; rfl
      · rename_i hs
        rw [if_neg hs] at h'
        cases h; cases h'; rfl

/-- The methods of the example program satisfy the assumption, for all its types. -/
theorem demo_judge (d : Decoder) : MethodsJudge demoX d := fun _ _ _ _ => ⟨fun _ old old' b => by simp only [demoX]; split <;> rfl, fun _ old old' b => by simp only [demoX]; split <;> rfl⟩

/-- `[]struct{X int; Y string}`: a nil slice and a slice of length 1 and capacity 2 with `[{"X":1},{"Y":2},{"X":3}]`. -/
example : ∃ r r', decode demoX (demoDec 5) b!"[{\"X\":1},{\"Y\":2},{\"X\":3}]" (tokenize b!"[{\"X\":1},{\"Y\":2},{\"X\":3}]") (some (zeros 24)) (some defaultOptions) = some r ∧
    decode demoX (demoDec 5) b!"[{\"X\":1},{\"Y\":2},{\"X\":3}]" (tokenize b!"[{\"X\":1},{\"Y\":2},{\"X\":3}]") (some (seg 24 (.slice 1 2 (seg 8 (.int 7) ++ zeros 40)))) (some defaultOptions) = some r' ∧
    r.errIndex = 14 ∧ r.errIndex = r'.errIndex ∧ r.err = r'.err := by
  obtain ⟨r, h, hi⟩ : ∃ r, decode demoX (demoDec 5) b!"[{\"X\":1},{\"Y\":2},{\"X\":3}]" (tokenize b!"[{\"X\":1},{\"Y\":2},{\"X\":3}]") (some (zeros 24)) (some defaultOptions) = some r ∧ r.errIndex = 14 := ⟨_, rfl, rfl⟩
  obtain ⟨r', h'⟩ : ∃ r', decode demoX (demoDec 5) b!"[{\"X\":1},{\"Y\":2},{\"X\":3}]" (tokenize b!"[{\"X\":1},{\"Y\":2},{\"X\":3}]") (some (seg 24 (.slice 1 2 (seg 8 (.int 7) ++ zeros 40)))) (some defaultOptions) = some r' :=
    ⟨_, rfl⟩
  exact ⟨r, r', h, h', hi, C66_verdict (demo_judge _) h h'⟩

/-- Three calls of one decoder of `struct{X int; Y string}` (one fails in the tokenizer, one in the decoder, one succeeds) into zero destinations and into others. -/
example : ∃ l l', verdicts demoX (demoDec 4) [⟨b!"{", tokenize b!"{", some defaultOptions⟩, ⟨b!"{\"Y\":2}", tokenize b!"{\"Y\":2}", some defaultOptions⟩, ⟨b!"{\"Y\":\"a\"}", tokenize b!"{\"Y\":\"a\"}", some defaultOptions⟩]
      [zeros 24, zeros 24, zeros 24] = some l ∧
    verdicts demoX (demoDec 4) [⟨b!"{", tokenize b!"{", some defaultOptions⟩, ⟨b!"{\"Y\":2}", tokenize b!"{\"Y\":2}", some defaultOptions⟩, ⟨b!"{\"Y\":\"a\"}", tokenize b!"{\"Y\":\"a\"}", some defaultOptions⟩]
      [seg 8 (.int 7) ++ zeros 16, seg 8 (.int 8) ++ zeros 16, seg 8 (.int 9) ++ zeros 16] = some l' ∧ l.length = 3 ∧ l = l' := by
  obtain ⟨l, h, hl⟩ : ∃ l, verdicts demoX (demoDec 4) [⟨b!"{", tokenize b!"{", some defaultOptions⟩, ⟨b!"{\"Y\":2}", tokenize b!"{\"Y\":2}", some defaultOptions⟩, ⟨b!"{\"Y\":\"a\"}", tokenize b!"{\"Y\":\"a\"}", some defaultOptions⟩]
      [zeros 24, zeros 24, zeros 24] = some l ∧ l.length = 3 := ⟨_, rfl, rfl⟩
  obtain ⟨l', h'⟩ : ∃ l', verdicts demoX (demoDec 4) [⟨b!"{", tokenize b!"{", some defaultOptions⟩, ⟨b!"{\"Y\":2}", tokenize b!"{\"Y\":2}", some defaultOptions⟩, ⟨b!"{\"Y\":\"a\"}", tokenize b!"{\"Y\":\"a\"}", some defaultOptions⟩]
      [seg 8 (.int 7) ++ zeros 16, seg 8 (.int 8) ++ zeros 16, seg 8 (.int 9) ++ zeros 16] = some l' := ⟨_, rfl⟩
  exact ⟨l, l', h, h', hl, C66_session (demo_judge _) rfl h h'⟩

/-- `Unmarshal` into two variables of the type `struct{X int; Y string}`. -/
example : ∃ e e' b b', unmarshal demoX demoEnv 20 (some 4) b!"{\"X\":1,\"Y\":[]}" (tokenize b!"{\"X\":1,\"Y\":[]}") (some (zeros 24)) = .ret e b ∧
    unmarshal demoX demoEnv 20 (some 4) b!"{\"X\":1,\"Y\":[]}" (tokenize b!"{\"X\":1,\"Y\":[]}") (some (seg 8 (.int 5) ++ zeros 16)) = .ret e' b' ∧ e = some .unexpectedValue ∧ e = e' := by
  obtain ⟨e, b, h, he⟩ : ∃ e b, unmarshal demoX demoEnv 20 (some 4) b!"{\"X\":1,\"Y\":[]}" (tokenize b!"{\"X\":1,\"Y\":[]}") (some (zeros 24)) = .ret e b ∧ e = some .unexpectedValue := ⟨_, _, rfl, rfl⟩
  obtain ⟨e', b', h'⟩ : ∃ e b, unmarshal demoX demoEnv 20 (some 4) b!"{\"X\":1,\"Y\":[]}" (tokenize b!"{\"X\":1,\"Y\":[]}") (some (seg 8 (.int 5) ++ zeros 16)) = .ret e b := ⟨_, _, rfl⟩
  exact ⟨e, e', b, b', h, h', he, C66_unmarshal (fun d _ => demo_judge d) h h'⟩

/-- The assumption on the methods is needed: a method that fails if the receiver is not zero makes the call fail or not. -/
theorem C66_needed : ∃ x : Ext, ¬ ∀ (d : Decoder) (src : Bytes) (doc : Except (Nat × Nat) JVal) (o : Option Options) (m m' : Block) (r r' : DecodeRes),
    decode x d src doc (some m) o = some r → decode x d src doc (some m') o = some r' → r.err = r'.err := by
  refine ⟨{ demoX with unmarshalJSON := fun _ old t => (old, match old with | .zero :: _ => none | _ => some 7) }, fun h => ?_⟩
  let f : Frame := { type := .jsonUnmarshaler, size := 1, rtype := some 0, ptrImpl := true }
  have := h ⟨[f], fun _ => {}, 0⟩ b!"1" (tokenize b!"1") (some defaultOptions) (zeros 1) [.bool true] _ _ rfl rfl
  cases this

end Verif.Props

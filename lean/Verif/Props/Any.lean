import Verif.Proof.AnyTree
import Verif.Proof.Unique
import Verif.Proof.Demo
/-!
# C17: decoding into `any`
-/
namespace Verif.Props
open Verif.Model Verif.Big Verif.Spec Verif.Proof Verif.Proof.Outcome Verif.Proof.Demo

/-- A number literal that is not acceptable as `float64` makes decoding into `any` fail: `strconv`'s error for a lone number, `ErrUnexpectedValue` inside an array or object. -/
def AnyError (x : Ext) (src : Bytes) : JVal → Err → Prop
  | .num _ i e, er => ∃ n, x.parseFloat64 (text src i e) = .error n ∧ er = .parse n
  | _, er => er = .unexpectedValue

/-- **C17**, anywhere in a document: a value read into an `any` yields the tree of the value (whatever was there before) if every number in it can be parsed, and an error at the
value otherwise, with the `any` left alone. -/
theorem C17_inside {x : Ext} {src : Bytes} {v : JVal} (hw : Wf src v) (o : Option Options) (V : Val) :
    (NumbersParse (anyParser x v) src v → ∃ a, decV x src o .any v V = .ok (.any a) ∧ AnyTree (anyParser x v) src v a) ∧
    (¬ NumbersParse (anyParser x v) src v → ∃ e, decV x src o .any v V = .err v.index e V ∧ AnyError x src v e) := by
  cases v with
  | null i e => exact ⟨fun _ => ⟨_, rfl, rfl⟩, fun h => (h trivial).elim⟩
  | bool b i e => exact ⟨fun _ => ⟨_, rfl, rfl⟩, fun h => (h trivial).elim⟩
  | num b i e =>
    have hs : Model.slice src i e = some (text src i e) := Doc.slice_text hw.1 hw.2.1
    constructor
    · rintro ⟨f, hf⟩
      refine ⟨.num f, ?_, f, hf, rfl⟩
      change x.parseFloat64 _ = _ at hf
      cases b <;> simp only [decV, leafV, leaf, hs, Ty.etype, onInteger, onNumber, hf] <;> rfl
    · intro h
      cases hf : x.parseFloat64 (text src i e) with
      | ok f => exact (h ⟨f, hf⟩).elim
      | error n =>
        refine ⟨.parse n, ?_, n, hf, rfl⟩
        cases b <;> simp only [decV, leafV, leaf, hs, Ty.etype, onInteger, onNumber, hf] <;> rfl
  | str i e =>
    refine ⟨fun _ => ?_, fun h => (h trivial).elim⟩
    obtain ⟨out, hd⟩ := hw.2.2
    obtain ⟨s, hs⟩ := Safe.unescStr_some x hd
    refine ⟨.str s, ?_, s, ?_, rfl⟩
    · simp only [decV, leafV, leaf, Doc.slice_inner hw, Ty.etype, onString, hs]; rfl
    · rw [AnyTree.unesc_bytes hd hs]; exact hd
  | arr i es k =>
    obtain ⟨h1, h2⟩ := AnyTree.anyOf_reads (x := x) hw
    constructor
    · intro h
      obtain ⟨a, ha, ht⟩ := h1 h
      exact ⟨a, by simp only [decV, anyV, ha], ht⟩
    · intro h
      obtain ⟨n, hn⟩ := h2 h
      exact ⟨.unexpectedValue, by simp only [decV, anyV, hn], rfl⟩
  | obj i ms k =>
    obtain ⟨h1, h2⟩ := AnyTree.anyOf_reads (x := x) hw
    constructor
    · intro h
      obtain ⟨a, ha, ht⟩ := h1 h
      exact ⟨a, by simp only [decV, anyV, ha], ht⟩
    · intro h
      obtain ⟨n, hn⟩ := h2 h
      exact ⟨.unexpectedValue, by simp only [decV, anyV, hn], rfl⟩

/-- **C17**: `Decode` into an `any`, with any decoder history, previous value and options. -/
theorem C17_any {x : Ext} {d : Decoder} (hd : DecoderFor x .any d) {src : Bytes} {v : JVal} (hw : Wf src v) {mem : Block} {V : Val} (hm : Dest x .any mem V) (o : Option Options) :
    (NumbersParse (anyParser x v) src v → ∃ a, Returns x .any (decode x d src (.ok v) (some mem) o) (-1) none (.any a) ∧ AnyTree (anyParser x v) src v a) ∧
    (¬ NumbersParse (anyParser x v) src v → ∃ e, Returns x .any (decode x d src (.ok v) (some mem) o) v.index (some e) V ∧ AnyError x src v e) := by
  obtain ⟨h1, h2⟩ := C17_inside (x := x) hw o V
  constructor
  · intro h
    obtain ⟨a, ha, ht⟩ := h1 h
    exact ⟨a, returns_ok hd hm trivial ha, ht⟩
  · intro h
    obtain ⟨e, he, ht⟩ := h2 h
    exact ⟨e, returns_err hd hm trivial he, ht⟩

/-- The hypotheses are met, by a document with a repeated key and escapes and by one with a number that is out of range. -/
example : ∃ a, Returns demoX .any (decode demoX (demoDec 3) b!"{\"a\":[1,{}],\"b\\n\":null,\"\\u0061\":\"x\"}" (tokenize b!"{\"a\":[1,{}],\"b\\n\":null,\"\\u0061\":\"x\"}") (some (zeros 16)) none) (-1) none (.any a) ∧
    AnyTree demoFloat b!"{\"a\":[1,{}],\"b\\n\":null,\"\\u0061\":\"x\"}" (demoDoc b!"{\"a\":[1,{}],\"b\\n\":null,\"\\u0061\":\"x\"}") a := by
  obtain ⟨hd, hm, ht, hw, -⟩ := demo_case (t := 3) (src := b!"{\"a\":[1,{}],\"b\\n\":null,\"\\u0061\":\"x\"}") (by decide) (by decide +kernel) (o := defaultOptions) (by decide +kernel)
  rw [ht]
  exact (C17_any hd hw hm none).1 ⟨⟨⟨1, rfl⟩, trivial, trivial⟩, trivial, trivial, trivial⟩

example : ∃ e, Returns demoX .any (decode demoX (demoDec 3) b!" [1,1e999]" (tokenize b!" [1,1e999]") (some (zeros 16)) none) 1 (some e) (.any .null) := by
  obtain ⟨hd, hm, ht, hw, -⟩ := demo_case (t := 3) (src := b!" [1,1e999]") (by decide) (by decide +kernel) (o := defaultOptions) (by decide +kernel)
  rw [ht]
  obtain ⟨e, he, -⟩ := (C17_any hd hw hm none).2 (fun ⟨_, ⟨f, hf⟩, _⟩ => by cases hf)
  exact ⟨e, he⟩

end Verif.Props

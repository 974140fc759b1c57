import Verif.Proof.Encode
import Verif.Props.Means
/-!
# C54: decoding the encoding of a value gives the value back

`encode` (`Spec/Encode.lean`) writes a Go value as JSON in the style of `json.Marshal`, `IsDoc` (`Spec/Json.lean`) is the grammar of JSON texts, `SameVal` (`Spec/Same.lean`) is equality of Go values.
-/
namespace Verif.Props
open Verif.Model Verif.Big Verif.Spec Verif.Proof Verif.Proof.Demo Verif.Proof.Outcome Verif.Proof.Means

/-- A text is a JSON document in at most one way: the tokens the decoder gets are determined by the text. -/
theorem json_unique {src : Bytes} {v v' : JVal} (h : IsDoc src v) (h' : IsDoc src v') : v = v' := Json.doc_unique h h'

/-- The tree of every JSON document satisfies `Wf`, the hypothesis of the other theorems. -/
theorem json_wf {src : Bytes} {v : JVal} (h : IsDoc src v) : Wf src v := Json.doc_wf h

/-- The parser that makes the documents of the examples finds the tree of every JSON document. -/
theorem json_tokenize {src : Bytes} {v : JVal} (h : IsDoc src v) : tokenize src = .ok v := by rw [tokenize, Json.parse_doc h]

/-- A document means at most one value. -/
theorem means_unique {x : Ext} {src : Bytes} {o : Options} {ty : Ty} {v : JVal} {V V' : Val} (h : Means x src o ty v V) (h' : Means x src o ty v V') : SameVal V V' := Same.unique ty v V V' h h'

/-- What is written is a JSON document. -/
theorem C54_json {x : Ext} {fmt : FKind → Flt → Bytes} {ty : Ty} {V : Val} (h : CanEncode x fmt ty V) (hn : NamesOK defaultOptions ty) : ∃ v, IsDoc (encode fmt ty V) v := by
  obtain ⟨v, h1, -⟩ := Encode.encode_doc (o := defaultOptions) h hn
  exact ⟨v, h1⟩

/-- The full statement of C54: every value that can be written is read back into a fresh variable. -/
def RoundTrips (x : Ext) (fmt : FKind → Flt → Bytes) : Prop :=
  ∀ (ty : Ty) (d : Decoder) (V : Val) (o : Options) (v : JVal), DecoderFor x ty d → CanEncode x fmt ty V → NamesOK o ty → IsDoc (encode fmt ty V) v →
    ∃ V', Returns x ty (decode x d (encode fmt ty V) (.ok v) (some (zeros (ty.size x))) (some o)) (-1) none V' ∧ SameVal V V'

/-- **C54**, for types without pointers and `struct{}` inside: whatever the options and the history of the decoder, the value is read back. -/
theorem C54_roundtrip_partial {x : Ext} (hx : FloatContract x) (hf : x.tokFloat64 = x.parseFloat64) {fmt : FKind → Flt → Bytes} {ty : Ty} (hty : PlainDoc x ty) {d : Decoder} (hd : DecoderFor x ty d) {V : Val}
    (h : CanEncode x fmt ty V) {o : Options} (hn : NamesOK o ty) {v : JVal} (hv : IsDoc (encode fmt ty V) v) :
    ∃ V', Returns x ty (decode x d (encode fmt ty V) (.ok v) (some (zeros (ty.size x))) (some o)) (-1) none V' ∧ SameVal V V' := by
  obtain ⟨v', h1, h2, h3, -, h4⟩ := Encode.encode_doc (o := o) h hn
  cases json_unique hv h1
  obtain ⟨V', g1, g2⟩ := C46_decodes_partial hx hf hd (json_wf hv) h4 (h3 hty) h2
  exact ⟨V', g1, means_unique h2 g2⟩

/-- **C54 is false of the code** for pointers inside: `{A: &1, B: 2}` of the type `struct{A *int; B int}` is written as `{"A":1,"B":2}`, which is not read. -/
theorem C54_refuted (fmt : FKind → Flt → Bytes) : ¬ RoundTrips demoX fmt := by
  intro h
  have hd : DecoderFor demoX (demoTree 8) (demoDec 8) := demo_for' (t := 8) (by decide)
  have hr : ∀ i, i = 1 ∨ i = 2 → InRange true .int i := by rintro i (rfl | rfl) <;> simp [InRange, IKind.signed, IKind.bits]
  have hc : CanEncode demoX fmt (.struct 16 [(b!"A", 0, .ptr (.scalar (.int .int))), (b!"B", 8, .scalar (.int .int))]) (.struct [.ptr (.int 1), .int 2]) :=
    ⟨_, rfl, _, _, rfl, .inr ⟨_, rfl, by show intText 1 ≠ _; decide, _, rfl, hr 1 (.inl rfl)⟩, _, _, rfl, ⟨_, rfl, hr 2 (.inr rfl)⟩, rfl⟩
  have hn : NamesOK defaultOptions (.struct 16 [(b!"A", 0, .ptr (.scalar (.int .int))), (b!"B", 8, .scalar (.int .int))]) :=
    ⟨by decide, (fun h => by cases h), trivial, (fun h => by cases h), trivial, trivial⟩
  obtain ⟨v, hv⟩ := C54_json hc hn
  have he : encode fmt (.struct 16 [(b!"A", 0, .ptr (.scalar (.int .int))), (b!"B", 8, .scalar (.int .int))]) (.struct [.ptr (.int 1), .int 2]) = b!"{\"A\":1,\"B\":2}" := by
    show braces [(escape b!"A", intText 1), (escape b!"B", intText 2)] = _
    decide
  obtain ⟨V', ⟨r, m, h1, -, h3, -⟩, -⟩ := h _ _ _ defaultOptions v hd hc hn hv
  change decode demoX (demoDec 8) (encode fmt (.struct 16 [(b!"A", 0, .ptr (.scalar (.int .int))), (b!"B", 8, .scalar (.int .int))]) (.struct [.ptr (.int 1), .int 2])) (.ok v) (some (zeros 16)) (some defaultOptions) = _ at h1
  rw [he] at h1 hv
  have hv' := json_tokenize hv
  have hdoc := demo_doc (src := b!"{\"A\":1,\"B\":2}") (by decide)
  rw [hdoc.1] at hv'
  cases hv'
  have : ((decode demoX (demoDec 8) b!"{\"A\":1,\"B\":2}" (.ok (.obj 0 [((1, 4), .num true 5 6), ((7, 10), .num true 11 12)] 12)) (some (zeros 16)) (some defaultOptions)).map (·.err)) = some (some .unexpectedValue) := by decide +kernel
  change decode demoX (demoDec 8) b!"{\"A\":1,\"B\":2}" (.ok (.obj 0 [((1, 4), .num true 5 6), ((7, 10), .num true 11 12)] 12)) (some (zeros 16)) (some defaultOptions) = _ at h1
  rw [h1] at this
  simp only [Option.map_some, Option.some.injEq] at this
  rw [h3] at this; cases this

/-- `[{-7, "a\"b"}]` of the type `[]struct{X int; Y string}`. -/
example : ∃ v V', IsDoc b!"[{\"X\":-7,\"Y\":\"a\\\"b\"}]" v ∧
    Returns demoX (demoTree 5) (decode demoX (demoDec 5) b!"[{\"X\":-7,\"Y\":\"a\\\"b\"}]" (.ok v) (some (zeros 24)) (some defaultOptions)) (-1) none V' ∧
    SameVal (.slice [.struct [.int (-7), .str ⟨b!"a\"b", false⟩]] []) V' := by
  have hd : DecoderFor demoX (demoTree 5) (demoDec 5) := demo_for' (t := 5) (by decide)
  have hc : CanEncode demoX (fun _ _ => []) (demoTree 5) (.slice [.struct [.int (-7), .str ⟨b!"a\"b", false⟩]] []) := by
    refine .inr ⟨_, rfl, fun W hW => ?_⟩
    rw [List.mem_singleton.1 hW]
    exact ⟨_, rfl, _, _, rfl, ⟨_, rfl, by show InRange true .int (-7); simp [InRange, IKind.signed, IKind.bits]⟩, _, _, rfl, ⟨_, rfl⟩, rfl⟩
  have hn : NamesOK defaultOptions (demoTree 5) := by
    show NamesOK defaultOptions (.slice (.struct 24 [(b!"X", 0, .scalar (.int .int)), (b!"Y", 8, .scalar .str)]))
    exact ⟨by decide, (fun h => by cases h), trivial, (fun h => by cases h), trivial, trivial⟩
  have he : encode (fun _ _ => []) (demoTree 5) (.slice [.struct [.int (-7), .str ⟨b!"a\"b", false⟩]] []) = b!"[{\"X\":-7,\"Y\":\"a\\\"b\"}]" := by
    show brackets [braces [(escape b!"X", intText (-7)), (escape b!"Y", quote (escape b!"a\"b"))]] = _
    decide
  obtain ⟨v, hv⟩ := C54_json hc hn
  obtain ⟨V', h1, h2⟩ := C54_roundtrip_partial demo_floats rfl (ty := demoTree 5) rfl hd hc hn hv
  rw [he] at hv h1
  exact ⟨v, V', hv, h1, h2⟩

end Verif.Props

import Verif.Proof.RightMeans
import Verif.Proof.RightB
import Verif.Proof.OnceB
import Verif.Props.RoundTrip
/-!
# Pointers and `struct{}` inside a destination, where they work: C35, C36

`RightDoc x src o ty v` (`Spec/Right.lean`): every pointer inside the destination gets `null`, or a value at the right end of an array or of the document; an object for a `struct{}` is at the right end of the document; a value of an
unknown key contains no object. It contains `TameDoc`.
-/
namespace Verif.Props
open Verif.Model Verif.Spec Verif.Big Verif.Proof Verif.Proof.Reads Verif.Proof.Demo

/-- **C35 and C36, partial** (missing: values for pointers and objects for `struct{}` elsewhere in the document, where the claims are false of the code): on `RightDoc` documents `Decode` computes the recursive function `decPV`, in which a
pointer gets a new zero value which is decoded into, and `struct{}` accepts every object; after every history and with every old value. -/
theorem C35_reading_partial {x : Ext} {ty : Ty} {d : Decoder} (hd : DecoderFor x ty d) {src : Bytes} {v : JVal} (hw : Wf src v) {mem : Block} {V : Val} (hm : Dest x ty mem V)
    {o : Option Options} (hR : RightDoc x src o ty v) :
    match decPV x src o ty v V with
    | .ok V' => Returns x ty (decode x d src (.ok v) (some mem) o) (-1) none V'
    | .err i e V' => Returns x ty (decode x d src (.ok v) (some mem) o) i (some e) V'
    | .crash => decode x d src (.ok v) (some mem) o = none
    | .unsup => False := by
  have hr := decoderFor_ready hd
  have h := Right.decode_rightV hr (o := o) hm.1 hm.2 hw hR
  have hne := Right.decPV_ne hr.ok (o := o) hm.2 hR
  cases hc : decPV x src o ty v V with
  | ok V' =>
    rw [hc] at h
    obtain ⟨r, m, h1, h2, h3, h4, h5, h6⟩ := h
    exact ⟨r, m, h1, h2, h3, h4, h5.trans hm.1, h6⟩
  | err i e V' =>
    rw [hc] at h
    obtain ⟨r, m, h1, h2, h3, h4, h5, h6⟩ := h
    exact ⟨r, m, h1, h2, h3, h4, h5.trans hm.1, h6⟩
  | crash => rw [hc] at h; exact h
  | unsup => exact hne hc

/-- A call that succeeds. -/
theorem right_inv {x : Ext} {ty : Ty} {d : Decoder} (hd : DecoderFor x ty d) {src : Bytes} {v : JVal} (hw : Wf src v) {mem : Block} {V : Val} (hm : Dest x ty mem V)
    {o : Option Options} (hR : RightDoc x src o ty v) {r : DecodeRes} (hr : decode x d src (.ok v) (some mem) o = some r) (he : r.err = none) :
    ∃ V' mem', decPV x src o ty v V = .ok V' ∧ r.errIndex = -1 ∧ r.mem = some mem' ∧ Dest x ty mem' V' := by
  have := C35_reading_partial hd hw hm hR
  cases hv : decPV x src o ty v V with
  | ok V' =>
    rw [hv] at this
    obtain ⟨r', m, h1, h2, h3, h4, h5⟩ := this
    rw [hr] at h1; cases h1
    exact ⟨V', m, rfl, h2, h4, h5⟩
  | err i e V' =>
    rw [hv] at this
    obtain ⟨r', m, h1, h2, h3, -⟩ := this
    rw [hr] at h1; cases h1
    rw [he] at h3; cases h3
  | crash => rw [hv] at this; rw [hr] at this; cases this
  | unsup => rw [hv] at this; exact this.elim

/-- A reading that succeeds. -/
theorem right_returns {x : Ext} {ty : Ty} {d : Decoder} (hd : DecoderFor x ty d) {src : Bytes} {v : JVal} (hw : Wf src v) {mem : Block} {V V' : Val} (hm : Dest x ty mem V)
    {o : Option Options} (hR : RightDoc x src o ty v) (h : decPV x src o ty v V = .ok V') : Returns x ty (decode x d src (.ok v) (some mem) o) (-1) none V' := by
  have := C35_reading_partial hd hw hm hR
  rw [h] at this
  exact this

/-- Success, if and only if the reading succeeds. -/
theorem right_ok_iff {x : Ext} {ty : Ty} {d : Decoder} (hd : DecoderFor x ty d) {src : Bytes} {v : JVal} (hw : Wf src v) {mem : Block} {V V' : Val} (hm : Dest x ty mem V)
    {o : Option Options} (hR : RightDoc x src o ty v) : Returns x ty (decode x d src (.ok v) (some mem) o) (-1) none V' ↔ decPV x src o ty v V = .ok V' := by
  refine ⟨fun h => ?_, right_returns hd hw hm hR⟩
  obtain ⟨r, m, h1, h2, h3, h4, h5⟩ := id h
  obtain ⟨V2, -, g1, -⟩ := right_inv hd hw hm hR h1 h3
  rw [g1, (Unique.returns_unique h (right_returns hd hw hm hR g1)).2.2]

/-- The full statement of C25 (and, with pointers, of C35 and C36): on every document, `Decode` computes the recursive function `decPV` of type, document and old value. -/
def ReadsByType (x : Ext) (P : Ty → Prop) : Prop :=
  ∀ (ty : Ty) (d : Decoder) (src : Bytes) (v : JVal) (mem : Block) (V : Val) (o : Options), P ty → DecoderFor x ty d → Wf src v → Dest x ty mem V →
    match decPV x src (some o) ty v V with
    | .ok V' => Returns x ty (decode x d src (.ok v) (some mem) (some o)) (-1) none V'
    | .err i e V' => Returns x ty (decode x d src (.ok v) (some mem) (some o)) i (some e) V'
    | .crash => decode x d src (.ok v) (some mem) (some o) = none
    | .unsup => True

/-- **C25 is false of the code**, even for structs of integers: `struct{In struct{E struct{}; B int}; C int}` and the document `{"In":{"E":{},"B":"x"}}`, the value for `B` of which is wrong. The object for `E` ends the inner struct (C36), so
the wrong value is not noticed: `Decode` succeeds where the type-directed reading fails. -/
theorem C25_refuted : ¬ ReadsByType demoX (fun ty => ty = .struct 16 [(b!"In", 0, .struct 8 [(b!"E", 0, .emptyStruct), (b!"B", 0, .scalar (.int .int))]), (b!"C", 8, .scalar (.int .int))]) := by
  intro h
  have hd : DecoderFor demoX (.struct 16 [(b!"In", 0, .struct 8 [(b!"E", 0, .emptyStruct), (b!"B", 0, .scalar (.int .int))]), (b!"C", 8, .scalar (.int .int))]) (demoDec 63) := demo_for' (t := 63) (by decide)
  have hdoc := demo_doc (src := b!"{\"In\":{\"E\":{},\"B\":\"x\"}}") (by decide)
  have h1 := h _ _ _ _ _ _ defaultOptions rfl hd hdoc.2 (zero_dest hd)
  have h2 : (decode demoX (demoDec 63) b!"{\"In\":{\"E\":{},\"B\":\"x\"}}" (.ok (demoDoc b!"{\"In\":{\"E\":{},\"B\":\"x\"}}")) (some (zeros 16)) (some defaultOptions)).map (fun r => r.errIndex) = some (-1) := by
    decide +kernel
  have h3 : (match decPV demoX b!"{\"In\":{\"E\":{},\"B\":\"x\"}}" (some defaultOptions) (.struct 16 [(b!"In", 0, .struct 8 [(b!"E", 0, .emptyStruct), (b!"B", 0, .scalar (.int .int))]), (b!"C", 8, .scalar (.int .int))])
      (demoDoc b!"{\"In\":{\"E\":{},\"B\":\"x\"}}") (zeroV demoX (.struct 16 [(b!"In", 0, .struct 8 [(b!"E", 0, .emptyStruct), (b!"B", 0, .scalar (.int .int))]), (b!"C", 8, .scalar (.int .int))])) with
      | .err i _ _ => i | _ => 0) = 18 := by decide +kernel
  revert h1 h3
  generalize decPV demoX _ _ _ _ _ = a
  intro h1 h3
  cases a with
  | err i e V' =>
    obtain ⟨r, m, g1, g2, -⟩ := h1
    have h4 : (some r).map (fun r => r.errIndex) = some (-1) := by rw [← g1]; exact h2
    simp only [] at h3
    simp [g2, h3] at h4
  | _ => simp at h3

/-- The documents within `TameDoc`, on which the other theorems about all types are proved, are among them. -/
theorem C35_contains {x : Ext} {src : Bytes} {o : Option Options} {ty : Ty} {v : JVal} (h : TameDoc x src o ty v) : RightDoc x src o ty v := Right.tameDoc_right ty v h

/-- **C24 on `RightDoc`**: `Decode` returns. -/
theorem C24_right_partial {x : Ext} {ty : Ty} {d : Decoder} (hd : DecoderFor x ty d) {src : Bytes} {v : JVal} (hw : Wf src v) {mem : Block} {V : Val} (hm : Dest x ty mem V)
    {o : Options} (hR : RightDoc x src (some o) ty v) (hc : ty.callable = true) (hq : ty.noQuotedNum = true ∨ noEmptyStr v = true) :
    ∃ i e V', Returns x ty (decode x d src (.ok v) (some mem) (some o)) i e V' := by
  have h := C35_reading_partial hd hw hm hR
  have hs := Right.decPV_safe (x := x) (o := o) ty (Safe.holds_typed ty hm.2) hw hc hq
  cases hr : decPV x src (some o) ty v V <;> rw [hr] at h hs
  · exact ⟨_, _, _, h⟩
  · exact ⟨_, _, _, h⟩
  · exact hs.elim
  · exact h.elim

/-- **C46 on `RightDoc`**, without the literal `-0`: a document that has a meaning for the type, pointers and all, is decoded to it. -/
theorem C46_right_partial {x : Ext} (hx : FloatContract x) (hf : x.tokFloat64 = x.parseFloat64) {ty : Ty} {d : Decoder} (hd : DecoderFor x ty d) {src : Bytes} {v : JVal} (hw : Wf src v)
    (hz : noNegZero src v) {o : Options} (hR : RightDoc x src (some o) ty v) {V : Val} (h : Means x src o ty v V) :
    ∃ V', Returns x ty (decode x d src (.ok v) (some (zeros (ty.size x))) (some o)) (-1) none V' ∧ Means x src o ty v V' := by
  obtain ⟨V', h1, h2⟩ := Right.goodP hx hf ty .final v V hw hz hR h
  have hr := C35_reading_partial hd hw (zero_dest hd) hR
  rw [h1] at hr
  exact ⟨V', hr, h2⟩

/-- **C46 on `RightDoc`**, without the literal `-0` and duplicate members, for types all of whose checks are exact: what is decoded is what the document means. -/
theorem C46_right_means_partial {x : Ext} (hx : FloatContract x) (hf : x.tokFloat64 = x.parseFloat64) {ty : Ty} (hty : Exact x ty) {d : Decoder} (hd : DecoderFor x ty d) {src : Bytes} {v : JVal} (hw : Wf src v)
    (hz : noNegZero src v) {o : Options} (hR : RightDoc x src (some o) ty v) (ho : Once x src o ty v) {V : Val}
    (h : Returns x ty (decode x d src (.ok v) (some (zeros (ty.size x))) (some o)) (-1) none V) : Means x src o ty v V := by
  have hr := C35_reading_partial hd hw (zero_dest hd) hR
  obtain ⟨r, m, h1, h2, h3, h4, h5, h6⟩ := h
  cases hc : decPV x src (some o) ty v (zeroV x ty) with
  | ok V' =>
    rw [hc] at hr
    obtain ⟨-, -, this⟩ := Unique.returns_unique hr ⟨r, m, h1, h2, h3, h4, h5, h6⟩
    subst this
    exact Right.soundP hx hf ty v V' hw hz hty ho hc
  | err i e V' =>
    rw [hc] at hr
    obtain ⟨r', m', g1, g2, g3, -⟩ := hr
    rw [h1] at g1; cases g1
    rw [h3] at g3; cases g3
  | crash => rw [hc] at hr; rw [h1] at hr; cases hr
  | unsup => rw [hc] at hr; exact hr.elim

/-- **C54 with pointers**, whatever the options and the history of the decoder: a value is read back if each of its pointers other than nil is at the right end of an array or of the value (fields in the order of their
declaration), and each `struct{}` at the right end of the value. -/
theorem C54_right_partial {x : Ext} (hx : FloatContract x) (hf : x.tokFloat64 = x.parseFloat64) {fmt : FKind → Flt → Bytes} {ty : Ty} {d : Decoder} (hd : DecoderFor x ty d) {V : Val}
    (h : CanEncode x fmt ty V) (hR : RightV x ty .final V) {o : Options} (hn : NamesOK o ty) {v : JVal} (hv : IsDoc (encode fmt ty V) v) :
    ∃ V', Returns x ty (decode x d (encode fmt ty V) (.ok v) (some (zeros (ty.size x))) (some o)) (-1) none V' ∧ SameVal V V' := by
  obtain ⟨v', h1, h2, -, h3, h4⟩ := Encode.encode_doc (o := o) h hn
  cases json_unique hv h1
  obtain ⟨V', g1, g2⟩ := C46_right_partial hx hf hd (json_wf hv) h4 (h3 _ hR) h2
  exact ⟨V', g1, means_unique h2 g2⟩

/-- `{1, &{2, &5}}` of the type `struct{V int; Next *struct{V int; Last *int}}`. -/
example : ∃ v V', IsDoc b!"{\"V\":1,\"Next\":{\"V\":2,\"Last\":5}}" v ∧
    Returns demoX (demoTree 93) (decode demoX (demoDec 93) b!"{\"V\":1,\"Next\":{\"V\":2,\"Last\":5}}" (.ok v) (some (zeros 16)) (some defaultOptions)) (-1) none V' ∧
    SameVal (.struct [.int 1, .ptr (.struct [.int 2, .ptr (.int 5)])]) V' := by
  have hd : DecoderFor demoX (demoTree 93) (demoDec 93) := demo_for' (t := 93) (by decide)
  have hi : ∀ i : Int, 0 ≤ i → i < 10 → InRange true .int i := by intro i h1 h2; simp [InRange, IKind.signed, IKind.bits]; omega
  have hb : braces [(escape b!"V", intText 2), (escape b!"Last", intText 5)] = b!"{\"V\":2,\"Last\":5}" := by decide
  have hc : CanEncode demoX (fun _ _ => []) (demoTree 93) (.struct [.int 1, .ptr (.struct [.int 2, .ptr (.int 5)])]) :=
    ⟨_, rfl, _, _, rfl, ⟨_, rfl, hi 1 (by decide) (by decide)⟩, _, _, rfl,
      .inr ⟨_, rfl, by show braces [(escape b!"V", intText 2), (escape b!"Last", intText 5)] ≠ _; rw [hb]; decide,
        _, rfl, _, _, rfl, ⟨_, rfl, hi 2 (by decide) (by decide)⟩, _, _, rfl, .inr ⟨_, rfl, by show intText 5 ≠ _; decide, _, rfl, hi 5 (by decide) (by decide)⟩, rfl⟩, rfl⟩
  have hR : RightV demoX (demoTree 93) .final (.struct [.int 1, .ptr (.struct [.int 2, .ptr (.int 5)])]) :=
    ⟨trivial, ⟨by decide, trivial, ⟨by decide, trivial⟩, trivial⟩, trivial⟩
  have hn : NamesOK defaultOptions (demoTree 93) := by
    show NamesOK defaultOptions (.struct 16 [(b!"V", 0, .scalar (.int .int)), (b!"Next", 8, .ptr (.struct 16 [(b!"V", 0, .scalar (.int .int)), (b!"Last", 8, .ptr (.scalar (.int .int)))]))])
    exact ⟨by decide, (fun h => by cases h), trivial, (fun h => by cases h), ⟨by decide, (fun h => by cases h), trivial, (fun h => by cases h), trivial, trivial⟩, trivial⟩
  have he : encode (fun _ _ => []) (demoTree 93) (.struct [.int 1, .ptr (.struct [.int 2, .ptr (.int 5)])]) = b!"{\"V\":1,\"Next\":{\"V\":2,\"Last\":5}}" := by
    show braces [(escape b!"V", intText 1), (escape b!"Next", braces [(escape b!"V", intText 2), (escape b!"Last", intText 5)])] = _
    decide
  obtain ⟨v, hv⟩ := C54_json hc hn
  obtain ⟨V', h1, h2⟩ := C54_right_partial demo_floats rfl hd hc hR hn hv
  rw [he] at hv h1
  exact ⟨v, V', hv, h1, h2⟩

/-- `[null,5]` into a `[]*int`, where the last element is a pointer. -/
example : Returns demoX (demoTree 9) (decode demoX (demoDec 9) b!"[null,5]" (.ok (demoDoc b!"[null,5]")) (some (zeros 24)) (some defaultOptions)) (-1) none (.slice [.nil, .ptr (.int 5)] []) := by
  obtain ⟨hd, hw, hR⟩ := Right.demo_right (t := 9) (src := b!"[null,5]") (o := defaultOptions) (by decide) (by decide) (by decide)
  exact C35_reading_partial hd hw (zero_dest hd) hR

/-- `{"B":7,"In":{"A":5}}` into a `struct{In struct{A *int}; B int}`. -/
example : Returns demoX (demoTree 43) (decode demoX (demoDec 43) b!"{\"B\":7,\"In\":{\"A\":5}}" (.ok (demoDoc b!"{\"B\":7,\"In\":{\"A\":5}}")) (some (zeros 16)) (some defaultOptions)) (-1) none
    (.struct [.struct [.ptr (.int 5)], .int 7]) := by
  obtain ⟨hd, hw, hR⟩ := Right.demo_right (t := 43) (src := b!"{\"B\":7,\"In\":{\"A\":5}}") (o := defaultOptions) (by decide) (by decide) (by decide)
  exact C35_reading_partial hd hw (zero_dest hd) hR

/-- `{"B":2,"E":{"x":[{}]}}` into a `struct{E struct{}; B int}`. -/
example : Returns demoX (demoTree 15) (decode demoX (demoDec 15) b!"{\"B\":2,\"E\":{\"x\":[{}]}}" (.ok (demoDoc b!"{\"B\":2,\"E\":{\"x\":[{}]}}")) (some (zeros 8)) (some defaultOptions)) (-1) none
    (.struct [.struct [], .int 2]) := by
  obtain ⟨hd, hw, hR⟩ := Right.demo_right (t := 15) (src := b!"{\"B\":2,\"E\":{\"x\":[{}]}}") (o := defaultOptions) (by decide) (by decide) (by decide)
  exact C35_reading_partial hd hw (zero_dest hd) hR

/-- The document of the second example has a meaning and is decoded to it; and nothing panics. -/
example : (∃ V', Returns demoX (demoTree 43) (decode demoX (demoDec 43) b!"{\"B\":7,\"In\":{\"A\":5}}" (.ok (demoDoc b!"{\"B\":7,\"In\":{\"A\":5}}")) (some (zeros 16)) (some defaultOptions)) (-1) none V' ∧
      Means demoX b!"{\"B\":7,\"In\":{\"A\":5}}" defaultOptions (demoTree 43) (demoDoc b!"{\"B\":7,\"In\":{\"A\":5}}") V') ∧
    ∃ i e V', Returns demoX (demoTree 43) (decode demoX (demoDec 43) b!"{\"B\":7,\"In\":{\"A\":5}}" (.ok (demoDoc b!"{\"B\":7,\"In\":{\"A\":5}}")) (some (zeros 16)) (some defaultOptions)) i e V' := by
  obtain ⟨hd, hw, hR⟩ := Right.demo_right (t := 43) (src := b!"{\"B\":7,\"In\":{\"A\":5}}") (o := defaultOptions) (by decide) (by decide) (by decide)
  have hz : noNegZero b!"{\"B\":7,\"In\":{\"A\":5}}" (.obj 0 [((1, 4), .num true 5 6), ((7, 11), .obj 12 [((13, 16), .num true 17 18)] 18)] 19) := by
    refine ⟨?_, ⟨?_, trivial⟩, trivial⟩ <;> simp only [noNegZero] <;> decide
  have hr := C35_reading_partial hd hw (zero_dest hd) hR
  have hx : Spec.Exact demoX (demoTree 43) := ⟨⟨.inr rfl, trivial⟩, .inr rfl, trivial⟩
  have hM : ∃ V, Means demoX b!"{\"B\":7,\"In\":{\"A\":5}}" defaultOptions (demoTree 43) (demoDoc b!"{\"B\":7,\"In\":{\"A\":5}}") V :=
    ⟨_, C46_right_means_partial demo_floats rfl hx hd hw hz hR (OnceB.onceB_sound _ hw (by decide +kernel)).1 hr⟩
  obtain ⟨V, hM⟩ := hM
  exact ⟨C46_right_partial demo_floats rfl hd hw hz hR hM, C24_right_partial hd hw (zero_dest hd) hR (by decide) (.inl (by decide))⟩

end Verif.Props

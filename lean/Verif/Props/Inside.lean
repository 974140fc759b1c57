import Verif.Proof.InsideDemo
import Verif.Props.RecMore
/-!
# C65: a recursive struct type as a part of another type

The full claim is that `Decode` and `Unmarshal` treat a recursive struct type `T` used inside another type like any other struct type. It is refuted below. It is proved for the documents within `TameDocX`.

`InsideType`: the Go type is built by arrays, slices, maps and structs from types without recursion and recursive struct types (C37). `ty.ty n` is its tree with the recursion cut off at depth `n`: a tree without
recursion. A document of nesting depth less than `n` means the same for both.
-/
namespace Verif.Props
open Verif.Model Verif.Big Verif.Spec Verif.Proof Verif.Proof.Reads Verif.Proof.Demo Verif.Proof.Means

/-- The full statement of C65: a document of any depth that has a meaning for the type is decoded to it. -/
def RecursiveInside (x : Ext) : Prop :=
  ∀ (env : TypeEnv) (opts : Option InitOptions) (depth : Nat) (t : TypeId) (ty : RTy) (d : Decoder), InsideType env x opts depth t ty → newDecoder env x.W opts depth (some t) = .ok d →
    ∀ (n : Nat) (src : Bytes) (v : JVal) (o : Options) (V : Val), Wf src v → noNegZero src v → nesting v ≤ n → Means x src o (ty.ty n) v V →
    ∃ V', Returns x (ty.ty n) (decode x d src (.ok v) (some (zeros (ty.size x))) (some o)) (-1) none V' ∧ Means x src o (ty.ty n) v V'

/-- **C65**: `Decode` reads the document as it is read for the tree of the type unrolled to the depth of the document, a type without recursion: the same value, an error of the same kind at the same byte, or a panic. -/
theorem C65_reading_partial {x : Ext} {ty : RTy} {d : Decoder} (hd : InsideDecoder x ty d) {src : Bytes} {v : JVal} {mem : Block} {V : Val} {n : Nat}
    (hm : Dest x (ty.ty n) mem V) {o : Option Options} (ht : TameDocX x src o n ty v) :
    match decV x src o (ty.ty n) v V with
    | .ok V' => Returns x (ty.ty n) (decode x d src (.ok v) (some mem) o) (-1) none V'
    | .err i e _ => ∃ V', Returns x (ty.ty n) (decode x d src (.ok v) (some mem) o) i (some e) V'
    | .crash => decode x d src (.ok v) (some mem) o = none
    | .unsup => False := Inside.outcome hd hm ht

theorem inside_zero {x : Ext} {ty : RTy} {d : Decoder} (hd : InsideDecoder x ty d) (n : Nat) : Dest x (ty.ty n) (zeros (ty.size x)) (zeroV x (ty.ty n)) :=
  ⟨by simp [zeros, Types.ty_size], Val.holds_zeros _ ((Inside.decoder_ready hd).ok.ok n) (by simp [Types.ty_size])⟩

/-- **C65**, for documents within `TameDocX` without the literal `-0`: a document of any depth that has a meaning for the type is decoded to it. -/
theorem C65_decodes_partial {x : Ext} (hx : FloatContract x) (hf : x.tokFloat64 = x.parseFloat64) {ty : RTy} {d : Decoder} (hd : InsideDecoder x ty d) {src : Bytes} {v : JVal}
    (hw : Wf src v) (hz : noNegZero src v) {o : Options} {n : Nat} (ht : TameDocX x src (some o) n ty v) {V : Val} (h : Means x src o (ty.ty n) v V) :
    ∃ V', Returns x (ty.ty n) (decode x d src (.ok v) (some (zeros (ty.size x))) (some o)) (-1) none V' ∧ Means x src o (ty.ty n) v V' := by
  obtain ⟨V', h1, h2⟩ := Inside.doc_good hx hf hw hz ht h
  exact ⟨V', Inside.returns_ok hd (inside_zero hd n) ht h1, h2⟩

/-- **C65**, in the other direction, without duplicate members and for exactly checked types: what is decoded is what the document means. -/
theorem C65_means_partial {x : Ext} (hx : FloatContract x) (hf : x.tokFloat64 = x.parseFloat64) {ty : RTy} {d : Decoder} (hd : InsideDecoder x ty d) {src : Bytes} {v : JVal} (hw : Wf src v)
    (hz : noNegZero src v) {o : Options} {n : Nat} (hex : Spec.Exact x (ty.ty n)) (ht : TameDocX x src (some o) n ty v) (ho : Once x src o (ty.ty n) v) {V : Val}
    (h : Returns x (ty.ty n) (decode x d src (.ok v) (some (zeros (ty.size x))) (some o)) (-1) none V) : Means x src o (ty.ty n) v V :=
  sound hx hf _ v V hw hz hex ho (Inside.returns_inv hd (inside_zero hd n) ht h)

/-- **C65**, reuse: two decoders for the same type give the same outcome (index, error, every byte of the destination, or a panic), if all earlier calls that failed failed because of a nil destination or
invalid JSON. -/
theorem C65_reuse_partial {x : Ext} {ty : RTy} {d d' : Decoder} (hd : InsideDecoder x ty d) (hd' : InsideDecoder x ty d') {src : Bytes} {v : JVal} {mem : Block} {V : Val} {n : Nat}
    (hm : Dest x (ty.ty n) mem V) {o : Option Options} (ht : TameDocX x src o n ty v) :
    observe (decode x d src (.ok v) (some mem) o) = observe (decode x d' src (.ok v) (some mem) o) := by
  have h1 := (Inside.decode_inside (Inside.decoder_ready hd) ht hm).1
  have h2 := (Inside.decode_inside (Inside.decoder_ready hd') ht hm).1
  have hne := Inside.decDoc_ne ht mem 0
  cases hr : decX x src o n ty v mem 0 with
  | ok b =>
    rw [hr] at h1 h2
    obtain ⟨a, ha⟩ := h1
    obtain ⟨b, hb⟩ := h2
    rw [ha, hb]; rfl
  | err i e b =>
    rw [hr] at h1 h2
    obtain ⟨a, ha⟩ := h1
    obtain ⟨b, hb⟩ := h2
    rw [ha, hb]; rfl
  | crash =>
    rw [hr] at h1 h2
    rw [h1, h2]
  | unsup => exact absurd hr hne

/-- **C65**, no panics: on a well-formed document `Decode` returns and leaves a value of the type. -/
theorem C65_safe_partial {x : Ext} {ty : RTy} {d : Decoder} (hd : InsideDecoder x ty d) {src : Bytes} {v : JVal} (hw : Wf src v) {mem : Block} {V : Val} {n : Nat}
    (hm : Dest x (ty.ty n) mem V) {o : Options} (ht : TameDocX x src (some o) n ty v) (hc : (ty.ty n).callable = true) (hq : (ty.ty n).noQuotedNum = true ∨ noEmptyStr v = true) :
    ∃ i e V', Returns x (ty.ty n) (decode x d src (.ok v) (some mem) (some o)) i e V' := by
  have h := Inside.outcome hd hm ht
  have hs := Safe.decV_safe (x := x) (o := o) _ (Safe.holds_typed _ hm.2) hw hc hq
  cases hr : decV x src (some o) (ty.ty n) v V <;> rw [hr] at h hs
  · exact ⟨_, _, _, h⟩
  · obtain ⟨V', h⟩ := h; exact ⟨_, _, _, h⟩
  · exact hs.elim
  · exact h.elim

/-- **C65**, idempotence: decoding the document again into its result changes nothing. -/
theorem C65_twice_partial {x : Ext} (hx : MethodsTwice x) {ty : RTy} {d : Decoder} (hd : InsideDecoder x ty d) {src : Bytes} {v : JVal} (hw : Wf src v) {mem : Block} {V : Val} {n : Nat}
    (hm : Dest x (ty.ty n) mem V) {o : Options} (ht : TameDocX x src (some o) n ty v) (ho : Once x src o (ty.ty n) v) (hk : Keyed x src o (ty.ty n) v)
    {r : DecodeRes} (hr : decode x d src (.ok v) (some mem) (some o) = some r) (he : r.err = none) :
    ∃ mem' V', r.mem = some mem' ∧ Dest x (ty.ty n) mem' V' ∧ Returns x (ty.ty n) (decode x r.dec src (.ok v) (some mem') (some o)) (-1) none V' := by
  obtain ⟨V', mem', h1, -, h3, h4⟩ := Inside.ok_inv hd hm ht hr he
  exact ⟨mem', V', h3, h4, Inside.returns_ok (.call hd ht hm hr he) h4 ht (Twice.dec_twice hx _ hw ho hk (Safe.holds_typed _ hm.2) h1)⟩

/-- **C65**, order: the order of the members of objects does not matter, if the reordered document is within `TameDocX`, too. -/
theorem C65_order_partial {x : Ext} {ty : RTy} {d d' : Decoder} (hd : InsideDecoder x ty d) (hd' : InsideDecoder x ty d') {src src' : Bytes} {v v' : JVal} (hw : Wf src v) (hw' : Wf src' v')
    {n : Nat} (hr : Reordered src src' v v') {o : Options} (hn : NoDuplicates x src o (ty.ty n) v) (ht : TameDocX x src (some o) n ty v) (ht' : TameDocX x src' (some o) n ty v')
    (hx : ∀ rt, JsonIn rt (ty.ty n) → Unordered x src src' rt) {mem mem' : Block} {V W : Val} (hm : Dest x (ty.ty n) mem V) (hm' : Dest x (ty.ty n) mem' V)
    (h : Returns x (ty.ty n) (decode x d src (.ok v) (some mem) (some o)) (-1) none W) :
    ∃ W', Returns x (ty.ty n) (decode x d' src' (.ok v') (some mem') (some o)) (-1) none W' ∧ GoEq W W' := by
  obtain ⟨hn, ho, hk⟩ := hn
  obtain ⟨W', g1, g2⟩ := Reorder.dec_re _ hx hw hw' hr hn ho hk (Safe.holds_typed _ hm.2) (Inside.returns_inv hd hm ht h)
  exact ⟨W', Inside.returns_ok hd' hm' ht' g1, g2⟩

/-! ## Examples -/

/-- A type of the concrete program and a document. -/
theorem inside_case {t : TypeId} {src : Bytes} {n : Nat} (h : (rtyTree demoEnv true 20 [] t).isSome = true) (h' : tameDocXB demoX src defaultOptions n (demoRTy t) (demoDoc src) = true) {V : Val}
    (hv : decV demoX src (some defaultOptions) ((demoRTy t).ty n) (demoDoc src) (zeroV demoX ((demoRTy t).ty n)) = .ok V) :
    Returns demoX ((demoRTy t).ty n) (decode demoX (demoDec t) src (.ok (demoDoc src)) (some (zeros ((demoRTy t).size demoX))) (some defaultOptions)) (-1) none V := by
  have hd := (demo_inside h).2
  have := C65_reading_partial hd (inside_zero hd n) (tameDocXB_sound _ h')
  rwa [hv] at this

/-- A document for `struct{ID int; Trees map[string]M; All []struct{R T; X int}; Note string}`. -/
def forest : Bytes :=
  b!"{\"ID\":1,\"Trees\":{\"a\":{\"Kids\":{\"b\":{\"V\":2}},\"V\":3},\"c\":{\"V\":4}},\"All\":[{\"R\":{\"Kids\":[{\"Name\":\"k\"}],\"Name\":\"r\"},\"X\":5},{\"X\":6,\"R\":{\"Name\":\"s\"}}],\"Note\":\"n\"}"

set_option maxRecDepth 20000 in
/-- It decodes to what it says: both trees, both elements, and the members after them. -/
example : Returns demoX ((demoRTy 92).ty 4) (decode demoX (demoDec 92) forest (.ok (demoDoc forest)) (some (zeros 56)) (some defaultOptions)) (-1) none
    (.struct [.int 1,
      .map [(.str ⟨b!"a", true⟩, .struct [.map [(.str ⟨b!"b", true⟩, .struct [.nil, .int 2])], .int 3]), (.str ⟨b!"c", true⟩, .struct [.nil, .int 4])],
      .slice [.struct [.struct [.slice [.struct [.nil, .str ⟨b!"k", true⟩]] [], .str ⟨b!"r", true⟩], .int 5], .struct [.struct [.nil, .str ⟨b!"s", true⟩], .int 6]] [],
      .str ⟨b!"n", true⟩]) :=
  inside_case (t := 92) (by decide +kernel) (by decide +kernel) rfl

/-- Maps of recursive structs, and a slice of them as the destination. -/
example : Returns demoX ((demoRTy 89).ty 3) (decode demoX (demoDec 89) b!"{\"a\":{\"Kids\":[{\"Name\":\"k\"},{}],\"Name\":\"r\"},\"b\":{}}"
      (.ok (demoDoc b!"{\"a\":{\"Kids\":[{\"Name\":\"k\"},{}],\"Name\":\"r\"},\"b\":{}}")) (some (zeros 8)) (some defaultOptions)) (-1) none
    (.map [(.str ⟨b!"a", true⟩, .struct [.slice [.struct [.nil, .str ⟨b!"k", true⟩], .struct [.nil, .str ⟨[], false⟩]] [], .str ⟨b!"r", true⟩]), (.str ⟨b!"b", true⟩, .struct [.nil, .str ⟨[], false⟩])]) :=
  inside_case (t := 89) (by decide +kernel) (by decide +kernel) rfl
example : Returns demoX ((demoRTy 13).ty 3) (decode demoX (demoDec 13) b!"[{\"Kids\":[{\"Name\":\"k\"}],\"Name\":\"r\"},{\"Name\":\"s\",\"Kids\":[{}]}]"
      (.ok (demoDoc b!"[{\"Kids\":[{\"Name\":\"k\"}],\"Name\":\"r\"},{\"Name\":\"s\",\"Kids\":[{}]}]")) (some (zeros 24)) (some defaultOptions)) (-1) none
    (.slice [.struct [.slice [.struct [.nil, .str ⟨b!"k", true⟩]] [], .str ⟨b!"r", true⟩], .struct [.slice [.struct [.nil, .str ⟨[], false⟩]] [], .str ⟨b!"s", true⟩]] []) :=
  inside_case (t := 13) (by decide +kernel) (by decide +kernel) rfl

/-- A document for `map[string]T`. -/
def groves : Bytes := b!"{\"a\":{\"Kids\":[{\"Name\":\"k\"},{}],\"Name\":\"r\"},\"b\":{}}"

/-- It has a meaning, and `Decode` yields it; a second call of the same decoder, into the result, and one of a new decoder, do the same. -/
example : ∃ r mem V, Means demoX groves defaultOptions ((demoRTy 89).ty 3) (demoDoc groves) V ∧
    Returns demoX ((demoRTy 89).ty 3) (decode demoX (demoDec 89) groves (.ok (demoDoc groves)) (some (zeros 8)) (some defaultOptions)) (-1) none V ∧
    decode demoX (demoDec 89) groves (.ok (demoDoc groves)) (some (zeros 8)) (some defaultOptions) = some r ∧ r.mem = some mem ∧
    (∃ W, Returns demoX ((demoRTy 89).ty 3) (decode demoX r.dec groves (.ok (demoDoc groves)) (some mem) (some defaultOptions)) (-1) none W) ∧
    observe (decode demoX r.dec groves (.ok (demoDoc groves)) (some (zeros 8)) (some defaultOptions)) =
      observe (decode demoX (demoDec 89) groves (.ok (demoDoc groves)) (some (zeros 8)) (some defaultOptions)) := by
  have hd := (demo_inside (t := 89) (by decide +kernel)).2
  have hdoc := demo_doc (src := groves) (by decide)
  have hz : noNegZero groves (demoDoc groves) := ⟨⟨⟨⟨trivial, trivial⟩, trivial, trivial⟩, trivial, trivial⟩, trivial, trivial⟩
  have hex : Spec.Exact demoX ((demoRTy 89).ty 3) :=
    ⟨(fun ik h => by cases h), ⟨⟨⟨⟨trivial, trivial, trivial⟩, trivial, trivial⟩, trivial, trivial⟩, trivial, trivial⟩⟩
  have hb : tameDocXB demoX groves defaultOptions 3 (demoRTy 89) (demoDoc groves) = true := by decide +kernel
  have ht := tameDocXB_sound (demoRTy 89) hb
  obtain ⟨ho, hk⟩ := OnceB.onceB_sound (x := demoX) (o := defaultOptions) ((demoRTy 89).ty 3) hdoc.2 (by decide +kernel)
  have hM : ∃ V, Means demoX groves defaultOptions ((demoRTy 89).ty 3) (demoDoc groves) V := ⟨_, top_sound demo_floats rfl _ _ _ hdoc.2 hz hex ho rfl⟩
  obtain ⟨V, hV⟩ := hM
  obtain ⟨V', h1, -⟩ := C65_decodes_partial demo_floats rfl hd hdoc.2 hz ht hV
  have h2 := C65_means_partial demo_floats rfl hd hdoc.2 hz hex ht ho h1
  have h1' := h1
  obtain ⟨r, m, e1, e2, e3, e4, -⟩ := h1'
  obtain ⟨mem, W, g1, g2, g3⟩ := C65_twice_partial demo_methods hd hdoc.2 (inside_zero hd 3) ht ho hk e1 e3
  exact ⟨r, mem, V', h2, h1, e1, g1, ⟨W, g3⟩, C65_reuse_partial (.call hd ht (inside_zero hd 3) e1 e3) hd (inside_zero hd 3) ht⟩

/-- No panic. -/
example : ∃ i e V, Returns demoX ((demoRTy 89).ty 3) (decode demoX (demoDec 89) groves (.ok (demoDoc groves)) (some (zeros 8)) (some defaultOptions)) i e V := by
  have hd := (demo_inside (t := 89) (by decide +kernel)).2
  have hb : tameDocXB demoX groves defaultOptions 3 (demoRTy 89) (demoDoc groves) = true := by decide +kernel
  exact C65_safe_partial hd (demo_doc (src := groves) (by decide)).2 (inside_zero hd 3) (tameDocXB_sound (demoRTy 89) hb) (by decide) (.inl (by decide))

/-- The members of `struct{R T; X int}` in another order. -/
example : ∃ W W',
    Returns demoX ((demoRTy 90).ty 2) (decode demoX (demoDec 90) b!"{\"R\":{\"Kids\":[{}],\"Name\":\"r\"},\"X\":5}" (.ok (demoDoc b!"{\"R\":{\"Kids\":[{}],\"Name\":\"r\"},\"X\":5}")) (some (zeros 48)) (some defaultOptions)) (-1) none W ∧
    Returns demoX ((demoRTy 90).ty 2) (decode demoX (demoDec 90) b!"{\"X\":5,\"R\":{\"Name\":\"r\",\"Kids\":[{}]}}" (.ok (demoDoc b!"{\"X\":5,\"R\":{\"Name\":\"r\",\"Kids\":[{}]}}")) (some (zeros 48)) (some defaultOptions)) (-1) none W' ∧ GoEq W W' := by
  have hd := (demo_inside (t := 90) (by decide +kernel)).2
  have h1 := demo_doc (src := b!"{\"R\":{\"Kids\":[{}],\"Name\":\"r\"},\"X\":5}") (by decide)
  have h2 := demo_doc (src := b!"{\"X\":5,\"R\":{\"Name\":\"r\",\"Kids\":[{}]}}") (by decide)
  have b1 : tameDocXB demoX b!"{\"R\":{\"Kids\":[{}],\"Name\":\"r\"},\"X\":5}" defaultOptions 2 (demoRTy 90) (demoDoc b!"{\"R\":{\"Kids\":[{}],\"Name\":\"r\"},\"X\":5}") = true := by decide +kernel
  have b2 : tameDocXB demoX b!"{\"X\":5,\"R\":{\"Name\":\"r\",\"Kids\":[{}]}}" defaultOptions 2 (demoRTy 90) (demoDoc b!"{\"X\":5,\"R\":{\"Name\":\"r\",\"Kids\":[{}]}}") = true := by decide +kernel
  have t1 := tameDocXB_sound (demoRTy 90) b1
  have t2 := tameDocXB_sound (demoRTy 90) b2
  obtain ⟨ho, hk⟩ := OnceB.onceB_sound (x := demoX) (o := defaultOptions) ((demoRTy 90).ty 2) h1.2 (by decide +kernel)
  have hn : NoRepeats b!"{\"R\":{\"Kids\":[{}],\"Name\":\"r\"},\"X\":5}" (demoDoc b!"{\"R\":{\"Kids\":[{}],\"Name\":\"r\"},\"X\":5}") := OnceB.noRepeatsB_sound (x := demoX) _ h1.2 (by decide +kernel)
  have hre : Reordered b!"{\"R\":{\"Kids\":[{}],\"Name\":\"r\"},\"X\":5}" b!"{\"X\":5,\"R\":{\"Name\":\"r\",\"Kids\":[{}]}}" (demoDoc b!"{\"R\":{\"Kids\":[{}],\"Name\":\"r\"},\"X\":5}") (demoDoc b!"{\"X\":5,\"R\":{\"Name\":\"r\",\"Kids\":[{}]}}") := by
    refine ⟨0, _, _, rfl, [_], _, _, [], rfl, rfl, ?_, [], _, _, [], rfl, rfl, ⟨_, _, rfl, rfl⟩, rfl⟩
    refine ⟨_, _, _, rfl, [_], _, _, [], rfl, rfl, ?_, [], _, _, [], rfl, rfl, ⟨_, _, rfl, rfl⟩, rfl⟩
    exact ⟨_, _, _, rfl, _, _, rfl, ⟨_, _, _, rfl, rfl⟩, rfl⟩
  have r1 := Inside.returns_ok hd (inside_zero hd 2) t1 rfl
  have hj : ∀ rt, ¬ JsonIn rt ((demoRTy 90).ty 2) := by
    rintro rt ((((h | h | h) | h | h) | h | h) | h | h)
    all_goals exact h
  obtain ⟨W', r2, g⟩ := C65_order_partial hd hd h1.2 h2.2 hre ⟨hn, ho, hk⟩ t1 t2 (fun rt h => absurd h (hj rt)) (inside_zero hd 2) (inside_zero hd 2) r1
  exact ⟨_, W', r1, r2, g⟩

/-! ## Where it fails -/

/-- **C65 is false of the code**: `[{}]` into `[2]T`. -/
theorem C65_refuted : ¬ RecursiveInside demoX := by
  intro h
  obtain ⟨ht, -⟩ := demo_inside (t := 86) (by decide +kernel)
  have hdoc := demo_doc (src := b!"[{}]") (by decide)
  have hM : ∃ V, Means demoX b!"[{}]" defaultOptions ((demoRTy 86).ty 2) (demoDoc b!"[{}]") V :=
    ⟨_, top_sound demo_floats rfl _ _ _ hdoc.2 ⟨trivial, trivial⟩ ⟨⟨⟨trivial, trivial, trivial⟩, trivial, trivial⟩, trivial, trivial⟩ (OnceB.onceB_sound _ hdoc.2 (by decide +kernel)).1 rfl⟩
  obtain ⟨V, hV⟩ := hM
  obtain ⟨V', ⟨r, m, h1, -⟩, -⟩ := h demoEnv _ _ 86 _ (demoDec 86) ht rfl 2 _ _ defaultOptions V hdoc.2 ⟨trivial, trivial⟩ (by decide +kernel) hV
  have : (decode demoX (demoDec 86) b!"[{}]" (.ok (demoDoc b!"[{}]")) (some (zeros 80)) (some defaultOptions)).isNone = true := by decide +kernel
  change decode demoX (demoDec 86) b!"[{}]" (.ok (demoDoc b!"[{}]")) (some (zeros 80)) (some defaultOptions) = _ at h1
  rw [h1] at this
  cases this

/-- For `struct{Items []T; Name string}` with `T = struct{Kids []T; Name string}`, the document `{"Items":[{"Name":"c"}],"Name":"z"}` is decoded without error, but `"z"` goes to the element and the outer `Name`
remains empty. -/
theorem C65_refuted_tail :
    ((okMem (demoUnmarshal 85 b!"{\"Items\":[{\"Name\":\"c\"}],\"Name\":\"z\"}" (zeros 40))).map fun m => ((sliceAt 0 m).bind (strAt 24), strAt 24 m)) =
      some (some b!"z", some b!"") := by
  decide +kernel

/-- For `map[string][]T` the entry `"b"` of `{"a":[{"Name":"c"}],"b":[{"Name":"d"}]}` is lost without an error. -/
theorem C65_refuted_entries :
    ((okMem (demoUnmarshal 88 b!"{\"a\":[{\"Name\":\"c\"}],\"b\":[{\"Name\":\"d\"}]}" (zeros 8))).map fun m => match m[0]? with | some (Cell.map es) => es.length | _ => 0) = some 1 := by
  decide +kernel

/-- For `[2]T` the documents `[{}]` and `[{"Name":"a"},{"Name":"b"}]` make `Unmarshal` panic. -/
theorem C65_refuted_array :
    (match demoUnmarshal 86 b!"[{}]" (zeros 80) with | .panic => true | _ => false) = true ∧
    (match demoUnmarshal 86 b!"[{\"Name\":\"a\"},{\"Name\":\"b\"}]" (zeros 80) with | .panic => true | _ => false) = true := by
  decide +kernel

/-- For `struct{X int; R T}` (`R` at offset 8, so `R.Kids` at 8 and `R.Name` at 32), the document `{"X":1,"R":{"Kids":[{"Name":"a"}],"Name":"b"}}` is decoded without error, but the string `"b"` is written at
offset 24, over the last word of `R.Kids`, and its second word at 32. -/
theorem C65_refuted_offset :
    ((okMem (demoUnmarshal 87 b!"{\"X\":1,\"R\":{\"Kids\":[{\"Name\":\"a\"}],\"Name\":\"b\"}}" (zeros 48))).map fun m => (intAt 0 m, strAt 24 m, strAt 32 m)) =
      some (some 1, some b!"b", none) := by
  decide +kernel

end Verif.Props

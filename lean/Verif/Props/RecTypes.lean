import Verif.Proof.RecDemo
import Verif.Proof.RecMeans
import Verif.Proof.OnceB
import Verif.Props.Means
/-!
# C37: recursive struct types

`RecType`: the Go type is a struct type `T` some of whose fields have the type `*T`, `[]T` or `map[K]T`. `unroll size fs n` is the tree of this type with the recursion cut off at depth `n`. A document of
nesting depth less than `n` means the same for both.
-/
namespace Verif.Props
open Verif.Model Verif.Spec Verif.Big Verif.Proof Verif.Proof.Reads Verif.Proof.Demo Verif.Proof.Means

/-- The full statement of C37: a document of any depth that has a meaning for the recursive type is decoded to it. -/
def RecursiveTrees (x : Ext) : Prop :=
  ∀ (env : TypeEnv) (opts : Option InitOptions) (depth : Nat) (t : TypeId) (size : Nat) (fs : RFields) (d : Decoder), RecType env x opts depth t size fs →
    newDecoder env x.W opts (depth + 1) (some t) = .ok d → ∀ (n : Nat) (src : Bytes) (v : JVal) (o : Options) (V : Val), Wf src v → noNegZero src v → nesting v ≤ n →
    Means x src o (unroll size fs (n + 1)) v V →
    ∃ V', Returns x (unroll size fs (n + 1)) (decode x d src (.ok v) (some (zeros size)) (some o)) (-1) none V' ∧ Means x src o (unroll size fs (n + 1)) v V'

/-- **C37**: what `Decode` does with a recursive struct type, for documents within `TameR`, of any depth: it computes the recursive function `decRV` of type, document, options and old value. -/
theorem C37_reading_partial {x : Ext} {size : Nat} {fs : RFields} {d : Decoder} (hd : RecDecoder x size fs d) {src : Bytes} {v : JVal} {mem : Block} {V : Val} {n : Nat}
    (hm : Dest x (unroll size fs (n + 1)) mem V) {o : Option Options} (ht : TameR x src o fs n true true v) :
    match decRV x src o size fs n v V with
    | .ok V' => Returns x (unroll size fs (n + 1)) (decode x d src (.ok v) (some mem) o) (-1) none V'
    | .err i e V' => Returns x (unroll size fs (n + 1)) (decode x d src (.ok v) (some mem) o) i (some e) V'
    | .crash => decode x d src (.ok v) (some mem) o = none
    | .unsup => False := by
  have hr := recDecoder_ready hd
  have h := decode_recReads hd ht hm
  have hrel := Val.decR_rel (src := src) (o := o) hr.ok n v mem 0 V hm.2
  have hne := Fragment.decR_ne (size := size) n true true v ht mem 0
  cases hc : decRV x src o size fs n v V with
  | ok V' =>
    rw [hc] at h
    obtain ⟨r, m, h1, h2, h3, h4, h5, h6⟩ := h
    exact ⟨r, m, h1, h2, h3, h4, h5.trans hm.1, h6⟩
  | err i e V' =>
    rw [hc] at h
    obtain ⟨r, m, h1, h2, h3, h4, h5, h6⟩ := h
    exact ⟨r, m, h1, h2, h3, h4, h5.trans hm.1, h6⟩
  | crash => rw [hc] at h; exact h
  | unsup =>
    rw [hc] at hrel
    cases hb : decR x src o size fs n v mem 0 <;> rw [hb] at hrel <;> first | exact hrel.elim | exact hne hb

/-- **C37**, for documents within `TameR` without the literal `-0`: a document of any depth that has a meaning for the recursive type is decoded to it. -/
theorem C37_decodes_partial {x : Ext} (hx : FloatContract x) (hf : x.tokFloat64 = x.parseFloat64) {size : Nat} {fs : RFields} {d : Decoder} (hd : RecDecoder x size fs d) {src : Bytes} {v : JVal}
    (hw : Wf src v) (hz : noNegZero src v) {o : Options} {n : Nat} (ht : TameR x src (some o) fs n true true v) {V : Val} (h : Means x src o (unroll size fs (n + 1)) v V) :
    ∃ V', Returns x (unroll size fs (n + 1)) (decode x d src (.ok v) (some (zeros size)) (some o)) (-1) none V' ∧ Means x src o (unroll size fs (n + 1)) v V' := by
  obtain ⟨V', h1, h2⟩ := rec_good hx hf n true true v V hw hz ht h
  have hm : Dest x (unroll size fs (n + 1)) (zeros size) (zeroV x (unroll size fs (n + 1))) :=
    ⟨by simp [zeros, unroll, Ty.size], Val.holds_zeros _ (Val.unroll_ok (recDecoder_ready hd).ok _) (by simp [unroll, Ty.size])⟩
  have := C37_reading_partial hd hm ht
  rw [h1] at this
  exact ⟨V', this, h2⟩

/-- The fields that are not recursive have types all of whose checks are exact, and no map has integer keys. -/
def ExactR (x : Ext) (fs : RFields) : Prop := ∀ f ∈ fs, match f.2.2 with
  | .plain t => Spec.Exact x t
  | .map k => ∀ ik, k ≠ .int ik
  | _ => True

theorem exact_unroll {x : Ext} {size : Nat} {fs : RFields} (h : ExactR x fs) : ∀ n, Spec.Exact x (unroll size fs n)
  | 0 => trivial
  | n + 1 => by
    have ih := exact_unroll (size := size) h n
    show ExactF x (tyF (unroll size fs n) fs)
    generalize unroll size fs n = e at ih
    clear n
    induction fs with
    | nil => trivial
    | cons f fs IH =>
      refine ⟨?_, IH fun g hg => h g (List.mem_cons_of_mem _ hg)⟩
      have hf := h f List.mem_cons_self
      obtain ⟨name, off, rf⟩ := f
      cases rf with
      | plain t => exact hf
      | ptr => exact ih
      | slice => exact ih
      | map k => exact ⟨hf, ih⟩

/-- **C37**, in the other direction, without duplicate members and for exactly checked field types: what is decoded is what the document means. -/
theorem C37_means_partial {x : Ext} (hx : FloatContract x) (hf : x.tokFloat64 = x.parseFloat64) {size : Nat} {fs : RFields} (hex : ExactR x fs) {d : Decoder} (hd : RecDecoder x size fs d) {src : Bytes}
    {v : JVal} (hw : Wf src v) (hz : noNegZero src v) {o : Options} {n : Nat} (ht : TameR x src (some o) fs n true true v) (ho : Once x src o (unroll size fs (n + 1)) v) {V : Val}
    (h : Returns x (unroll size fs (n + 1)) (decode x d src (.ok v) (some (zeros size)) (some o)) (-1) none V) : Means x src o (unroll size fs (n + 1)) v V := by
  have hm : Dest x (unroll size fs (n + 1)) (zeros size) (zeroV x (unroll size fs (n + 1))) :=
    ⟨by simp [zeros, unroll, Ty.size], Val.holds_zeros _ (Val.unroll_ok (recDecoder_ready hd).ok _) (by simp [unroll, Ty.size])⟩
  have hr := C37_reading_partial hd hm ht
  cases hc : decRV x src (some o) size fs n v (zeroV x (unroll size fs (n + 1))) with
  | ok V' =>
    rw [hc] at hr
    obtain ⟨-, -, rfl⟩ := Unique.returns_unique h hr
    exact rec_sound hx hf n v V hw hz (exact_unroll hex _) ho hc
  | err i e V' => rw [hc] at hr; cases (Unique.returns_unique h hr).2.1
  | crash =>
    rw [hc] at hr
    obtain ⟨r, m, h1, -⟩ := h
    rw [hr] at h1; cases h1
  | unsup => rw [hc] at hr; exact hr.elim

/-- **C38** for recursive struct types: two decoders for the same type give the same outcome (index, error, every byte of the destination, or a panic), if all earlier calls that failed
failed because of a nil destination or invalid JSON. -/
theorem C38_recursive_partial {x : Ext} {size : Nat} {fs : RFields} {d d' : Decoder} (hd : RecDecoder x size fs d) (hd' : RecDecoder x size fs d') {src : Bytes} {v : JVal} {mem : Block} {V : Val} {n : Nat}
    (hm : Dest x (unroll size fs (n + 1)) mem V) {o : Option Options} (ht : TameR x src o fs n true true v) :
    observe (decode x d src (.ok v) (some mem) o) = observe (decode x d' src (.ok v) (some mem) o) := by
  have h1 := (decode_rec (recDecoder_ready hd) ht hm).1
  have h2 := (decode_rec (recDecoder_ready hd') ht hm).1
  have hne := Fragment.decR_ne (size := size) n true true v ht mem 0
  cases hr : decR x src o size fs n v mem 0 with
  | ok b =>
    rw [hr] at h1 h2
    obtain ⟨a, ha⟩ := h1
    obtain ⟨b, hb⟩ := h2
    rw [ha, hb]; rfl
  | err i e b =>
    rw [hr] at h1 h2
    obtain ⟨a, ha⟩ := h1
    obtain ⟨b, hb⟩ := h2
    rw [ha, hb]; rfl
  | crash =>
    rw [hr] at h1 h2
    rw [h1, h2]
  | unsup => exact absurd hr hne

/-! ## Examples -/

/-- A list with three links. -/
def chain : Bytes := b!"{\"V\":1,\"Next\":{\"Next\":{\"V\":3,\"Next\":null},\"V\":2}}"

/-- It decodes to the list 1, 2, 3. -/
example : Returns demoX (unroll 16 (demoFields 40) 4) (decode demoX (demoDec 40) chain (.ok (demoDoc chain)) (some (zeros 16)) (some defaultOptions)) (-1) none
    (.struct [.ptr (.struct [.ptr (.struct [.nil, .int 3]), .int 2]), .int 1]) := by
  obtain ⟨-, hd⟩ := demo_rec (t := 40) (by decide)
  have ht : TameR demoX chain (some defaultOptions) (demoFields 40) 3 true true (demoDoc chain) := tameRB_sound 3 true true _ (by decide)
  have hm : Dest demoX (unroll 16 (demoFields 40) 4) (zeros 16) (zeroV demoX (unroll 16 (demoFields 40) 4)) :=
    ⟨rfl, Val.holds_zeros _ (Val.unroll_ok (recDecoder_ready hd).ok _) (by simp [unroll, Ty.size])⟩
  exact C37_reading_partial hd hm ht

/-- A tree: slices in the first element, and last in the others. -/
def family : Bytes := b!"{\"Kids\":[{\"Kids\":[{\"Name\":\"a\"},{\"Name\":\"b\"}],\"Name\":\"c\"},{\"Name\":\"d\",\"Kids\":[{\"Name\":\"e\"}]}],\"Name\":\"f\"}"

/-- It has a meaning, and `Decode` yields it. -/
example : ∃ V, Returns demoX (unroll 40 (demoFields 12) 4) (decode demoX (demoDec 12) family (.ok (demoDoc family)) (some (zeros 40)) (some defaultOptions)) (-1) none V ∧
    Means demoX family defaultOptions (unroll 40 (demoFields 12) 4) (demoDoc family) V := by
  obtain ⟨-, hd⟩ := demo_rec (t := 12) (by decide)
  have hdoc := demo_doc (src := family) (by decide)
  have ht : TameR demoX family (some defaultOptions) (demoFields 12) 3 true true (demoDoc family) := tameRB_sound 3 true true _ (by decide)
  have hz : noNegZero family (demoDoc family) := by
    refine ⟨⟨⟨⟨⟨trivial, trivial⟩, ⟨trivial, trivial⟩, trivial⟩, trivial, trivial⟩, ⟨trivial, ⟨⟨trivial, trivial⟩, trivial⟩, trivial⟩, trivial⟩, trivial, trivial⟩
  have hm : ∃ V, Means demoX family defaultOptions (unroll 40 (demoFields 12) 4) (demoDoc family) V :=
    ⟨_, top_sound demo_floats rfl _ _ _ hdoc.2 hz ⟨⟨⟨⟨trivial, trivial, trivial⟩, trivial, trivial⟩, trivial, trivial⟩, trivial, trivial⟩ (OnceB.onceB_sound _ hdoc.2 (by decide)).1 rfl⟩
  obtain ⟨V, hV⟩ := hm
  obtain ⟨V', h1, -⟩ := C37_decodes_partial demo_floats rfl hd hdoc.2 hz ht hV
  refine ⟨V', h1, C37_means_partial demo_floats rfl ?_ hd hdoc.2 hz ht (OnceB.onceB_sound _ hdoc.2 (by decide)).1 h1⟩
  have hfs : demoFields 12 = [(b!"Kids", 0, .slice), (b!"Name", 24, .plain (.scalar .str))] := rfl
  intro f hf
  rw [hfs] at hf
  simp only [List.mem_cons, List.not_mem_nil, or_false] at hf
  rcases hf with rfl | rfl <;> trivial

/-- Maps of the type itself. -/
def dirs : Bytes := b!"{\"Kids\":{\"a\":{\"V\":1},\"b\":{\"Kids\":{\"c\":{}},\"V\":2}},\"V\":3}"

/-- It decodes to the map with two entries, of which the second has a map with one. -/
example : Returns demoX (unroll 16 (demoFields 52) 4) (decode demoX (demoDec 52) dirs (.ok (demoDoc dirs)) (some (zeros 16)) (some defaultOptions)) (-1) none
    (.struct [.map [(.str ⟨b!"a", true⟩, .struct [.nil, .int 1]), (.str ⟨b!"b", true⟩, .struct [.map [(.str ⟨b!"c", true⟩, .struct [.nil, .int 0])], .int 2])], .int 3]) := by
  obtain ⟨-, hd⟩ := demo_rec (t := 52) (by decide)
  have ht : TameR demoX dirs (some defaultOptions) (demoFields 52) 3 true true (demoDoc dirs) := tameRB_sound 3 true true _ (by decide)
  have hm : Dest demoX (unroll 16 (demoFields 52) 4) (zeros 16) (zeroV demoX (unroll 16 (demoFields 52) 4)) :=
    ⟨rfl, Val.holds_zeros _ (Val.unroll_ok (recDecoder_ready hd).ok _) (by simp [unroll, Ty.size])⟩
  exact C37_reading_partial hd hm ht

/-- A decoder that has been used is one of the decoders of the theorems. -/
example : ∃ r, decode demoX (demoDec 40) chain (.ok (demoDoc chain)) (some (zeros 16)) (some defaultOptions) = some r ∧ RecDecoder demoX 16 (demoFields 40) r.dec := by
  obtain ⟨-, hd⟩ := demo_rec (t := 40) (by decide)
  have ht : TameR demoX chain (some defaultOptions) (demoFields 40) 3 true true (demoDoc chain) := tameRB_sound 3 true true _ (by decide)
  have hm : Dest demoX (unroll 16 (demoFields 40) 4) (zeros 16) (zeroV demoX (unroll 16 (demoFields 40) 4)) :=
    ⟨rfl, Val.holds_zeros _ (Val.unroll_ok (recDecoder_ready hd).ok _) (by simp [unroll, Ty.size])⟩
  have h : Returns demoX (unroll 16 (demoFields 40) 4) (decode demoX (demoDec 40) chain (.ok (demoDoc chain)) (some (zeros 16)) (some defaultOptions)) (-1) none
    (.struct [.ptr (.struct [.ptr (.struct [.nil, .int 3]), .int 2]), .int 1]) := C37_reading_partial hd hm ht
  obtain ⟨r, m, h1, -, h3, -⟩ := h
  exact ⟨r, h1, .call hd ht hm h1 h3⟩

/-! ## Where it fails -/

/-- **C37 is false of the code**: `{"Kids":{"a":null},"V":1}` into `type M struct{Kids map[string]M; V int}` fails at the `1`. -/
theorem C37_refuted : ¬ RecursiveTrees demoX := by
  intro h
  obtain ⟨ht, -⟩ := demo_rec (t := 52) (by decide)
  have hdoc := demo_doc (src := b!"{\"Kids\":{\"a\":null},\"V\":1}") (by decide)
  have hz : noNegZero b!"{\"Kids\":{\"a\":null},\"V\":1}" (.obj 0 [((1, 7), .obj 8 [((9, 12), .null 13 17)] 17), ((19, 22), .num true 23 24)] 24) := by
    refine ⟨⟨trivial, trivial⟩, ?_, trivial⟩
    simp only [noNegZero]; decide
  have hM : ∃ V, Means demoX b!"{\"Kids\":{\"a\":null},\"V\":1}" defaultOptions (unroll 16 (demoFields 52) 3) (.obj 0 [((1, 7), .obj 8 [((9, 12), .null 13 17)] 17), ((19, 22), .num true 23 24)] 24) V :=
    ⟨_, top_sound demo_floats rfl _ _ _ hdoc.2 hz ⟨⟨(fun ik h => by cases h), ⟨(fun ik h => by cases h), ⟨(fun ik h => by cases h), trivial⟩, .inr rfl, trivial⟩, .inr rfl, trivial⟩, .inr rfl, trivial⟩ (OnceB.onceB_sound _ hdoc.2 (by decide)).1 rfl⟩
  obtain ⟨V, hV⟩ := hM
  obtain ⟨V', ⟨r, m, h1, -, h3, -⟩, -⟩ := h demoEnv _ _ 52 _ _ (demoDec 52) ht rfl 2 _ _ defaultOptions V hdoc.2 hz (by decide) hV
  have : ((decode demoX (demoDec 52) b!"{\"Kids\":{\"a\":null},\"V\":1}" (.ok (.obj 0 [((1, 7), .obj 8 [((9, 12), .null 13 17)] 17), ((19, 22), .num true 23 24)] 24)) (some (zeros 16)) (some defaultOptions)).map
      fun r => (r.errIndex, r.err)) = some (23, some .unexpectedValue) := by decide +kernel
  change decode demoX (demoDec 52) b!"{\"Kids\":{\"a\":null},\"V\":1}" (.ok (.obj 0 [((1, 7), .obj 8 [((9, 12), .null 13 17)] 17), ((19, 22), .num true 23 24)] 24)) (some (zeros 16)) (some defaultOptions) = _ at h1
  rw [h1] at this
  simp only [Option.map_some, Option.some.injEq, Prod.mk.injEq] at this
  rw [h3] at this; cases this.2

/-- Also silently: `{"Kids":[{"Name":"a"},{"Kids":[{}],"Name":"b"}]}` into `type T struct{Kids []T; Name string}` writes the name b into the first element, and the second has no name. -/
theorem C37_refuted_silent :
    (((okMem (demoUnmarshal 12 b!"{\"Kids\":[{\"Name\":\"a\"},{\"Kids\":[{}],\"Name\":\"b\"}]}" (zeros 40))).bind (sliceAt 0)).map fun a => (strAt 24 a, strAt 64 a)) = some (some b!"b", some b!"") := by
  decide +kernel

/-- For `F = struct{Kids []*F; Name string}` a document with two elements in `Kids` is rejected (with one element it is accepted). -/
theorem C37_refuted_pointers :
    (match demoUnmarshal 75 b!"{\"Kids\":[{\"Name\":\"a\"},{\"Name\":\"b\"}]}" (zeros 40) with | .ret e _ => some e | _ => none) = some (some .unexpectedValue) ∧
    (((okMem (demoUnmarshal 75 b!"{\"Kids\":[{\"Name\":\"a\"}],\"Name\":\"c\"}" (zeros 40))).bind (sliceAt 0)).bind (ptrAt 0)).bind (strAt 24) = some b!"a" := by
  decide +kernel

/-- For the mutually recursive `A = struct{Bs []B; N int}` and `B = struct{As []A; M int}` a valid document makes `Unmarshal` panic. -/
theorem C37_refuted_mutual :
    (match demoUnmarshal 78 b!"{\"Bs\":[{\"M\":2,\"As\":[{\"Bs\":[{\"M\":7}],\"N\":1}]},{\"M\":4}],\"N\":3}" (zeros 32) with | .panic => true | _ => false) = true := by
  decide +kernel

/-- For `G = struct{In struct{P *G; A int}; B int}` the value of a field that follows the pointer is written to the value pointed to: in `{"In":{"P":{"In":{"A":5}},"A":3},"B":2}` the 3 replaces the 5. -/
theorem C37_refuted_nested :
    ((okMem (demoUnmarshal 82 b!"{\"In\":{\"P\":{\"In\":{\"A\":5}},\"A\":3},\"B\":2}" (zeros 24))).map fun m => (intAt 8 m, (ptrAt 0 m).bind (intAt 8), intAt 16 m)) =
      some (some 0, some 3, some 2) := by
  decide +kernel

/-- For `type M struct{Kids map[string]M; V int}` an empty object among the entries makes `Unmarshal` lose it and everything around it: `{"Kids":{"a":{"Kids":{}},"b":{"V":2}},"V":7}` gives no error and a map with
the single entry `b` (the entry of the empty object is never taken off the recursion stack, so the copy at the end takes the value of `a` for the whole). -/
theorem C37_refuted_empty :
    ((okMem (demoUnmarshal 52 b!"{\"Kids\":{\"a\":{\"Kids\":{}},\"b\":{\"V\":2}},\"V\":7}" (zeros 16))).map fun m =>
      (match m[0]? with | some (Cell.map es) => es.map fun e => (match e.1 with | .str k => k.bytes | _ => [], intAt 8 e.2) | _ => [], intAt 8 m)) = some ([(b!"b", some 2)], some 7) := by
  decide +kernel

end Verif.Props

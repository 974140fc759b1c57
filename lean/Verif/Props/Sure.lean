import Verif.Spec.Sure
import Verif.Props.Bounds
import Verif.Props.Parts
import Verif.Props.Grow
import Verif.Props.Layer
import Verif.Props.Twice
import Verif.Props.Reorder
import Verif.Props.Means
import Verif.Props.Right
/-!
# C73: without pointers, strict decoding keeps every promise

For `ty.sure o` the conditions on documents of the other theorems hold by themselves: the claims C24, C25, C26, C30, C34, C38, C46, C48, C57, C58, C67 and C72 for every well-formed document.
-/
namespace Verif.Props
open Verif.Model Verif.Spec Verif.Big Verif.Proof Verif.Proof.Demo Verif.Proof.Outcome Verif.Proof.Unique

theorem sure_tame {x : Ext} {ty : Ty} {o : Options} (h : ty.sure o = true) (src : Bytes) (v : JVal) : TameDoc x src (some o) ty v := by
  simp only [Ty.sure, Bool.or_eq_true, Bool.and_eq_true] at h
  rcases h with h | ⟨hp, ho⟩
  · exact Structless.tameDoc h v
  · have : Tame x src (some o) ty v := Fragment.tame_strict (fun o' h => by cases h; exact ho) ty hp v
    cases ty <;> first | exact this | simp [Ty.plain] at hp

theorem sure_right {x : Ext} {ty : Ty} {o : Options} (h : ty.sure o = true) (src : Bytes) (v : JVal) : RightDoc x src (some o) ty v := C35_contains (sure_tame h src v)

/-- **C73 (C25)**: for every document, `Decode` does what the reading of the document for the type says. -/
theorem C73_reading {x : Ext} {ty : Ty} {d : Decoder} (hd : DecoderFor x ty d) {src : Bytes} {v : JVal} {mem : Block} {V : Val} (hm : Dest x ty mem V) {o : Options} (h : ty.sure o = true) :
    match decTopV x src (some o) ty v V with
    | .ok V' => Returns x ty (decode x d src (.ok v) (some mem) (some o)) (-1) none V'
    | .err i e V' => Returns x ty (decode x d src (.ok v) (some mem) (some o)) i (some e) V'
    | .crash => decode x d src (.ok v) (some mem) (some o) = none
    | .unsup => False := C25_reading_partial hd hm (sure_tame h src v)

/-- **C73 (C24, C72)**: the call returns, and at no moment does it index or address anything out of bounds. -/
theorem C73_safe {x : Ext} {ty : Ty} {d : Decoder} (hd : DecoderFor x ty d) {src : Bytes} {v : JVal} (hw : Wf src v) {mem : Block} {V : Val} (hm : Dest x ty mem V) {o : Options} (h : ty.sure o = true)
    (hc : ty.callable = true) (hq : ty.noQuotedNum = true ∨ noEmptyStr v = true) :
    (∃ i e V', Returns x ty (decode x d src (.ok v) (some mem) (some o)) i e V') ∧
    ∀ s, During (callOf x d src v (some o)) (initSt d.dyn mem) s → step (callOf x d src v (some o)) s ≠ .crash := by
  have h1 := C24_safe_partial hd hw hm (sure_tame h src v) hc hq
  refine ⟨h1, fun s hs => ?_⟩
  obtain ⟨i, e, V', r, mem', hr, -⟩ := h1
  exact C72_returns hr hs

/-- **C73 (C38)**: what was decoded before makes no difference. -/
theorem C73_reuse {x : Ext} {ty : Ty} {d d' : Decoder} (hd : DecoderFor x ty d) (hd' : DecoderFor x ty d') {src : Bytes} {v : JVal} {mem : Block} {V : Val} (hm : Dest x ty mem V) {o : Options} (h : ty.sure o = true) :
    observe (decode x d src (.ok v) (some mem) (some o)) = observe (decode x d' src (.ok v) (some mem) (some o)) := C38_reuse_partial hd hd' hm (sure_tame h src v)

/-- **C73 (C26)**: each element of an array is what decoding the JSON element alone gives; what is behind the document's elements is kept. -/
theorem C73_array {x : Ext} {n : Nat} {e : Ty} {d : Decoder} (hd : DecoderFor x (.array n e) d) {src : Bytes} {i z : Nat} {vs : List JVal} (hw : Wf src (.arr i vs z)) {mem : Block} {Ws : List Val}
    (hm : Dest x (.array n e) mem (.arr Ws)) {o : Options} (hs : e.sure o = true) {V' : Val} (h : Returns x (.array n e) (decode x d src (.ok (.arr i vs z)) (some mem) (some o)) (-1) none V') :
    ∃ Ws', V' = .arr Ws' ∧ Ws'.length = n ∧
      (∀ (j : Nat) v W, vs[j]? = some v → Ws[j]? = some W → ∃ W', Ws'[j]? = some W' ∧ Alone x src (some o) e v W (-1) none W') ∧
      ∀ j : Nat, vs.length ≤ j → Ws'[j]? = Ws[j]? :=
  C26_elements_partial hd hw hm (sure_right (ty := .array n e) hs src _) h

/-- **C73 (C58)**: each element a slice had is what decoding the JSON element into it gives. -/
theorem C73_slice {x : Ext} {ty e : Ty} (hs : SliceOf ty e) {d : Decoder} (hd : DecoderFor x ty d) {src : Bytes} {i z : Nat} {vs : List JVal} (hw : Wf src (.arr i vs z)) {mem : Block} {V : Val}
    (hm : Dest x ty mem V) {o : Options} (ho : ty.sure o = true) {V' : Val} (h : Returns x ty (decode x d src (.ok (.arr i vs z)) (some mem) (some o)) (-1) none V')
    {j : Nat} {v : JVal} {W : Val} (hv : vs[j]? = some v) (hW : (elements V)[j]? = some W) : ∃ W', (elements V')[j]? = some W' ∧ Alone x src (some o) e v W (-1) none W' := by
  obtain ⟨W', h1, h2⟩ := C58_existing_partial hs hd hw hm (sure_right ho src _) h hv hW
  exact ⟨W', h1, h2⟩

/-- **C73 (C30)**: fields no member of the object selects are kept, also by a call that fails. -/
theorem C73_kept {x : Ext} {n : Nat} {fs : List (Bytes × Nat × Ty)} {d : Decoder} (hd : DecoderFor x (.struct n fs) d) {src : Bytes} {a z : Nat} {ms : List ((Nat × Nat) × JVal)} (hw : Wf src (.obj a ms z))
    {mem : Block} {Ws : List Val} (hm : Dest x (.struct n fs) mem (.struct Ws)) {o : Options} (hs : (Ty.struct n fs).sure o = true) {i : Int} {e : Option Err} {V' : Val}
    (h : Returns x (.struct n fs) (decode x d src (.ok (.obj a ms z)) (some mem) (some o)) i e V') :
    ∃ Ws', V' = .struct Ws' ∧ Ws'.length = Ws.length ∧ ∀ j, (∀ m ∈ ms, ¬ KeySelects x src o (fs.map (·.1)) m.1 j) → Ws'[j]? = Ws[j]? :=
  C30_kept_partial hd hw hm (sure_right hs src _) h

/-- **C73 (C30)**: the last member that selects a field decides it. -/
theorem C73_decides {x : Ext} {n : Nat} {fs : List (Bytes × Nat × Ty)} {d : Decoder} (hd : DecoderFor x (.struct n fs) d) {src : Bytes} {a z : Nat} {ms1 ms2 : List ((Nat × Nat) × JVal)} {k : Nat × Nat} {v : JVal}
    (hw : Wf src (.obj a (ms1 ++ (k, v) :: ms2) z)) {mem : Block} {Ws : List Val} (hm : Dest x (.struct n fs) mem (.struct Ws)) {o : Options} (hs : (Ty.struct n fs).sure o = true) {V' : Val}
    (h : Returns x (.struct n fs) (decode x d src (.ok (.obj a (ms1 ++ (k, v) :: ms2) z)) (some mem) (some o)) (-1) none V')
    {j : Nat} {name : Bytes} {off : Nat} {t : Ty} (hf : fs[j]? = some (name, off, t)) (hk : KeySelects x src o (fs.map (·.1)) k j) (hn : ∀ m ∈ ms2, ¬ KeySelects x src o (fs.map (·.1)) m.1 j) :
    ∃ Ws' W W', V' = .struct Ws' ∧ Ws'[j]? = some W' ∧ Alone x src (some o) t v W (-1) none W' ∧ ((∀ m ∈ ms1, ¬ KeySelects x src o (fs.map (·.1)) m.1 j) → Ws[j]? = some W) :=
  C30_decides_partial hd hw hm (sure_right hs src _) h hf hk hn

/-- **C73 (C34)**: decoding into a pointer to the type is decoding into a new value of it. -/
theorem C73_pointer {x : Ext} {ty : Ty} {d : Decoder} (hd : DecoderFor x (.ptr ty) d) {de : Decoder} (he : DecoderFor x ty de) {src : Bytes} {v : JVal} (hw : Wf src v) (hn : ∀ i e, v ≠ .null i e)
    {mem : Block} {V : Val} (hm : Dest x (.ptr ty) mem V) {o : Options} (hz : ty.size x ≠ 0) (hs : ty.sure o = true) (i : Int) (e : Option Err) (W : Val) :
    Returns x (.ptr ty) (decode x d src (.ok v) (some mem) (some o)) i e (.ptr W) ↔ Returns x ty (decode x de src (.ok v) (some (zeros (ty.size x))) (some o)) i e W :=
  C34_fresh_partial hd he hw hn hm hz (sure_right hs src _) i e W

/-- **C73 (C46)**: `Decode` succeeds exactly on the documents that have a meaning for the type, and stores a meaning of them. -/
theorem C73_means {x : Ext} (hx : FloatContract x) (hf : x.tokFloat64 = x.parseFloat64) {ty : Ty} (hty : Exact x ty) {d : Decoder} (hd : DecoderFor x ty d) {src : Bytes} {v : JVal} (hw : Wf src v)
    (hz : noNegZero src v) {o : Options} (hs : ty.sure o = true) (ho : Once x src o ty v) :
    ((∃ V, Means x src o ty v V) ↔ ∃ r, decode x d src (.ok v) (some (zeros (ty.size x))) (some o) = some r ∧ r.err = none) ∧
    ∀ V, Returns x ty (decode x d src (.ok v) (some (zeros (ty.size x))) (some o)) (-1) none V → Means x src o ty v V :=
  ⟨C46_accepts_partial hx hf hty hd hw hz (sure_tame hs src v) ho, fun _ h => C46_means_partial hx hf hty hd hw hz (sure_tame hs src v) ho h⟩

/-- **C73 (C48)**: decoding twice. -/
theorem C73_twice {x : Ext} (hx : MethodsTwice x) (ty : Ty) : Idempotent x ty (fun src o v => ty.sure o = true ∧ Once x src o ty v ∧ Keyed x src o ty v) := by
  rintro d hd src v o mem V hw ⟨hs, ho, hk⟩
  exact C48_once_partial hx ty d hd src v o mem V hw ⟨sure_right hs src v, ho, hk⟩

/-- **C73 (C57)**: the order of members. -/
theorem C73_order (x : Ext) (ty : Ty) : OrderIrrelevant x ty (fun _ o _ => ty.sure o = true) := by
  intro d d' hd hd' src src' v v' o mem mem' V W hw hw' hr hn hs
  exact C57_order_partial x ty d d' hd hd' src src' v v' o mem mem' V W hw hw' hr hn (sure_tame hs src v)

/-- **C73 (C67)**: layers. -/
theorem C73_layers (x : Ext) {ty : Ty} (hl : Layered ty) : Layers x ty (fun _ o _ => ty.sure o = true) := by
  intro d d2 d3 hd hd2 hd3 src1 src2 src a1 ns1 z1 a2 ns2 z2 a ms1 ms2 z hw1 hw2 hw hs1 hs2 hj1 hj2 o hs
  exact C67_layers_partial x hl d d2 d3 hd hd2 hd3 src1 src2 src a1 ns1 z1 a2 ns2 z2 a ms1 ms2 z hw1 hw2 hw hs1 hs2 hj1 hj2 o (sure_right hs src _)

/-- A case: strict decoding of `[{"u":{}},{"X":1}]` into a nil `[]struct{X int; Y string}`, the document that makes lenient decoding write behind the end of the array (`C72_refuted`). -/
example : (∃ i e V', Returns demoX (demoTree 5) (decode demoX (demoDec 5) b!"[{\"u\":{}},{\"X\":1}]" (.ok (demoDoc b!"[{\"u\":{}},{\"X\":1}]")) (some (zeros 24)) (some ⟨true, false, false⟩)) i e V') ∧
    ∀ s, During (callOf demoX (demoDec 5) b!"[{\"u\":{}},{\"X\":1}]" (demoDoc b!"[{\"u\":{}},{\"X\":1}]") (some ⟨true, false, false⟩)) (initSt (demoDec 5).dyn (zeros 24)) s →
      step (callOf demoX (demoDec 5) b!"[{\"u\":{}},{\"X\":1}]" (demoDoc b!"[{\"u\":{}},{\"X\":1}]") (some ⟨true, false, false⟩)) s ≠ .crash :=
  C73_safe (demo_for' (t := 5) (by decide)) (demo_doc (src := b!"[{\"u\":{}},{\"X\":1}]") (by decide)).2 (zero_dest (demo_for' (t := 5) (by decide))) (by decide) (by decide) (.inl (by decide))

end Verif.Props

import Verif.Spec.Piece
import Verif.Proof.Piece
import Verif.Proof.JsonB
import Verif.Props.PartsMore
/-!
# C75: the text of a part of a document, decoded separately
-/
namespace Verif.Props
open Verif Verif.Model Verif.Spec Verif.Big Verif.Proof Verif.Proof.Outcome Verif.Proof.Unique Verif.Proof.Comp Verif.Proof.Demo

/-- **C75**, white space around the document: for every decoder, in any state, every destination memory and options: what `Decode` does with a text is what it does with the text without the white space
before and behind the value, byte for byte, and an error index is that in the trimmed text plus the white space before. -/
theorem C75_trim {x : Ext} {d : Decoder} {src : Bytes} {v v' : JVal} (hd : IsDoc src v) (hv : IsDoc (textOf src v) v') (mem : Block) (o : Option Options) :
    ShiftedBy v.index (decode x d src (.ok v) (some mem) o) (decode x d (textOf src v) (.ok v') (some mem) o) := Piece.decode_piece hd .self hv mem o

/-- The text of a part of a document is a document. -/
theorem C75_document {src : Bytes} {v w : JVal} (hd : IsDoc src v) (h : Inside w v) : ∃ v', IsDoc (textOf src w) v' := ⟨_, (Piece.inside_self hd h).1⟩

/-- **C75**, parts: for every decoder, in any state, every destination memory and options: decoding the tokens of a part of a document, in their place, and decoding the text of the part as a document of its own, are the same; only the
error index is shifted. This holds for `UnmarshalJSON` methods, too: they get the same bytes. -/
theorem C75_part {x : Ext} {d : Decoder} {src : Bytes} {v w v' : JVal} (hd : IsDoc src v) (h : Inside w v) (hv : IsDoc (textOf src w) v') (mem : Block) (o : Option Options) :
    ShiftedBy w.index (decode x d src (.ok w) (some mem) o) (decode x d (textOf src w) (.ok v') (some mem) o) := Piece.decode_piece hd h hv mem o

theorem shifted_returns {x : Ext} {ty : Ty} {k : Nat} {a b : Option DecodeRes} (h : ShiftedBy k a b) {i : Int} {e : Option Err} {W : Val} (ha : Returns x ty a i e W) :
    Returns x ty b (if i = -1 then -1 else i - k) e W := by
  obtain ⟨r, m, rfl, h2, h3, h4, h5⟩ := ha
  cases b with
  | none => exact h.elim
  | some r' =>
    obtain ⟨g1, g2, -, g3⟩ := h
    refine ⟨r', m, rfl, ?_, g1 ▸ h3, g2 ▸ h4, h5⟩
    rcases g3 with ⟨g3, g4⟩ | ⟨p, g3, g4⟩
    · rw [if_pos (by rw [← h2, g3]), g4]
    · rw [if_neg (by rw [← h2, g4]; omega), ← h2, g4, g3]; omega

theorem returns_shifted {x : Ext} {ty : Ty} {k : Nat} {a b : Option DecodeRes} (h : ShiftedBy k a b) {i : Int} {e : Option Err} {W : Val} (hb : Returns x ty b i e W) :
    Returns x ty a (if i = -1 then -1 else i + k) e W := by
  obtain ⟨r, m, rfl, h2, h3, h4, h5⟩ := hb
  cases a with
  | none => exact h.elim
  | some r' =>
    obtain ⟨g1, g2, -, g3⟩ := h
    refine ⟨r', m, rfl, ?_, g1 ▸ h3, g2 ▸ h4, h5⟩
    rcases g3 with ⟨g3, g4⟩ | ⟨p, g3, g4⟩
    · rw [if_pos (by rw [← h2, g4]), g3]
    · rw [if_neg (by rw [← h2, g3]; omega), ← h2, g4, g3]; omega

theorem separate_of_alone {x : Ext} {src : Bytes} {v w : JVal} (hd : IsDoc src v) (h : Inside w v) {o : Option Options} {ty : Ty} {W W' : Val} {i : Int} {e : Option Err} (ha : Alone x src o ty w W i e W') :
    Separate x (textOf src w) o ty W (if i = -1 then -1 else i - w.index) e W' := by
  obtain ⟨v', hv⟩ := C75_document hd h
  exact ⟨v', hv, fun d mem hd' hm => shifted_returns (C75_part hd h hv mem o) (ha d mem hd' hm)⟩

theorem separate_ok {x : Ext} {src : Bytes} {v w : JVal} (hd : IsDoc src v) (h : Inside w v) {o : Option Options} {ty : Ty} {W W' : Val} (ha : Alone x src o ty w W (-1) none W') : Separate x (textOf src w) o ty W (-1) none W' := by
  simpa using separate_of_alone hd h ha

theorem alone_of_separate {x : Ext} {src : Bytes} {v w : JVal} (hd : IsDoc src v) (h : Inside w v) {o : Option Options} {ty : Ty} {W W' : Val} {i : Int} {e : Option Err} (ha : Separate x (textOf src w) o ty W i e W') :
    Alone x src o ty w W (if i = -1 then -1 else i + w.index) e W' := by
  obtain ⟨v', hv, ha⟩ := ha
  exact fun d mem hd' hm => returns_shifted (C75_part hd h hv mem o) (ha d mem hd' hm)

/-- An error of a part: its index in the text of the part is that in the document, less the position of the part. -/
theorem separate_err {x : Ext} {src : Bytes} {v w : JVal} (hd : IsDoc src v) (h : Inside w v) {o : Option Options} {ty : Ty} {W W' : Val} {p : Int} (hp : p ≠ -1) {er : Err} (ha : Alone x src o ty w W p (some er) W') :
    Separate x (textOf src w) o ty W (p - w.index) (some er) W' := by
  have := separate_of_alone hd h ha
  rwa [if_neg hp] at this

theorem inside_elem {i z : Nat} {vs : List JVal} {j : Nat} {v : JVal} (h : vs[j]? = some v) : Inside v (.arr i vs z) := .elem (List.mem_of_getElem? h) .self

theorem right_err_pos {x : Ext} {ty : Ty} {d : Decoder} (hd : DecoderFor x ty d) {src : Bytes} {v : JVal} (hw : Wf src v) {mem : Block} {V V' : Val} (hm : Dest x ty mem V)
    {o : Option Options} (hR : RightDoc x src o ty v) {i : Int} {e : Err} (h : Returns x ty (decode x d src (.ok v) (some mem) o) i (some e) V') : i ≠ -1 := by
  obtain ⟨p, rfl, -⟩ := (right_err_iff hd hw hm hR).1 h
  omega

/-- **C75, partial** (missing: documents outside `RightDoc`, where the claim is false: `C75_refuted`), arrays: after success every JSON element that has a place is in it as if its text had been decoded separately into that place. -/
theorem C75_array_partial {x : Ext} {n : Nat} {e : Ty} {d : Decoder} (hd : DecoderFor x (.array n e) d) {src : Bytes} {i z : Nat} {vs : List JVal} (hw : IsDoc src (.arr i vs z)) {mem : Block} {Ws : List Val}
    (hm : Dest x (.array n e) mem (.arr Ws)) {o : Option Options} (hR : RightDoc x src o (.array n e) (.arr i vs z)) {V' : Val}
    (h : Returns x (.array n e) (decode x d src (.ok (.arr i vs z)) (some mem) o) (-1) none V') :
    ∃ Ws', V' = .arr Ws' ∧ Ws'.length = n ∧
      (∀ (j : Nat) v W, vs[j]? = some v → Ws[j]? = some W → ∃ W', Ws'[j]? = some W' ∧ Separate x (textOf src v) o e W (-1) none W') ∧
      ∀ j : Nat, vs.length ≤ j → Ws'[j]? = Ws[j]? := by
  obtain ⟨Ws', g1, g2, g3, g4⟩ := C26_elements_partial hd (Json.doc_wf hw) hm hR h
  refine ⟨Ws', g1, g2, fun j v W hv hW => ?_, g4⟩
  obtain ⟨W', g5, g6⟩ := g3 j v W hv hW
  exact ⟨W', g5, separate_ok hw (inside_elem hv) g6⟩

/-- **C75, partial**, arrays, failures: the error is that of the first element whose text, decoded separately, fails; its index is the index there plus the position of the element. -/
theorem C75_array_error_partial {x : Ext} {n : Nat} {e : Ty} {d : Decoder} (hd : DecoderFor x (.array n e) d) {src : Bytes} {i z : Nat} {vs : List JVal} (hw : IsDoc src (.arr i vs z)) {mem : Block} {Ws : List Val}
    (hm : Dest x (.array n e) mem (.arr Ws)) {o : Option Options} (hR : RightDoc x src o (.array n e) (.arr i vs z)) {p : Int} {er : Err} {V' : Val}
    (h : Returns x (.array n e) (decode x d src (.ok (.arr i vs z)) (some mem) o) p (some er) V') :
    ∃ Ws' j v W W', V' = .arr Ws' ∧ Ws'.length = n ∧ vs[j]? = some v ∧ Ws[j]? = some W ∧ Ws'[j]? = some W' ∧ Separate x (textOf src v) o e W (p - v.index) (some er) W' ∧
      (∀ (k : Nat) v W, k < j → vs[k]? = some v → Ws[k]? = some W → ∃ W', Ws'[k]? = some W' ∧ Separate x (textOf src v) o e W (-1) none W') ∧ ∀ k : Nat, j < k → Ws'[k]? = Ws[k]? := by
  have hp := right_err_pos hd (Json.doc_wf hw) hm hR h
  obtain ⟨Ws', j, v, W, W', g1, g2, g3, g4, g5, g6, g7, g8⟩ := C26_error_partial hd (Json.doc_wf hw) hm hR h
  refine ⟨Ws', j, v, W, W', g1, g2, g3, g4, g5, separate_err hw (inside_elem g3) hp g6, fun k v W hk hv hW => ?_, g8⟩
  obtain ⟨W', q1, q2⟩ := g7 k v W hk hv hW
  exact ⟨W', q1, separate_ok hw (inside_elem hv) q2⟩

/-- **C75, partial**, slices without old elements: the document is decoded if and only if the text of every element, decoded separately into a zero variable, is; and with these values. -/
theorem C75_slice_partial {x : Ext} {ty e : Ty} (hs : SliceOf ty e) {d : Decoder} (hd : DecoderFor x ty d) {de : Decoder} (hde : DecoderFor x e de) {src : Bytes} {i z : Nat} {vs : List JVal} (hw : IsDoc src (.arr i vs z))
    {mem : Block} {V : Val} (hm : Dest x ty mem V) (hV : upToCap V = []) {o : Option Options} (hR : RightDoc x src o ty (.arr i vs z)) (es : List Val) :
    Returns x ty (decode x d src (.ok (.arr i vs z)) (some mem) o) (-1) none (.slice es []) ↔
      es.length = vs.length ∧ ∀ (j : Nat) v v' W', vs[j]? = some v → IsDoc (textOf src v) v' → es[j]? = some W' →
        Returns x e (decode x de (textOf src v) (.ok v') (some (zeros (e.size x))) o) (-1) none W' := by
  rw [C27_fresh_partial hs hd hde (Json.doc_wf hw) hm hV hR es]
  refine and_congr Iff.rfl ⟨fun h j v v' W' hv hd' hW' => ?_, fun h j v W' hv hW' => ?_⟩
  · simpa using shifted_returns (C75_part hw (inside_elem hv) hd' _ o) (h j v W' hv hW')
  · obtain ⟨v', hd'⟩ := C75_document hw (inside_elem hv)
    simpa using returns_shifted (C75_part hw (inside_elem hv) hd' _ o) (h j v v' W' hv hd' hW')

/-- **C75, partial**, slices, failures. -/
theorem C75_slice_error_partial {x : Ext} {ty e : Ty} (hs : SliceOf ty e) {d : Decoder} (hd : DecoderFor x ty d) {src : Bytes} {i z : Nat} {vs : List JVal} (hw : IsDoc src (.arr i vs z)) {mem : Block} {V : Val}
    (hm : Dest x ty mem V) {o : Option Options} (hR : RightDoc x src o ty (.arr i vs z)) {p : Int} {er : Err} {V' : Val}
    (h : Returns x ty (decode x d src (.ok (.arr i vs z)) (some mem) o) p (some er) V') :
    ∃ j v W W', vs[j]? = some v ∧ (W = zeroV x e ∨ (upToCap V)[j]? = some W) ∧ Separate x (textOf src v) o e W (p - v.index) (some er) W' ∧
      ∀ (k : Nat) v, k < j → vs[k]? = some v → ∃ W W', (W = zeroV x e ∨ (upToCap V)[k]? = some W) ∧ Separate x (textOf src v) o e W (-1) none W' := by
  have hp := right_err_pos hd (Json.doc_wf hw) hm hR h
  obtain ⟨j, v, W, W', g1, g2, g3, g4⟩ := C27_error_partial hs hd (Json.doc_wf hw) hm hR h
  refine ⟨j, v, W, W', g1, g2, separate_err hw (inside_elem g1) hp g3, fun k v hk hv => ?_⟩
  obtain ⟨W, W', q1, q2⟩ := g4 k v hk hv
  exact ⟨W, W', q1, separate_ok hw (inside_elem hv) q2⟩

/-- **C75, partial**, maps: the entry of a key is what its last value, decoded separately, gives. -/
theorem C75_map_partial {x : Ext} {k : KeyTy} {e : Ty} {d : Decoder} (hd : DecoderFor x (.map k e) d) {src : Bytes} {i z : Nat} {ms : List ((Nat × Nat) × JVal)} (hw : IsDoc src (.obj i ms z)) {mem : Block} {V : Val}
    (hm : Dest x (.map k e) mem V) {o : Option Options} (hR : RightDoc x src o (.map k e) (.obj i ms z)) (hk : ∀ m ∈ ms, ∃ K, KeyOf x k (inner src m.1.1 m.1.2) K) {V' : Val}
    (h : Returns x (.map k e) (decode x d src (.ok (.obj i ms z)) (some mem) o) (-1) none V') :
    ∃ Es, V' = .map Es ∧
      (∀ K, (∀ m ∈ ms, ¬ KeyOf x k (inner src m.1.1 m.1.2) K) → lookupV K Es = lookupV K (entriesOf V)) ∧
      (∀ ms1 key v ms2 K, ms = ms1 ++ (key, v) :: ms2 → KeyOf x k (inner src key.1 key.2) K → (∀ m ∈ ms2, ¬ KeyOf x k (inner src m.1.1 m.1.2) K) →
        ∃ W W', lookupV K Es = some W' ∧ Separate x (textOf src v) o e W (-1) none W' ∧ (isStruct e = true → W = zeroV x e) ∧
          (isStruct e = false → (∀ m ∈ ms1, ¬ KeyOf x k (inner src m.1.1 m.1.2) K) → W = (lookupV K (entriesOf V)).getD (zeroV x e))) := by
  obtain ⟨Es, g1, g2, g3, -⟩ := C28_entries_partial hd (Json.doc_wf hw) hm hR hk h
  refine ⟨Es, g1, g2, fun ms1 key v ms2 K h1 h2 h3 => ?_⟩
  obtain ⟨W, W', q1, q2, q3⟩ := g3 ms1 key v ms2 K h1 h2 h3
  exact ⟨W, W', q1, separate_ok hw (.member (m := (key, v)) (by rw [h1]; simp) .self) q2, q3⟩

/-- **C75, partial**, structs: a field selected by a key is what the last value that selects it, decoded separately, gives. -/
theorem C75_struct_partial {x : Ext} {n : Nat} {fs : List (Bytes × Nat × Ty)} {d : Decoder} (hd : DecoderFor x (.struct n fs) d) {src : Bytes} {a z : Nat} {ms1 ms2 : List ((Nat × Nat) × JVal)} {k : Nat × Nat} {v : JVal}
    (hw : IsDoc src (.obj a (ms1 ++ (k, v) :: ms2) z)) {mem : Block} {Ws : List Val} (hm : Dest x (.struct n fs) mem (.struct Ws)) {o : Options}
    (hR : RightDoc x src (some o) (.struct n fs) (.obj a (ms1 ++ (k, v) :: ms2) z)) {V' : Val}
    (h : Returns x (.struct n fs) (decode x d src (.ok (.obj a (ms1 ++ (k, v) :: ms2) z)) (some mem) (some o)) (-1) none V')
    {j : Nat} {name : Bytes} {off : Nat} {t : Ty} (hf : fs[j]? = some (name, off, t)) (hs : KeySelects x src o (fs.map (·.1)) k j) (hn : ∀ m ∈ ms2, ¬ KeySelects x src o (fs.map (·.1)) m.1 j) :
    ∃ Ws' W W', V' = .struct Ws' ∧ Ws'[j]? = some W' ∧ Separate x (textOf src v) (some o) t W (-1) none W' ∧ ((∀ m ∈ ms1, ¬ KeySelects x src o (fs.map (·.1)) m.1 j) → Ws[j]? = some W) := by
  obtain ⟨Ws', W, W', g1, g2, g3, g4⟩ := C30_decides_partial hd (Json.doc_wf hw) hm hR h hf hs hn
  exact ⟨Ws', W, W', g1, g2, separate_ok hw (.member (m := (k, v)) (by simp) .self) g3, g4⟩

/-- **C75, partial**, structs, failures: the error is an unknown key, or that of the first value whose text, decoded separately into its field, fails. -/
theorem C75_struct_error_partial {x : Ext} {n : Nat} {fs : List (Bytes × Nat × Ty)} {d : Decoder} (hd : DecoderFor x (.struct n fs) d) {src : Bytes} {a z : Nat} {ms : List ((Nat × Nat) × JVal)} (hw : IsDoc src (.obj a ms z))
    {mem : Block} {Ws : List Val} (hm : Dest x (.struct n fs) mem (.struct Ws)) {o : Options} (hR : RightDoc x src (some o) (.struct n fs) (.obj a ms z)) {p : Int} {er : Err} {V' : Val}
    (h : Returns x (.struct n fs) (decode x d src (.ok (.obj a ms z)) (some mem) (some o)) p (some er) V') :
    ∃ Ws' ms1 k v ms2, V' = .struct Ws' ∧ ms = ms1 ++ (k, v) :: ms2 ∧
      ((p = k.1 ∧ er = .unknownField ∧ o.disallowUnknownFields = true ∧ KeyUnknown x src o (fs.map (·.1)) k) ∨
        ∃ j f W W', KeySelects x src o (fs.map (·.1)) k j ∧ fs[j]? = some f ∧ Separate x (textOf src v) (some o) f.2.2 W (p - v.index) (some er) W' ∧ Ws'[j]? = some W' ∧
          ((∀ m ∈ ms1, ¬ KeySelects x src o (fs.map (·.1)) m.1 j) → Ws[j]? = some W)) ∧
      ∀ m ∈ ms1, (o.disallowUnknownFields = false ∧ KeyUnknown x src o (fs.map (·.1)) m.1) ∨
        ∃ j f W W', KeySelects x src o (fs.map (·.1)) m.1 j ∧ fs[j]? = some f ∧ Separate x (textOf src m.2) (some o) f.2.2 W (-1) none W' := by
  have hp := right_err_pos hd (Json.doc_wf hw) hm hR h
  obtain ⟨Ws', ms1, k, v, ms2, g1, g2, g3, g4⟩ := C30_error_partial hd (Json.doc_wf hw) hm hR h
  refine ⟨Ws', ms1, k, v, ms2, g1, g2, g3.imp id ?_, fun m hm' => (g4 m hm').imp id ?_⟩
  · rintro ⟨j, f, W, W', q1, q2, q3, q4⟩
    exact ⟨j, f, W, W', q1, q2, separate_err hw (.member (m := (k, v)) (by rw [g2]; simp) .self) hp q3, q4⟩
  · rintro ⟨j, f, W, W', q1, q2, q3⟩
    exact ⟨j, f, W, W', q1, q2, separate_ok hw (.member (by rw [g2]; simp [hm']) .self) q3⟩

/-- The full statement of C75 for arrays. -/
def ArrayPieces (x : Ext) : Prop :=
  ∀ (n : Nat) (e : Ty) (d : Decoder) (src : Bytes) (i z : Nat) (vs : List JVal) (mem : Block) (Ws : List Val) (o : Options) (V' : Val), DecoderFor x (.array n e) d → IsDoc src (.arr i vs z) → Dest x (.array n e) mem (.arr Ws) →
    Returns x (.array n e) (decode x d src (.ok (.arr i vs z)) (some mem) (some o)) (-1) none V' →
    ∃ Ws', V' = .arr Ws' ∧ Ws'.length = n ∧
      (∀ (j : Nat) v W, vs[j]? = some v → Ws[j]? = some W → ∃ W', Ws'[j]? = some W' ∧ Separate x (textOf src v) (some o) e W (-1) none W') ∧
      ∀ j : Nat, vs.length ≤ j → Ws'[j]? = Ws[j]?

/-- **C75 is false of the code** for containers: `[{"u":{}},{"X":1}]` into a zero `[2]struct{X int; Y string}` is accepted and leaves both elements zero; `{"X":1}`, decoded separately, sets X. -/
theorem C75_refuted : ¬ ArrayPieces demoX := by
  intro h
  have hd : DecoderFor demoX (demoTree 47) (demoDec 47) := demo_for' (t := 47) (by decide)
  have hd4 : DecoderFor demoX (demoTree 4) (demoDec 4) := demo_for' (t := 4) (by decide)
  have hdoc : IsDoc b!"[{\"u\":{}},{\"X\":1}]" (demoDoc b!"[{\"u\":{}},{\"X\":1}]") := JsonB.demo_isDoc (by decide +kernel)
  have hdoc4 : IsDoc b!"{\"X\":1}" (demoDoc b!"{\"X\":1}") := JsonB.demo_isDoc (by decide +kernel)
  have h0 : zeroAt 48 [0, 8, 24, 32] (decode demoX (demoDec 47) b!"[{\"u\":{}},{\"X\":1}]" (.ok (demoDoc b!"[{\"u\":{}},{\"X\":1}]")) (some (zeros 48)) (some defaultOptions)) = true := by
    decide +kernel
  obtain ⟨r, b, g1, g2, g3, g4, g5, g6⟩ := zeroAt_inv h0
  have z0 := g6 0 (by decide)
  have z1 := g6 8 (by decide)
  have z2 := g6 24 (by decide)
  have z3 := g6 32 (by decide)
  have hm' : Dest demoX (demoTree 47) b (.arr [.struct [.int 0, .str ⟨[], false⟩], .struct [.int 0, .str ⟨[], false⟩]]) := by
    refine ⟨g5, by rw [g5]; decide, _, rfl, rfl, fun j W hW => ?_⟩
    match j, hW with
    | 0, hW =>
      cases hW
      exact ⟨by rw [g5]; decide, _, rfl, _, _, rfl, ⟨by rw [g5]; decide, .inl ⟨z0, rfl⟩⟩, _, _, rfl, ⟨by rw [g5]; decide, .inl ⟨z1, rfl⟩⟩, rfl⟩
    | 1, hW =>
      cases hW
      exact ⟨by rw [g5]; decide, _, rfl, _, _, rfl, ⟨by rw [g5]; decide, .inl ⟨z2, rfl⟩⟩, _, _, rfl, ⟨by rw [g5]; decide, .inl ⟨z3, rfl⟩⟩, rfl⟩
  obtain ⟨Ws', e1, -, e2, -⟩ := h 2 (demoTree 4) (demoDec 47) _ 0 17 [.obj 1 [((2, 5), .obj 6 [] 7)] 8, .obj 10 [((11, 14), .num true 15 16)] 16] _ [.struct [.int 0, .str ⟨[], false⟩], .struct [.int 0, .str ⟨[], false⟩]] defaultOptions _ hd
    hdoc (zero_dest hd) ⟨r, b, g1, g2, g3, g4, hm'⟩
  cases e1
  obtain ⟨W', e3, v', e4, e5⟩ := e2 1 _ _ rfl rfl
  cases e3
  have ht : textOf b!"[{\"u\":{}},{\"X\":1}]" (.obj 10 [((11, 14), .num true 15 16)] 16) = b!"{\"X\":1}" := by decide +kernel
  rw [ht] at e4 e5
  rw [json_unique e4 hdoc4] at e5
  have e6 := e5 _ _ hd4 (zero_dest hd4)
  obtain ⟨r4, b4, q1, q2, q3, q4, q5, q6, q7⟩ := oneAt_inv (j := 0) (v := 1) (len := 24) (is := [8])
    (res := decode demoX (demoDec 4) b!"{\"X\":1}" (.ok (demoDoc b!"{\"X\":1}")) (some (zeros 24)) (some defaultOptions)) (by decide +kernel)
  have hm4 : Dest demoX (demoTree 4) b4 (.struct [.int 1, .str ⟨[], false⟩]) :=
    ⟨q5, by rw [q5]; decide, _, rfl, _, _, rfl, ⟨by rw [q5]; decide, .inr ⟨_, q6, rfl⟩⟩, _, _, rfl, ⟨by rw [q5]; decide, .inl ⟨q7 8 (by decide), rfl⟩⟩, rfl⟩
  have := (returns_unique e6 ⟨r4, b4, q1, q2, q3, q4, hm4⟩).2.2
  simp at this

/-- A recursive type: ` {"Kids":[{}],"Name":1} ` into a zero `struct{Kids []T; Name string}`. -/
example : ShiftedBy 1
    (decode demoX (demoDec 12) b!" {\"Kids\":[{}],\"Name\":1} " (.ok (demoDoc b!" {\"Kids\":[{}],\"Name\":1} ")) (some (zeros 40)) (some defaultOptions))
    (decode demoX (demoDec 12) b!"{\"Kids\":[{}],\"Name\":1}" (.ok (demoDoc b!"{\"Kids\":[{}],\"Name\":1}")) (some (zeros 40)) (some defaultOptions)) := by
  have h1 : IsDoc b!" {\"Kids\":[{}],\"Name\":1} " (demoDoc b!" {\"Kids\":[{}],\"Name\":1} ") := JsonB.demo_isDoc (by decide +kernel)
  have h2 : IsDoc b!"{\"Kids\":[{}],\"Name\":1}" (demoDoc b!"{\"Kids\":[{}],\"Name\":1}") := JsonB.demo_isDoc (by decide +kernel)
  have ht : textOf b!" {\"Kids\":[{}],\"Name\":1} " (demoDoc b!" {\"Kids\":[{}],\"Name\":1} ") = b!"{\"Kids\":[{}],\"Name\":1}" := by decide +kernel
  have := C75_trim (x := demoX) (d := demoDec 12) (v' := demoDoc b!"{\"Kids\":[{}],\"Name\":1}") h1 (by rw [ht]; exact h2) (zeros 40) (some defaultOptions)
  rwa [ht] at this

/-- The outcome of the example: ErrUnexpectedValue, at bytes 21 and 20. -/
example : (decode demoX (demoDec 12) b!" {\"Kids\":[{}],\"Name\":1} " (.ok (demoDoc b!" {\"Kids\":[{}],\"Name\":1} ")) (some (zeros 40)) (some defaultOptions)).map (fun r => (r.errIndex, r.err)) =
      some (21, some .unexpectedValue) ∧
    (decode demoX (demoDec 12) b!"{\"Kids\":[{}],\"Name\":1}" (.ok (demoDoc b!"{\"Kids\":[{}],\"Name\":1}")) (some (zeros 40)) (some defaultOptions)).map (fun r => (r.errIndex, r.err)) =
      some (20, some .unexpectedValue) := by decide +kernel

/-- A part: the value `"x"` of `[{"X":1},{"X":"x"}]` is a part of it. -/
example : ∃ w, Inside w (demoDoc b!"[{\"X\":1},{\"X\":\"x\"}]") ∧ textOf b!"[{\"X\":1},{\"X\":\"x\"}]" w = b!"\"x\"" ∧ w.index = 14 :=
  ⟨.str 14 17, .elem (u := .obj 9 [((10, 13), .str 14 17)] 17) (List.mem_cons_of_mem _ (List.mem_cons_self ..)) (.member (m := ((10, 13), .str 14 17)) (List.mem_cons_self ..) .self), by decide +kernel, rfl⟩

/-- `[{"X":1},{"X":"x"}]` into a nil `[]struct{X int; Y string}`: ErrUnexpectedValue at byte 14; the text of the second element, `{"X":"x"}`, at byte 5. -/
example : ∃ (v : JVal) (p : Int) (W W' : Val), Separate demoX (textOf b!"[{\"X\":1},{\"X\":\"x\"}]" v) (some defaultOptions) (demoTree 4) W (p - v.index) (some .unexpectedValue) W' ∧ p = 14 := by
  obtain ⟨hd, -, hR⟩ := Right.demo_right (t := 5) (src := b!"[{\"X\":1},{\"X\":\"x\"}]") (o := defaultOptions) (by decide) (by decide) (by decide +kernel)
  have hdoc : IsDoc b!"[{\"X\":1},{\"X\":\"x\"}]" (demoDoc b!"[{\"X\":1},{\"X\":\"x\"}]") := JsonB.demo_isDoc (by decide +kernel)
  have hz := zero_dest hd
  have hc : (match decPV demoX b!"[{\"X\":1},{\"X\":\"x\"}]" (some defaultOptions) (demoTree 5) (demoDoc b!"[{\"X\":1},{\"X\":\"x\"}]") (zeroV demoX (demoTree 5)) with
    | .err 14 .unexpectedValue _ => true | _ => false) = true := by decide +kernel
  split at hc
  · rename_i V' hV
    have h := (right_err_iff hd (Json.doc_wf hdoc) hz hR).2 ⟨14, rfl, hV⟩
    obtain ⟨j, v, W, W', -, -, h3, -⟩ := C75_slice_error_partial (ty := demoTree 5) (e := demoTree 4) (.gen _) hd (i := 0) (z := 18)
      (vs := [.obj 1 [((2, 5), .num true 6 7)] 7, .obj 9 [((10, 13), .str 14 17)] 17]) hdoc hz hR h
    exact ⟨v, 14, W, W', h3, rfl⟩
  · cases hc

end Verif.Props

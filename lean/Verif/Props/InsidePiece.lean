import Verif.Props.InsideMore
import Verif.Props.Piece
/-!
# C75 for types with recursive struct types inside: the texts of the parts of a document, decoded separately
-/
namespace Verif.Props
open Verif Verif.Model Verif.Spec Verif.Big Verif.Proof Verif.Proof.Reads Verif.Proof.Outcome Verif.Proof.Unique Verif.Proof.Comp Verif.Proof.Demo

/-- The text is a JSON document, and it is what the caller passes to `Decode`, of any decoder for the type with recursive struct types inside, with any variable that holds `W`: `Decode` returns `(i, e)` and leaves `W'`. -/
def SeparateX (x : Ext) (t : Bytes) (o : Option Options) (n : Nat) (ty : RTy) (W : Val) (i : Int) (e : Option Err) (W' : Val) : Prop :=
  ∃ v, IsDoc t v ∧ ∀ d mem, InsideDecoder x ty d → Dest x (ty.ty n) mem W → Returns x (ty.ty n) (decode x d t (.ok v) (some mem) o) i e W'

/-- The same, for a text that is refused with the error `e` at index `i`. -/
def SeparateErrX (x : Ext) (t : Bytes) (o : Option Options) (n : Nat) (ty : RTy) (W : Val) (i : Int) (e : Err) : Prop :=
  ∃ v, IsDoc t v ∧ ∀ d mem, InsideDecoder x ty d → Dest x (ty.ty n) mem W → ∃ W', Returns x (ty.ty n) (decode x d t (.ok v) (some mem) o) i (some e) W'

theorem separateX_ok {x : Ext} {src : Bytes} {v w : JVal} (hd : IsDoc src v) (h : Inside w v) {o : Option Options} {n : Nat} {ty : RTy} {W W' : Val} (ha : AloneX x src o n ty w W (-1) none W') :
    SeparateX x (textOf src w) o n ty W (-1) none W' := by
  obtain ⟨v', hv⟩ := C75_document hd h
  exact ⟨v', hv, fun d mem hd' hm => by simpa using shifted_returns (C75_part hd h hv mem o) (ha d mem hd' hm)⟩

theorem separateX_err {x : Ext} {src : Bytes} {v w : JVal} (hd : IsDoc src v) (h : Inside w v) {o : Option Options} {n : Nat} {ty : RTy} {W : Val} {p : Int} (hp : p ≠ -1) {er : Err} (ha : RefusedX x src o n ty w W p er) :
    SeparateErrX x (textOf src w) o n ty W (p - w.index) er := by
  obtain ⟨v', hv⟩ := C75_document hd h
  refine ⟨v', hv, fun d mem hd' hm => ?_⟩
  obtain ⟨W', ha⟩ := ha d mem hd' hm
  have := shifted_returns (C75_part hd h hv mem o) ha
  rw [if_neg hp] at this
  exact ⟨W', this⟩

theorem inside_pos {x : Ext} {ty : RTy} {d : Decoder} (hd : InsideDecoder x ty d) {src : Bytes} {v : JVal} {mem : Block} {V : Val} {n : Nat} (hm : Dest x (ty.ty n) mem V) {o : Option Options} (ht : TameDocX x src o n ty v)
    {p : Int} {er : Err} {V' : Val} (h : Returns x (ty.ty n) (decode x d src (.ok v) (some mem) o) p (some er) V') : p ≠ -1 := by
  obtain ⟨q, W', rfl, -⟩ := inside_err hd hm ht h
  omega

/-- **C75** for types with recursive struct types inside, arrays. -/
theorem C75_inside_array_partial {x : Ext} {k : Nat} {e : RTy} {d : Decoder} (hd : InsideDecoder x (.array k e) d) {src : Bytes} {i z : Nat} {vs : List JVal} (hw : IsDoc src (.arr i vs z)) {mem : Block} {Ws : List Val} {n : Nat}
    (hm : Dest x (RTy.ty n (.array k e)) mem (.arr Ws)) {o : Option Options} (ht : TameDocX x src o n (.array k e) (.arr i vs z)) {V' : Val}
    (h : Returns x (RTy.ty n (.array k e)) (decode x d src (.ok (.arr i vs z)) (some mem) o) (-1) none V') :
    ∃ Ws', V' = .arr Ws' ∧ Ws'.length = k ∧
      (∀ (j : Nat) v W, vs[j]? = some v → Ws[j]? = some W → ∃ W', Ws'[j]? = some W' ∧ SeparateX x (textOf src v) o n e W (-1) none W') ∧
      ∀ j : Nat, vs.length ≤ j → Ws'[j]? = Ws[j]? := by
  obtain ⟨Ws', g1, g2, g3, g4⟩ := C26_inside_partial hd hm ht h
  refine ⟨Ws', g1, g2, fun j v W hv hW => ?_, g4⟩
  obtain ⟨W', g5, g6⟩ := g3 j v W hv hW
  exact ⟨W', g5, separateX_ok hw (inside_elem hv) g6⟩

/-- **C75** for types with recursive struct types inside, slices. -/
theorem C75_inside_slice_partial {x : Ext} {e : RTy} {d : Decoder} (hd : InsideDecoder x (.slice e) d) {src : Bytes} {i z : Nat} {vs : List JVal} (hw : IsDoc src (.arr i vs z)) {mem : Block} {V : Val} {n : Nat}
    (hm : Dest x (RTy.ty n (.slice e)) mem V) {o : Option Options} (ht : TameDocX x src o n (.slice e) (.arr i vs z)) {V' : Val}
    (h : Returns x (RTy.ty n (.slice e)) (decode x d src (.ok (.arr i vs z)) (some mem) o) (-1) none V') :
    ∃ es spare, V' = .slice es spare ∧ es.length = vs.length ∧ (upToCap V = [] → spare = []) ∧ ∀ (j : Nat) v, vs[j]? = some v →
      ∃ W W', es[j]? = some W' ∧ SeparateX x (textOf src v) o n e W (-1) none W' ∧ (W = zeroV x (e.ty n) ∨ (upToCap V)[j]? = some W) := by
  obtain ⟨es, sp, g1, g2, g3, g4⟩ := C27_inside_partial hd (Json.doc_wf hw) hm ht h
  refine ⟨es, sp, g1, g2, g3, fun j v hv => ?_⟩
  obtain ⟨W, W', q1, q2, q3⟩ := g4 j v hv
  exact ⟨W, W', q1, separateX_ok hw (inside_elem hv) q2, q3⟩

/-- **C75** for types with recursive struct types inside, maps: the entry of a key is what its last value, decoded separately, gives. -/
theorem C75_inside_map_partial {x : Ext} {k : KeyTy} {e : RTy} {d : Decoder} (hd : InsideDecoder x (.map k e) d) {src : Bytes} {i z : Nat} {ms : List ((Nat × Nat) × JVal)} (hw : IsDoc src (.obj i ms z)) {mem : Block} {V : Val}
    {n : Nat} (hm : Dest x (RTy.ty n (.map k e)) mem V) {o : Option Options} (ht : TameDocX x src o n (.map k e) (.obj i ms z)) (hk : ∀ m ∈ ms, ∃ K, KeyOf x k (inner src m.1.1 m.1.2) K) {V' : Val}
    (h : Returns x (RTy.ty n (.map k e)) (decode x d src (.ok (.obj i ms z)) (some mem) o) (-1) none V') :
    ∃ Es, V' = .map Es ∧
      (∀ K, (∀ m ∈ ms, ¬ KeyOf x k (inner src m.1.1 m.1.2) K) → lookupV K Es = lookupV K (entriesOf V)) ∧
      ∀ ms1 key v ms2 K, ms = ms1 ++ (key, v) :: ms2 → KeyOf x k (inner src key.1 key.2) K → (∀ m ∈ ms2, ¬ KeyOf x k (inner src m.1.1 m.1.2) K) →
        ∃ W W', lookupV K Es = some W' ∧ SeparateX x (textOf src v) o n e W (-1) none W' ∧ (isStruct (e.ty n) = true → W = zeroV x (e.ty n)) ∧
          (isStruct (e.ty n) = false → (∀ m ∈ ms1, ¬ KeyOf x k (inner src m.1.1 m.1.2) K) → W = (lookupV K (entriesOf V)).getD (zeroV x (e.ty n))) := by
  obtain ⟨Es, g1, g2, g3⟩ := C28_inside_partial hd (Json.doc_wf hw) hm ht hk h
  refine ⟨Es, g1, g2, fun ms1 key v ms2 K h1 h2 h3 => ?_⟩
  obtain ⟨W, W', q1, q2, q3⟩ := g3 ms1 key v ms2 K h1 h2 h3
  exact ⟨W, W', q1, separateX_ok hw (.member (m := (key, v)) (by rw [h1]; simp) .self) q2, q3⟩

/-- **C75** for types with recursive struct types inside, structs: a field selected by a key is what the last value that selects it, decoded separately, gives. -/
theorem C75_inside_struct_partial {x : Ext} {size : Nat} {fs : List (Bytes × Nat × RTy)} {d : Decoder} (hd : InsideDecoder x (.struct size fs) d) {src : Bytes} {a z : Nat} {ms : List ((Nat × Nat) × JVal)}
    (hw : IsDoc src (.obj a ms z)) {mem : Block} {Ws : List Val} {n : Nat} (hm : Dest x (RTy.ty n (.struct size fs)) mem (.struct Ws)) {o : Options} (ht : TameDocX x src (some o) n (.struct size fs) (.obj a ms z)) {V' : Val}
    (h : Returns x (RTy.ty n (.struct size fs)) (decode x d src (.ok (.obj a ms z)) (some mem) (some o)) (-1) none V') :
    ∃ Ws', V' = .struct Ws' ∧ Ws'.length = Ws.length ∧ (∀ j, (∀ m ∈ ms, ¬ KeySelects x src o (fs.map (·.1)) m.1 j) → Ws'[j]? = Ws[j]?) ∧
      ∀ ms1 k v ms2 (j : Nat) f, ms = ms1 ++ (k, v) :: ms2 → fs[j]? = some f → KeySelects x src o (fs.map (·.1)) k j → (∀ m ∈ ms2, ¬ KeySelects x src o (fs.map (·.1)) m.1 j) →
        ∃ W W', Ws'[j]? = some W' ∧ SeparateX x (textOf src v) (some o) n f.2.2 W (-1) none W' ∧ ((∀ m ∈ ms1, ¬ KeySelects x src o (fs.map (·.1)) m.1 j) → Ws[j]? = some W) := by
  obtain ⟨Ws', g1, g2, g3, g4⟩ := C30_inside_partial hd (Json.doc_wf hw) hm ht h
  refine ⟨Ws', g1, g2, g3, fun ms1 k v ms2 j f h1 h2 h3 h4 => ?_⟩
  obtain ⟨W, W', q1, q2, q3⟩ := g4 ms1 k v ms2 j f h1 h2 h3 h4
  exact ⟨W, W', q1, separateX_ok hw (.member (m := (k, v)) (by rw [h1]; simp) .self) q2, q3⟩

/-- **C75** for types with recursive struct types inside, arrays that are refused: the error is that of the first element whose text, decoded separately, is refused, at the position of the element plus the index there. -/
theorem C75_inside_array_error_partial {x : Ext} {k : Nat} {e : RTy} {d : Decoder} (hd : InsideDecoder x (.array k e) d) {src : Bytes} {i z : Nat} {vs : List JVal} (hw : IsDoc src (.arr i vs z)) {mem : Block} {Ws : List Val} {n : Nat}
    (hm : Dest x (RTy.ty n (.array k e)) mem (.arr Ws)) {o : Option Options} (ht : TameDocX x src o n (.array k e) (.arr i vs z)) {p : Int} {er : Err} {V' : Val}
    (h : Returns x (RTy.ty n (.array k e)) (decode x d src (.ok (.arr i vs z)) (some mem) o) p (some er) V') :
    ∃ (j : Nat) (v : JVal) (W : Val), vs[j]? = some v ∧ Ws[j]? = some W ∧ SeparateErrX x (textOf src v) o n e W (p - v.index) er ∧
      ∀ (l : Nat) v W, l < j → vs[l]? = some v → Ws[l]? = some W → ∃ W', SeparateX x (textOf src v) o n e W (-1) none W' := by
  obtain ⟨j, v, W, g1, g2, g3, g4⟩ := C26_inside_error_partial hd hm ht h
  refine ⟨j, v, W, g1, g2, separateX_err hw (inside_elem g1) (inside_pos hd hm ht h) g3, fun l v W hl hv hW => ?_⟩
  obtain ⟨W', q⟩ := g4 l v W hl hv hW
  exact ⟨W', separateX_ok hw (inside_elem hv) q⟩

/-- **C75** for types with recursive struct types inside, slices that are refused. -/
theorem C75_inside_slice_error_partial {x : Ext} {e : RTy} {d : Decoder} (hd : InsideDecoder x (.slice e) d) {src : Bytes} {i z : Nat} {vs : List JVal} (hw : IsDoc src (.arr i vs z)) {mem : Block} {V : Val} {n : Nat}
    (hm : Dest x (RTy.ty n (.slice e)) mem V) {o : Option Options} (ht : TameDocX x src o n (.slice e) (.arr i vs z)) {p : Int} {er : Err} {V' : Val}
    (h : Returns x (RTy.ty n (.slice e)) (decode x d src (.ok (.arr i vs z)) (some mem) o) p (some er) V') :
    ∃ (j : Nat) (v : JVal) (W : Val), vs[j]? = some v ∧ (W = zeroV x (e.ty n) ∨ (upToCap V)[j]? = some W) ∧ SeparateErrX x (textOf src v) o n e W (p - v.index) er ∧
      ∀ (k : Nat) v, k < j → vs[k]? = some v → ∃ W W', (W = zeroV x (e.ty n) ∨ (upToCap V)[k]? = some W) ∧ SeparateX x (textOf src v) o n e W (-1) none W' := by
  obtain ⟨j, v, W, g1, g2, g3, g4⟩ := C27_inside_error_partial hd hm ht h
  refine ⟨j, v, W, g1, g2, separateX_err hw (inside_elem g1) (inside_pos hd hm ht h) g3, fun k v hk hv => ?_⟩
  obtain ⟨W, W', q1, q2⟩ := g4 k v hk hv
  exact ⟨W, W', q1, separateX_ok hw (inside_elem hv) q2⟩

/-- **C75** for types with recursive struct types inside, objects that are refused for a struct: the error is an unknown key, or that of the first value whose text, decoded separately into its field, is refused. -/
theorem C75_inside_struct_error_partial {x : Ext} {size : Nat} {fs : List (Bytes × Nat × RTy)} {d : Decoder} (hd : InsideDecoder x (.struct size fs) d) {src : Bytes} {a z : Nat} {ms : List ((Nat × Nat) × JVal)}
    (hw : IsDoc src (.obj a ms z)) {mem : Block} {Ws : List Val} {n : Nat} (hm : Dest x (RTy.ty n (.struct size fs)) mem (.struct Ws)) {o : Options} (ht : TameDocX x src (some o) n (.struct size fs) (.obj a ms z))
    {p : Int} {er : Err} {V' : Val} (h : Returns x (RTy.ty n (.struct size fs)) (decode x d src (.ok (.obj a ms z)) (some mem) (some o)) p (some er) V') :
    ∃ ms1 k v ms2, ms = ms1 ++ (k, v) :: ms2 ∧
      ((p = k.1 ∧ er = .unknownField ∧ o.disallowUnknownFields = true ∧ KeyUnknown x src o (fs.map (·.1)) k) ∨
        ∃ (j : Nat) (f : Bytes × Nat × RTy) (W : Val), KeySelects x src o (fs.map (·.1)) k j ∧ fs[j]? = some f ∧ SeparateErrX x (textOf src v) (some o) n f.2.2 W (p - v.index) er ∧
          ((∀ m ∈ ms1, ¬ KeySelects x src o (fs.map (·.1)) m.1 j) → Ws[j]? = some W)) ∧
      ∀ m ∈ ms1, (o.disallowUnknownFields = false ∧ KeyUnknown x src o (fs.map (·.1)) m.1) ∨
        ∃ (j : Nat) (f : Bytes × Nat × RTy) (W W' : Val), KeySelects x src o (fs.map (·.1)) m.1 j ∧ fs[j]? = some f ∧ SeparateX x (textOf src m.2) (some o) n f.2.2 W (-1) none W' := by
  have hp := inside_pos hd hm ht h
  obtain ⟨ms1, k, v, ms2, rfl, g1, g2⟩ := C30_inside_error_partial hd (Json.doc_wf hw) hm ht h
  refine ⟨ms1, k, v, ms2, rfl, ?_, fun m hmem => ?_⟩
  · rcases g1 with g1 | ⟨j, f, W, q1, q2, q3, q4⟩
    · exact .inl g1
    · exact .inr ⟨j, f, W, q1, q2, separateX_err hw (.member (m := (k, v)) (by simp) .self) hp q3, q4⟩
  · rcases g2 m hmem with g2 | ⟨j, f, W, W', q1, q2, q3⟩
    · exact .inl g2
    · exact .inr ⟨j, f, W, W', q1, q2, separateX_ok hw (.member (m := m) (by simp [hmem]) .self) q3⟩

/-! ## Examples -/

set_option maxRecDepth 20000 in
/-- Slices and structs: `[{"X":1},{"X":"a"}]` is refused at byte 14; the text `{"X":"a"}` of the second element, decoded separately into a zero `struct{R T; X int}`, is refused at byte 5, with the same error. -/
example : (∃ V, Returns demoX ((demoRTy 91).ty 2) (decode demoX (demoDec 91) b!"[{\"X\":1},{\"X\":\"a\"}]" (.ok (demoDoc b!"[{\"X\":1},{\"X\":\"a\"}]")) (some (zeros 24)) (some defaultOptions)) 14 (some .unexpectedValue) V) ∧
    ∃ (v : JVal) (j : Nat), SeparateErrX demoX (textOf b!"[{\"X\":1},{\"X\":\"a\"}]" v) (some defaultOptions) 2 (demoRTy 90) (zeroV demoX ((demoRTy 90).ty 2)) (14 - v.index) .unexpectedValue ∧
      [JVal.obj 1 [((2, 5), .num true 6 7)] 7, .obj 9 [((10, 13), .str 14 17)] 17][j]? = some v := by
  have hd := (demo_inside (t := 91) (by decide +kernel)).2
  have hb : tameDocXB demoX b!"[{\"X\":1},{\"X\":\"a\"}]" defaultOptions 2 (demoRTy 91) (demoDoc b!"[{\"X\":1},{\"X\":\"a\"}]") = true := by decide +kernel
  have ht := tameDocXB_sound (demoRTy 91) hb
  have hw : IsDoc b!"[{\"X\":1},{\"X\":\"a\"}]" (demoDoc b!"[{\"X\":1},{\"X\":\"a\"}]") := JsonB.demo_isDoc (by decide +kernel)
  obtain ⟨V, h⟩ : ∃ V, Returns demoX ((demoRTy 91).ty 2) (decode demoX (demoDec 91) b!"[{\"X\":1},{\"X\":\"a\"}]" (.ok (demoDoc b!"[{\"X\":1},{\"X\":\"a\"}]")) (some (zeros 24)) (some defaultOptions)) 14
    (some .unexpectedValue) V := C65_reading_partial hd (inside_zero hd 2) ht
  obtain ⟨j, v, W, h1, h2, h3, -⟩ := C75_inside_slice_error_partial (e := demoRTy 90) hd hw (inside_zero hd 2) ht h
  refine ⟨⟨V, h⟩, v, j, ?_, h1⟩
  rcases h2 with rfl | h2
  · exact h3
  · exact absurd (show ([] : List Val)[j]? = some W from h2) (by simp)

set_option maxRecDepth 20000 in
/-- Arrays: `[{"X":5}]` into a zero `[2]struct{R T; X int}`: the first element has what the text `{"X":5}`, decoded separately, gives; the second is unchanged. -/
example : ∃ d, InsideDecoder demoX (.array 2 (demoRTy 90)) d ∧
    ∃ Ws W', Returns demoX (RTy.ty 2 (.array 2 (demoRTy 90))) (decode demoX d b!"[{\"X\":5}]" (.ok (demoDoc b!"[{\"X\":5}]")) (some (zeros 96)) (some defaultOptions)) (-1) none (.arr Ws) ∧ Ws[0]? = some W' ∧
      Ws[1]? = some (zeroV demoX ((demoRTy 90).ty 2)) ∧ SeparateX demoX b!"{\"X\":5}" (some defaultOptions) 2 (demoRTy 90) (zeroV demoX ((demoRTy 90).ty 2)) (-1) none W' := by
  obtain ⟨d, hd⟩ := demo_array
  have h1 : tameDocXB demoX b!"[{\"X\":5}]" defaultOptions 2 (.array 2 (demoRTy 90)) (demoDoc b!"[{\"X\":5}]") = true := by decide +kernel
  have t1 := tameDocXB_sound _ h1
  have hw : IsDoc b!"[{\"X\":5}]" (demoDoc b!"[{\"X\":5}]") := JsonB.demo_isDoc (by decide +kernel)
  obtain ⟨Ws, h⟩ : ∃ Ws, Returns demoX (RTy.ty 2 (.array 2 (demoRTy 90))) (decode demoX d b!"[{\"X\":5}]" (.ok (demoDoc b!"[{\"X\":5}]")) (some (zeros 96)) (some defaultOptions)) (-1) none (.arr Ws) :=
    ⟨_, Inside.returns_ok hd (inside_zero hd 2) t1 rfl⟩
  obtain ⟨Ws', g1, -, g2, g3⟩ := C75_inside_array_partial hd hw (inside_zero hd 2) t1 h
  cases g1
  obtain ⟨W', k1, k2⟩ := g2 0 (.obj 1 [((2, 5), .num true 6 7)] 7) _ rfl rfl
  have hx : textOf b!"[{\"X\":5}]" (.obj 1 [((2, 5), .num true 6 7)] 7) = b!"{\"X\":5}" := by decide +kernel
  rw [hx] at k2
  exact ⟨d, hd, Ws, W', h, k1, g3 1 (by decide), k2⟩

set_option maxRecDepth 20000 in
/-- Structs: `{"R":{"Name":"r"},"X":5}`: the field R has what the text `{"Name":"r"}`, decoded separately into a zero `T`, gives. -/
example : ∃ W, SeparateX demoX b!"{\"Name\":\"r\"}" (some defaultOptions) 2 (demoRTy 12) W (-1) none (.struct [.nil, .str ⟨b!"r", true⟩]) := by
  have hd : InsideDecoder demoX (.struct 48 [(b!"R", 0, demoRTy 12), (b!"X", 40, demoRTy 1)]) (demoDec 90) := (demo_inside (t := 90) (by decide +kernel)).2
  have hb : tameDocXB demoX b!"{\"R\":{\"Name\":\"r\"},\"X\":5}" defaultOptions 2 (demoRTy 90) (demoDoc b!"{\"R\":{\"Name\":\"r\"},\"X\":5}") = true := by decide +kernel
  have ht : TameDocX demoX b!"{\"R\":{\"Name\":\"r\"},\"X\":5}" (some defaultOptions) 2 (.struct 48 [(b!"R", 0, demoRTy 12), (b!"X", 40, demoRTy 1)]) (demoDoc b!"{\"R\":{\"Name\":\"r\"},\"X\":5}") := tameDocXB_sound (demoRTy 90) hb
  have hw : IsDoc b!"{\"R\":{\"Name\":\"r\"},\"X\":5}" (demoDoc b!"{\"R\":{\"Name\":\"r\"},\"X\":5}") := JsonB.demo_isDoc (by decide +kernel)
  have hr : Returns demoX (RTy.ty 2 (.struct 48 [(b!"R", 0, demoRTy 12), (b!"X", 40, demoRTy 1)])) (decode demoX (demoDec 90) b!"{\"R\":{\"Name\":\"r\"},\"X\":5}" (.ok (demoDoc b!"{\"R\":{\"Name\":\"r\"},\"X\":5}")) (some (zeros 48)) (some defaultOptions)) (-1) none
    (.struct [.struct [.nil, .str ⟨b!"r", true⟩], .int 5]) := Inside.returns_ok hd (inside_zero hd 2) ht rfl
  obtain ⟨Ws', g1, -, -, g4⟩ := C75_inside_struct_partial hd hw (inside_zero hd 2) ht hr
  cases g1
  have hk := (Json.doc_wf hw).2.2.2.2.1
  have hk2 := (Json.doc_wf hw).2.2.2.2.2.2.1
  have hn : ∀ m ∈ [((18, 21), JVal.num true 22 23)], ¬ KeySelects demoX b!"{\"R\":{\"Name\":\"r\"},\"X\":5}" defaultOptions ([(b!"R", 0, demoRTy 12), (b!"X", 40, demoRTy 1)].map (·.1)) m.1 0 := by
    intro m hm hs
    cases List.mem_singleton.1 hm
    obtain ⟨name, q1, q2, -⟩ := key_fun demoX defaultOptions [b!"R", b!"X"] (k := (18, 21)) hk2
    have := (q2 0).1 hs
    cases q1
    cases this
  obtain ⟨W, W', k1, k2, -⟩ := g4 [] (1, 4) (.obj 5 [((6, 12), .str 13 16)] 16) [((18, 21), .num true 22 23)] 0 _ rfl rfl (selects_of (k := (1, 4)) (j := 0) (name := b!"R") hk rfl rfl) hn
  cases k1
  have hx : textOf b!"{\"R\":{\"Name\":\"r\"},\"X\":5}" (.obj 5 [((6, 12), .str 13 16)] 16) = b!"{\"Name\":\"r\"}" := by decide +kernel
  rw [hx] at k2
  exact ⟨W, k2⟩

end Verif.Props

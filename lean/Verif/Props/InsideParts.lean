import Verif.Props.Inside
import Verif.Props.RecParts
import Verif.Props.Grow
import Verif.Props.PartsMore
/-!
# C26, C27, C28, C30, C58 for types with recursive struct types inside

The elements, entries and fields of a container that contains recursive struct types, in terms of what `Decode` does with each part of the document alone.
-/
namespace Verif.Props
open Verif Verif.Model Verif.Spec Verif.Big Verif.Proof Verif.Proof.Reads Verif.Proof.Outcome Verif.Proof.Unique Verif.Proof.Comp Verif.Proof.Demo

/-- The JSON value alone, decoded by any decoder for the type with recursive struct types inside into any variable that holds `W`: `Decode` returns `(i, e)` and leaves `W'`. -/
def AloneX (x : Ext) (src : Bytes) (o : Option Options) (n : Nat) (ty : RTy) (v : JVal) (W : Val) (i : Int) (e : Option Err) (W' : Val) : Prop :=
  ∀ d mem, InsideDecoder x ty d → Dest x (ty.ty n) mem W → Returns x (ty.ty n) (decode x d src (.ok v) (some mem) o) i e W'

/-- What may be decoded anywhere inside a destination may be decoded as the destination. -/
theorem tameX_doc {x : Ext} {src : Bytes} {o : Option Options} {n : Nat} {e : RTy} {b : Bool} {v : JVal} (h : TameX x src o n e b v) : TameDocX x src o n e v := by
  cases e with
  | plain t => simpa only [TameDocX, TameX] using h
  | self size fs =>
    simp only [TameDocX, TameX] at h ⊢
    exact tameR_top h
  | array m e => simpa only [TameDocX, TameX] using h
  | slice e =>
    cases e with
    | self size fs =>
      simp only [TameX] at h
      simp only [TameDocX]
      cases v with
      | arr i vs z =>
        have := h.1 rfl
        subst this
        intro j w hw
        simp at hw
      | _ => trivial
    | _ => simpa only [TameDocX, TameX] using h
  | map k e => simpa only [TameDocX, TameX] using h
  | struct size fs => simpa only [TameDocX, TameX] using h

/-- The elements of a slice. -/
theorem slice_element {x : Ext} {src : Bytes} {o : Option Options} {n : Nat} {e : RTy} {i z : Nat} {vs : List JVal} (h : TameDocX x src o n (.slice e) (.arr i vs z)) {j : Nat} {v : JVal} (hv : vs[j]? = some v) :
    TameDocX x src o n e v := by
  cases e with
  | self size fs =>
    simp only [TameDocX] at h
    exact tameX_doc (b := true) (by simp only [TameX]; exact tameR_top (h j v hv))
  | _ =>
    simp only [TameDocX, TameX] at h
    exact tameX_doc (b := false) (by simpa only [TameX] using h.2 v (List.mem_of_getElem? hv))

theorem aloneX_ok {x : Ext} {src : Bytes} {o : Option Options} {n : Nat} {e : RTy} {v : JVal} (h : TameDocX x src o n e v) {W W' : Val} (hr : decV x src o (e.ty n) v W = .ok W') : AloneX x src o n e v W (-1) none W' :=
  fun _ _ hd hm => Inside.returns_ok hd hm h hr

/-- **C27** for types with recursive struct types inside: after success the slice has one element for each element of the array: what this element, decoded alone, gives, into a zero value or into what was at that place of
the backing array. -/
theorem C27_inside_partial {x : Ext} {e : RTy} {d : Decoder} (hd : InsideDecoder x (.slice e) d) {src : Bytes} {i z : Nat} {vs : List JVal} (hw : Wf src (.arr i vs z)) {mem : Block} {V : Val} {n : Nat}
    (hm : Dest x (RTy.ty n (.slice e)) mem V) {o : Option Options} (ht : TameDocX x src o n (.slice e) (.arr i vs z)) {V' : Val}
    (h : Returns x (RTy.ty n (.slice e)) (decode x d src (.ok (.arr i vs z)) (some mem) o) (-1) none V') :
    ∃ es spare, V' = .slice es spare ∧ es.length = vs.length ∧ (upToCap V = [] → spare = []) ∧ ∀ (j : Nat) v, vs[j]? = some v →
      ∃ W W', es[j]? = some W' ∧ AloneX x src o n e v W (-1) none W' ∧ (W = zeroV x (e.ty n) ∨ (upToCap V)[j]? = some W) := by
  have h := Inside.returns_inv hd hm ht h
  obtain ⟨es, base, spare, rfl, h1, h2, h3, h4⟩ := slice_reads (.gen (e.ty n)) hw.2.2.2.2 h
  obtain ⟨g1, g2, -⟩ := (elemsV_ok _ _ _ _).1 h4
  refine ⟨es, spare, rfl, g1.trans h1, fun hc => (h3 hc).2, fun j v hv => ?_⟩
  have hj := (List.getElem?_eq_some_iff.1 hv).1
  have hb : j < base.length := by omega
  have he : j < es.length := by omega
  exact ⟨base[j], es[j], List.getElem?_eq_getElem he, aloneX_ok (slice_element ht hv) (g2 j v _ _ hv (List.getElem?_eq_getElem hb) (List.getElem?_eq_getElem he)), h2 j _ (List.getElem?_eq_getElem hb)⟩

/-- **C26** for types with recursive struct types inside. -/
theorem C26_inside_partial {x : Ext} {k : Nat} {e : RTy} {d : Decoder} (hd : InsideDecoder x (.array k e) d) {src : Bytes} {i z : Nat} {vs : List JVal} {mem : Block} {Ws : List Val} {n : Nat}
    (hm : Dest x (RTy.ty n (.array k e)) mem (.arr Ws)) {o : Option Options} (ht : TameDocX x src o n (.array k e) (.arr i vs z)) {V' : Val}
    (h : Returns x (RTy.ty n (.array k e)) (decode x d src (.ok (.arr i vs z)) (some mem) o) (-1) none V') :
    ∃ Ws', V' = .arr Ws' ∧ Ws'.length = k ∧
      (∀ (j : Nat) v W, vs[j]? = some v → Ws[j]? = some W → ∃ W', Ws'[j]? = some W' ∧ AloneX x src o n e v W (-1) none W') ∧
      ∀ j : Nat, vs.length ≤ j → Ws'[j]? = Ws[j]? := by
  have hl : Ws.length = k := array_old hm
  have h := Inside.returns_inv hd hm ht h
  simp only [TameDocX, TameX] at ht
  simp only [RTy.ty, decV] at h
  obtain ⟨Ws', h1, rfl⟩ := map_ok_iff.1 h
  obtain ⟨g1, g2, g3⟩ := (elemsV_ok _ _ _ _).1 h1
  refine ⟨Ws', rfl, g1.trans hl, fun j v W hv hW => ?_, g3⟩
  have hj : j < Ws.length := (List.getElem?_eq_some_iff.1 hW).1
  have hj' : j < Ws'.length := by omega
  refine ⟨Ws'[j], List.getElem?_eq_getElem hj', aloneX_ok (tameX_doc (ht.2 v ?_)) (g2 j v W _ hv hW (List.getElem?_eq_getElem hj'))⟩
  exact List.mem_of_getElem? (i := j) (by rw [List.getElem?_take, if_pos (by omega)]; exact hv)

/-- **C28** for types with recursive struct types inside. -/
theorem C28_inside_partial {x : Ext} {k : KeyTy} {e : RTy} {d : Decoder} (hd : InsideDecoder x (.map k e) d) {src : Bytes} {i z : Nat} {ms : List ((Nat × Nat) × JVal)} (hw : Wf src (.obj i ms z)) {mem : Block} {V : Val}
    {n : Nat} (hm : Dest x (RTy.ty n (.map k e)) mem V) {o : Option Options} (ht : TameDocX x src o n (.map k e) (.obj i ms z)) (hk : ∀ m ∈ ms, ∃ K, KeyOf x k (inner src m.1.1 m.1.2) K) {V' : Val}
    (h : Returns x (RTy.ty n (.map k e)) (decode x d src (.ok (.obj i ms z)) (some mem) o) (-1) none V') :
    ∃ Es, V' = .map Es ∧
      (∀ K, (∀ m ∈ ms, ¬ KeyOf x k (inner src m.1.1 m.1.2) K) → lookupV K Es = lookupV K (entriesOf V)) ∧
      ∀ ms1 key v ms2 K, ms = ms1 ++ (key, v) :: ms2 → KeyOf x k (inner src key.1 key.2) K → (∀ m ∈ ms2, ¬ KeyOf x k (inner src m.1.1 m.1.2) K) →
        ∃ W W', lookupV K Es = some W' ∧ AloneX x src o n e v W (-1) none W' ∧ (isStruct (e.ty n) = true → W = zeroV x (e.ty n)) ∧
          (isStruct (e.ty n) = false → (∀ m ∈ ms1, ¬ KeyOf x k (inner src m.1.1 m.1.2) K) → W = (lookupV K (entriesOf V)).getD (zeroV x (e.ty n))) := by
  have h := Inside.returns_inv hd hm ht h
  simp only [TameDocX, TameX] at ht
  have he : ((e.ty n).etype == .struct) = isStruct (e.ty n) := by cases e.ty n <;> rfl
  have hp : mapParts V = entriesOf V := by cases V <;> rfl
  simp only [RTy.ty, decV, he, hp] at h
  rw [if_neg (fun hc => hc.2 (ht.1 hc.1))] at h
  obtain ⟨Es, h1, rfl⟩ := map_ok_iff.1 h
  have hno : ∀ {l : List ((Nat × Nat) × JVal)} {K : Key}, (∀ m ∈ l, m ∈ ms) → (∀ m ∈ l, ¬ KeyOf x k (inner src m.1.1 m.1.2) K) →
      ∀ m ∈ l, ∀ K', keyAt x src k m.1 = some (.ok K') → K'.same K = false := by
    intro l K hl hn m hmm K' hK
    cases hs : K'.same K with
    | false => rfl
    | true => exact absurd ((keyAt_iff (Safe.wfM_mem hw.2.2.2.2 m (hl m hmm)).1 (hk m (hl m hmm)) K).2 ⟨K', hK, hs⟩) (hn m hmm)
  refine ⟨Es, rfl, fun K hK => mapV_keep (.inl h1) (hno (fun m hm => hm) hK), ?_⟩
  rintro ms1 key v ms2 K rfl hK hK2
  have hmem : (key, v) ∈ ms1 ++ (key, v) :: ms2 := by simp
  obtain ⟨K', q1, q2⟩ := keyAt_of (Safe.wfM_mem hw.2.2.2.2 (key, v) hmem).1 hK
  obtain ⟨W, W', r1, r2, r3, r4⟩ := mapV_last q1 q2 (hno (fun m hm => by simp [hm]) hK2) h1
  exact ⟨W, W', r1, aloneX_ok (tameX_doc (ht.2 _ hmem)) r2, r3, fun hs hn => r4 hs (hno (fun m hm => by simp [hm]) hn)⟩

/-- **C30** for types with recursive struct types inside: whether `Decode` succeeds or fails is in `C65_reading_partial`; after success a field has what the value of the last member that selects it, decoded alone into the old
value, gives; fields that no key selects keep their value. -/
theorem C30_inside_partial {x : Ext} {size : Nat} {fs : List (Bytes × Nat × RTy)} {d : Decoder} (hd : InsideDecoder x (.struct size fs) d) {src : Bytes} {a z : Nat} {ms : List ((Nat × Nat) × JVal)}
    (hw : Wf src (.obj a ms z)) {mem : Block} {Ws : List Val} {n : Nat} (hm : Dest x (RTy.ty n (.struct size fs)) mem (.struct Ws)) {o : Options} (ht : TameDocX x src (some o) n (.struct size fs) (.obj a ms z)) {V' : Val}
    (h : Returns x (RTy.ty n (.struct size fs)) (decode x d src (.ok (.obj a ms z)) (some mem) (some o)) (-1) none V') :
    ∃ Ws', V' = .struct Ws' ∧ Ws'.length = Ws.length ∧ (∀ j, (∀ m ∈ ms, ¬ KeySelects x src o (fs.map (·.1)) m.1 j) → Ws'[j]? = Ws[j]?) ∧
      ∀ ms1 k v ms2 (j : Nat) f, ms = ms1 ++ (k, v) :: ms2 → fs[j]? = some f → KeySelects x src o (fs.map (·.1)) k j → (∀ m ∈ ms2, ¬ KeySelects x src o (fs.map (·.1)) m.1 j) →
        ∃ W W', Ws'[j]? = some W' ∧ AloneX x src (some o) n f.2.2 v W (-1) none W' ∧ ((∀ m ∈ ms1, ¬ KeySelects x src o (fs.map (·.1)) m.1 j) → Ws[j]? = some W) := by
  have h := Inside.returns_inv hd hm ht h
  simp only [TameDocX, TameX] at ht
  have hn : (decVF x src (some o) (tysX n fs)).map (·.1) = fs.map (·.1) := by rw [Val.decVF_names, Inside.tysX_names]
  simp only [RTy.ty] at h
  rw [struct_reads, map_ok_iff] at h
  obtain ⟨Ws', h1, rfl⟩ := h
  refine ⟨Ws', rfl, structV_length (.inl h1), fun j hj => structV_keep hw.2.2.2.2 (.inl h1) (by rw [hn]; exact hj), ?_⟩
  rintro ms1 k v ms2 j f rfl hf hs hs2
  have hmem : (k, v) ∈ ms1 ++ (k, v) :: ms2 := by simp
  have hg : (decVF x src (some o) (tysX n fs))[j]? = some (f.1, decV x src (some o) (f.2.2.ty n)) := by rw [Val.decVF_get, Inside.tysX_get, hf]; rfl
  obtain ⟨W, W', g1, g2, g3⟩ := structV_last (x := x) (src := src) (o := o) hg (k := k) (v := v) (ms2 := ms2) (by rw [hn]; exact hs) (by rw [hn]; exact hs2) hw.2.2.2.2 h1
  rw [hn] at g3
  have hk := (Safe.wfM_mem hw.2.2.2.2 (k, v) hmem).1
  obtain ⟨key, k1, k2⟩ := key_selects hk hs
  rw [Doc.slice_inner hk] at k1
  have h1 := ht (k, v) hmem o rfl _ key (Doc.slice_inner hk) k1
  rw [k2] at h1
  exact ⟨W, W', g1, aloneX_ok (tameX_doc (b := f.2.1 == 0) (h1 _ (by rw [Inside.tameXF_get, hf]; rfl))) g2, g3⟩

/-- **C58** for types with recursive struct types inside: each element the slice had before (and the array has a counterpart for) has what its counterpart, decoded alone into the old element, gives, also if the slice had to
grow; if it had to grow, the elements behind the old ones have what decoding into zero values gives. -/
theorem C58_inside_partial {x : Ext} {e : RTy} {d : Decoder} (hd : InsideDecoder x (.slice e) d) {src : Bytes} {i z : Nat} {vs : List JVal} {mem : Block} {n : Nat} (hc : (e.ty n).etype.isElemComposite = true)
    {es sp : List Val} (hm : Dest x (RTy.ty n (.slice e)) mem (.slice es sp)) {o : Option Options} (ht : TameDocX x src o n (.slice e) (.arr i vs z)) {V' : Val}
    (h : Returns x (RTy.ty n (.slice e)) (decode x d src (.ok (.arr i vs z)) (some mem) o) (-1) none V') {j : Nat} {v : JVal} (hv : vs[j]? = some v) :
    (∀ W, es[j]? = some W → ∃ W', (elements V')[j]? = some W' ∧ AloneX x src o n e v W (-1) none W') ∧
      (es.length + sp.length < vs.length → es.length ≤ j → ∃ W', (elements V')[j]? = some W' ∧ AloneX x src o n e v (zeroV x (e.ty n)) (-1) none W') := by
  have h := Inside.returns_inv hd hm ht h
  have hj : j < vs.length := (List.getElem?_eq_some_iff.1 hv).1
  have hne : vs ≠ [] := by intro he; subst he; simp at hj
  simp only [RTy.ty, decV, sliceV, if_neg hne] at h
  obtain ⟨es', h1, rfl⟩ := map_ok_iff.1 h
  obtain ⟨g1, g2, -⟩ := (elemsV_ok _ _ _ _).1 h1
  have fin : ∀ W, (prepSlice (zeroV x (e.ty n)) (e.ty n).etype.isElemComposite vs.length (.slice es sp)).1[j]? = some W →
      ∃ W', (elements (.slice es' (prepSlice (zeroV x (e.ty n)) (e.ty n).etype.isElemComposite vs.length (.slice es sp)).2))[j]? = some W' ∧ AloneX x src o n e v W (-1) none W' := by
    intro W hW
    have hb := (List.getElem?_eq_some_iff.1 hW).1
    have he : j < es'.length := by omega
    exact ⟨es'[j], List.getElem?_eq_getElem he, aloneX_ok (slice_element ht hv) (g2 j v W _ hv hW (List.getElem?_eq_getElem he))⟩
  by_cases hl : (es ++ sp).length < vs.length
  · have hp : prepSlice (zeroV x (e.ty n)) (e.ty n).etype.isElemComposite vs.length (.slice es sp) = (es ++ List.replicate (vs.length - es.length) (zeroV x (e.ty n)), []) := (if_pos hl).trans (if_pos hc)
    refine ⟨fun W hW => fin W ?_, fun _ hj2 => fin _ ?_⟩
    · rw [hp]
      show (es ++ _)[j]? = some W
      rw [List.getElem?_append_left (List.getElem?_eq_some_iff.1 hW).1]; exact hW
    · rw [hp]
      show (es ++ _)[j]? = some _
      rw [List.getElem?_append_right hj2, List.getElem?_replicate, if_pos (by omega)]
  · have hp : prepSlice (zeroV x (e.ty n)) (e.ty n).etype.isElemComposite vs.length (.slice es sp) = ((es ++ sp).take vs.length, (es ++ sp).drop vs.length) := if_neg hl
    refine ⟨fun W hW => fin W ?_, fun hlt => absurd (by simpa using hlt) hl⟩
    rw [hp]
    show ((es ++ sp).take _)[j]? = some W
    rw [List.getElem?_take, if_pos hj, List.getElem?_append_left (List.getElem?_eq_some_iff.1 hW).1]; exact hW

/-! ## Failures -/

/-- The JSON value alone, decoded by any decoder for the type into any variable that holds `W`: `Decode` returns the error `e` at `i`. -/
def RefusedX (x : Ext) (src : Bytes) (o : Option Options) (n : Nat) (ty : RTy) (v : JVal) (W : Val) (i : Int) (e : Err) : Prop :=
  ∀ d mem, InsideDecoder x ty d → Dest x (ty.ty n) mem W → ∃ W', Returns x (ty.ty n) (decode x d src (.ok v) (some mem) o) i (some e) W'

theorem refusedX {x : Ext} {src : Bytes} {o : Option Options} {n : Nat} {e : RTy} {v : JVal} (h : TameDocX x src o n e v) {W W' : Val} {p : Nat} {er : Err} (hr : decV x src o (e.ty n) v W = .err p er W') :
    RefusedX x src o n e v W p er := by
  intro d mem hd hm
  have := Inside.outcome hd hm h
  rwa [hr] at this

theorem inside_err {x : Ext} {ty : RTy} {d : Decoder} (hd : InsideDecoder x ty d) {src : Bytes} {v : JVal} {mem : Block} {V : Val} {n : Nat} (hm : Dest x (ty.ty n) mem V) {o : Option Options} (ht : TameDocX x src o n ty v)
    {p : Int} {er : Err} {V' : Val} (h : Returns x (ty.ty n) (decode x d src (.ok v) (some mem) o) p (some er) V') : ∃ (q : Nat) (W' : Val), p = q ∧ decV x src o (ty.ty n) v V = .err q er W' := by
  have ho := Inside.outcome hd hm ht
  revert ho
  generalize decV x src o (ty.ty n) v V = r
  intro ho
  cases r with
  | ok V1 => cases (returns_unique h ho).2.1
  | err i e V1 =>
    obtain ⟨V2, ho⟩ := ho
    obtain ⟨h1, h2, -⟩ := returns_unique h ho
    cases h2
    exact ⟨i, V1, h1, rfl⟩
  | crash =>
    have ho : decode x d src (.ok v) (some mem) o = none := ho
    obtain ⟨r, m, h1, -⟩ := h
    rw [ho] at h1; cases h1
  | unsup => exact ho.elim

/-- **C27** for types with recursive struct types inside, failures: an error is that of the first element that, decoded alone, is refused. -/
theorem C27_inside_error_partial {x : Ext} {e : RTy} {d : Decoder} (hd : InsideDecoder x (.slice e) d) {src : Bytes} {i z : Nat} {vs : List JVal} {mem : Block} {V : Val} {n : Nat}
    (hm : Dest x (RTy.ty n (.slice e)) mem V) {o : Option Options} (ht : TameDocX x src o n (.slice e) (.arr i vs z)) {p : Int} {er : Err} {V' : Val}
    (h : Returns x (RTy.ty n (.slice e)) (decode x d src (.ok (.arr i vs z)) (some mem) o) p (some er) V') :
    ∃ (j : Nat) (v : JVal) (W : Val), vs[j]? = some v ∧ (W = zeroV x (e.ty n) ∨ (upToCap V)[j]? = some W) ∧ RefusedX x src o n e v W p er ∧
      ∀ (k : Nat) v, k < j → vs[k]? = some v → ∃ W W', (W = zeroV x (e.ty n) ∨ (upToCap V)[k]? = some W) ∧ AloneX x src o n e v W (-1) none W' := by
  replace h := inside_err hd hm ht h
  obtain ⟨q, W', rfl, h⟩ := h
  simp only [RTy.ty, decV, sliceV] at h
  split at h
  · cases h
  · rename_i hne
    obtain ⟨es, g, -⟩ := map_err_iff.1 h
    obtain ⟨hb1, hb, -⟩ := prep_base (zeroV x (e.ty n)) (e.ty n).etype.isElemComposite (List.length_pos_iff.2 hne) V
    obtain ⟨gl, j, u, U, U', q1, q0, -, q2, q3, -⟩ := elemsV_err _ _ _ _ g
    refine ⟨j, u, U, q1, hb j U q0, refusedX (slice_element ht q1) q2, fun k v hk hv => ?_⟩
    have hj := (List.getElem?_eq_some_iff.1 q0).1
    have hk1 : k < (prepSlice (zeroV x (e.ty n)) (e.ty n).etype.isElemComposite vs.length V).1.length := by omega
    have hk2 : k < es.length := by omega
    exact ⟨_, _, hb k _ (List.getElem?_eq_getElem hk1), aloneX_ok (slice_element ht hv) (q3 k v _ _ hk hv (List.getElem?_eq_getElem hk1) (List.getElem?_eq_getElem hk2))⟩

/-- **C26** for types with recursive struct types inside, failures. -/
theorem C26_inside_error_partial {x : Ext} {k : Nat} {e : RTy} {d : Decoder} (hd : InsideDecoder x (.array k e) d) {src : Bytes} {i z : Nat} {vs : List JVal} {mem : Block} {Ws : List Val} {n : Nat}
    (hm : Dest x (RTy.ty n (.array k e)) mem (.arr Ws)) {o : Option Options} (ht : TameDocX x src o n (.array k e) (.arr i vs z)) {p : Int} {er : Err} {V' : Val}
    (h : Returns x (RTy.ty n (.array k e)) (decode x d src (.ok (.arr i vs z)) (some mem) o) p (some er) V') :
    ∃ (j : Nat) (v : JVal) (W : Val), vs[j]? = some v ∧ Ws[j]? = some W ∧ RefusedX x src o n e v W p er ∧
      ∀ (l : Nat) v W, l < j → vs[l]? = some v → Ws[l]? = some W → ∃ W', AloneX x src o n e v W (-1) none W' := by
  have hl : Ws.length = k := array_old hm
  replace h := inside_err hd hm ht h
  obtain ⟨q, W', rfl, h⟩ := h
  simp only [TameDocX, TameX] at ht
  simp only [RTy.ty, decV] at h
  obtain ⟨Ws', h1, -⟩ := map_err_iff.1 h
  obtain ⟨gl, j, u, U, U', q1, q0, -, q2, q3, -⟩ := elemsV_err _ _ _ _ h1
  have hte : ∀ {l : Nat} {v : JVal} {W : Val}, vs[l]? = some v → Ws[l]? = some W → TameDocX x src o n e v := by
    intro l v W hv hW
    have hj : l < Ws.length := (List.getElem?_eq_some_iff.1 hW).1
    exact tameX_doc (ht.2 v (List.mem_of_getElem? (i := l) (by rw [List.getElem?_take, if_pos (by omega)]; exact hv)))
  refine ⟨j, u, U, q1, q0, refusedX (hte q1 q0) q2, fun l v W hlj hv hW => ?_⟩
  have hj : l < Ws'.length := by have := (List.getElem?_eq_some_iff.1 hW).1; omega
  exact ⟨_, aloneX_ok (hte hv hW) (q3 l v W _ hlj hv hW (List.getElem?_eq_getElem hj))⟩

/-- **C28** for types with recursive struct types inside, failures: a key cannot be read, or the value of an entry, decoded alone, is refused. -/
theorem C28_inside_error_partial {x : Ext} {k : KeyTy} {e : RTy} {d : Decoder} (hd : InsideDecoder x (.map k e) d) {src : Bytes} {i z : Nat} {ms : List ((Nat × Nat) × JVal)} (hw : Wf src (.obj i ms z)) {mem : Block} {V : Val}
    {n : Nat} (hm : Dest x (RTy.ty n (.map k e)) mem V) {o : Option Options} (ht : TameDocX x src o n (.map k e) (.obj i ms z)) {p : Int} {er : Err} {V' : Val}
    (h : Returns x (RTy.ty n (.map k e)) (decode x d src (.ok (.obj i ms z)) (some mem) o) p (some er) V') :
    ∃ ms1 key v ms2, ms = ms1 ++ (key, v) :: ms2 ∧
      ((p = key.1 ∧ ∀ K, ¬ KeyOf x k (inner src key.1 key.2) K) ∨ ∃ W, (isStruct (e.ty n) = true → W = zeroV x (e.ty n)) ∧ RefusedX x src o n e v W p er ∧
        ∀ K, KeyOf x k (inner src key.1 key.2) K → isStruct (e.ty n) = false → (∀ m ∈ ms1, (∃ K', KeyOf x k (inner src m.1.1 m.1.2) K') ∧ ¬ KeyOf x k (inner src m.1.1 m.1.2) K) →
          W = (lookupV K (entriesOf V)).getD (zeroV x (e.ty n))) ∧
      ∀ m ∈ ms1, ∃ W W', AloneX x src o n e m.2 W (-1) none W' := by
  replace h := inside_err hd hm ht h
  obtain ⟨q, W', rfl, h⟩ := h
  simp only [TameDocX, TameX] at ht
  have he : ((e.ty n).etype == .struct) = isStruct (e.ty n) := by cases e.ty n <;> rfl
  have hp : mapParts V = entriesOf V := by cases V <;> rfl
  simp only [RTy.ty, decV, he, hp] at h
  rw [if_neg (fun hc => hc.2 (ht.1 hc.1))] at h
  obtain ⟨Es, h1, -⟩ := map_err_iff.1 h
  obtain ⟨ms1, key, v, ms2, rfl, e2, e3⟩ := mapV_err h1
  have hmem : (key, v) ∈ ms1 ++ (key, v) :: ms2 := by simp
  have hws := (Safe.wfM_mem hw.2.2.2.2 (key, v) hmem).1
  refine ⟨ms1, key, v, ms2, rfl, ?_, fun m hm => ?_⟩
  · rcases e2 with ⟨q1, q2⟩ | ⟨K, W, W', g1, g2, g3, g4, g5⟩
    · refine .inl ⟨by exact_mod_cast q1, fun K hK => ?_⟩
      obtain ⟨K', r1, -⟩ := keyAt_of hws hK
      rw [q2] at r1; cases r1
    · refine .inr ⟨W, g4, refusedX (tameX_doc (ht.2 _ hmem)) g2, fun K1 hK1 hs hms => ?_⟩
      obtain ⟨K', r1, r2⟩ := keyAt_of hws hK1
      rw [g1] at r1; cases r1
      rw [← lookupV_same r2]
      refine g5 hs fun mm hmm K'' hK'' => ?_
      cases hc : K''.same K with
      | false => rfl
      | true => exact absurd ((keyAt_iff (Safe.wfM_mem hw.2.2.2.2 mm (by simp [hmm])).1 (hms mm hmm).1 K1).2 ⟨K'', hK'', same_trans hc r2⟩) (hms mm hmm).2
  · obtain ⟨K, W, W', -, g⟩ := e3 m hm
    exact ⟨W, W', aloneX_ok (tameX_doc (ht.2 m (by simp [hm]))) g⟩

/-- **C30** for types with recursive struct types inside, failures: a key is unknown, or the value of a member, decoded alone into the field, is refused. -/
theorem C30_inside_error_partial {x : Ext} {size : Nat} {fs : List (Bytes × Nat × RTy)} {d : Decoder} (hd : InsideDecoder x (.struct size fs) d) {src : Bytes} {a z : Nat} {ms : List ((Nat × Nat) × JVal)}
    (hw : Wf src (.obj a ms z)) {mem : Block} {Ws : List Val} {n : Nat} (hm : Dest x (RTy.ty n (.struct size fs)) mem (.struct Ws)) {o : Options} (ht : TameDocX x src (some o) n (.struct size fs) (.obj a ms z))
    {p : Int} {er : Err} {V' : Val} (h : Returns x (RTy.ty n (.struct size fs)) (decode x d src (.ok (.obj a ms z)) (some mem) (some o)) p (some er) V') :
    ∃ ms1 k v ms2, ms = ms1 ++ (k, v) :: ms2 ∧
      ((p = k.1 ∧ er = .unknownField ∧ o.disallowUnknownFields = true ∧ KeyUnknown x src o (fs.map (·.1)) k) ∨
        ∃ (j : Nat) (f : Bytes × Nat × RTy) (W : Val), KeySelects x src o (fs.map (·.1)) k j ∧ fs[j]? = some f ∧ RefusedX x src (some o) n f.2.2 v W p er ∧
          ((∀ m ∈ ms1, ¬ KeySelects x src o (fs.map (·.1)) m.1 j) → Ws[j]? = some W)) ∧
      ∀ m ∈ ms1, (o.disallowUnknownFields = false ∧ KeyUnknown x src o (fs.map (·.1)) m.1) ∨
        ∃ (j : Nat) (f : Bytes × Nat × RTy) (W W' : Val), KeySelects x src o (fs.map (·.1)) m.1 j ∧ fs[j]? = some f ∧ AloneX x src (some o) n f.2.2 m.2 W (-1) none W' := by
  replace h := inside_err hd hm ht h
  obtain ⟨q, W', rfl, h⟩ := h
  simp only [TameDocX, TameX] at ht
  have hn : (decVF x src (some o) (tysX n fs)).map (·.1) = fs.map (·.1) := by rw [Val.decVF_names, Inside.tysX_names]
  simp only [RTy.ty] at h
  rw [struct_reads, map_err_iff] at h
  obtain ⟨Ws', h1, -⟩ := h
  have hwm := hw.2.2.2.2
  have h2 := structV_err hwm h1
  rw [hn] at h2
  obtain ⟨ms1, k, v, ms2, rfl, e2, e3⟩ := h2
  have fld : ∀ {m : (Nat × Nat) × JVal} {j : Nat} {f : Bytes × (JVal → Val → R Val)}, m ∈ ms1 ++ (k, v) :: ms2 → KeySelects x src o (fs.map (·.1)) m.1 j → (decVF x src (some o) (tysX n fs))[j]? = some f →
      ∃ f', fs[j]? = some f' ∧ f.2 = decV x src (some o) (f'.2.2.ty n) ∧ TameDocX x src (some o) n f'.2.2 m.2 := by
    intro m j f hmem hs hf
    rw [Val.decVF_get, Inside.tysX_get] at hf
    cases hf' : fs[j]? with
    | none => rw [hf'] at hf; cases hf
    | some f' =>
      rw [hf'] at hf; cases hf
      have hk := (Safe.wfM_mem hwm m hmem).1
      obtain ⟨key, k1, k2⟩ := key_selects hk hs
      rw [Doc.slice_inner hk] at k1
      have h1 := ht m hmem o rfl _ key (Doc.slice_inner hk) k1
      rw [k2] at h1
      exact ⟨f', rfl, rfl, tameX_doc (b := f'.2.1 == 0) (h1 _ (by rw [Inside.tameXF_get, hf']; rfl))⟩
  refine ⟨ms1, k, v, ms2, rfl, ?_, fun m hm => ?_⟩
  · rcases e2 with ⟨q1, q2⟩ | ⟨j, f, U, U', q1, q2, q3, -, q4⟩
    · exact .inl ⟨by exact_mod_cast q1, q2⟩
    · obtain ⟨f', g1, g2, g3⟩ := fld (m := (k, v)) (by simp) q1 q2
      rw [g2] at q3
      exact .inr ⟨j, f', U, q1, g1, refusedX g3 q3, q4⟩
  · rcases e3 m hm with hq | ⟨j, f, W, W', q1, q2, q3⟩
    · exact .inl hq
    · obtain ⟨f', g1, g2, g3⟩ := fld (m := m) (by simp [hm]) q1 q2
      rw [g2] at q3
      exact .inr ⟨j, f', W, W', q1, g1, aloneX_ok g3 q3⟩

/-! ## Examples -/

set_option maxRecDepth 20000 in
/-- C27, C58: `[{"R":{"Kids":[{}],"Name":"r"},"X":5},{"X":6}]` into a nil `[]struct{R T; X int}`: the second element has what `{"X":6}`, decoded alone into a zero value, gives. -/
example : ∃ es W', Returns demoX ((demoRTy 91).ty 3) (decode demoX (demoDec 91) b!"[{\"R\":{\"Kids\":[{}],\"Name\":\"r\"},\"X\":5},{\"X\":6}]"
      (.ok (demoDoc b!"[{\"R\":{\"Kids\":[{}],\"Name\":\"r\"},\"X\":5},{\"X\":6}]")) (some (zeros 24)) (some defaultOptions)) (-1) none (.slice es []) ∧ es.length = 2 ∧ es[1]? = some W' ∧
    Returns demoX ((demoRTy 90).ty 3) (decode demoX (demoDec 90) b!"[{\"R\":{\"Kids\":[{}],\"Name\":\"r\"},\"X\":5},{\"X\":6}]" (.ok (.obj 38 [((39, 42), .num true 43 44)] 44))
      (some (zeros 48)) (some defaultOptions)) (-1) none W' := by
  have hd := (demo_inside (t := 91) (by decide +kernel)).2
  have hd' := (demo_inside (t := 90) (by decide +kernel)).2
  have hb : tameDocXB demoX b!"[{\"R\":{\"Kids\":[{}],\"Name\":\"r\"},\"X\":5},{\"X\":6}]" defaultOptions 3 (demoRTy 91) (demoDoc b!"[{\"R\":{\"Kids\":[{}],\"Name\":\"r\"},\"X\":5},{\"X\":6}]") = true := by decide +kernel
  have ht := tameDocXB_sound (demoRTy 91) hb
  have hw := (demo_doc (src := b!"[{\"R\":{\"Kids\":[{}],\"Name\":\"r\"},\"X\":5},{\"X\":6}]") (by decide)).2
  obtain ⟨es, h⟩ : ∃ es, Returns demoX ((demoRTy 91).ty 3) (decode demoX (demoDec 91) b!"[{\"R\":{\"Kids\":[{}],\"Name\":\"r\"},\"X\":5},{\"X\":6}]"
      (.ok (demoDoc b!"[{\"R\":{\"Kids\":[{}],\"Name\":\"r\"},\"X\":5},{\"X\":6}]")) (some (zeros 24)) (some defaultOptions)) (-1) none (.slice es []) := ⟨_, Inside.returns_ok hd (inside_zero hd 3) ht rfl⟩
  obtain ⟨es', sp, g1, g2, -, g3⟩ := C27_inside_partial (e := demoRTy 90) hd hw (inside_zero hd 3) ht h
  cases g1
  obtain ⟨W, W', h2, h3, rfl | h4⟩ := g3 1 _ rfl
  · exact ⟨es, W', h, g2, h2, h3 _ _ hd' (inside_zero hd' 3)⟩
  · exact absurd (show ([] : List Val)[1]? = some W from h4) (by simp)

/-- `[]struct{R T; X int}{{T{}, 7}}` with capacity 1. -/
theorem demo_grown7 : Dest demoX (RTy.ty 3 (.slice (demoRTy 90))) (seg 24 (.slice 1 1 (zeros 40 ++ seg 8 (.int 7)))) (.slice [.struct [.struct [.nil, .str ⟨[], false⟩], .int 7]] []) := by
  refine ⟨rfl, by decide, .inr ⟨_, [_], [], rfl, rfl, rfl, fun j W hW => ?_⟩⟩
  match j, hW with
  | 0, hW =>
    cases hW
    exact ⟨by decide, _, rfl, _, _, rfl, ⟨by decide, _, rfl, _, _, rfl, ⟨by decide, .inl ⟨rfl, rfl⟩⟩, _, _, rfl, ⟨by decide, .inl ⟨rfl, rfl⟩⟩, rfl⟩, _, _, rfl, ⟨by decide, .inr ⟨7, rfl, rfl⟩⟩, rfl⟩

set_option maxRecDepth 20000 in
/-- C58: `[{"R":{"Name":"r"}},{}]` makes it grow; the first element keeps X = 7, the second is what `{}` makes of a zero value. -/
example : Returns demoX (RTy.ty 3 (.slice (demoRTy 90))) (decode demoX (demoDec 91) b!"[{\"R\":{\"Name\":\"r\"}},{}]" (.ok (demoDoc b!"[{\"R\":{\"Name\":\"r\"}},{}]")) (some (seg 24 (.slice 1 1 (zeros 40 ++ seg 8 (.int 7)))))
      (some defaultOptions)) (-1) none (.slice [.struct [.struct [.nil, .str ⟨b!"r", true⟩], .int 7], .struct [.struct [.nil, .str ⟨[], false⟩], .int 0]] []) ∧
    AloneX demoX b!"[{\"R\":{\"Name\":\"r\"}},{}]" (some defaultOptions) 3 (demoRTy 90) (.obj 1 [((2, 5), .obj 6 [((7, 13), .str 14 17)] 17)] 18) (.struct [.struct [.nil, .str ⟨[], false⟩], .int 7]) (-1) none
      (.struct [.struct [.nil, .str ⟨b!"r", true⟩], .int 7]) ∧
    AloneX demoX b!"[{\"R\":{\"Name\":\"r\"}},{}]" (some defaultOptions) 3 (demoRTy 90) (.obj 20 [] 21) (zeroV demoX ((demoRTy 90).ty 3)) (-1) none (.struct [.struct [.nil, .str ⟨[], false⟩], .int 0]) := by
  have hd : InsideDecoder demoX (.slice (demoRTy 90)) (demoDec 91) := (demo_inside (t := 91) (by decide +kernel)).2
  have hb : tameDocXB demoX b!"[{\"R\":{\"Name\":\"r\"}},{}]" defaultOptions 3 (demoRTy 91) (demoDoc b!"[{\"R\":{\"Name\":\"r\"}},{}]") = true := by decide +kernel
  have ht : TameDocX demoX b!"[{\"R\":{\"Name\":\"r\"}},{}]" (some defaultOptions) 3 (.slice (demoRTy 90)) (demoDoc b!"[{\"R\":{\"Name\":\"r\"}},{}]") := tameDocXB_sound (demoRTy 91) hb
  have h : Returns demoX (RTy.ty 3 (.slice (demoRTy 90))) (decode demoX (demoDec 91) b!"[{\"R\":{\"Name\":\"r\"}},{}]" (.ok (demoDoc b!"[{\"R\":{\"Name\":\"r\"}},{}]")) (some (seg 24 (.slice 1 1 (zeros 40 ++ seg 8 (.int 7)))))
      (some defaultOptions)) (-1) none (.slice [.struct [.struct [.nil, .str ⟨b!"r", true⟩], .int 7], .struct [.struct [.nil, .str ⟨[], false⟩], .int 0]] []) := Inside.returns_ok hd demo_grown7 ht rfl
  refine ⟨h, ?_, ?_⟩
  · obtain ⟨W', k1, k2⟩ := (C58_inside_partial (e := demoRTy 90) hd rfl demo_grown7 ht h (j := 0) rfl).1 _ rfl
    cases k1; exact k2
  · obtain ⟨W', k1, k2⟩ := (C58_inside_partial (e := demoRTy 90) hd rfl demo_grown7 ht h (j := 1) rfl).2 (by decide) (by decide)
    cases k1; exact k2

set_option maxRecDepth 20000 in
/-- C27, C30, failures: `[{"X":1},{"X":"a"}]`: the error at byte 14 is that of the second element, and there that of the member X. -/
example : (∃ V, Returns demoX ((demoRTy 91).ty 2) (decode demoX (demoDec 91) b!"[{\"X\":1},{\"X\":\"a\"}]" (.ok (demoDoc b!"[{\"X\":1},{\"X\":\"a\"}]")) (some (zeros 24)) (some defaultOptions)) 14 (some .unexpectedValue) V) ∧
    ∃ (j : Nat) (v : JVal), [JVal.obj 1 [((2, 5), .num true 6 7)] 7, .obj 9 [((10, 13), .str 14 17)] 17][j]? = some v ∧
      RefusedX demoX b!"[{\"X\":1},{\"X\":\"a\"}]" (some defaultOptions) 2 (demoRTy 90) v (zeroV demoX ((demoRTy 90).ty 2)) 14 .unexpectedValue := by
  have hd := (demo_inside (t := 91) (by decide +kernel)).2
  have hb : tameDocXB demoX b!"[{\"X\":1},{\"X\":\"a\"}]" defaultOptions 2 (demoRTy 91) (demoDoc b!"[{\"X\":1},{\"X\":\"a\"}]") = true := by decide +kernel
  have ht := tameDocXB_sound (demoRTy 91) hb
  obtain ⟨V, h⟩ : ∃ V, Returns demoX ((demoRTy 91).ty 2) (decode demoX (demoDec 91) b!"[{\"X\":1},{\"X\":\"a\"}]" (.ok (demoDoc b!"[{\"X\":1},{\"X\":\"a\"}]")) (some (zeros 24)) (some defaultOptions)) 14
    (some .unexpectedValue) V := C65_reading_partial hd (inside_zero hd 2) ht
  obtain ⟨j, v, W, h1, h2, h3, -⟩ := C27_inside_error_partial (e := demoRTy 90) hd (inside_zero hd 2) ht h
  refine ⟨⟨V, h⟩, j, v, h1, ?_⟩
  rcases h2 with rfl | h2
  · exact h3
  · exact absurd (show ([] : List Val)[j]? = some W from h2) (by simp)

set_option maxRecDepth 20000 in
/-- C30: `{"R":{"Name":"r"},"X":5}`: the field R has what its value, decoded alone into a zero `T`, gives. -/
example : ∃ Ws W', Returns demoX ((demoRTy 90).ty 2) (decode demoX (demoDec 90) b!"{\"R\":{\"Name\":\"r\"},\"X\":5}" (.ok (demoDoc b!"{\"R\":{\"Name\":\"r\"},\"X\":5}")) (some (zeros 48)) (some defaultOptions)) (-1) none (.struct Ws) ∧
    Ws[0]? = some W' ∧
    Returns demoX ((demoRTy 12).ty 2) (decode demoX (demoDec 12) b!"{\"R\":{\"Name\":\"r\"},\"X\":5}" (.ok (.obj 5 [((6, 12), .str 13 16)] 16)) (some (zeros 40)) (some defaultOptions)) (-1) none W' := by
  have hd := (demo_inside (t := 90) (by decide +kernel)).2
  have hd' := (demo_inside (t := 12) (by decide +kernel)).2
  have hb : tameDocXB demoX b!"{\"R\":{\"Name\":\"r\"},\"X\":5}" defaultOptions 2 (demoRTy 90) (demoDoc b!"{\"R\":{\"Name\":\"r\"},\"X\":5}") = true := by decide +kernel
  have ht := tameDocXB_sound (demoRTy 90) hb
  have hw := (demo_doc (src := b!"{\"R\":{\"Name\":\"r\"},\"X\":5}") (by decide)).2
  obtain ⟨Ws, h⟩ : ∃ Ws, Returns demoX ((demoRTy 90).ty 2) (decode demoX (demoDec 90) b!"{\"R\":{\"Name\":\"r\"},\"X\":5}" (.ok (demoDoc b!"{\"R\":{\"Name\":\"r\"},\"X\":5}")) (some (zeros 48)) (some defaultOptions)) (-1) none
    (.struct Ws) := ⟨_, Inside.returns_ok hd (inside_zero hd 2) ht rfl⟩
  obtain ⟨Ws', g1, -, -, g2⟩ := C30_inside_partial (size := 48) (fs := [(b!"R", 0, demoRTy 12), (b!"X", 40, demoRTy 1)]) hd hw (inside_zero hd 2) ht h
  cases g1
  have hk1 : KeySelects demoX b!"{\"R\":{\"Name\":\"r\"},\"X\":5}" defaultOptions [b!"R", b!"X"] (1, 4) 0 := by
    obtain ⟨name, q1, q2, -⟩ := key_fun demoX defaultOptions [b!"R", b!"X"] (k := (1, 4)) hw.2.2.2.2.1
    exact (q2 0).2 (by cases q1; rfl)
  have hk2 : ¬ KeySelects demoX b!"{\"R\":{\"Name\":\"r\"},\"X\":5}" defaultOptions [b!"R", b!"X"] (18, 21) 0 := by
    obtain ⟨name, q1, q2, -⟩ := key_fun demoX defaultOptions [b!"R", b!"X"] (k := (18, 21)) hw.2.2.2.2.2.2.1
    intro hc
    have := (q2 0).1 hc
    cases q1
    cases this
  obtain ⟨W, W', k1, k2, k3⟩ := g2 [] (1, 4) _ _ 0 _ rfl rfl hk1 (by intro m hm; cases List.mem_singleton.1 hm; exact hk2)
  have := k3 (by simp)
  cases this
  exact ⟨Ws, W', h, k1, k2 _ _ hd' (inside_zero hd' 2)⟩

set_option maxRecDepth 20000 in
/-- C28: the hypotheses hold for `groves` and a nil `map[string]T`. -/
example : ∃ Es W W', Returns demoX ((demoRTy 89).ty 3) (decode demoX (demoDec 89) groves (.ok (demoDoc groves)) (some (zeros 8)) (some defaultOptions)) (-1) none (.map Es) ∧
    lookupV (.str ⟨b!"b", true⟩) Es = some W' ∧ W = zeroV demoX ((demoRTy 12).ty 3) ∧ ∃ v, AloneX demoX groves (some defaultOptions) 3 (demoRTy 12) v W (-1) none W' := by
  have hd := (demo_inside (t := 89) (by decide +kernel)).2
  have hb : tameDocXB demoX groves defaultOptions 3 (demoRTy 89) (demoDoc groves) = true := by decide +kernel
  have ht := tameDocXB_sound (demoRTy 89) hb
  have hw := (demo_doc (src := groves) (by decide)).2
  obtain ⟨Es, h⟩ : ∃ Es, Returns demoX ((demoRTy 89).ty 3) (decode demoX (demoDec 89) groves (.ok (demoDoc groves)) (some (zeros 8)) (some defaultOptions)) (-1) none (.map Es) := ⟨_, Inside.returns_ok hd (inside_zero hd 3) ht rfl⟩
  obtain ⟨Es', g1, -, g2⟩ := C28_inside_partial (k := .str) (e := demoRTy 12) hd hw (inside_zero hd 3) ht (by
    intro m hm
    rcases List.mem_cons.1 hm with rfl | hm
    · exact ⟨.str ⟨b!"a", true⟩, show KeyOf demoX .str b!"a" _ from .str (.plain (by decide) .nil)⟩
    · cases List.mem_singleton.1 hm
      exact ⟨.str ⟨b!"b", true⟩, show KeyOf demoX .str b!"b" _ from .str (.plain (by decide) .nil)⟩) h
  cases g1
  obtain ⟨W, W', k1, k2, k3, -⟩ := g2 [_] _ _ [] (.str ⟨b!"b", true⟩) rfl (show KeyOf demoX .str b!"b" _ from .str (.plain (by decide) .nil)) (by simp)
  exact ⟨Es, W, W', h, k1, k3 rfl, _, k2⟩

set_option maxRecDepth 20000 in
/-- Failures of entries and members: `{"a":{"Name":1}}` into a `map[string]T`, `{"X":1,"R":{"Name":1}}` into a `struct{R T; X int}`. -/
example : (∃ v W, RefusedX demoX b!"{\"a\":{\"Name\":1}}" (some defaultOptions) 2 (demoRTy 12) v W 13 .unexpectedValue ∧ W = zeroV demoX ((demoRTy 12).ty 2)) ∧
    ∃ (j : Nat) (f : Bytes × Nat × RTy) (v : JVal) (W : Val), [(b!"R", 0, demoRTy 12), (b!"X", 40, demoRTy 1)][j]? = some f ∧
      RefusedX demoX b!"{\"X\":1,\"R\":{\"Name\":1}}" (some defaultOptions) 2 f.2.2 v W 19 .unexpectedValue := by
  constructor
  · have hd : InsideDecoder demoX (.map .str (demoRTy 12)) (demoDec 89) := (demo_inside (t := 89) (by decide +kernel)).2
    have hb : tameDocXB demoX b!"{\"a\":{\"Name\":1}}" defaultOptions 2 (demoRTy 89) (demoDoc b!"{\"a\":{\"Name\":1}}") = true := by decide +kernel
    have ht : TameDocX demoX b!"{\"a\":{\"Name\":1}}" (some defaultOptions) 2 (.map .str (demoRTy 12)) (demoDoc b!"{\"a\":{\"Name\":1}}") := tameDocXB_sound (demoRTy 89) hb
    have hw := (demo_doc (src := b!"{\"a\":{\"Name\":1}}") (by decide)).2
    obtain ⟨V, h⟩ : ∃ V, Returns demoX (RTy.ty 2 (.map .str (demoRTy 12))) (decode demoX (demoDec 89) b!"{\"a\":{\"Name\":1}}" (.ok (demoDoc b!"{\"a\":{\"Name\":1}}")) (some (zeros 8)) (some defaultOptions)) 13
      (some .unexpectedValue) V := C65_reading_partial hd (inside_zero hd 2) ht
    obtain ⟨ms1, key, v, ms2, hms, h1, -⟩ := C28_inside_error_partial hd hw (inside_zero hd 2) ht h
    rcases h1 with ⟨h1, h2⟩ | ⟨W, h1, h2, -⟩
    · exfalso
      have hm : (key, v) ∈ [((1, 4), JVal.obj 5 [((6, 12), .num true 13 14)] 14)] := by
        rw [show [((1, 4), JVal.obj 5 [((6, 12), .num true 13 14)] 14)] = ms1 ++ (key, v) :: ms2 from hms]; simp
      cases List.mem_singleton.1 hm
      cases h1
    · exact ⟨v, W, h2, h1 rfl⟩
  · have hd : InsideDecoder demoX (.struct 48 [(b!"R", 0, demoRTy 12), (b!"X", 40, demoRTy 1)]) (demoDec 90) := (demo_inside (t := 90) (by decide +kernel)).2
    have hb : tameDocXB demoX b!"{\"X\":1,\"R\":{\"Name\":1}}" defaultOptions 2 (demoRTy 90) (demoDoc b!"{\"X\":1,\"R\":{\"Name\":1}}") = true := by decide +kernel
    have ht : TameDocX demoX b!"{\"X\":1,\"R\":{\"Name\":1}}" (some defaultOptions) 2 (.struct 48 [(b!"R", 0, demoRTy 12), (b!"X", 40, demoRTy 1)]) (demoDoc b!"{\"X\":1,\"R\":{\"Name\":1}}") := tameDocXB_sound (demoRTy 90) hb
    have hw := (demo_doc (src := b!"{\"X\":1,\"R\":{\"Name\":1}}") (by decide)).2
    obtain ⟨V, h⟩ : ∃ V, Returns demoX (RTy.ty 2 (.struct 48 [(b!"R", 0, demoRTy 12), (b!"X", 40, demoRTy 1)])) (decode demoX (demoDec 90) b!"{\"X\":1,\"R\":{\"Name\":1}}" (.ok (demoDoc b!"{\"X\":1,\"R\":{\"Name\":1}}")) (some (zeros 48))
      (some defaultOptions)) 19 (some .unexpectedValue) V := C65_reading_partial hd (inside_zero hd 2) ht
    obtain ⟨ms1, k, v, ms2, -, h1, -⟩ := C30_inside_error_partial hd hw (inside_zero hd 2) ht h
    rcases h1 with ⟨-, h1, -⟩ | ⟨j, f, W, -, h1, h2, -⟩
    · cases h1
    · exact ⟨j, f, v, W, h1, h2⟩

/-- The concrete program with another type, `[2]struct{R T; X int}`. -/
def demoEnv2 : TypeEnv := fun t => if t = 200 then { kind := .array, size := 96, len := 2, elem := 90 } else demoEnv t

set_option maxRecDepth 2048 in
set_option maxHeartbeats 1000000 in
theorem demo_layout2 : Layout demoEnv2 demoX := by
  intro t
  by_cases h2 : t = 200
  · subst h2; first | rfl | exact True.intro | exact ⟨by decide, by decide⟩
  rcases Nat.lt_or_ge t demoTypes.length with h | h
  · clear h2
    replace h : t < 126 := h
    iterate 126 (rcases t with _ | t; · first | rfl | exact True.intro | exact ⟨by decide, by simp [Layout.FieldsIn, demoEnv2, demoEnv, demoTypes]⟩)
    exact absurd h (Nat.not_lt.2 (Nat.le_add_left 126 t))
  · have : demoEnv2 t = { kind := .other } := by simp only [demoEnv2, if_neg h2, demoEnv, List.getD_eq_getElem?_getD, List.getElem?_eq_none h, Option.getD_none]
    rw [this]; trivial

theorem demo_array : ∃ d, InsideDecoder demoX (.array 2 (demoRTy 90)) d := by
  have h : ∃ seen, rtyTree demoEnv2 true 20 [] 200 = some (.array 2 (demoRTy 90), seen) := ⟨_, rfl⟩
  obtain ⟨seen, h⟩ := h
  obtain ⟨root, tl, hb⟩ := Types.rty_built demo_layout2 (x := demoX) (allow := true) (opts := some defaultInitOptions) (fun _ => ⟨_, rfl, rfl⟩) 20 [] 200 _ seen [] h (by intro f hf; simp at hf)
  have hn : ∃ d, newDecoder demoEnv2 demoX.W (some defaultInitOptions) 20 (some 200) = .ok d := by
    simp only [newDecoder, hb.app]; exact ⟨_, rfl⟩
  obtain ⟨d, hd⟩ := hn
  exact ⟨d, .new ⟨demo_layout2, true, seen, fun _ => ⟨_, rfl, rfl⟩, h⟩ hd⟩

set_option maxRecDepth 20000 in
/-- C26: `[{"X":5}]` and `[{"X":"a"}]` into a zero `[2]struct{R T; X int}`. -/
example : ∃ d, InsideDecoder demoX (.array 2 (demoRTy 90)) d ∧
    (∃ Ws W', Returns demoX (RTy.ty 2 (.array 2 (demoRTy 90))) (decode demoX d b!"[{\"X\":5}]" (.ok (demoDoc b!"[{\"X\":5}]")) (some (zeros 96)) (some defaultOptions)) (-1) none (.arr Ws) ∧ Ws[0]? = some W' ∧
      Ws[1]? = some (zeroV demoX ((demoRTy 90).ty 2)) ∧ ∃ v, AloneX demoX b!"[{\"X\":5}]" (some defaultOptions) 2 (demoRTy 90) v (zeroV demoX ((demoRTy 90).ty 2)) (-1) none W') ∧
    ∃ (v : JVal) (W : Val), RefusedX demoX b!"[{\"X\":\"a\"}]" (some defaultOptions) 2 (demoRTy 90) v W 6 .unexpectedValue := by
  obtain ⟨d, hd⟩ := demo_array
  have h1 : tameDocXB demoX b!"[{\"X\":5}]" defaultOptions 2 (.array 2 (demoRTy 90)) (demoDoc b!"[{\"X\":5}]") = true := by decide +kernel
  have h2 : tameDocXB demoX b!"[{\"X\":\"a\"}]" defaultOptions 2 (.array 2 (demoRTy 90)) (demoDoc b!"[{\"X\":\"a\"}]") = true := by decide +kernel
  have t1 := tameDocXB_sound _ h1
  have t2 := tameDocXB_sound _ h2
  refine ⟨d, hd, ?_, ?_⟩
  · obtain ⟨Ws, h⟩ : ∃ Ws, Returns demoX (RTy.ty 2 (.array 2 (demoRTy 90))) (decode demoX d b!"[{\"X\":5}]" (.ok (demoDoc b!"[{\"X\":5}]")) (some (zeros 96)) (some defaultOptions)) (-1) none (.arr Ws) :=
      ⟨_, Inside.returns_ok hd (inside_zero hd 2) t1 rfl⟩
    obtain ⟨Ws', g1, -, g2, g3⟩ := C26_inside_partial hd (inside_zero hd 2) t1 h
    cases g1
    obtain ⟨W', k1, k2⟩ := g2 0 _ _ rfl rfl
    exact ⟨Ws, W', h, k1, g3 1 (by decide), _, k2⟩
  · obtain ⟨V, h⟩ : ∃ V, Returns demoX (RTy.ty 2 (.array 2 (demoRTy 90))) (decode demoX d b!"[{\"X\":\"a\"}]" (.ok (demoDoc b!"[{\"X\":\"a\"}]")) (some (zeros 96)) (some defaultOptions)) 6 (some .unexpectedValue) V :=
      C65_reading_partial hd (inside_zero hd 2) t2
    obtain ⟨j, v, W, -, -, k, -⟩ := C26_inside_error_partial hd (inside_zero hd 2) t2 h
    exact ⟨v, W, k⟩

end Verif.Props

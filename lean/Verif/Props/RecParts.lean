import Verif.Spec.RecPiece
import Verif.Props.Piece
import Verif.Props.RecMore
/-!
# C30 and C75 for recursive struct types
-/
namespace Verif.Props
open Verif Verif.Model Verif.Spec Verif.Big Verif.Proof Verif.Proof.Reads Verif.Proof.Outcome Verif.Proof.Unique Verif.Proof.Comp Verif.Proof.Demo

/-- The conditions on a document are weakest for the document as a whole. -/
theorem tameR_top {x : Ext} {src : Bytes} {o : Option Options} {fs : RFields} : ∀ {n : Nat} {here top : Bool} {v : JVal}, TameR x src o fs n here top v → TameR x src o fs n true true v
  | 0, _, _, _, h => h
  | n + 1, here, top, v, h => by
    intro i ms k hv a m hm o' ho raw name h1 h2
    have h' := h i ms k hv a m hm o' ho raw name h1 h2
    revert h'
    cases findField x o' ((fs.map (·.1)).zipIdx) name with
    | none => exact id
    | some j =>
      intro h' f hf
      refine ⟨?_, fun h => by cases h⟩
      have h' := (h' f hf).1
      obtain ⟨nm, off, ty⟩ := f
      cases ty with
      | plain t => exact h'
      | ptr => exact fun i ms k hv => tameR_top (h' i ms k hv)
      | slice => exact h'
      | map k => exact fun i ms e hv => ⟨rfl, rfl, (h' i ms e hv).2.2⟩

/-- **C30** for recursive struct types: whether `Decode` succeeds or fails, a field that no key of the object selects keeps its value. -/
theorem C30_recursive_kept_partial {x : Ext} {size : Nat} {fs : RFields} {d : Decoder} (hd : RecDecoder x size fs d) {src : Bytes} {a z : Nat} {ms : List ((Nat × Nat) × JVal)} (hw : Wf src (.obj a ms z)) {mem : Block}
    {Ws : List Val} {n : Nat} (hm : Dest x (unroll size fs (n + 1)) mem (.struct Ws)) {o : Options} (ht : TameR x src (some o) fs n true true (.obj a ms z)) {i : Int} {e : Option Err} {V' : Val}
    (h : Returns x (unroll size fs (n + 1)) (decode x d src (.ok (.obj a ms z)) (some mem) (some o)) i e V') :
    ∃ Ws', V' = .struct Ws' ∧ Ws'.length = Ws.length ∧ ∀ j, (∀ m ∈ ms, ¬ KeySelects x src o (fs.map (·.1)) m.1 j) → Ws'[j]? = Ws[j]? := by
  have hr := C37_reading_partial hd hm ht
  cases n with
  | zero => exact ht.elim
  | succ n =>
    have e1 : decRV x src (some o) size fs (n + 1) (.obj a ms z) (.struct Ws) =
        (structV x src o (fs.map fun f => (f.1, fieldV x src (some o) (decRV x src (some o) size fs n) (zeroV x (unroll size fs (n + 1))) f.2.2)) ms Ws).map .struct := by
      simp only [decRV]
      split
      · rename_i hms; subst hms; rfl
      · rfl
    rw [e1] at hr
    clear e1
    have key : ∃ Ws', V' = .struct Ws' ∧ Gives (structV x src o (fs.map fun f => (f.1, fieldV x src (some o) (decRV x src (some o) size fs n) (zeroV x (unroll size fs (n + 1))) f.2.2)) ms Ws) Ws' := by
      revert hr
      generalize structV x src o _ ms Ws = r
      intro hr
      cases r with
      | ok Ws' => obtain ⟨-, -, rfl⟩ := returns_unique h hr; exact ⟨Ws', rfl, .inl rfl⟩
      | err p er Ws' => obtain ⟨-, -, rfl⟩ := returns_unique h hr; exact ⟨Ws', rfl, .inr ⟨_, _, rfl⟩⟩
      | crash =>
        have hr' : decode x d src (.ok (.obj a ms z)) (some mem) (some o) = none := hr
        obtain ⟨r, m, h1, -⟩ := h
        rw [hr'] at h1; cases h1
      | unsup => exact hr.elim
    obtain ⟨Ws', rfl, hg⟩ := key
    refine ⟨Ws', rfl, structV_length hg, fun j hj => structV_keep hw.2.2.2.2 hg ?_⟩
    simpa [Function.comp_def] using hj

/-- What the last member that selects a field does. -/
theorem rec_last {x : Ext} {size : Nat} {fs : RFields} {d : Decoder} (hd : RecDecoder x size fs d) {src : Bytes} {a z : Nat} {ms1 ms2 : List ((Nat × Nat) × JVal)} {k : Nat × Nat} {v : JVal}
    (hw : Wf src (.obj a (ms1 ++ (k, v) :: ms2) z)) {mem : Block} {Ws : List Val} {n : Nat} (hm : Dest x (unroll size fs (n + 2)) mem (.struct Ws)) {o : Options}
    (ht : TameR x src (some o) fs (n + 1) true true (.obj a (ms1 ++ (k, v) :: ms2) z)) {V' : Val}
    (h : Returns x (unroll size fs (n + 2)) (decode x d src (.ok (.obj a (ms1 ++ (k, v) :: ms2) z)) (some mem) (some o)) (-1) none V')
    {j : Nat} {name : Bytes} {off : Nat} {t : RField} (hf : fs[j]? = some (name, off, t)) (hs : KeySelects x src o (fs.map (·.1)) k j) (hn : ∀ m ∈ ms2, ¬ KeySelects x src o (fs.map (·.1)) m.1 j) :
    TameField x src (some o) (TameR x src (some o) fs n) true true t v ∧ ∃ Ws' W W', V' = .struct Ws' ∧ Ws'[j]? = some W' ∧
      decV x src (some o) (t.ty (unroll size fs (n + 1))) v W = .ok W' ∧ ((∀ m ∈ ms1, ¬ KeySelects x src o (fs.map (·.1)) m.1 j) → Ws[j]? = some W) := by
  have hwm := hw.2.2.2.2
  have hk := (Safe.wfM_mem hwm (k, v) (by simp)).1
  constructor
  · obtain ⟨key, k1, k2⟩ := key_selects hk hs
    rw [Doc.slice_inner hk] at k1
    have h1 := ht a _ z rfl ms1.length (k, v) (by simp) o rfl _ key (Doc.slice_inner hk) k1
    rw [k2] at h1
    exact (h1 _ hf).1
  · have h := RecIdeal.returns_inv hd hm ht h
    have hun : unroll size fs (n + 1 + 1) = .struct size (tyF (unroll size fs (n + 1)) fs) := rfl
    rw [hun, struct_reads, map_ok_iff] at h
    obtain ⟨Ws', h1, rfl⟩ := h
    have hg : (decVF x src (some o) (tyF (unroll size fs (n + 1)) fs))[j]? = some (name, decV x src (some o) (t.ty (unroll size fs (n + 1)))) := by rw [Val.decVF_get, Val.tyF_get, hf]; rfl
    have := structV_last (x := x) (src := src) (o := o) hg (k := k) (v := v) (ms2 := ms2) (by rw [Val.decVF_names, Val.tyF_names]; exact hs) (by rw [Val.decVF_names, Val.tyF_names]; exact hn) hwm h1
    rw [Val.decVF_names, Val.tyF_names] at this
    obtain ⟨W, W', g1, g2, g3⟩ := this
    exact ⟨Ws', W, W', rfl, g1, g2, g3⟩

theorem separateR_ok {x : Ext} {size : Nat} {fs : RFields} {src : Bytes} {v w : JVal} (hd : IsDoc src v) (h : Inside w v) {o : Option Options} {n : Nat} (ht : TameR x src o fs n true true w) {W W' : Val}
    (hr : decV x src o (unroll size fs (n + 1)) w W = .ok W') : SeparateR x (textOf src w) o size fs n W (-1) none W' := by
  obtain ⟨v', hv⟩ := C75_document hd h
  exact ⟨v', hv, fun d mem hd' hm => by simpa using shifted_returns (C75_part hd h hv mem o) (RecIdeal.returns_ok hd' hm ht hr)⟩

/-- **C75** for recursive struct types, `*T`: after success the field points to what the text of its value, decoded separately into a `T`, gives: into the `T` it pointed to, or into a new one. -/
theorem C75_recursive_pointer_partial {x : Ext} {size : Nat} {fs : RFields} {d : Decoder} (hd : RecDecoder x size fs d) {src : Bytes} {a z : Nat} {ms1 ms2 : List ((Nat × Nat) × JVal)} {k : Nat × Nat} {v : JVal}
    (hw : IsDoc src (.obj a (ms1 ++ (k, v) :: ms2) z)) (hv : ¬ IsNull v) {mem : Block} {Ws : List Val} {n : Nat} (hm : Dest x (unroll size fs (n + 3)) mem (.struct Ws)) {o : Options}
    (ht : TameR x src (some o) fs (n + 2) true true (.obj a (ms1 ++ (k, v) :: ms2) z)) {V' : Val}
    (h : Returns x (unroll size fs (n + 3)) (decode x d src (.ok (.obj a (ms1 ++ (k, v) :: ms2) z)) (some mem) (some o)) (-1) none V')
    {j : Nat} {name : Bytes} {off : Nat} (hf : fs[j]? = some (name, off, .ptr)) (hs : KeySelects x src o (fs.map (·.1)) k j) (hn : ∀ m ∈ ms2, ¬ KeySelects x src o (fs.map (·.1)) m.1 j) :
    ∃ Ws' U W', V' = .struct Ws' ∧ Ws'[j]? = some (.ptr W') ∧
      SeparateR x (textOf src v) (some o) size fs (n + 1) (match U with | .ptr W => W | _ => zeroV x (unroll size fs (n + 2))) (-1) none W' ∧
      ((∀ m ∈ ms1, ¬ KeySelects x src o (fs.map (·.1)) m.1 j) → Ws[j]? = some U) := by
  obtain ⟨h1, Ws', W, W', g1, g2, g3, g4⟩ := rec_last hd (Json.doc_wf hw) hm ht h hf hs hn
  have g3 : (decV x src (some o) (unroll size fs (n + 2)) v (pointee (zeroV x (unroll size fs (n + 2))) W)).map .ptr = .ok W' := by
    simp only [RField.ty, decV] at g3
    cases v with
    | null i e => exact absurd ⟨i, e, rfl⟩ hv
    | _ => exact g3
  obtain ⟨W1, g5, rfl⟩ := map_ok_iff.1 g3
  have ht' : TameR x src (some o) fs (n + 1) true true v := by
    cases v with
    | obj i ms k => exact h1 i ms k rfl
    | _ => intro i ms k hv; cases hv
  refine ⟨Ws', W, W1, g1, g2, ?_, g4⟩
  have := separateR_ok hw (.member (m := (k, v)) (by simp) .self) ht' g5
  cases W <;> exact this

/-- **C75** for recursive struct types, `[]T`: after success the field has one element for each element of the array: what the text of the element, decoded separately into a `T`, gives, a zero value or one that was
already at that place of the backing array. -/
theorem C75_recursive_slice_partial {x : Ext} {size : Nat} {fs : RFields} {d : Decoder} (hd : RecDecoder x size fs d) {src : Bytes} {a z b c : Nat} {ms1 ms2 : List ((Nat × Nat) × JVal)} {k : Nat × Nat} {vs : List JVal}
    (hw : IsDoc src (.obj a (ms1 ++ (k, .arr b vs c) :: ms2) z)) {mem : Block} {Ws : List Val} {n : Nat} (hm : Dest x (unroll size fs (n + 2)) mem (.struct Ws)) {o : Options}
    (ht : TameR x src (some o) fs (n + 1) true true (.obj a (ms1 ++ (k, .arr b vs c) :: ms2) z)) {V' : Val}
    (h : Returns x (unroll size fs (n + 2)) (decode x d src (.ok (.obj a (ms1 ++ (k, .arr b vs c) :: ms2) z)) (some mem) (some o)) (-1) none V')
    {j : Nat} {name : Bytes} {off : Nat} (hf : fs[j]? = some (name, off, .slice)) (hs : KeySelects x src o (fs.map (·.1)) k j) (hn : ∀ m ∈ ms2, ¬ KeySelects x src o (fs.map (·.1)) m.1 j) :
    ∃ Ws' U es spare, V' = .struct Ws' ∧ Ws'[j]? = some (.slice es spare) ∧ es.length = vs.length ∧
      (∀ (i : Nat) v, vs[i]? = some v → ∃ W W', es[i]? = some W' ∧ SeparateR x (textOf src v) (some o) size fs n W (-1) none W' ∧ (W = zeroV x (unroll size fs (n + 1)) ∨ (upToCap U)[i]? = some W)) ∧
      ((∀ m ∈ ms1, ¬ KeySelects x src o (fs.map (·.1)) m.1 j) → Ws[j]? = some U) := by
  have hwf := Json.doc_wf hw
  obtain ⟨h1, Ws', U, W', g1, g2, g3, g4⟩ := rec_last hd hwf hm ht h hf hs hn
  have hwa := (Safe.wfM_mem hwf.2.2.2.2 (k, .arr b vs c) (by simp)).2
  obtain ⟨es, base, spare, rfl, r1, r2, -, r4⟩ := slice_reads (.gen (unroll size fs (n + 1))) hwa.2.2.2.2 g3
  obtain ⟨q1, q2, -⟩ := (elemsV_ok _ _ _ _).1 r4
  refine ⟨Ws', U, es, spare, g1, g2, q1.trans r1, fun i v hv => ?_, g4⟩
  have hi := (List.getElem?_eq_some_iff.1 hv).1
  have hb : i < base.length := by omega
  have he : i < es.length := by omega
  exact ⟨base[i], es[i], List.getElem?_eq_getElem he,
    separateR_ok hw (.member (m := (k, .arr b vs c)) (by simp) (.elem (List.mem_of_getElem? hv) .self)) (tameR_top (h1 b vs c rfl i v hv).2) (q2 i v _ _ hv (List.getElem?_eq_getElem hb) (List.getElem?_eq_getElem he)),
    r2 i _ (List.getElem?_eq_getElem hb)⟩

/-- **C75** for recursive struct types, `map[K]T`: after success the entry of a key has what the text of the value of the last member with this key, decoded separately into a zero `T`, gives; the other entries are those the
map had before. -/
theorem C75_recursive_map_partial {x : Ext} {size : Nat} {fs : RFields} {d : Decoder} (hd : RecDecoder x size fs d) {src : Bytes} {a z b c : Nat} {ms1 ms2 es : List ((Nat × Nat) × JVal)} {k : Nat × Nat}
    (hw : IsDoc src (.obj a (ms1 ++ (k, .obj b es c) :: ms2) z)) {mem : Block} {Ws : List Val} {n : Nat} (hm : Dest x (unroll size fs (n + 2)) mem (.struct Ws)) {o : Options}
    (ht : TameR x src (some o) fs (n + 1) true true (.obj a (ms1 ++ (k, .obj b es c) :: ms2) z)) {V' : Val}
    (h : Returns x (unroll size fs (n + 2)) (decode x d src (.ok (.obj a (ms1 ++ (k, .obj b es c) :: ms2) z)) (some mem) (some o)) (-1) none V')
    {j : Nat} {name : Bytes} {off : Nat} {kt : KeyTy} (hf : fs[j]? = some (name, off, .map kt)) (hs : KeySelects x src o (fs.map (·.1)) k j) (hn : ∀ m ∈ ms2, ¬ KeySelects x src o (fs.map (·.1)) m.1 j)
    (hk : ∀ m ∈ es, ∃ K, KeyOf x kt (inner src m.1.1 m.1.2) K) :
    ∃ Ws' U Es, V' = .struct Ws' ∧ Ws'[j]? = some (.map Es) ∧
      (∀ K, (∀ m ∈ es, ¬ KeyOf x kt (inner src m.1.1 m.1.2) K) → lookupV K Es = lookupV K (entriesOf U)) ∧
      (∀ es1 key v es2 K, es = es1 ++ (key, v) :: es2 → KeyOf x kt (inner src key.1 key.2) K → (∀ m ∈ es2, ¬ KeyOf x kt (inner src m.1.1 m.1.2) K) →
        ∃ W', lookupV K Es = some W' ∧ SeparateR x (textOf src v) (some o) size fs n (zeroV x (unroll size fs (n + 1))) (-1) none W') ∧
      ((∀ m ∈ ms1, ¬ KeySelects x src o (fs.map (·.1)) m.1 j) → Ws[j]? = some U) := by
  have hwf := Json.doc_wf hw
  obtain ⟨h1, Ws', U, W', g1, g2, g3, g4⟩ := rec_last hd hwf hm ht h hf hs hn
  have hwe := (Safe.wfM_mem hwf.2.2.2.2 (k, .obj b es c) (by simp)).2.2.2.2.2
  obtain ⟨-, -, hko, hne, hsub⟩ := h1 b es c rfl
  have he : ((unroll size fs (n + 1)).etype == .struct) = true := rfl
  have hp : mapParts U = entriesOf U := by cases U <;> rfl
  simp only [RField.ty, decV, he, hp] at g3
  rw [if_neg (fun hc => hko hc.1)] at g3
  obtain ⟨Es, h1, rfl⟩ := map_ok_iff.1 g3
  have hno : ∀ {l : List ((Nat × Nat) × JVal)} {K : Key}, (∀ m ∈ l, m ∈ es) → (∀ m ∈ l, ¬ KeyOf x kt (inner src m.1.1 m.1.2) K) →
      ∀ m ∈ l, ∀ K', keyAt x src kt m.1 = some (.ok K') → K'.same K = false := by
    intro l K hl hn m hmm K' hK
    cases hs : K'.same K with
    | false => rfl
    | true => exact absurd ((keyAt_iff (Safe.wfM_mem hwe m (hl m hmm)).1 (hk m (hl m hmm)) K).2 ⟨K', hK, hs⟩) (hn m hmm)
  refine ⟨Ws', U, Es, g1, g2, fun K hK => mapV_keep (.inl h1) (hno (fun m hm => hm) hK), ?_, g4⟩
  rintro es1 key v es2 K rfl hK hK2
  have hmem : (key, v) ∈ es1 ++ (key, v) :: es2 := by simp
  obtain ⟨K', q1, q2⟩ := keyAt_of (Safe.wfM_mem hwe (key, v) hmem).1 hK
  obtain ⟨W, W', r1, r2, r3, -⟩ := mapV_last q1 q2 (hno (fun m hm => by simp [hm]) hK2) h1
  rw [r3 rfl] at r2
  exact ⟨W', r1, separateR_ok hw (.member (m := (k, .obj b (es1 ++ (key, v) :: es2) c)) (by simp) (.member (m := (key, v)) hmem .self)) (hsub _ hmem).2 r2⟩

theorem inside_trans {u w : JVal} (h : Inside u w) : ∀ {v : JVal}, Inside w v → Inside u v := by
  intro v hv
  induction hv with
  | self => exact h
  | elem hm _ ih => exact .elem hm ih
  | member hm _ ih => exact .member hm ih

theorem refusedR {x : Ext} {size : Nat} {fs : RFields} {src : Bytes} {v w : JVal} (hd : IsDoc src v) (h : Inside w v) {o : Option Options} {n : Nat} (ht : TameR x src o fs n true true w) {W W' : Val} {p : Nat} {er : Err}
    (hr : decV x src o (unroll size fs (n + 1)) w W = .err p er W') : RefusedR x (textOf src w) o size fs n W (p - w.index) er := by
  obtain ⟨v', hv⟩ := C75_document hd h
  refine ⟨v', hv, fun d mem hd' hm => ?_⟩
  obtain ⟨V, g⟩ := RecIdeal.returns_err hd' hm ht hr
  have := shifted_returns (C75_part hd h hv mem o) g
  rw [if_neg (by omega)] at this
  exact ⟨V, this⟩

/-- A value of the wrong kind for a slice or map. -/
theorem leaf_kind {x : Ext} {src : Bytes} {et : EType} (het : et = .slice ∨ et = .map) {v : JVal} {V z V' : Val} {p : Nat} {er : Err} (h : actV v.index z none V (leaf x src et v) = .err p er V') :
    p = v.index ∧ er = .unexpectedValue := by
  rcases het with rfl | rfl <;> cases v with
  | num c i e => cases c <;> simp only [leaf] at h <;> split at h <;> simp only [onInteger, onNumber, actV] at h <;> cases h <;> exact ⟨rfl, rfl⟩
  | str i e => simp only [leaf] at h; split at h <;> simp only [onString, actV] at h <;> cases h <;> exact ⟨rfl, rfl⟩
  | _ => simp only [leaf, onNull, onBool, actV] at h <;> cases h <;> exact ⟨rfl, rfl⟩

/-- Why a value is refused for a field that held `U`, with the error `er` at `p`: the value is not of the kind of the field, or the text of a part, decoded separately into what this part is decoded into, is refused, with the
same error at the same byte, or the key of an entry is. -/
def FieldRefuses (x : Ext) (src : Bytes) (o : Option Options) (size : Nat) (fs : RFields) (n : Nat) (U : Val) : RField → JVal → Int → Err → Prop
  | .plain t, v, p, er => ∃ W', Separate x (textOf src v) o t U (p - v.index) (some er) W'
  | .ptr, v, p, er => RefusedR x (textOf src v) o size fs n (match U with | .ptr W => W | _ => zeroV x (unroll size fs (n + 1))) (p - v.index) er
  | .slice, v, p, er => ((∀ i vs k, v ≠ .arr i vs k) ∧ p = v.index ∧ er = .unexpectedValue) ∨
      ∃ (i : Nat) (vs : List JVal) (k j : Nat) (w : JVal) (W : Val), v = .arr i vs k ∧ vs[j]? = some w ∧ (W = zeroV x (unroll size fs (n + 1)) ∨ (upToCap U)[j]? = some W) ∧ RefusedR x (textOf src w) o size fs n W (p - w.index) er
  | .map kt, v, p, er => ((∀ i ms k, v ≠ .obj i ms k) ∧ p = v.index ∧ er = .unexpectedValue) ∨
      ∃ i ms k, v = .obj i ms k ∧ ∃ m ∈ ms, (p = m.1.1 ∧ ∀ K, ¬ KeyOf x kt (inner src m.1.1 m.1.2) K) ∨
        RefusedR x (textOf src m.2) o size fs n (zeroV x (unroll size fs (n + 1))) (p - m.2.index) er

theorem field_refuses {x : Ext} {size : Nat} {fs : RFields} {src : Bytes} {v w : JVal} (hd : IsDoc src v) (h : Inside w v) (hw : Wf src w) {o : Option Options} {n : Nat} {t : RField}
    (ht : TameField x src o (TameR x src o fs (n + 1)) true true t w) {W W' : Val} {p : Nat} {er : Err} (hr : decV x src o (t.ty (unroll size fs (n + 2))) w W = .err p er W') :
    FieldRefuses x src o size fs (n + 1) W t w p er := by
  cases t with
  | plain t =>
    have ha : Alone x src o t w W p (some er) W' := fun d mem hd' hm =>
      Outcome.returns_err hd' hm (tameDoc_of ht) (by rw [top_eq _ ht]; exact hr)
    exact ⟨W', separate_err hd h (by omega) ha⟩
  | ptr =>
    simp only [RField.ty, decV] at hr
    have hr' : (decV x src o (unroll size fs (n + 2)) w (pointee (zeroV x (unroll size fs (n + 2))) W)).map .ptr = .err p er W' := by
      cases w with
      | null i e => cases hr
      | _ => exact hr
    obtain ⟨W1, g, -⟩ := map_err_iff.1 hr'
    have ht' : TameR x src o fs (n + 1) true true w := by
      cases w with
      | obj i ms k => exact ht i ms k rfl
      | _ => intro i ms k hv; cases hv
    have := refusedR hd h ht' g
    cases W <;> exact this
  | slice =>
    by_cases ha : ∃ i vs k, w = .arr i vs k
    · obtain ⟨i, vs, k, rfl⟩ := ha
      simp only [RField.ty, decV, sliceV] at hr
      split at hr
      · cases hr
      · rename_i hne
        obtain ⟨es, g, -⟩ := map_err_iff.1 hr
        obtain ⟨-, j, u, U, U', q1, q0, -, q2, -⟩ := elemsV_err _ _ _ _ g
        have hu := List.mem_of_getElem? q1
        exact .inr ⟨i, vs, k, j, u, U, rfl, q1, (prep_base _ _ (List.length_pos_iff.2 hne) W).2.1 j U q0, refusedR hd (inside_trans (.elem hu .self) h) (tameR_top (ht i vs k rfl j u q1).2) q2⟩
    · have ha : ∀ i vs k, w ≠ .arr i vs k := fun i vs k hc => ha ⟨i, vs, k, hc⟩
      refine .inl ⟨ha, ?_⟩
      have hr' : actV w.index .nil none W (leaf x src .slice w) = .err p er W' := by
        cases w with
        | arr i vs k => exact absurd rfl (ha _ _ _)
        | _ => exact hr
      have := leaf_kind (.inl rfl) hr'
      exact ⟨by rw [this.1], this.2⟩
  | map kt =>
    by_cases ha : ∃ i ms k, w = .obj i ms k
    · obtain ⟨i, ms, k, rfl⟩ := ha
      obtain ⟨-, -, hko, hne, hsub⟩ := ht i ms k rfl
      have he : ((unroll size fs (n + 2)).etype == .struct) = true := rfl
      simp only [RField.ty, decV, he] at hr
      rw [if_neg (fun hc => hko hc.1)] at hr
      obtain ⟨es, g, -⟩ := map_err_iff.1 hr
      obtain ⟨ms1, key, u, ms2, rfl, q, -⟩ := mapV_err g
      have hmem : (key, u) ∈ ms1 ++ (key, u) :: ms2 := by simp
      refine .inr ⟨i, _, k, rfl, (key, u), hmem, ?_⟩
      rcases q with ⟨rfl, q⟩ | ⟨K, U, U', -, q1, -, q2, -⟩
      · refine .inl ⟨rfl, fun K hK => ?_⟩
        obtain ⟨K', q1, -⟩ := keyAt_of (Safe.wfM_mem hw.2.2.2.2 (key, u) hmem).1 hK
        rw [q] at q1; cases q1
      · rw [q2 rfl] at q1
        exact .inr (refusedR hd (inside_trans (.member (m := (key, u)) hmem .self) h) (hsub _ hmem).2 q1)
    · have ha : ∀ i ms k, w ≠ .obj i ms k := fun i ms k hc => ha ⟨i, ms, k, hc⟩
      refine .inl ⟨ha, ?_⟩
      have hr' : actV w.index .nil none W (leaf x src .map w) = .err p er W' := by
        cases w with
        | obj i ms k => exact absurd rfl (ha _ _ _)
        | _ => exact hr
      have := leaf_kind (.inr rfl) hr'
      exact ⟨by rw [this.1], this.2⟩

/-- **C75** for recursive struct types, failures: some member is refused: its key is unknown, or its value is refused for the field that the key selects: it is not of the kind of the field, or the text of a part, decoded
separately, is refused, with the same error at the same byte. -/
theorem C75_recursive_error_partial {x : Ext} {size : Nat} {fs : RFields} {d : Decoder} (hd : RecDecoder x size fs d) {src : Bytes} {a z : Nat} {ms : List ((Nat × Nat) × JVal)}
    (hw : IsDoc src (.obj a ms z)) {mem : Block} {Ws : List Val} {n : Nat} (hm : Dest x (unroll size fs (n + 3)) mem (.struct Ws)) {o : Options} (ht : TameR x src (some o) fs (n + 2) true true (.obj a ms z)) {p : Int} {er : Err}
    {V' : Val} (h : Returns x (unroll size fs (n + 3)) (decode x d src (.ok (.obj a ms z)) (some mem) (some o)) p (some er) V') :
    ∃ ms1 k v ms2, ms = ms1 ++ (k, v) :: ms2 ∧
      ((p = k.1 ∧ er = .unknownField ∧ o.disallowUnknownFields = true ∧ KeyUnknown x src o (fs.map (·.1)) k) ∨
        ∃ j f U, KeySelects x src o (fs.map (·.1)) k j ∧ fs[j]? = some f ∧ FieldRefuses x src (some o) size fs (n + 1) U f.2.2 v p er ∧
          ((∀ m ∈ ms1, ¬ KeySelects x src o (fs.map (·.1)) m.1 j) → Ws[j]? = some U)) := by
  have hwf := Json.doc_wf hw
  have hwm := hwf.2.2.2.2
  obtain ⟨q, W', rfl, g⟩ : ∃ (q : Nat) (W' : Val), p = q ∧ decV x src (some o) (unroll size fs (n + 3)) (.obj a ms z) (.struct Ws) = .err q er W' := by
    have ho := RecIdeal.outcome hd hm ht
    revert ho
    generalize decV x src (some o) (unroll size fs (n + 2 + 1)) (.obj a ms z) (.struct Ws) = r
    intro ho
    cases r with
    | ok V1 => cases (returns_unique h ho).2.1
    | err i e V1 =>
      obtain ⟨V2, ho⟩ := ho
      obtain ⟨h1, h2, -⟩ := returns_unique h ho
      cases h2
      exact ⟨i, V1, h1, rfl⟩
    | crash =>
      have ho : decode x d src (.ok (.obj a ms z)) (some mem) (some o) = none := ho
      obtain ⟨r, m, h1, -⟩ := h
      rw [ho] at h1; cases h1
    | unsup => exact ho.elim
  have hun : unroll size fs (n + 3) = .struct size (tyF (unroll size fs (n + 2)) fs) := rfl
  rw [hun, struct_reads, map_err_iff] at g
  obtain ⟨Ws', g, rfl⟩ := g
  have := structV_err hwm g
  rw [Val.decVF_names, Val.tyF_names] at this
  obtain ⟨ms1, k, v, ms2, rfl, e2, -⟩ := this
  have hmem : (k, v) ∈ ms1 ++ (k, v) :: ms2 := by simp
  refine ⟨ms1, k, v, ms2, rfl, ?_⟩
  rcases e2 with ⟨q1, q2⟩ | ⟨j, f, U, U', q1, q2, q3, -, q4⟩
  · exact .inl ⟨by exact_mod_cast q1, q2⟩
  · rw [Val.decVF_get, Val.tyF_get] at q2
    cases hf : fs[j]? with
    | none => rw [hf] at q2; cases q2
    | some f' =>
      rw [hf] at q2; cases q2
      have hk := (Safe.wfM_mem hwm (k, v) hmem).1
      obtain ⟨key, k1, k2⟩ := key_selects hk q1
      rw [Doc.slice_inner hk] at k1
      have h1 := ht a _ z rfl ms1.length (k, v) (by simp) o rfl _ key (Doc.slice_inner hk) k1
      rw [k2] at h1
      exact .inr ⟨j, f', U, q1, hf, field_refuses hw (.member (m := (k, v)) hmem .self) (Safe.wfM_mem hwm _ hmem).2 (h1 _ hf).1 q3, q4⟩

/-! ## Examples -/

private theorem key_sel {src : Bytes} {names : List Bytes} {k : Nat × Nat} {j : Nat} (hw : WfStr src k.1 k.2)
    (h : ((Model.slice src (k.1 + 1) (k.2 - 1)).bind (keyName defaultOptions)).bind (fun n => findField demoX defaultOptions names.zipIdx n) = some j) : KeySelects demoX src defaultOptions names k j := by
  obtain ⟨name, h1, h2, -⟩ := key_fun demoX defaultOptions names hw
  rw [h1] at h
  exact (h2 j).2 h

private theorem key_not {src : Bytes} {names : List Bytes} {k : Nat × Nat} {j j' : Nat} (hw : WfStr src k.1 k.2)
    (h : ((Model.slice src (k.1 + 1) (k.2 - 1)).bind (keyName defaultOptions)).bind (fun n => findField demoX defaultOptions names.zipIdx n) = some j') (hne : j ≠ j') :
    ¬ KeySelects demoX src defaultOptions names k j := by
  obtain ⟨name, h1, h2, -⟩ := key_fun demoX defaultOptions names hw
  rw [h1] at h
  intro hs
  have := (h2 j).1 hs
  simp only [Option.bind_some] at h
  rw [h] at this
  exact hne (Option.some.inj this).symm

/-- The list 1, 2, 3: its tail 2, 3 is what its text gives. -/
example : ∃ W', Returns demoX (unroll 16 (demoFields 40) 4) (decode demoX (demoDec 40) chain (.ok (demoDoc chain)) (some (zeros 16)) (some defaultOptions)) (-1) none (.struct [.ptr W', .int 1]) ∧
    SeparateR demoX b!"{\"Next\":{\"V\":3,\"Next\":null},\"V\":2}" (some defaultOptions) 16 (demoFields 40) 2 (zeroV demoX (unroll 16 (demoFields 40) 3)) (-1) none W' := by
  obtain ⟨-, hd⟩ := demo_rec (t := 40) (by decide)
  have hdoc : IsDoc chain (demoDoc chain) := JsonB.demo_isDoc (by decide +kernel)
  have hw := (Json.doc_wf hdoc).2.2.2.2
  have ht : TameR demoX chain (some defaultOptions) (demoFields 40) 3 true true (demoDoc chain) := tameRB_sound 3 true true _ (by decide)
  have h := C37_reading_partial hd (rec_zero hd 3) ht
  obtain ⟨Ws', U, W', g1, g2, g3, g4⟩ := C75_recursive_pointer_partial (n := 1) (j := 0) (ms1 := [((1, 4), .num true 5 6)]) (ms2 := []) (k := (7, 13)) hd hdoc (by rintro ⟨_, _, h⟩; cases h) (rec_zero hd 3) ht h rfl
    (key_sel hw.2.2.1 (by decide)) (by simp)
  have hU := g4 (by
    intro m hm
    rcases List.mem_singleton.1 hm with rfl
    exact key_not (j' := 1) hw.1 (by decide) (by decide))
  cases hU
  cases g1
  cases g2
  exact ⟨_, h, g3⟩

/-- The tree `family`: the second element of `Kids` is what its text gives, into a zero value. -/
example : ∃ Ws es spare W', Returns demoX (unroll 40 (demoFields 12) 4) (decode demoX (demoDec 12) family (.ok (demoDoc family)) (some (zeros 40)) (some defaultOptions)) (-1) none (.struct Ws) ∧
    Ws[0]? = some (.slice es spare) ∧ es.length = 2 ∧ es[1]? = some W' ∧
    SeparateR demoX b!"{\"Name\":\"d\",\"Kids\":[{\"Name\":\"e\"}]}" (some defaultOptions) 40 (demoFields 12) 2 (zeroV demoX (unroll 40 (demoFields 12) 3)) (-1) none W' := by
  obtain ⟨-, hd⟩ := demo_rec (t := 12) (by decide)
  have hdoc : IsDoc family (demoDoc family) := JsonB.demo_isDoc (by decide +kernel)
  have hw := (Json.doc_wf hdoc).2.2.2.2
  have ht : TameR demoX family (some defaultOptions) (demoFields 12) 3 true true (demoDoc family) := tameRB_sound 3 true true _ (by decide)
  obtain ⟨V, h⟩ : ∃ V, Returns demoX (unroll 40 (demoFields 12) 4) (decode demoX (demoDec 12) family (.ok (demoDoc family)) (some (zeros 40)) (some defaultOptions)) (-1) none V := ⟨_, C37_reading_partial hd (rec_zero hd 3) ht⟩
  obtain ⟨Ws', U, es, spare, g1, g2, g3, g4, g5⟩ := C75_recursive_slice_partial (n := 2) (j := 0) (ms1 := []) (k := (1, 7)) hd hdoc (rec_zero hd 3) ht h rfl (key_sel hw.1 (by decide)) (by
    intro m hm
    rcases List.mem_singleton.1 hm with rfl
    exact key_not (j' := 1) hw.2.2.1 (by decide) (by decide))
  have hU := g5 (by simp)
  cases hU
  obtain ⟨W, W', q1, q2, q3⟩ := g4 1 _ rfl
  rcases q3 with rfl | q3
  · subst g1
    exact ⟨Ws', es, spare, W', h, g2, g3, q1, q2⟩
  · cases q3

/-- `{"Kids":{"a":{"V":1}},"V":2}` into a `struct{Kids map[string]T; V int}`: the entry for a is what `{"V":1}` gives. -/
example : ∃ Ws Es W', Returns demoX (unroll 16 (demoFields 52) 3) (decode demoX (demoDec 52) b!"{\"Kids\":{\"a\":{\"V\":1}},\"V\":2}" (.ok (demoDoc b!"{\"Kids\":{\"a\":{\"V\":1}},\"V\":2}")) (some (zeros 16))
    (some defaultOptions)) (-1) none (.struct Ws) ∧ Ws[0]? = some (.map Es) ∧ lookupV (.str ⟨b!"a", true⟩) Es = some W' ∧
    SeparateR demoX b!"{\"V\":1}" (some defaultOptions) 16 (demoFields 52) 1 (zeroV demoX (unroll 16 (demoFields 52) 2)) (-1) none W' := by
  obtain ⟨-, hd⟩ := demo_rec (t := 52) (by decide)
  have hdoc : IsDoc b!"{\"Kids\":{\"a\":{\"V\":1}},\"V\":2}" (demoDoc b!"{\"Kids\":{\"a\":{\"V\":1}},\"V\":2}") := JsonB.demo_isDoc (by decide +kernel)
  have hw := (Json.doc_wf hdoc).2.2.2.2
  have ht : TameR demoX b!"{\"Kids\":{\"a\":{\"V\":1}},\"V\":2}" (some defaultOptions) (demoFields 52) 2 true true (demoDoc b!"{\"Kids\":{\"a\":{\"V\":1}},\"V\":2}") := tameRB_sound 2 true true _ (by decide)
  obtain ⟨V, h⟩ : ∃ V, Returns demoX (unroll 16 (demoFields 52) 3) (decode demoX (demoDec 52) b!"{\"Kids\":{\"a\":{\"V\":1}},\"V\":2}" (.ok (demoDoc b!"{\"Kids\":{\"a\":{\"V\":1}},\"V\":2}")) (some (zeros 16))
    (some defaultOptions)) (-1) none V := ⟨_, C37_reading_partial hd (rec_zero hd 2) ht⟩
  have hk : KeyOf demoX .str b!"a" (.str ⟨b!"a", true⟩) := .str (.plain (by decide) .nil)
  obtain ⟨Ws', U, Es, g1, g2, -, g4, -⟩ := C75_recursive_map_partial (n := 1) (j := 0) (ms1 := []) (k := (1, 7)) (es := [((9, 12), .obj 13 [((14, 17), .num true 18 19)] 19)]) hd hdoc (rec_zero hd 2) ht h rfl
    (key_sel hw.1 (by decide)) (by
      intro m hm
      rcases List.mem_singleton.1 hm with rfl
      exact key_not (j' := 1) hw.2.2.1 (by decide) (by decide)) (by
      intro m hm
      rcases List.mem_singleton.1 hm with rfl
      exact ⟨_, hk⟩)
  obtain ⟨W', q1, q2⟩ := g4 [] _ _ [] _ rfl hk (by simp)
  subst g1
  exact ⟨Ws', Es, W', h, g2, q1, q2⟩

/-- `{"Next":{"V":"x"}}`: the error at byte 13 is that of the field Next, whose text `{"V":"x"}`, decoded into a zero `T`, is refused at byte 5. -/
example : (∃ V, Returns demoX (unroll 16 (demoFields 40) 4) (decode demoX (demoDec 40) b!"{\"Next\":{\"V\":\"x\"}}" (.ok (demoDoc b!"{\"Next\":{\"V\":\"x\"}}")) (some (zeros 16)) (some defaultOptions)) 13
      (some .unexpectedValue) V) ∧
    RefusedR demoX b!"{\"V\":\"x\"}" (some defaultOptions) 16 (demoFields 40) 2 (zeroV demoX (unroll 16 (demoFields 40) 3)) 5 .unexpectedValue := by
  obtain ⟨-, hd⟩ := demo_rec (t := 40) (by decide)
  have hdoc : IsDoc b!"{\"Next\":{\"V\":\"x\"}}" (demoDoc b!"{\"Next\":{\"V\":\"x\"}}") := JsonB.demo_isDoc (by decide +kernel)
  have hw := (Json.doc_wf hdoc).2.2.2.2
  have ht : TameR demoX b!"{\"Next\":{\"V\":\"x\"}}" (some defaultOptions) (demoFields 40) 3 true true (demoDoc b!"{\"Next\":{\"V\":\"x\"}}") := tameRB_sound 3 true true _ (by decide)
  obtain ⟨V, h⟩ : ∃ V, Returns demoX (unroll 16 (demoFields 40) 4) (decode demoX (demoDec 40) b!"{\"Next\":{\"V\":\"x\"}}" (.ok (demoDoc b!"{\"Next\":{\"V\":\"x\"}}")) (some (zeros 16))
    (some defaultOptions)) 13 (some .unexpectedValue) V := ⟨_, C37_reading_partial hd (rec_zero hd 3) ht⟩
  obtain ⟨ms1, k, v, ms2, h1, h2⟩ := C75_recursive_error_partial (n := 1) (o := defaultOptions) hd hdoc (rec_zero hd 3) ht h
  refine ⟨⟨V, h⟩, ?_⟩
  cases ms1 with
  | cons m ms1 => exact absurd (congrArg List.length h1) (by simp)
  | nil =>
    obtain ⟨h1, -⟩ := List.cons.inj h1
    cases h1
    rcases h2 with ⟨-, h2, -⟩ | ⟨j, f, U, h2, h3, h4, h5⟩
    · cases h2
    have hj : j = 0 := by
      by_cases hj : j = 0
      · exact hj
      · exact absurd h2 (key_not (j' := 0) hw.1 (by decide) hj)
    subst hj
    cases h3
    have h5 := h5 (by simp)
    cases h5
    exact h4

end Verif.Props

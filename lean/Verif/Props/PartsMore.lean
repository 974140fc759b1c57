import Verif.Props.Parts
import Verif.Props.Grow
import Verif.Props.Maps
/-!
# Slices and maps in terms of what `Decode` does with each element alone: C27, C28
-/
namespace Verif.Props
open Verif.Model Verif.Spec Verif.Big Verif.Proof Verif.Proof.Demo Verif.Proof.Outcome Verif.Proof.Unique Verif.Proof.Comp

theorem prep_base (z : Val) (c : Bool) {n : Nat} (hn : 0 < n) (V : Val) :
    (prepSlice z c n V).1.length = n ∧ (∀ (j : Nat) W, (prepSlice z c n V).1[j]? = some W → W = z ∨ (upToCap V)[j]? = some W) ∧
      (upToCap V = [] → prepSlice z c n V = (List.replicate n z, [])) := by
  have hsp : (sliceParts V).1 ++ (sliceParts V).2 = upToCap V := by cases V <;> rfl
  refine ⟨?_, ?_, ?_⟩
  · simp only [prepSlice, hsp]
    split
    · split
      · rename_i hl _
        have : (sliceParts V).1.length ≤ (upToCap V).length := by rw [← hsp]; simp
        simp; omega
      · simp
    · simp; omega
  · intro j W hW
    simp only [prepSlice, hsp] at hW
    split at hW
    · split at hW
      · rcases Nat.lt_or_ge j (sliceParts V).1.length with hj | hj
        · rw [List.getElem?_append_left hj] at hW
          rw [← hsp, List.getElem?_append_left hj]; exact .inr hW
        · rw [List.getElem?_append_right hj] at hW
          exact .inl (List.eq_of_mem_replicate (List.mem_of_getElem? hW))
      · exact .inl (List.eq_of_mem_replicate (List.mem_of_getElem? hW))
    · rw [List.getElem?_take] at hW
      split at hW
      · exact .inr hW
      · cases hW
  · intro hc
    have hp : sliceParts V = ([], []) := by
      cases V <;> first | rfl | skip
      simp only [upToCap, List.append_eq_nil_iff] at hc
      simp [sliceParts, hc.1, hc.2]
    simp [prepSlice, hp, hn]

/-- Reading a JSON array into a slice is reading its elements, one after the other, into some values `base`: zero values or what was there. -/
theorem slice_base {x : Ext} {src : Bytes} {o : Option Options} {ty e : Ty} (hs : SliceOf ty e) {i z : Nat} {vs : List JVal} (hw : WfL src vs) (V : Val) :
    ∃ base sp, base.length = vs.length ∧ (∀ (j : Nat) W, base[j]? = some W → W = zeroV x e ∨ (upToCap V)[j]? = some W) ∧
      (upToCap V = [] → base = List.replicate vs.length (zeroV x e) ∧ sp = []) ∧
      (∀ V', decPV x src o ty (.arr i vs z) V = .ok V' ↔ ∃ es, elemsV (decPV x src o e) vs base = .ok es ∧ V' = .slice es sp) ∧
      ∀ p er, (∃ V', decPV x src o ty (.arr i vs z) V = .err p er V') ↔ ∃ es, elemsV (decPV x src o e) vs base = .err p er es := by
  by_cases hv : vs = []
  · subst hv
    refine ⟨[], [], rfl, by simp, fun _ => ⟨rfl, rfl⟩, ?_, ?_⟩
    · intro V'
      have : decPV x src o ty (.arr i [] z) V = .ok (.slice [] []) := by
        cases hs <;> simp [decPV, decV, sliceV, sliceOfV]
      rw [this]
      simp [elemsV, eq_comm]
    · intro p er
      have : decPV x src o ty (.arr i [] z) V = .ok (.slice [] []) := by
        cases hs <;> simp [decPV, decV, sliceV, sliceOfV]
      rw [this]
      simp [elemsV]
  · have hl : 0 < vs.length := List.length_pos_iff.2 hv
    cases hs with
    | gen =>
      obtain ⟨h1, h2, h3⟩ := prep_base (zeroV x e) e.etype.isElemComposite hl V
      refine ⟨_, (prepSlice (zeroV x e) e.etype.isElemComposite vs.length V).2, h1, h2, fun hc => ?_, ?_, ?_⟩
      · rw [h3 hc]; exact ⟨rfl, rfl⟩
      · intro V'
        simp only [decPV, sliceV, if_neg hv]
        rw [map_ok_iff]
        exact exists_congr fun _ => and_congr_right fun _ => eq_comm
      · intro p er
        simp only [decPV, sliceV, if_neg hv]
        constructor
        · rintro ⟨V', h⟩
          obtain ⟨es, h1, -⟩ := map_err_iff.1 h
          exact ⟨es, h1⟩
        · rintro ⟨es, h⟩
          exact ⟨_, map_err_iff.2 ⟨es, h, rfl⟩⟩
    | scalar k =>
      have hsp : (sliceParts V).1 ++ (sliceParts V).2 = upToCap V := by cases V <;> rfl
      have hel : ∀ (vs : List JVal) (Ws : List Val), WfL src vs → elemsV (fun v W => actV v.index (zeroS k) none W (elemAct x src k v)) vs Ws = elemsV (decPV x src o (.scalar k)) vs Ws := by
        intro vs
        induction vs with
        | nil => intro Ws _; simp [elemsV]
        | cons v vs ih =>
          intro Ws hw
          cases Ws with
          | nil => simp [elemsV]
          | cons W Ws => simp only [elemsV, elem_scalar x o k hw.1 W, ih Ws hw.2, decPV]
      have hd : decPV x src o (.sliceOf k) (.arr i vs z) V = sliceOfV (fun v W => actV v.index (zeroS k) none W (elemAct x src k v)) (zeroS k) vs V := by simp only [decPV, decV]
      rw [hd]
      by_cases hc : (upToCap V).length < vs.length
      · refine ⟨List.replicate vs.length (zeroS k), [], by simp, fun j W hW => .inl (List.eq_of_mem_replicate (List.mem_of_getElem? hW)), fun _ => ⟨rfl, rfl⟩, ?_, ?_⟩
        · intro V'
          simp only [sliceOfV, if_neg hv, hsp, if_pos hc]
          rw [hel _ _ hw]
          generalize elemsV (decPV x src o (.scalar k)) vs (List.replicate vs.length (zeroS k)) = r
          cases r <;> simp [eq_comm]
        · intro p er
          simp only [sliceOfV, if_neg hv, hsp, if_pos hc]
          rw [hel _ _ hw]
          generalize elemsV (decPV x src o (.scalar k)) vs (List.replicate vs.length (zeroS k)) = r
          cases r <;> simp
      · refine ⟨(upToCap V).take vs.length, (upToCap V).drop vs.length, by simp; omega, ?_, ?_, ?_, ?_⟩
        · intro j W hW
          rw [List.getElem?_take] at hW
          split at hW
          · exact .inr hW
          · cases hW
        · intro hc0
          rw [hc0] at hc
          exact absurd hl hc
        · intro V'
          simp only [sliceOfV, if_neg hv, hsp, if_neg hc]
          rw [hel _ _ hw]
          generalize elemsV (decPV x src o (.scalar k)) vs ((upToCap V).take vs.length) = r
          cases r <;> simp [eq_comm]
        · intro p er
          simp only [sliceOfV, if_neg hv, hsp, if_neg hc]
          rw [hel _ _ hw]
          generalize elemsV (decPV x src o (.scalar k)) vs ((upToCap V).take vs.length) = r
          cases r <;> simp

/-- **C27, partial**: into a nil slice or one without capacity, success exactly if every JSON element can be decoded alone into a zero value, and then these are the elements; nothing else has an influence. -/
theorem C27_fresh_partial {x : Ext} {ty e : Ty} (hs : SliceOf ty e) {d : Decoder} (hd : DecoderFor x ty d) {de : Decoder} (hde : DecoderFor x e de) {src : Bytes} {i z : Nat} {vs : List JVal} (hw : Wf src (.arr i vs z))
    {mem : Block} {V : Val} (hm : Dest x ty mem V) (hV : upToCap V = []) {o : Option Options} (hR : RightDoc x src o ty (.arr i vs z)) (es : List Val) :
    Returns x ty (decode x d src (.ok (.arr i vs z)) (some mem) o) (-1) none (.slice es []) ↔
      es.length = vs.length ∧ ∀ (j : Nat) v W', vs[j]? = some v → es[j]? = some W' → Returns x e (decode x de src (.ok v) (some (zeros (e.size x))) o) (-1) none W' := by
  rw [right_ok_iff hd hw hm hR]
  obtain ⟨base, sp, h1, -, h3, h4, -⟩ := slice_base (x := x) (o := o) (i := i) (z := z) hs hw.2.2.2.2 V
  obtain ⟨hb, rfl⟩ := h3 hV
  have hal : ∀ (j : Nat) v, vs[j]? = some v → ∀ W', Returns x e (decode x de src (.ok v) (some (zeros (e.size x))) o) (-1) none W' ↔ decPV x src o e v (zeroV x e) = .ok W' := by
    intro j v hv W'
    have hv' := List.mem_of_getElem? hv
    exact right_ok_iff hde (Safe.wfL_mem hw.2.2.2.2 v hv') (zero_dest hde) (right_element hs hR v hv')
  rw [h4]
  constructor
  · rintro ⟨es', h5, h6⟩
    cases h6
    obtain ⟨g1, g2, -⟩ := (elemsV_ok _ _ _ _).1 h5
    refine ⟨g1.trans h1, fun j v W' hv hW => (hal j v hv W').2 (g2 j v _ _ hv ?_ hW)⟩
    rw [hb, List.getElem?_replicate, if_pos (List.getElem?_eq_some_iff.1 hv).1]
  · rintro ⟨h5, h6⟩
    refine ⟨es, (elemsV_ok _ _ _ _).2 ⟨h5.trans h1.symm, fun j v W W' hv hW hW' => ?_, fun j hj => ?_⟩, rfl⟩
    · rw [hb] at hW
      rw [List.eq_of_mem_replicate (List.mem_of_getElem? hW)]
      exact (hal j v hv W').1 (h6 j v W' hv hW')
    · rw [List.getElem?_eq_none (by omega), List.getElem?_eq_none (by omega)]

/-- **C27, partial**: a failure is the failure of one of the elements, decoded alone, and the elements before it can be decoded. -/
theorem C27_error_partial {x : Ext} {ty e : Ty} (hs : SliceOf ty e) {d : Decoder} (hd : DecoderFor x ty d) {src : Bytes} {i z : Nat} {vs : List JVal} (hw : Wf src (.arr i vs z)) {mem : Block} {V : Val}
    (hm : Dest x ty mem V) {o : Option Options} (hR : RightDoc x src o ty (.arr i vs z)) {p : Int} {er : Err} {V' : Val}
    (h : Returns x ty (decode x d src (.ok (.arr i vs z)) (some mem) o) p (some er) V') :
    ∃ j v W W', vs[j]? = some v ∧ (W = zeroV x e ∨ (upToCap V)[j]? = some W) ∧ Alone x src o e v W p (some er) W' ∧
      ∀ (k : Nat) v, k < j → vs[k]? = some v → ∃ W W', (W = zeroV x e ∨ (upToCap V)[k]? = some W) ∧ Alone x src o e v W (-1) none W' := by
  obtain ⟨q, rfl, h2⟩ := (right_err_iff hd hw hm hR).1 h
  obtain ⟨base, sp, h1, ho, -, -, h5⟩ := slice_base (x := x) (o := o) (i := i) (z := z) hs hw.2.2.2.2 V
  obtain ⟨es, h6⟩ := (h5 q er).1 ⟨V', h2⟩
  obtain ⟨g1, j, v, W, W', hv, hW, hW', g2, g3, -⟩ := elemsV_err _ _ _ _ h6
  have hal : ∀ (j : Nat) v, vs[j]? = some v → Wf src v ∧ RightDoc x src o e v := fun j v hv =>
    ⟨Safe.wfL_mem hw.2.2.2.2 v (List.mem_of_getElem? hv), right_element hs hR v (List.mem_of_getElem? hv)⟩
  refine ⟨j, v, W, W', hv, ho j W hW, alone_err (hal j v hv).1 (hal j v hv).2 g2, fun k v hk hv => ?_⟩
  have hb : k < base.length := by have := (List.getElem?_eq_some_iff.1 hv).1; omega
  have he : k < es.length := by omega
  exact ⟨base[k], es[k], ho k _ (List.getElem?_eq_getElem hb), alone_ok (hal k v hv).1 (hal k v hv).2 (g3 k v _ _ hk hv (List.getElem?_eq_getElem hb) (List.getElem?_eq_getElem he))⟩

/-! ## Structs: what a failure means -/

theorem structV_err {x : Ext} {src : Bytes} {o : Options} {fs : List (Bytes × (JVal → Val → R Val))} {p : Nat} {er : Err} :
    ∀ {ms : List ((Nat × Nat) × JVal)} {Ws Ws' : List Val}, WfM src ms → structV x src o fs ms Ws = .err p er Ws' →
      ∃ ms1 k v ms2, ms = ms1 ++ (k, v) :: ms2 ∧
        ((p = k.1 ∧ er = .unknownField ∧ o.disallowUnknownFields = true ∧ KeyUnknown x src o (fs.map (·.1)) k) ∨
          ∃ j f W W', KeySelects x src o (fs.map (·.1)) k j ∧ fs[j]? = some f ∧ f.2 v W = .err p er W' ∧ Ws'[j]? = some W' ∧ ((∀ m ∈ ms1, ¬ KeySelects x src o (fs.map (·.1)) m.1 j) → Ws[j]? = some W)) ∧
        ∀ m ∈ ms1, (o.disallowUnknownFields = false ∧ KeyUnknown x src o (fs.map (·.1)) m.1) ∨ ∃ j f W W', KeySelects x src o (fs.map (·.1)) m.1 j ∧ fs[j]? = some f ∧ f.2 m.2 W = .ok W'
  | [], Ws, Ws', _, h => by simp [structV] at h
  | ((a, b), v) :: ms, Ws, Ws', hw, h => by
    obtain ⟨name, h1, h2, h3⟩ := key_fun x o (fs.map (·.1)) (k := (a, b)) hw.1
    simp only [structV, h1] at h
    cases hff : findField x o ((fs.map (·.1)).zipIdx) name with
    | none =>
      simp only [hff] at h
      have hu := h3.2 hff
      split at h
      · rename_i ho
        cases h
        exact ⟨[], (p, b), v, ms, rfl, .inl ⟨rfl, rfl, ho, hu⟩, by simp⟩
      · rename_i ho
        split at h
        · cases h
        · obtain ⟨ms1, k, u, ms2, e1, e2, e3⟩ := structV_err hw.2.2 h
          refine ⟨((a, b), v) :: ms1, k, u, ms2, by rw [e1]; rfl, ?_, ?_⟩
          · rcases e2 with e2 | ⟨j, f, W, W', q1, q2, q3, q4, q5⟩
            · exact .inl e2
            · exact .inr ⟨j, f, W, W', q1, q2, q3, q4, fun hn => q5 fun m hm => hn m (List.mem_cons_of_mem _ hm)⟩
          · intro m hm
            rcases List.mem_cons.1 hm with rfl | hm
            · exact .inl ⟨by simpa using ho, hu⟩
            · exact e3 m hm
    | some j' =>
      simp only [hff] at h
      have hsel := (h2 j').2 hff
      cases hg : fs[j']? with
      | none => simp [hg] at h
      | some f' =>
        cases hW : Ws[j']? with
        | none => simp [hg, hW] at h
        | some W0 =>
          simp only [hg, hW] at h
          have hlt := (List.getElem?_eq_some_iff.1 hW).1
          cases hr : f'.2 v W0 with
          | crash => simp [hr] at h
          | unsup => simp [hr] at h
          | err i e W1 =>
            simp only [hr] at h
            cases h
            exact ⟨[], (a, b), v, ms, rfl, .inr ⟨j', f', W0, W1, hsel, hg, hr, by simp [hlt], fun _ => hW⟩, by simp⟩
          | ok W1 =>
            simp only [hr] at h
            obtain ⟨ms1, k, u, ms2, e1, e2, e3⟩ := structV_err hw.2.2 h
            refine ⟨((a, b), v) :: ms1, k, u, ms2, by rw [e1]; rfl, ?_, ?_⟩
            · rcases e2 with e2 | ⟨j, f, W, W', q1, q2, q3, q4, q5⟩
              · exact .inl e2
              · refine .inr ⟨j, f, W, W', q1, q2, q3, q4, fun hn => ?_⟩
                have hne : j' ≠ j := by rintro rfl; exact hn _ List.mem_cons_self hsel
                have := q5 fun m hm => hn m (List.mem_cons_of_mem _ hm)
                rwa [List.getElem?_set_ne hne] at this
            · intro m hm
              rcases List.mem_cons.1 hm with rfl | hm
              · exact .inr ⟨j', f', W0, W1, hsel, hg, hr⟩
              · exact e3 m hm

/-- **C30, partial** (missing: documents outside `RightDoc`): a failure is an unknown key refused by `DisallowUnknownFields`, or the failure of the value of a known key, decoded alone; the members before it are unknown keys that are
skipped and known ones whose values can be decoded alone. The field of the failing member holds what the failing call on the value alone leaves. -/
theorem C30_error_partial {x : Ext} {n : Nat} {fs : List (Bytes × Nat × Ty)} {d : Decoder} (hd : DecoderFor x (.struct n fs) d) {src : Bytes} {a z : Nat} {ms : List ((Nat × Nat) × JVal)} (hw : Wf src (.obj a ms z))
    {mem : Block} {Ws : List Val} (hm : Dest x (.struct n fs) mem (.struct Ws)) {o : Options} (hR : RightDoc x src (some o) (.struct n fs) (.obj a ms z)) {p : Int} {er : Err} {V' : Val}
    (h : Returns x (.struct n fs) (decode x d src (.ok (.obj a ms z)) (some mem) (some o)) p (some er) V') :
    ∃ Ws' ms1 k v ms2, V' = .struct Ws' ∧ ms = ms1 ++ (k, v) :: ms2 ∧
      ((p = k.1 ∧ er = .unknownField ∧ o.disallowUnknownFields = true ∧ KeyUnknown x src o (fs.map (·.1)) k) ∨
        ∃ j f W W', KeySelects x src o (fs.map (·.1)) k j ∧ fs[j]? = some f ∧ Alone x src (some o) f.2.2 v W p (some er) W' ∧ Ws'[j]? = some W' ∧
          ((∀ m ∈ ms1, ¬ KeySelects x src o (fs.map (·.1)) m.1 j) → Ws[j]? = some W)) ∧
      ∀ m ∈ ms1, (o.disallowUnknownFields = false ∧ KeyUnknown x src o (fs.map (·.1)) m.1) ∨
        ∃ j f W W', KeySelects x src o (fs.map (·.1)) m.1 j ∧ fs[j]? = some f ∧ Alone x src (some o) f.2.2 m.2 W (-1) none W' := by
  replace h := (right_err_iff hd hw hm hR).1 h
  obtain ⟨q, rfl, h⟩ := h
  rw [struct_readsP, map_err_iff] at h
  obtain ⟨Ws', h1, rfl⟩ := h
  have := structV_err hw.2.2.2.2 h1
  rw [Val.decPVF_names] at this
  obtain ⟨ms1, k, v, ms2, e1, e2, e3⟩ := this
  have hget : ∀ {j : Nat} {g : Bytes × (JVal → Val → R Val)}, (decPVF x src (some o) fs)[j]? = some g → ∃ f, fs[j]? = some f ∧ g.2 = decPV x src (some o) f.2.2 := by
    intro j g hg
    rw [Val.decPVF_get] at hg
    cases hf : fs[j]? with
    | none => rw [hf] at hg; cases hg
    | some f => rw [hf] at hg; cases hg; exact ⟨f, rfl, rfl⟩
  refine ⟨Ws', ms1, k, v, ms2, rfl, e1, ?_, fun m hm1 => ?_⟩
  · rcases e2 with ⟨q1, q2⟩ | ⟨j, g, W, W', q1, q2, q3, q4, q5⟩
    · exact .inl ⟨by exact_mod_cast q1, q2⟩
    · obtain ⟨f, hf, hg⟩ := hget q2
      have hmem : (k, v) ∈ ms := by rw [e1]; simp
      rw [hg] at q3
      exact .inr ⟨j, f, W, W', q1, hf, alone_err (Safe.wfM_mem hw.2.2.2.2 _ hmem).2 (right_member hw hR hmem q1 hf) q3, q4, q5⟩
  · rcases e3 m hm1 with e3 | ⟨j, g, W, W', q1, q2, q3⟩
    · exact .inl e3
    · obtain ⟨f, hf, hg⟩ := hget q2
      have hmem : m ∈ ms := by rw [e1]; exact List.mem_append_left _ hm1
      rw [hg] at q3
      exact .inr ⟨j, f, W, W', q1, hf, alone_ok (Safe.wfM_mem hw.2.2.2.2 _ hmem).2 (right_member hw hR hmem q1 hf) q3⟩

/-! ## Maps: what a failure means -/

theorem mapV_err {x : Ext} {src : Bytes} {f : JVal → Val → R Val} {k : KeyTy} {z : Val} {fresh : Bool} {p : Nat} {er : Err} : ∀ {ms : List ((Nat × Nat) × JVal)} {m m' : List (Key × Val)},
    mapV x src f k z fresh ms m = .err p er m' →
      ∃ ms1 key v ms2, ms = ms1 ++ (key, v) :: ms2 ∧
        ((p = key.1 ∧ keyAt x src k key = some (.error er)) ∨
          ∃ K W W', keyAt x src k key = some (.ok K) ∧ f v W = .err p er W' ∧ lookupV K m' = some W' ∧ (fresh = true → W = z) ∧
            (fresh = false → (∀ mm ∈ ms1, ∀ K', keyAt x src k mm.1 = some (.ok K') → K'.same K = false) → W = (lookupV K m).getD z)) ∧
        ∀ mm ∈ ms1, ∃ K W W', keyAt x src k mm.1 = some (.ok K) ∧ f mm.2 W = .ok W'
  | [], m, m', h => by simp [mapV] at h
  | ((a, b), u) :: ms, m, m', h => by
    simp only [mapV] at h
    cases hk : keyAt x src k (a, b) with
    | none => unfold keyAt at hk; simp [hk] at h
    | some r =>
      have hk'' := hk
      unfold keyAt at hk''
      cases r with
      | error e0 =>
        simp only [hk''] at h
        cases h
        exact ⟨[], (p, b), u, ms, rfl, .inl ⟨rfl, hk⟩, by simp⟩
      | ok K' =>
        simp only [hk''] at h
        cases hr : f u (if fresh then z else (lookupV K' m).getD z) with
        | crash => simp [hr] at h
        | unsup => simp [hr] at h
        | err i e W =>
          simp only [hr] at h
          cases h
          exact ⟨[], (a, b), u, ms, rfl, .inr ⟨K', _, W, hk, hr, lookupV_assign .., fun hf => by simp [hf], fun hf _ => by simp [hf]⟩, by simp⟩
        | ok W =>
          simp only [hr] at h
          obtain ⟨ms1, key, v, ms2, e1, e2, e3⟩ := mapV_err h
          refine ⟨((a, b), u) :: ms1, key, v, ms2, by rw [e1]; rfl, ?_, ?_⟩
          · rcases e2 with e2 | ⟨K, A, B, g1, g2, g3, g4, g5⟩
            · exact .inl e2
            · refine .inr ⟨K, A, B, g1, g2, g3, g4, fun hf hms => ?_⟩
              rw [g5 hf fun mm hm => hms mm (List.mem_cons_of_mem _ hm), lookupV_assign_ne (hms _ List.mem_cons_self K' hk)]
          · intro mm hm
            rcases List.mem_cons.1 hm with rfl | hm
            · exact ⟨K', _, W, hk, hr⟩
            · exact e3 mm hm

/-- **C28, partial** (missing: documents outside `RightDoc`): a failure is a key that denotes no key of the map, or the failure of a value, decoded alone; the values before it can be decoded alone. Entries no key of the object
denotes are kept; the entry of the failing value holds what the failing call on the value alone leaves. -/
theorem C28_error_partial {x : Ext} {k : KeyTy} {e : Ty} {d : Decoder} (hd : DecoderFor x (.map k e) d) {src : Bytes} {i z : Nat} {ms : List ((Nat × Nat) × JVal)} (hw : Wf src (.obj i ms z)) {mem : Block} {V : Val}
    (hm : Dest x (.map k e) mem V) {o : Option Options} (hR : RightDoc x src o (.map k e) (.obj i ms z)) {p : Int} {er : Err} {V' : Val}
    (h : Returns x (.map k e) (decode x d src (.ok (.obj i ms z)) (some mem) o) p (some er) V') :
    ∃ Es ms1 key v ms2, V' = .map Es ∧ ms = ms1 ++ (key, v) :: ms2 ∧
      ((p = key.1 ∧ ∀ K, ¬ KeyOf x k (inner src key.1 key.2) K) ∨
        ∃ W W', Alone x src o e v W p (some er) W' ∧ (isStruct e = true → W = zeroV x e) ∧
          ∀ K, KeyOf x k (inner src key.1 key.2) K → lookupV K Es = some W' ∧
            (isStruct e = false → (∀ m ∈ ms1, (∃ K', KeyOf x k (inner src m.1.1 m.1.2) K') ∧ ¬ KeyOf x k (inner src m.1.1 m.1.2) K) → W = (lookupV K (entriesOf V)).getD (zeroV x e))) ∧
      (∀ m ∈ ms1, ∃ W W', Alone x src o e m.2 W (-1) none W') ∧
      ((∀ m ∈ ms, ∃ K, KeyOf x k (inner src m.1.1 m.1.2) K) → ∀ K, (∀ m ∈ ms, ¬ KeyOf x k (inner src m.1.1 m.1.2) K) → lookupV K Es = lookupV K (entriesOf V)) := by
  replace h := (right_err_iff hd hw hm hR).1 h
  obtain ⟨q, rfl, h⟩ := h
  have he : (e.etype == .struct) = isStruct e := by cases e <;> rfl
  have hp : mapParts V = entriesOf V := by cases V <;> rfl
  simp only [decPV, he, hp] at h
  rw [if_neg (fun hc => hc.2 (hR.1 hc.1))] at h
  obtain ⟨Es, h1, rfl⟩ := map_err_iff.1 h
  have hno : ∀ {m : (Nat × Nat) × JVal} {K : Key}, m ∈ ms → (∃ K', KeyOf x k (inner src m.1.1 m.1.2) K') → ¬ KeyOf x k (inner src m.1.1 m.1.2) K →
      ∀ K', keyAt x src k m.1 = some (.ok K') → K'.same K = false := by
    intro m K hmm hx hn K' hK
    cases hs : K'.same K with
    | false => rfl
    | true => exact absurd ((keyAt_iff (Safe.wfM_mem hw.2.2.2.2 m hmm).1 hx K).2 ⟨K', hK, hs⟩) hn
  have hRe : ∀ m ∈ ms, RightDoc x src o e m.2 := fun m hmm => Sim.ButLast.mem (fun m h => Right.right_mono _ .final m.2 h) (fun _ h => h) hR.2 m hmm
  obtain ⟨ms1, key, v, ms2, e1, e2, e3⟩ := mapV_err h1
  refine ⟨Es, ms1, key, v, ms2, rfl, e1, ?_, ?_, ?_⟩
  · have hmem : (key, v) ∈ ms := by rw [e1]; simp
    have hws := (Safe.wfM_mem hw.2.2.2.2 (key, v) hmem).1
    rcases e2 with ⟨q1, q2⟩ | ⟨K, W, W', g1, g2, g3, g4, g5⟩
    · refine .inl ⟨by exact_mod_cast q1, fun K hK => ?_⟩
      obtain ⟨K', r1, -⟩ := keyAt_of hws hK
      rw [q2] at r1; cases r1
    · refine .inr ⟨W, W', alone_err (Safe.wfM_mem hw.2.2.2.2 _ hmem).2 (hRe _ hmem) g2, g4, fun K1 hK1 => ?_⟩
      obtain ⟨K', r1, r2⟩ := keyAt_of hws hK1
      rw [g1] at r1; cases r1
      refine ⟨by rw [← lookupV_same r2]; exact g3, fun hs hms => ?_⟩
      rw [← lookupV_same r2]
      refine g5 hs fun mm hmm K'' hK'' => ?_
      have hmm' : mm ∈ ms := by rw [e1]; exact List.mem_append_left _ hmm
      have := hno hmm' (hms mm hmm).1 (hms mm hmm).2 K'' hK''
      cases hc : K''.same K with
      | false => rfl
      | true => rw [same_trans hc r2] at this; cases this
  · intro m hmm
    have hmm' : m ∈ ms := by rw [e1]; exact List.mem_append_left _ hmm
    obtain ⟨K, W, W', -, g2⟩ := e3 m hmm
    exact ⟨W, W', alone_ok (Safe.wfM_mem hw.2.2.2.2 _ hmm').2 (hRe _ hmm') g2⟩
  · intro hk K hK
    exact mapV_keep (.inr ⟨_, _, h1⟩) fun m hmm => hno hmm (hk m hmm) (hK m hmm)

/-- Cases: `[1,"a"]` into a nil `[]int` fails at the `"a"`, `{"X":1,"Y":2}` into a zero `struct{X int; Y string}` at the `2`, `{"a":1,"b":"x"}` into a nil `map[string]int` at the `"x"`. -/
example : (∃ V', Returns demoX (demoTree 27) (decode demoX (demoDec 27) b!"[1,\"a\"]" (.ok (demoDoc b!"[1,\"a\"]")) (some (zeros 24)) (some defaultOptions)) 3 (some .unexpectedValue) V') ∧
    (∃ V', Returns demoX (demoTree 4) (decode demoX (demoDec 4) b!"{\"X\":1,\"Y\":2}" (.ok (demoDoc b!"{\"X\":1,\"Y\":2}")) (some (zeros 24)) (some defaultOptions)) 11 (some .unexpectedValue) V') ∧
    ∃ V', Returns demoX (demoTree 11) (decode demoX (demoDec 11) b!"{\"a\":1,\"b\":\"x\"}" (.ok (demoDoc b!"{\"a\":1,\"b\":\"x\"}")) (some (zeros 8)) (some defaultOptions)) 11 (some .unexpectedValue) V' := by
  obtain ⟨hd, hw, hR⟩ := Right.demo_right (t := 27) (src := b!"[1,\"a\"]") (o := defaultOptions) (by decide) (by decide) (by decide)
  obtain ⟨hd', hw', hR'⟩ := Right.demo_right (t := 4) (src := b!"{\"X\":1,\"Y\":2}") (o := defaultOptions) (by decide) (by decide) (by decide)
  obtain ⟨hd2, hw2, hR2⟩ := Right.demo_right (t := 11) (src := b!"{\"a\":1,\"b\":\"x\"}") (o := defaultOptions) (by decide) (by decide) (by decide)
  exact ⟨⟨_, (right_err_iff hd hw (zero_dest hd) hR).2 ⟨3, rfl, rfl⟩⟩, ⟨_, (right_err_iff hd' hw' (zero_dest hd') hR').2 ⟨11, rfl, rfl⟩⟩, ⟨_, (right_err_iff hd2 hw2 (zero_dest hd2) hR2).2 ⟨11, rfl, rfl⟩⟩⟩

/-- What `C27_fresh_partial` says about `[{"X":1}]` into a nil `[]struct{X int; Y string}`. -/
example {de : Decoder} (hde : DecoderFor demoX (demoTree 4) de) {W : Val}
    (h : Returns demoX (demoTree 4) (decode demoX de b!"[{\"X\":1}]" (.ok (.obj 1 [((2, 5), .num true 6 7)] 7)) (some (zeros 24)) (some defaultOptions)) (-1) none W) :
    Returns demoX (demoTree 5) (decode demoX (demoDec 5) b!"[{\"X\":1}]" (.ok (demoDoc b!"[{\"X\":1}]")) (some (zeros 24)) (some defaultOptions)) (-1) none (.slice [W] []) := by
  obtain ⟨hd, hw, hR⟩ := Right.demo_right (t := 5) (src := b!"[{\"X\":1}]") (o := defaultOptions) (by decide) (by decide) (by decide)
  refine (C27_fresh_partial (.gen (demoTree 4)) hd hde hw (zero_dest hd) rfl hR [W]).2 ⟨rfl, fun j v W' h1 h2 => ?_⟩
  match j, h1, h2 with
  | 0, h1, h2 => cases h1; cases h2; exact h

end Verif.Props

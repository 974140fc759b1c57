import Verif.Props.PartsMore
/-!
# Containers of the same elements agree: C76
-/
namespace Verif.Props
open Verif.Model Verif.Spec Verif.Big Verif.Proof Verif.Proof.Demo Verif.Proof.Outcome Verif.Proof.Unique Verif.Proof.Comp

/-! ## Arrays and slices -/

theorem elemsV_append (f : JVal → Val → R Val) : ∀ {vs : List JVal} {A : List Val} (B : List Val), A.length = vs.length → elemsV f vs (A ++ B) = (elemsV f vs A).map (· ++ B)
  | [], [], B, _ => by simp [elemsV, R.map]
  | [], _ :: _, B, h => by simp at h
  | _ :: _, [], B, h => by simp at h
  | v :: vs, W :: A, B, h => by
    have ih := elemsV_append f (vs := vs) (A := A) B (by simpa using h)
    simp only [List.cons_append, elemsV, ih]
    cases f v W <;> simp only [R.map, List.cons_append]
    cases elemsV f vs A <;> simp [R.map]

theorem array_readsP {x : Ext} {src : Bytes} {o : Option Options} {n : Nat} {e : Ty} {i z : Nat} {vs : List JVal} {Ws : List Val} :
    decPV x src o (.array n e) (.arr i vs z) (.arr Ws) = (elemsV (decPV x src o e) vs Ws).map .arr := by
  simp only [decPV]

/-- **C76, partial** (missing: documents outside `RightDoc`, where the claim is false: `C76_refuted`): if the slice reads the JSON array, an array whose elements are zero reads it too: it holds the first elements of the slice, and zero
behind them. -/
theorem C76_slice_to_array_partial {x : Ext} {n : Nat} {ty e : Ty} (hs : SliceOf ty e) {da ds : Decoder} (ha : DecoderFor x (.array n e) da) (hd : DecoderFor x ty ds) {src : Bytes} {i z : Nat} {vs : List JVal} (hw : Wf src (.arr i vs z))
    {ma ms : Block} {V : Val} (hma : Dest x (.array n e) ma (.arr (List.replicate n (zeroV x e)))) (hms : Dest x ty ms V) (hV : upToCap V = []) {o : Option Options}
    (hRa : RightDoc x src o (.array n e) (.arr i vs z)) (hRs : RightDoc x src o ty (.arr i vs z)) {es : List Val} (h : Returns x ty (decode x ds src (.ok (.arr i vs z)) (some ms) o) (-1) none (.slice es [])) :
    es.length = vs.length ∧ Returns x (.array n e) (decode x da src (.ok (.arr i vs z)) (some ma) o) (-1) none (.arr (es.take n ++ List.replicate (n - es.length) (zeroV x e))) := by
  rw [right_ok_iff hd hw hms hRs] at h
  obtain ⟨base, sp, -, -, h3, h4, -⟩ := slice_base (x := x) (o := o) (i := i) (z := z) hs hw.2.2.2.2 V
  obtain ⟨rfl, rfl⟩ := h3 hV
  obtain ⟨es', h5, h6⟩ := (h4 _).1 h
  cases h6
  obtain ⟨g1, g2, -⟩ := (elemsV_ok _ _ _ _).1 h5
  rw [List.length_replicate] at g1
  refine ⟨g1, ?_⟩
  rw [right_ok_iff ha hw hma hRa, array_readsP, map_ok_iff]
  refine ⟨_, (elemsV_ok _ _ _ _).2 ⟨by simp; omega, fun j v W W' hv hW hW' => ?_, fun j hj => ?_⟩, rfl⟩
  · have hj := (List.getElem?_eq_some_iff.1 hW).1
    have hj' := (List.getElem?_eq_some_iff.1 hv).1
    rw [List.length_replicate] at hj
    rw [List.getElem?_append_left (by simp; omega), List.getElem?_take, if_pos hj] at hW'
    refine g2 j v W W' hv ?_ hW'
    rw [List.eq_of_mem_replicate (List.mem_of_getElem? hW), List.getElem?_replicate, if_pos hj']
  · rw [List.getElem?_append_right (by simp; omega), List.getElem?_replicate, List.getElem?_replicate]
    simp only [List.length_take]
    by_cases hjn : j < n
    · rw [if_pos hjn, if_pos (by omega)]
    · rw [if_neg hjn, if_neg (by omega)]

theorem array_as_slice {x : Ext} {n : Nat} {e : Ty} {src : Bytes} {o : Option Options} {i z : Nat} {vs : List JVal} (hl : vs.length ≤ n) :
    decPV x src o (.array n e) (.arr i vs z) (.arr (List.replicate n (zeroV x e))) =
      (elemsV (decPV x src o e) vs (List.replicate vs.length (zeroV x e))).map fun es => .arr (es ++ List.replicate (n - vs.length) (zeroV x e)) := by
  have hn : List.replicate n (zeroV x e) = List.replicate vs.length (zeroV x e) ++ List.replicate (n - vs.length) (zeroV x e) := by
    rw [List.replicate_append_replicate, show vs.length + (n - vs.length) = n by omega]
  rw [array_readsP, hn, elemsV_append _ _ (by simp)]
  cases elemsV (decPV x src o e) vs (List.replicate vs.length (zeroV x e)) <;> simp [R.map]

/-- **C76, partial**: with no more JSON elements than places, the array is read exactly if the slice is. -/
theorem C76_array_slice_partial {x : Ext} {n : Nat} {ty e : Ty} (hs : SliceOf ty e) {da ds : Decoder} (ha : DecoderFor x (.array n e) da) (hd : DecoderFor x ty ds) {src : Bytes} {i z : Nat} {vs : List JVal} (hw : Wf src (.arr i vs z))
    (hl : vs.length ≤ n) {ma ms : Block} {V : Val} (hma : Dest x (.array n e) ma (.arr (List.replicate n (zeroV x e)))) (hms : Dest x ty ms V) (hV : upToCap V = []) {o : Option Options}
    (hRa : RightDoc x src o (.array n e) (.arr i vs z)) (hRs : RightDoc x src o ty (.arr i vs z)) (es : List Val) (hes : es.length = vs.length) :
    Returns x (.array n e) (decode x da src (.ok (.arr i vs z)) (some ma) o) (-1) none (.arr (es ++ List.replicate (n - vs.length) (zeroV x e))) ↔
      Returns x ty (decode x ds src (.ok (.arr i vs z)) (some ms) o) (-1) none (.slice es []) := by
  rw [right_ok_iff hd hw hms hRs, right_ok_iff ha hw hma hRa, array_as_slice hl, map_ok_iff]
  obtain ⟨base, sp, -, -, h3, h4, -⟩ := slice_base (x := x) (o := o) (i := i) (z := z) hs hw.2.2.2.2 V
  obtain ⟨rfl, rfl⟩ := h3 hV
  rw [h4]
  constructor
  · rintro ⟨es', h5, h6⟩
    have hl' := ((elemsV_ok _ _ _ _).1 h5).1
    rw [List.length_replicate] at hl'
    simp only [Val.arr.injEq] at h6
    obtain ⟨rfl, -⟩ := List.append_inj h6 (by omega)
    exact ⟨_, h5, rfl⟩
  · rintro ⟨es', h5, h6⟩
    cases h6
    exact ⟨_, h5, rfl⟩

/-- **C76, partial**: and then they fail with the same errors. -/
theorem C76_array_slice_error_partial {x : Ext} {n : Nat} {ty e : Ty} (hs : SliceOf ty e) {da ds : Decoder} (ha : DecoderFor x (.array n e) da) (hd : DecoderFor x ty ds) {src : Bytes} {i z : Nat} {vs : List JVal}
    (hw : Wf src (.arr i vs z)) (hl : vs.length ≤ n) {ma ms : Block} {V : Val} (hma : Dest x (.array n e) ma (.arr (List.replicate n (zeroV x e)))) (hms : Dest x ty ms V) (hV : upToCap V = []) {o : Option Options}
    (hRa : RightDoc x src o (.array n e) (.arr i vs z)) (hRs : RightDoc x src o ty (.arr i vs z)) (p : Int) (er : Err) :
    (∃ V', Returns x (.array n e) (decode x da src (.ok (.arr i vs z)) (some ma) o) p (some er) V') ↔ ∃ V', Returns x ty (decode x ds src (.ok (.arr i vs z)) (some ms) o) p (some er) V' := by
  simp only [right_err_iff hd hw hms hRs, right_err_iff ha hw hma hRa, array_as_slice hl, map_err_iff]
  obtain ⟨base, sp, -, -, h3, -, h5⟩ := slice_base (x := x) (o := o) (i := i) (z := z) hs hw.2.2.2.2 V
  obtain ⟨rfl, rfl⟩ := h3 hV
  constructor
  · rintro ⟨V', q, hq, es, h6, rfl⟩
    obtain ⟨V'', h7⟩ := (h5 q er).2 ⟨es, h6⟩
    exact ⟨V'', q, hq, h7⟩
  · rintro ⟨V', q, hq, h6⟩
    obtain ⟨es, h7⟩ := (h5 q er).1 ⟨V', h6⟩
    exact ⟨_, q, hq, es, h7, rfl⟩

/-! ## Structs and maps -/

/-- The two readings of an object go the same way. -/
def Lock (x : Ext) (src : Bytes) (o : Options) (names : List Bytes) (k : KeyTy) (ms : List ((Nat × Nat) × JVal)) (z : Val) : R (List Val) → R (List (Key × Val)) → Prop
  | .ok Ws, .ok Es => ∀ mm ∈ ms, ∀ j K, KeySelects x src o names mm.1 j → keyAt x src k mm.1 = some (.ok K) → Ws[j]? = some ((lookupV K Es).getD z)
  | .err p e Ws, .err p' e' Es => p = p' ∧ e = e' ∧ ∀ mm ∈ ms, ∀ j K, KeySelects x src o names mm.1 j → keyAt x src k mm.1 = some (.ok K) → Ws[j]? = some ((lookupV K Es).getD z)
  | .crash, .crash => True
  | .unsup, .unsup => True
  | _, _ => False

theorem lock {x : Ext} {src : Bytes} {o : Options} {fs : List (Bytes × (JVal → Val → R Val))} {k : KeyTy} {f : JVal → Val → R Val} {z : Val} {fresh : Bool} :
    ∀ {ms : List ((Nat × Nat) × JVal)} {Ws : List Val} {m : List (Key × Val)}, WfM src ms →
      (∀ mm ∈ ms, ∃ j K g, KeySelects x src o (fs.map (·.1)) mm.1 j ∧ keyAt x src k mm.1 = some (.ok K) ∧ fs[j]? = some g ∧ g.2 = f ∧ Ws[j]? = some z ∧ lookupV K m = none) →
      (ms.Pairwise fun m m' => (∀ j, KeySelects x src o (fs.map (·.1)) m.1 j → ¬ KeySelects x src o (fs.map (·.1)) m'.1 j) ∧
        ∀ K K', keyAt x src k m.1 = some (.ok K) → keyAt x src k m'.1 = some (.ok K') → K'.same K = false) →
      Lock x src o (fs.map (·.1)) k ms z (structV x src o fs ms Ws) (mapV x src f k z fresh ms m)
  | [], Ws, m, _, _, _ => by simp [structV, mapV, Lock]
  | ((a, b), v) :: ms, Ws, m, hw, hall, hpw => by
    obtain ⟨j, K, g, h1, h2, h3, rfl, h5, h6⟩ := hall _ List.mem_cons_self
    obtain ⟨hp1, hp2⟩ := List.pairwise_cons.1 hpw
    obtain ⟨name, q1, q2, -⟩ := key_fun x o (fs.map (·.1)) (k := (a, b)) hw.1
    have hff := (q2 j).1 h1
    have hlt := (List.getElem?_eq_some_iff.1 h5).1
    have huniq : ∀ j', KeySelects x src o (fs.map (·.1)) (a, b) j' → j' = j := fun j' hj' => by
      have := (q2 j').1 hj'
      rw [hff] at this; cases this; rfl
    have h2' := h2
    unfold keyAt at h2'
    have hz : (if fresh then z else (lookupV K m).getD z) = z := by simp [h6]
    -- the other members, before they are read
    have hrest : ∀ W, ∀ mm ∈ ms, ∀ j' K', KeySelects x src o (fs.map (·.1)) mm.1 j' → keyAt x src k mm.1 = some (.ok K') → (Ws.set j W)[j']? = Ws[j']? ∧ lookupV K' (assignV K W m) = lookupV K' m := by
      intro W mm hmm j' K' hj' hK'
      have hne : j ≠ j' := by rintro rfl; exact (hp1 mm hmm).1 j h1 hj'
      refine ⟨List.getElem?_set_ne hne, lookupV_assign_ne ?_ W m⟩
      cases hc : K.same K' with
      | false => rfl
      | true => exact absurd ((hp1 mm hmm).2 K K' h2 hK') (by rw [same_symm hc]; simp)
    simp only [structV, q1, hff, h3, h5, mapV, h2', hz]
    cases hr : g.2 v z with
    | crash => trivial
    | unsup => trivial
    | err p e W =>
      refine ⟨rfl, rfl, fun mm hmm j' K' hj' hK' => ?_⟩
      rcases List.mem_cons.1 hmm with rfl | hmm
      · rw [huniq j' hj']
        rw [h2] at hK'; cases hK'
        simp [hlt, lookupV_assign]
      · obtain ⟨e1, e2⟩ := hrest W mm hmm j' K' hj' hK'
        obtain ⟨j1, K1, g1, i1, i2, -, -, i3, i4⟩ := hall mm (List.mem_cons_of_mem _ hmm)
        have hj1 : j' = j1 := by
          obtain ⟨n1, p1, p2, -⟩ := key_fun x o (fs.map (·.1)) (k := mm.1) (Safe.wfM_mem hw.2.2 mm hmm).1
          have a1 := (p2 j').1 hj'
          have a2 := (p2 j1).1 i1
          rw [a1] at a2; cases a2; rfl
        rw [i2] at hK'; cases hK'
        rw [e1, e2, hj1, i3, i4]; rfl
    | ok W =>
      simp only []
      have ih := lock (x := x) (src := src) (o := o) (fs := fs) (k := k) (f := g.2) (z := z) (fresh := fresh) (ms := ms) (Ws := Ws.set j W) (m := assignV K W m) hw.2.2
        (fun mm hmm => by
          obtain ⟨j1, K1, g1, i1, i2, i0, i5, i3, i4⟩ := hall mm (List.mem_cons_of_mem _ hmm)
          obtain ⟨e1, e2⟩ := hrest W mm hmm j1 K1 i1 i2
          exact ⟨j1, K1, g1, i1, i2, i0, i5, e1.trans i3, e2.trans i4⟩) hp2
      have hhead : ∀ Ws' m', Gives (structV x src o fs ms (Ws.set j W)) Ws' → GivesM (mapV x src g.2 k z fresh ms (assignV K W m)) m' →
          Ws'[j]? = some ((lookupV K m').getD z) := by
        intro Ws' m' hg hg'
        rw [structV_keep hw.2.2 hg fun mm hmm => (hp1 mm hmm).1 j h1, mapV_keep hg' fun mm hmm K' hK' => (hp1 mm hmm).2 K K' h2 hK', lookupV_assign]
        simp [hlt]
      generalize structV x src o fs ms (Ws.set j W) = r at ih hhead
      generalize mapV x src g.2 k z fresh ms (assignV K W m) = r' at ih hhead
      have hext : ∀ (Ws' : List Val) (m' : List (Key × Val)), (∀ mm ∈ ms, ∀ j K, KeySelects x src o (fs.map (·.1)) mm.1 j → keyAt x src k mm.1 = some (.ok K) → Ws'[j]? = some ((lookupV K m').getD z)) →
          Ws'[j]? = some ((lookupV K m').getD z) →
          ∀ mm ∈ ((a, b), v) :: ms, ∀ j K, KeySelects x src o (fs.map (·.1)) mm.1 j → keyAt x src k mm.1 = some (.ok K) → Ws'[j]? = some ((lookupV K m').getD z) := by
        intro Ws' m' hh h0 mm hmm j' K' hj' hK'
        rcases List.mem_cons.1 hmm with rfl | hmm
        · rw [huniq j' hj']
          rw [h2] at hK'; cases hK'
          exact h0
        · exact hh mm hmm j' K' hj' hK'
      cases r with
      | ok Ws' =>
        cases r' with
        | ok m' => exact hext Ws' m' ih (hhead _ _ (.inl rfl) (.inl rfl))
        | _ => exact ih.elim
      | err p e Ws' =>
        cases r' with
        | err p' e' m' => exact ⟨ih.1, ih.2.1, hext Ws' m' ih.2.2 (hhead _ _ (.inr ⟨_, _, rfl⟩) (.inr ⟨_, _, rfl⟩))⟩
        | _ => exact ih.elim
      | crash => cases r' <;> first | trivial | exact ih.elim
      | unsup => cases r' <;> first | trivial | exact ih.elim

/-- What a call returns, in terms of the reading. -/
theorem right_any {x : Ext} {ty : Ty} {d : Decoder} (hd : DecoderFor x ty d) {src : Bytes} {v : JVal} (hw : Wf src v) {mem : Block} {V V' : Val} (hm : Dest x ty mem V) {o : Option Options} (hR : RightDoc x src o ty v) {p : Int}
    {er : Option Err} : Returns x ty (decode x d src (.ok v) (some mem) o) p er V' ↔ (er = none ∧ p = -1 ∧ decPV x src o ty v V = .ok V') ∨ ∃ (q : Nat) (e : Err), er = some e ∧ p = q ∧ decPV x src o ty v V = .err q e V' := by
  cases er with
  | none =>
    constructor
    · intro h
      have hi : p = -1 := by
        obtain ⟨r, m, h1, h2, h3, -⟩ := id h
        obtain ⟨-, -, -, h4, -⟩ := right_inv hd hw hm hR h1 h3
        rw [← h2, h4]
      subst hi
      exact .inl ⟨rfl, rfl, (right_ok_iff hd hw hm hR).1 h⟩
    · rintro (⟨-, rfl, h⟩ | ⟨q, e, h, -⟩)
      · exact (right_ok_iff hd hw hm hR).2 h
      · cases h
  | some er =>
    rw [right_err_iff hd hw hm hR]
    constructor
    · rintro ⟨q, h1, h2⟩
      exact .inr ⟨q, er, rfl, h1, h2⟩
    · rintro (⟨h, -⟩ | ⟨q, e, h, h1, h2⟩)
      · cases h
      · cases h; exact ⟨q, h1, h2⟩

/-- A struct and a map take the members of an object the same way: every key is the name of a field of the type of the map's values that is zero, and denotes a key that is not in the map; different members have different fields and keys. -/
def Parallel (x : Ext) (src : Bytes) (o : Options) (fs : List (Bytes × Nat × Ty)) (Ws : List Val) (k : KeyTy) (e : Ty) (Es : List (Key × Val)) (ms : List ((Nat × Nat) × JVal)) : Prop :=
  (∀ m ∈ ms, (∃ j f, KeySelects x src o (fs.map (·.1)) m.1 j ∧ fs[j]? = some f ∧ f.2.2 = e ∧ Ws[j]? = some (zeroV x e)) ∧ ∃ K, KeyOf x k (inner src m.1.1 m.1.2) K ∧ lookupV K Es = none) ∧
    ms.Pairwise fun m m' => (∀ j, KeySelects x src o (fs.map (·.1)) m.1 j → ¬ KeySelects x src o (fs.map (·.1)) m'.1 j) ∧ ∀ K, KeyOf x k (inner src m.1.1 m.1.2) K → ¬ KeyOf x k (inner src m'.1.1 m'.1.2) K

theorem parallel_lock {x : Ext} {src : Bytes} {o : Options} {n : Nat} {fs : List (Bytes × Nat × Ty)} {Ws : List Val} {k : KeyTy} {e : Ty} {V : Val} {a z : Nat} {ms : List ((Nat × Nat) × JVal)} (hw : Wf src (.obj a ms z))
    (hR : RightDoc x src (some o) (.map k e) (.obj a ms z)) (hp : Parallel x src o fs Ws k e (entriesOf V) ms) :
    ∃ r r', decPV x src (some o) (.struct n fs) (.obj a ms z) (.struct Ws) = r.map .struct ∧ decPV x src (some o) (.map k e) (.obj a ms z) V = r'.map .map ∧ Lock x src o (fs.map (·.1)) k ms (zeroV x e) r r' := by
  refine ⟨_, mapV x src (decPV x src (some o) e) k (zeroV x e) (isStruct e) ms (entriesOf V), struct_readsP, ?_, ?_⟩
  · have he : (e.etype == .struct) = isStruct e := by cases e <;> rfl
    have hpp : mapParts V = entriesOf V := by cases V <;> rfl
    simp only [decPV, he, hpp]
    rw [if_neg (fun hc => hc.2 (hR.1 hc.1))]
  · have hkey : ∀ m ∈ ms, ∀ K, KeyOf x k (inner src m.1.1 m.1.2) K → ∃ K', keyAt x src k m.1 = some (.ok K') ∧ K'.same K = true := fun m hm K hK => keyAt_of (Safe.wfM_mem hw.2.2.2.2 m hm).1 hK
    have := lock (x := x) (src := src) (o := o) (fs := decPVF x src (some o) fs) (k := k) (f := decPV x src (some o) e) (z := zeroV x e) (fresh := isStruct e) (ms := ms) (Ws := Ws) (m := entriesOf V) hw.2.2.2.2
    rw [Val.decPVF_names] at this
    refine this (fun m hm => ?_) ?_
    · obtain ⟨⟨j, f, h1, h2, h3, h4⟩, K, h5, h6⟩ := hp.1 m hm
      obtain ⟨K', h7, h8⟩ := hkey m hm K h5
      refine ⟨j, K', (f.1, decPV x src (some o) f.2.2), h1, h7, by rw [Val.decPVF_get, h2]; rfl, by rw [h3], h4, ?_⟩
      rw [lookupV_same h8, h6]
    · refine List.Pairwise.imp_of_mem ?_ hp.2
      rintro m m' hm hm' ⟨h1, h2⟩
      refine ⟨h1, fun K K' hK hK' => ?_⟩
      cases hs : K'.same K with
      | false => rfl
      | true =>
        obtain ⟨-, K0, h5, -⟩ := hp.1 m hm
        obtain ⟨-, K1, h6, -⟩ := hp.1 m' hm'
        exact absurd ((keyAt_iff (Safe.wfM_mem hw.2.2.2.2 m' hm').1 ⟨K1, h6⟩ K).2 ⟨K', hK', hs⟩) (h2 K ((keyAt_iff (Safe.wfM_mem hw.2.2.2.2 m hm).1 ⟨K0, h5⟩ K).2 ⟨K, hK, Mem.same_refl _⟩))

/-- **C76, partial**: an object whose keys are names of fields of one type is accepted by the struct exactly if a map of that type accepts it; otherwise they fail with the same error at the same place. -/
theorem C76_struct_map_partial {x : Ext} {n : Nat} {fs : List (Bytes × Nat × Ty)} {k : KeyTy} {e : Ty} {d dm : Decoder} (hd : DecoderFor x (.struct n fs) d) (hdm : DecoderFor x (.map k e) dm) {src : Bytes} {a z : Nat}
    {ms : List ((Nat × Nat) × JVal)} (hw : Wf src (.obj a ms z)) {mem mem' : Block} {Ws : List Val} {V : Val} (hm : Dest x (.struct n fs) mem (.struct Ws)) (hm' : Dest x (.map k e) mem' V) {o : Options}
    (hR : RightDoc x src (some o) (.struct n fs) (.obj a ms z)) (hR' : RightDoc x src (some o) (.map k e) (.obj a ms z)) (hp : Parallel x src o fs Ws k e (entriesOf V) ms) (p : Int) (er : Option Err) :
    (∃ V', Returns x (.struct n fs) (decode x d src (.ok (.obj a ms z)) (some mem) (some o)) p er V') ↔ ∃ V', Returns x (.map k e) (decode x dm src (.ok (.obj a ms z)) (some mem') (some o)) p er V' := by
  simp only [right_any hd hw hm hR, right_any hdm hw hm' hR']
  obtain ⟨r, r', h1, h2, h3⟩ := parallel_lock (n := n) hw hR' hp
  rw [h1, h2]
  cases r <;> cases r' <;> first | exact h3.elim | skip
  · simp [R.map]
  · obtain ⟨rfl, rfl, -⟩ := h3
    simp only [R.map, reduceCtorEq, and_false, false_or]
    constructor
    · rintro ⟨_, q, e1, h4, h5, h6⟩
      cases h6
      exact ⟨_, _, _, h4, h5, rfl⟩
    · rintro ⟨_, q, e1, h4, h5, h6⟩
      cases h6
      exact ⟨_, _, _, h4, h5, rfl⟩
  · simp [R.map]
  · simp [R.map]

/-- **C76, partial**: and the field a key selects holds what the map has for the key; zero, if the map has nothing for it because the decoding ended before. -/
theorem C76_struct_map_values_partial {x : Ext} {n : Nat} {fs : List (Bytes × Nat × Ty)} {k : KeyTy} {e : Ty} {d dm : Decoder} (hd : DecoderFor x (.struct n fs) d) (hdm : DecoderFor x (.map k e) dm) {src : Bytes} {a z : Nat}
    {ms : List ((Nat × Nat) × JVal)} (hw : Wf src (.obj a ms z)) {mem mem' : Block} {Ws : List Val} {V : Val} (hm : Dest x (.struct n fs) mem (.struct Ws)) (hm' : Dest x (.map k e) mem' V) {o : Options}
    (hR : RightDoc x src (some o) (.struct n fs) (.obj a ms z)) (hR' : RightDoc x src (some o) (.map k e) (.obj a ms z)) (hp : Parallel x src o fs Ws k e (entriesOf V) ms) {p p' : Int} {er er' : Option Err} {V₁ V₂ : Val}
    (h₁ : Returns x (.struct n fs) (decode x d src (.ok (.obj a ms z)) (some mem) (some o)) p er V₁) (h₂ : Returns x (.map k e) (decode x dm src (.ok (.obj a ms z)) (some mem') (some o)) p' er' V₂) :
    p = p' ∧ er = er' ∧ ∃ Ws' Es', V₁ = .struct Ws' ∧ V₂ = .map Es' ∧
      ∀ m ∈ ms, ∀ j K, KeySelects x src o (fs.map (·.1)) m.1 j → KeyOf x k (inner src m.1.1 m.1.2) K → Ws'[j]? = some ((lookupV K Es').getD (zeroV x e)) := by
  rw [right_any hd hw hm hR] at h₁
  rw [right_any hdm hw hm' hR'] at h₂
  obtain ⟨r, r', h1, h2, h3⟩ := parallel_lock (n := n) hw hR' hp
  rw [h1] at h₁
  rw [h2] at h₂
  have hfin : ∀ {Ws' : List Val} {Es' : List (Key × Val)},
      (∀ mm ∈ ms, ∀ j K, KeySelects x src o (fs.map (·.1)) mm.1 j → keyAt x src k mm.1 = some (.ok K) → Ws'[j]? = some ((lookupV K Es').getD (zeroV x e))) →
      ∀ m ∈ ms, ∀ j K, KeySelects x src o (fs.map (·.1)) m.1 j → KeyOf x k (inner src m.1.1 m.1.2) K → Ws'[j]? = some ((lookupV K Es').getD (zeroV x e)) := by
    intro Ws' Es' hh m hm j K hj hK
    obtain ⟨K', g1, g2⟩ := keyAt_of (Safe.wfM_mem hw.2.2.2.2 m hm).1 hK
    rw [hh m hm j K' hj g1, lookupV_same g2]
  cases r <;> cases r' <;> first | exact h3.elim | skip
  · simp only [R.map, reduceCtorEq, and_false, exists_false, or_false, R.ok.injEq] at h₁ h₂
    obtain ⟨rfl, rfl, rfl⟩ := h₁
    obtain ⟨rfl, rfl, rfl⟩ := h₂
    exact ⟨rfl, rfl, _, _, rfl, rfl, hfin h3⟩
  · simp only [R.map, reduceCtorEq, and_false, false_or, R.err.injEq] at h₁ h₂
    obtain ⟨q, e1, rfl, rfl, rfl, rfl, rfl⟩ := h₁
    obtain ⟨q', e1', rfl, rfl, rfl, rfl, rfl⟩ := h₂
    obtain ⟨rfl, rfl, h3⟩ := h3
    exact ⟨rfl, rfl, _, _, rfl, rfl, hfin h3⟩
  · simp [R.map] at h₁
  · simp [R.map] at h₁

/-! ## map[string]string -/

theorem butLast_all {α : Type} {p q : α → Prop} (hp : ∀ a, p a) (hq : ∀ a, q a) : ∀ l : List α, ButLast p q l
  | [] => trivial
  | [a] => hq a
  | a :: b :: l => ⟨hp a, butLast_all hp hq (b :: l)⟩

theorem stringMap_right {x : Ext} {src : Bytes} {o : Option Options} {a z : Nat} {ms : List ((Nat × Nat) × JVal)} : RightDoc x src o (.map .str (.scalar .str)) (.obj a ms z) :=
  ⟨fun h => by (cases h), butLast_all (fun _ => trivial) (fun _ => trivial) ms⟩

/-- The loop for `map[string]string` stores and reports what the loop for other maps does. -/
theorem mapSS_any {x : Ext} {src : Bytes} {o : Option Options} {b : Bool} : ∀ {ms : List ((Nat × Nat) × JVal)} {m : List (Key × Val)}, WfM src ms →
    match mapSSV x src ms m with
    | none => False
    | some (.ok m') => mapV x src (decPV x src o (.scalar .str)) .str (zeroV x (.scalar .str)) b ms m = .ok m'
    | some (.error (p, e)) => ∃ m', mapV x src (decPV x src o (.scalar .str)) .str (zeroV x (.scalar .str)) b ms m = .err p e m'
  | [], m, _ => rfl
  | ((a, c), v) :: ms, m, hw => by
    have ⟨out, hden⟩ := hw.1.2.2
    obtain ⟨s, hs⟩ := Safe.unescStr_some x hden
    have hk : (Model.slice src (a + 1) (c - 1)).bind (fun key => KeyTy.key x key .str) = some (.ok (.str s)) := by
      rw [Doc.slice_inner hw.1]; simp [KeyTy.key, hs]
    have hks : (Model.slice src (a + 1) (c - 1)).bind x.unescStr = some s := by rw [Doc.slice_inner hw.1]; exact hs
    simp only [mapV, hk]
    generalize (if b = true then zeroV x (.scalar .str) else (lookupV (.str s) m).getD (zeroV x (.scalar .str))) = old
    cases v with
    | str vi ve =>
      obtain ⟨out', hden'⟩ := hw.2.1.2.2
      obtain ⟨u, hu⟩ := Safe.unescStr_some x hden'
      have hvs : (Model.slice src (vi + 1) (ve - 1)).bind x.unescStr = some u := by rw [Doc.slice_inner hw.2.1]; exact hu
      have hd : decPV x src o (.scalar .str) (.str vi ve) old = .ok (.str u) := by
        simp [decPV, decV, leafV, leaf, Ty.etype, Doc.slice_inner hw.2.1, onString, hu, actV, cellV]
      simp only [mapSSV, hks, hvs, hd]
      exact mapSS_any hw.2.2
    | null vi ve =>
      have hd : decPV x src o (.scalar .str) (.null vi ve) old = .ok (.str ⟨[], false⟩) := rfl
      simp only [mapSSV, hks, hd]
      exact mapSS_any hw.2.2
    | bool c vi ve =>
      have hd : decPV x src o (.scalar .str) (.bool c vi ve) old = .err vi .unexpectedValue old := rfl
      simp only [mapSSV, hd, JVal.index]; exact ⟨_, rfl⟩
    | num c vi ve =>
      have hd : decPV x src o (.scalar .str) (.num c vi ve) old = .err vi .unexpectedValue old := by
        cases c <;> simp [decPV, decV, leafV, leaf, Doc.slice_text hw.2.1.1 hw.2.1.2.1, Ty.etype, onInteger, onNumber, actV, JVal.index]
      simp only [mapSSV, hd, JVal.index]; exact ⟨_, rfl⟩
    | arr vi es ve =>
      have hd : decPV x src o (.scalar .str) (.arr vi es ve) old = .err vi .unexpectedValue old := rfl
      simp only [mapSSV, hd, JVal.index]; exact ⟨_, rfl⟩
    | obj vi es ve =>
      have hd : decPV x src o (.scalar .str) (.obj vi es ve) old = .err vi .unexpectedValue old := rfl
      simp only [mapSSV, hd, JVal.index]; exact ⟨_, rfl⟩

theorem mapSS_readsP {x : Ext} {src : Bytes} {o : Option Options} {a z : Nat} {ms : List ((Nat × Nat) × JVal)} {V : Val} (hw : WfM src ms) :
    decPV x src o .mapSS (.obj a ms z) V = match decPV x src o (.map .str (.scalar .str)) (.obj a ms z) .nil with
      | .ok W => .ok W
      | .err p e _ => .err p e V
      | .crash => .crash
      | .unsup => .unsup := by
  have h := mapSS_any (x := x) (o := o) (b := false) (m := []) hw
  have e1 : decPV x src o (.map .str (.scalar .str)) (.obj a ms z) .nil = (mapV x src (decPV x src o (.scalar .str)) .str (zeroV x (.scalar .str)) false ms []).map .map := rfl
  have e2 : decPV x src o .mapSS (.obj a ms z) V = match mapSSV x src ms [] with
      | none => .crash
      | some (.error (i, e)) => .err i e V
      | some (.ok es) => .ok (.map es) := rfl
  rw [e1, e2]
  cases hms : mapSSV x src ms [] with
  | none => rw [hms] at h; exact h.elim
  | some r =>
    rw [hms] at h
    cases r with
    | ok m' => simp only [] at h; rw [h]; rfl
    | error pe => obtain ⟨p, e⟩ := pe; obtain ⟨m', h⟩ := h; rw [h]; rfl

/-- **C76, partial**: the same of `map[string]string`, whose old entries do not count because it is replaced: it accepts the members that a struct with a string field for each accepts, and fails with the same error at the same place. -/
theorem C76_struct_mapSS_partial {x : Ext} {n : Nat} {fs : List (Bytes × Nat × Ty)} {d dm : Decoder} (hd : DecoderFor x (.struct n fs) d) (hdm : DecoderFor x .mapSS dm) {src : Bytes} {a z : Nat}
    {ms : List ((Nat × Nat) × JVal)} (hw : Wf src (.obj a ms z)) {mem mem' : Block} {Ws : List Val} {V : Val} (hm : Dest x (.struct n fs) mem (.struct Ws)) (hm' : Dest x .mapSS mem' V) {o : Options}
    (hR : RightDoc x src (some o) (.struct n fs) (.obj a ms z)) (hp : Parallel x src o fs Ws .str (.scalar .str) [] ms) (p : Int) (er : Option Err) :
    (∃ V', Returns x (.struct n fs) (decode x d src (.ok (.obj a ms z)) (some mem) (some o)) p er V') ↔ ∃ V', Returns x .mapSS (decode x dm src (.ok (.obj a ms z)) (some mem') (some o)) p er V' := by
  simp only [right_any hd hw hm hR, right_any hdm hw hm' (show RightDoc x src (some o) .mapSS (.obj a ms z) from trivial)]
  obtain ⟨r, r', h1, h2, h3⟩ := parallel_lock (n := n) (V := .nil) hw stringMap_right hp
  rw [h1, mapSS_readsP hw.2.2.2.2, h2]
  cases r <;> cases r' <;> first | exact h3.elim | skip
  · simp [R.map]
  · obtain ⟨rfl, rfl, -⟩ := h3
    simp only [R.map, reduceCtorEq, and_false, false_or]
    constructor
    · rintro ⟨_, q, e1, h4, h5, h6⟩
      cases h6
      exact ⟨_, _, _, h4, h5, rfl⟩
    · rintro ⟨_, q, e1, h4, h5, h6⟩
      cases h6
      exact ⟨_, _, _, h4, h5, rfl⟩
  · simp [R.map]
  · simp [R.map]

/-- **C76, partial**: and after success the field a key selects holds the string the map has for the key; after an error the map is what it was. -/
theorem C76_struct_mapSS_values_partial {x : Ext} {n : Nat} {fs : List (Bytes × Nat × Ty)} {d dm : Decoder} (hd : DecoderFor x (.struct n fs) d) (hdm : DecoderFor x .mapSS dm) {src : Bytes} {a z : Nat}
    {ms : List ((Nat × Nat) × JVal)} (hw : Wf src (.obj a ms z)) {mem mem' : Block} {Ws : List Val} {V : Val} (hm : Dest x (.struct n fs) mem (.struct Ws)) (hm' : Dest x .mapSS mem' V) {o : Options}
    (hR : RightDoc x src (some o) (.struct n fs) (.obj a ms z)) (hp : Parallel x src o fs Ws .str (.scalar .str) [] ms) {p p' : Int} {er er' : Option Err} {V₁ V₂ : Val}
    (h₁ : Returns x (.struct n fs) (decode x d src (.ok (.obj a ms z)) (some mem) (some o)) p er V₁) (h₂ : Returns x .mapSS (decode x dm src (.ok (.obj a ms z)) (some mem') (some o)) p' er' V₂) :
    p = p' ∧ er = er' ∧ (er' ≠ none → V₂ = V) ∧ (er' = none → ∃ Ws' Es', V₁ = .struct Ws' ∧ V₂ = .map Es' ∧
      ∀ m ∈ ms, ∀ j K, KeySelects x src o (fs.map (·.1)) m.1 j → KeyOf x .str (inner src m.1.1 m.1.2) K → Ws'[j]? = some ((lookupV K Es').getD (.str ⟨[], false⟩))) := by
  rw [right_any hd hw hm hR] at h₁
  rw [right_any hdm hw hm' (show RightDoc x src (some o) .mapSS (.obj a ms z) from trivial)] at h₂
  obtain ⟨r, r', h1, h2, h3⟩ := parallel_lock (n := n) (V := .nil) hw stringMap_right hp
  rw [h1] at h₁
  rw [mapSS_readsP hw.2.2.2.2, h2] at h₂
  cases r <;> cases r' <;> first | exact h3.elim | skip
  · simp only [R.map, reduceCtorEq, and_false, exists_false, or_false, R.ok.injEq] at h₁ h₂
    obtain ⟨rfl, rfl, rfl⟩ := h₁
    obtain ⟨rfl, rfl, rfl⟩ := h₂
    refine ⟨rfl, rfl, fun h => absurd rfl h, fun _ => ⟨_, _, rfl, rfl, fun m hm j K hj hK => ?_⟩⟩
    obtain ⟨K', g1, g2⟩ := keyAt_of (Safe.wfM_mem hw.2.2.2.2 m hm).1 hK
    have := h3 m hm j K' hj g1
    rw [lookupV_same g2] at this
    exact this
  · simp only [R.map, reduceCtorEq, and_false, false_or, R.err.injEq] at h₁ h₂
    obtain ⟨q, e1, rfl, rfl, rfl, rfl, rfl⟩ := h₁
    obtain ⟨q', e1', rfl, rfl, rfl, rfl, rfl⟩ := h₂
    obtain ⟨rfl, rfl, -⟩ := h3
    exact ⟨rfl, rfl, fun _ => rfl, fun h => by (cases h)⟩
  · simp [R.map] at h₁
  · simp [R.map] at h₁

/-! ## The full statement -/

/-- The full statement of C76, for arrays and slices: with no more JSON elements than places, they are accepted alike. -/
def ContainersAgree (x : Ext) : Prop :=
  ∀ (n : Nat) (ty e : Ty) (da ds : Decoder) (src : Bytes) (i z : Nat) (vs : List JVal) (ma ms : Block) (V : Val) (o : Options) (p : Int) (er : Option Err), SliceOf ty e → DecoderFor x (.array n e) da → DecoderFor x ty ds →
    Wf src (.arr i vs z) → vs.length ≤ n → Dest x (.array n e) ma (.arr (List.replicate n (zeroV x e))) → Dest x ty ms V → upToCap V = [] →
    ((∃ V', Returns x (.array n e) (decode x da src (.ok (.arr i vs z)) (some ma) (some o)) p er V') ↔ ∃ V', Returns x ty (decode x ds src (.ok (.arr i vs z)) (some ms) (some o)) p er V')

/-- **C76 is false of the code** as soon as an object for an unknown key, or a pointer, ends a container early: `[{"u":{}},{"X":1}]` is accepted by `[2]struct{X int; Y string}` (which stays zero), and a slice of the same structs panics. -/
theorem C76_refuted : ¬ ContainersAgree demoX := by
  intro h
  have hd : DecoderFor demoX (demoTree 47) (demoDec 47) := demo_for' (t := 47) (by decide)
  have hd5 : DecoderFor demoX (demoTree 5) (demoDec 5) := demo_for' (t := 5) (by decide)
  have hdoc := demo_doc (src := b!"[{\"u\":{}},{\"X\":1}]") (by decide)
  have h0 : zeroAt 48 [0, 8, 24, 32] (decode demoX (demoDec 47) b!"[{\"u\":{}},{\"X\":1}]" (.ok (demoDoc b!"[{\"u\":{}},{\"X\":1}]")) (some (zeros 48)) (some defaultOptions)) = true := by
    decide +kernel
  have h1 : (decode demoX (demoDec 5) b!"[{\"u\":{}},{\"X\":1}]" (.ok (demoDoc b!"[{\"u\":{}},{\"X\":1}]")) (some (zeros 24)) (some defaultOptions)).isNone = true := by decide +kernel
  obtain ⟨r, b, g1, g2, g3, g4, g5, g6⟩ := zeroAt_inv h0
  have z0 := g6 0 (by decide)
  have z1 := g6 8 (by decide)
  have z2 := g6 24 (by decide)
  have z3 := g6 32 (by decide)
  have hm' : Dest demoX (demoTree 47) b (.arr [.struct [.int 0, .str ⟨[], false⟩], .struct [.int 0, .str ⟨[], false⟩]]) := by
    refine ⟨g5, by rw [g5]; decide, _, rfl, rfl, fun j W hW => ?_⟩
    match j, hW with
    | 0, hW =>
      cases hW
      exact ⟨by rw [g5]; decide, _, rfl, _, _, rfl, ⟨by rw [g5]; decide, .inl ⟨z0, rfl⟩⟩, _, _, rfl, ⟨by rw [g5]; decide, .inl ⟨z1, rfl⟩⟩, rfl⟩
    | 1, hW =>
      cases hW
      exact ⟨by rw [g5]; decide, _, rfl, _, _, rfl, ⟨by rw [g5]; decide, .inl ⟨z2, rfl⟩⟩, _, _, rfl, ⟨by rw [g5]; decide, .inl ⟨z3, rfl⟩⟩, rfl⟩
  obtain ⟨V', r', m', k1, -⟩ := (h 2 (demoTree 5) (demoTree 4) (demoDec 47) (demoDec 5) _ 0 17 [.obj 1 [((2, 5), .obj 6 [] 7)] 8, .obj 10 [((11, 14), .num true 15 16)] 16] _ _ _ defaultOptions (-1) none (.gen _) hd hd5
    hdoc.2 (by decide) (zero_dest hd) (zero_dest hd5) rfl).1 ⟨_, r, b, g1, g2, g3, g4, hm'⟩
  have k1' : decode demoX (demoDec 5) b!"[{\"u\":{}},{\"X\":1}]" (.ok (demoDoc b!"[{\"u\":{}},{\"X\":1}]")) (some (zeros 24)) (some defaultOptions) = some r' := k1
  rw [k1'] at h1
  cases h1

/-- Cases: `[1,2]` into a zero `[3]int` and into a nil `[]int`, and `[1,"a"]`. -/
example : Returns demoX (demoTree 27) (decode demoX (demoDec 27) b!"[1,2]" (.ok (demoDoc b!"[1,2]")) (some (zeros 24)) (some defaultOptions)) (-1) none (.slice [.int 1, .int 2] []) ∧
    Returns demoX (demoTree 26) (decode demoX (demoDec 26) b!"[1,2]" (.ok (demoDoc b!"[1,2]")) (some (zeros 24)) (some defaultOptions)) (-1) none (.arr [.int 1, .int 2, .int 0]) := by
  obtain ⟨hd, hw, hR⟩ := Right.demo_right (t := 27) (src := b!"[1,2]") (o := defaultOptions) (by decide) (by decide) (by decide)
  obtain ⟨hd', -, hR'⟩ := Right.demo_right (t := 26) (src := b!"[1,2]") (o := defaultOptions) (by decide) (by decide) (by decide)
  have h : Returns demoX (demoTree 27) (decode demoX (demoDec 27) b!"[1,2]" (.ok (demoDoc b!"[1,2]")) (some (zeros 24)) (some defaultOptions)) (-1) none (.slice [.int 1, .int 2] []) := by
    exact (right_ok_iff hd hw (zero_dest hd) hR).2 rfl
  exact ⟨h, (C76_slice_to_array_partial (.scalar (.int .int)) hd' hd hw (zero_dest hd') (zero_dest hd) rfl hR' hR h).2⟩

example (p : Int) (er : Err) : (∃ V', Returns demoX (demoTree 26) (decode demoX (demoDec 26) b!"[1,\"a\"]" (.ok (demoDoc b!"[1,\"a\"]")) (some (zeros 24)) (some defaultOptions)) p (some er) V') ↔
    ∃ V', Returns demoX (demoTree 27) (decode demoX (demoDec 27) b!"[1,\"a\"]" (.ok (demoDoc b!"[1,\"a\"]")) (some (zeros 24)) (some defaultOptions)) p (some er) V' := by
  obtain ⟨hd, hw, hR⟩ := Right.demo_right (t := 27) (src := b!"[1,\"a\"]") (o := defaultOptions) (by decide) (by decide) (by decide)
  obtain ⟨hd', -, hR'⟩ := Right.demo_right (t := 26) (src := b!"[1,\"a\"]") (o := defaultOptions) (by decide) (by decide) (by decide)
  exact C76_array_slice_error_partial (.scalar (.int .int)) hd' hd hw (by decide) (zero_dest hd') (zero_dest hd) rfl hR' hR p er

/-- The keys of `{"A":1,"B":2}` are those of a zero `struct{A int; B int}` and of a nil `map[string]int`. -/
theorem parallel_demo : Parallel demoX b!"{\"A\":1,\"B\":2}" defaultOptions [(b!"A", 0, demoTree 1), (b!"B", 8, demoTree 1)] [.int 0, .int 0] .str (demoTree 1) [] [((1, 4), .num true 5 6), ((7, 10), .num true 11 12)] := by
  have sA : KeySelects demoX b!"{\"A\":1,\"B\":2}" defaultOptions [b!"A", b!"B"] (1, 4) 0 := ⟨b!"A", demo_key (.plain (by decide) .nil) rfl, by simp only [SelectsField]; exact .exact (.here rfl)⟩
  have sB : KeySelects demoX b!"{\"A\":1,\"B\":2}" defaultOptions [b!"A", b!"B"] (7, 10) 1 := ⟨b!"B", demo_key (.plain (by decide) .nil) rfl, by simp only [SelectsField]; exact .exact (.there (by decide) (.here rfl))⟩
  have dA : Denotes (inner b!"{\"A\":1,\"B\":2}" 1 4) b!"A" := .plain (by decide) .nil
  have dB : Denotes (inner b!"{\"A\":1,\"B\":2}" 7 10) b!"B" := .plain (by decide) .nil
  refine ⟨fun m hm => ?_, ?_⟩
  · rcases List.mem_cons.1 hm with rfl | hm
    · exact ⟨⟨0, _, sA, rfl, rfl, rfl⟩, .str ⟨b!"A", false⟩, .str dA, rfl⟩
    · rcases List.mem_singleton.1 hm with rfl
      exact ⟨⟨1, _, sB, rfl, rfl, rfl⟩, .str ⟨b!"B", false⟩, .str dB, rfl⟩
  · refine List.pairwise_cons.2 ⟨fun m hm => ?_, List.pairwise_singleton ..⟩
    rcases List.mem_singleton.1 hm with rfl
    refine ⟨fun j hj hj' => ?_, fun K hK hK' => ?_⟩
    · obtain ⟨n1, a1, a2⟩ := key_selects (by decide) hj
      obtain ⟨n2, a3, a4⟩ := key_selects (by decide) hj'
      obtain ⟨n3, a5, a6⟩ := key_selects (by decide) sA
      obtain ⟨n4, a7, a8⟩ := key_selects (by decide) sB
      rw [a1] at a5; cases a5
      cases a2.symm.trans a6
      rw [a3] at a7; cases a7
      cases a4.symm.trans a8
    · cases hK with
      | str h =>
        cases hK' with
        | str h' =>
          have e1 := Unescape.denotes_fun h dA
          have e2 := Unescape.denotes_fun h' dB
          rw [e1] at e2
          cases e2

example (p : Int) (er : Option Err) : (∃ V', Returns demoX (demoTree 109) (decode demoX (demoDec 109) b!"{\"A\":1,\"B\":2}" (.ok (demoDoc b!"{\"A\":1,\"B\":2}")) (some (zeros 16)) (some defaultOptions)) p er V') ↔
    ∃ V', Returns demoX (demoTree 11) (decode demoX (demoDec 11) b!"{\"A\":1,\"B\":2}" (.ok (demoDoc b!"{\"A\":1,\"B\":2}")) (some (zeros 8)) (some defaultOptions)) p er V' := by
  obtain ⟨hd, hw, hR⟩ := Right.demo_right (t := 109) (src := b!"{\"A\":1,\"B\":2}") (o := defaultOptions) (by decide) (by decide) (by decide)
  obtain ⟨hd', -, hR'⟩ := Right.demo_right (t := 11) (src := b!"{\"A\":1,\"B\":2}") (o := defaultOptions) (by decide) (by decide) (by decide)
  exact C76_struct_map_partial hd hd' hw (zero_dest hd) (zero_dest hd') hR hR' parallel_demo p er

/-- The key of `{"Y":"a"}` is that of a string field of a zero `struct{X int; Y string}`. -/
theorem parallel_demo_string (v : Bytes) : Parallel demoX (b!"{\"Y\":" ++ v) defaultOptions [(b!"X", 0, demoTree 1), (b!"Y", 8, .scalar .str)] [.int 0, .str ⟨[], false⟩] .str (.scalar .str) [] [((1, 4), .str 5 8)] := by
  have dY : Denotes b!"Y" b!"Y" := .plain (by decide) .nil
  refine ⟨fun m hm => ?_, List.pairwise_singleton ..⟩
  rcases List.mem_singleton.1 hm with rfl
  exact ⟨⟨1, _, ⟨b!"Y", demo_key (.plain (by decide) .nil) rfl, by simp only [SelectsField]; exact .exact (.there (by decide) (.here rfl))⟩, rfl, rfl, rfl⟩, .str ⟨b!"Y", false⟩, .str dY, rfl⟩

example (p : Int) (er : Option Err) (V : Val) (mem : Block) (hV : Dest demoX (demoTree 10) mem V) :
    (∃ V', Returns demoX (demoTree 4) (decode demoX (demoDec 4) b!"{\"Y\":\"a\"}" (.ok (demoDoc b!"{\"Y\":\"a\"}")) (some (zeros 24)) (some defaultOptions)) p er V') ↔
    ∃ V', Returns demoX (demoTree 10) (decode demoX (demoDec 10) b!"{\"Y\":\"a\"}" (.ok (demoDoc b!"{\"Y\":\"a\"}")) (some mem) (some defaultOptions)) p er V' := by
  obtain ⟨hd, hw, hR⟩ := Right.demo_right (t := 4) (src := b!"{\"Y\":\"a\"}") (o := defaultOptions) (by decide) (by decide) (by decide)
  obtain ⟨hd', -, -⟩ := Right.demo_right (t := 10) (src := b!"{\"Y\":\"a\"}") (o := defaultOptions) (by decide) (by decide) (by decide)
  exact C76_struct_mapSS_partial hd hd' hw (zero_dest hd) hV hR (parallel_demo_string b!"\"a\"}") p er

end Verif.Props

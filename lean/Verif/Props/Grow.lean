import Verif.Props.Composite
import Verif.Props.Right
import Verif.Proof.RightMono
import Verif.Proof.RightB
/-!
# C58: the elements a slice already has are decoded into

Whether the backing array is reused or a larger one is allocated, element `j` of the JSON array is decoded into the element `j` the slice had before.
-/
namespace Verif.Props
open Verif Verif.Model Verif.Spec Verif.Big Verif.Proof Verif.Proof.Outcome Verif.Proof.Unique Verif.Proof.Comp Verif.Proof.Demo

/-- The elements of a slice value (up to its length). -/
def elements : Val → List Val
  | .slice es _ => es
  | _ => []

/-- No token leaves a scalar alone. -/
theorem leaf_ne_nop {x : Ext} {src : Bytes} {k : SKind} {v : JVal} : leaf x src (.scalar k) v ≠ .nop := by
  have hs : ∀ n r, storeFlt n r ≠ .nop := by intro n r; cases r <;> simp [storeFlt]
  have hi : ∀ ik tv e, storeInt x ik tv e ≠ .nop := by intro ik tv e; simp only [storeInt]; split <;> simp
  cases v with
  | null i e => simp [leaf, onNull]
  | bool b i e => cases k <;> simp [leaf, onBool]
  | num b i e =>
    cases b <;> simp only [leaf] <;> split <;> first | simp | skip
    · cases k <;> simp [onNumber, hs]
    · cases k <;> simp [onInteger, hs]
      split
      · split
        · simp
        · split
          · simp
          · exact hi _ _ _
      · exact hi _ _ _
  | str i e =>
    simp only [leaf]
    split
    · simp
    · cases k <;> simp [onString]
      split <;> simp
  | arr i vs z => simp [leaf]
  | obj i ms z => simp [leaf]

/-- A scalar destination is overwritten: a success does not depend on what was there. -/
theorem scalar_overwrites {x : Ext} {src : Bytes} {o : Option Options} {k : SKind} {v : JVal} {W W' : Val} (h : decV x src o (.scalar k) v W = .ok W') (W0 : Val) : decV x src o (.scalar k) v W0 = .ok W' := by
  simp only [decV, leafV, Ty.etype, zeroV] at h ⊢
  generalize hl : leaf x src (.scalar k) v = a at h ⊢
  cases a <;> simp only [actV] at h ⊢ <;> first | exact h | cases h | skip
  exact absurd hl leaf_ne_nop

/-- An element that is not copied into a larger array has no influence on the result. -/
theorem not_copied {x : Ext} {src : Bytes} {o : Option Options} {e : Ty} (hc : e.etype.isElemComposite = false) {v : JVal} {W W' : Val}
    {b : Block} {off : Nat} (hW : Holds x e b off W) (h : decPV x src o e v (zeroV x e) = .ok W') : decPV x src o e v W = .ok W' := by
  cases e <;> simp only [Ty.etype, EType.isElemComposite, reduceCtorEq] at hc
  · simp only [decPV] at h ⊢
    exact scalar_overwrites h W
  · rw [hW.2]; exact h
  · rw [hW.2]; exact h
  · exact h

/-- The value a slice's element is decoded into is the old element, or has no influence. -/
theorem slice_into {x : Ext} {src : Bytes} {o : Option Options} {ty e : Ty} (hs : SliceOf ty e) {i z : Nat} {vs : List JVal} (hw : WfL src vs) {V V' : Val} {mem : Block}
    (hm : Holds x ty mem 0 V) (h : decPV x src o ty (.arr i vs z) V = .ok V') {j : Nat} {v : JVal} {W : Val} (hv : vs[j]? = some v) (hW : (elements V)[j]? = some W) :
    ∃ W', (elements V')[j]? = some W' ∧ decPV x src o e v W = .ok W' := by
  obtain ⟨es, sp, rfl⟩ : ∃ es sp, V = .slice es sp := by
    cases V <;> simp only [elements] at hW <;> first | exact ⟨_, _, rfl⟩ | cases hW
  have hj : j < vs.length := (List.getElem?_eq_some_iff.1 hv).1
  have hne : vs ≠ [] := by intro he; subst he; simp at hj
  cases hs with
  | gen =>
    simp only [decPV, sliceV, if_neg hne] at h
    obtain ⟨es', h1, rfl⟩ := map_ok_iff.1 h
    obtain ⟨g1, g2, -⟩ := (elemsV_ok _ _ _ _).1 h1
    obtain ⟨mL, hh⟩ := hm
    rcases hh with ⟨-, hh⟩ | ⟨a, es0, sp0, -, hh, -, hh'⟩
    · cases hh
    cases hh
    have hjs : j < es.length := (List.getElem?_eq_some_iff.1 hW).1
    by_cases hl : (es ++ sp).length < vs.length
    · by_cases hcp : e.etype.isElemComposite = true
      · have hp : prepSlice (zeroV x e) e.etype.isElemComposite vs.length (.slice es sp) = (es ++ List.replicate (vs.length - es.length) (zeroV x e), []) := (if_pos hl).trans (if_pos hcp)
        simp only [hp] at g1 g2
        simp only [List.length_append] at hl
        simp only [List.length_append, List.length_replicate] at g1
        have he : j < es'.length := by omega
        exact ⟨es'[j], List.getElem?_eq_getElem he, g2 j v W _ hv (by rw [List.getElem?_append_left hjs]; exact hW) (List.getElem?_eq_getElem he)⟩
      · have hp : prepSlice (zeroV x e) e.etype.isElemComposite vs.length (.slice es sp) = (List.replicate vs.length (zeroV x e), []) := (if_pos hl).trans (if_neg hcp)
        simp only [hp] at g1 g2
        simp only [List.length_append] at hl
        simp only [List.length_replicate] at g1
        have he : j < es'.length := by omega
        have := g2 j v (zeroV x e) _ hv (by rw [List.getElem?_replicate, if_pos (by omega)]) (List.getElem?_eq_getElem he)
        refine ⟨es'[j], List.getElem?_eq_getElem he, ?_⟩
        have hP := hh' j W (by rw [List.getElem?_append_left hjs]; exact hW)
        exact not_copied (by simpa using hcp) hP this
    · have hp : prepSlice (zeroV x e) e.etype.isElemComposite vs.length (.slice es sp) = ((es ++ sp).take vs.length, (es ++ sp).drop vs.length) := if_neg hl
      simp only [hp] at g1 g2
      simp only [List.length_append] at hl
      simp only [List.length_take, List.length_append] at g1
      have he : j < es'.length := by omega
      refine ⟨es'[j], List.getElem?_eq_getElem he, g2 j v W _ hv ?_ (List.getElem?_eq_getElem he)⟩
      rw [List.getElem?_take, if_pos hj, List.getElem?_append_left hjs]; exact hW
  | scalar k =>
    simp only [decPV] at h ⊢
    obtain ⟨es', base, spare, rfl, h1, -, -, h4⟩ := slice_reads (.scalar k) hw h
    obtain ⟨g1, g2, -⟩ := (elemsV_ok _ _ _ _).1 h4
    have he : j < es'.length := by omega
    have hb : j < base.length := by omega
    exact ⟨es'[j], List.getElem?_eq_getElem he, scalar_overwrites (g2 j v _ _ hv (List.getElem?_eq_getElem hb) (List.getElem?_eq_getElem he)) W⟩

/-- An element, as a document of its own, is within `RightDoc`. -/
theorem right_element {x : Ext} {src : Bytes} {o : Option Options} {ty e : Ty} (hs : SliceOf ty e) {i z : Nat} {vs : List JVal} (h : RightDoc x src o ty (.arr i vs z)) : ∀ v ∈ vs, RightDoc x src o e v := by
  cases hs with
  | gen => exact Sim.ButLast.mem (fun v h => Right.right_mono _ .final v h) (fun v h => Right.right_last _ v h) h
  | scalar k => exact fun _ _ => trivial

/-- **C58, partial**: after success, whatever the length and the capacity were, each element the slice had before (and the JSON array has a counterpart for) is what decoding the JSON element into that old
element would give: unmentioned parts of it survive, also if the array had to grow. Restricted to documents within `RightDoc`; the slice may be of any type except `[]struct{}`. -/
theorem C58_existing_partial {x : Ext} {ty e : Ty} (hs : SliceOf ty e) {d : Decoder} (hd : DecoderFor x ty d) {src : Bytes} {i z : Nat} {vs : List JVal} (hw : Wf src (.arr i vs z)) {mem : Block} {V : Val}
    (hm : Dest x ty mem V) {o : Option Options} (ht : RightDoc x src o ty (.arr i vs z)) {V' : Val} (h : Returns x ty (decode x d src (.ok (.arr i vs z)) (some mem) o) (-1) none V')
    {j : Nat} {v : JVal} {W : Val} (hv : vs[j]? = some v) (hW : (elements V)[j]? = some W) :
    ∃ W', (elements V')[j]? = some W' ∧
      ∀ de memj, DecoderFor x e de → Dest x e memj W → Returns x e (decode x de src (.ok v) (some memj) o) (-1) none W' := by
  rw [right_ok_iff hd hw hm ht] at h
  obtain ⟨W', h1, h2⟩ := slice_into hs hw.2.2.2.2 hm.2 h hv hW
  refine ⟨W', h1, fun de memj hde hmj => ?_⟩
  have hv' := List.mem_of_getElem? hv
  have hte : RightDoc x src o e v := right_element hs ht v hv'
  rw [right_ok_iff hde (Safe.wfL_mem hw.2.2.2.2 v hv') hmj hte]
  exact h2

/-- What a new, larger array contributes behind the old elements: zero values. -/
theorem slice_fresh {x : Ext} {src : Bytes} {o : Option Options} {ty e : Ty} (hs : SliceOf ty e) {i z : Nat} {vs : List JVal} (hw : WfL src vs) {V V' : Val}
    (h : decPV x src o ty (.arr i vs z) V = .ok V') (hc : (upToCap V).length < vs.length) {j : Nat} {v : JVal} (hv : vs[j]? = some v) (hj : (elements V).length ≤ j) :
    ∃ W', (elements V')[j]? = some W' ∧ decPV x src o e v (zeroV x e) = .ok W' := by
  have hjv : j < vs.length := (List.getElem?_eq_some_iff.1 hv).1
  have hne : vs ≠ [] := by intro he; subst he; simp at hjv
  have hsp : (sliceParts V).1 ++ (sliceParts V).2 = upToCap V := by cases V <;> rfl
  have hel : (sliceParts V).1 = elements V := by cases V <;> rfl
  cases hs with
  | gen =>
    simp only [decPV, sliceV, if_neg hne] at h
    obtain ⟨es', h1, rfl⟩ := map_ok_iff.1 h
    obtain ⟨g1, g2, -⟩ := (elemsV_ok _ _ _ _).1 h1
    have hl : ((sliceParts V).1 ++ (sliceParts V).2).length < vs.length := by rw [hsp]; exact hc
    by_cases hcp : e.etype.isElemComposite = true
    · have hp : prepSlice (zeroV x e) e.etype.isElemComposite vs.length V = ((sliceParts V).1 ++ List.replicate (vs.length - (sliceParts V).1.length) (zeroV x e), []) := (if_pos hl).trans (if_pos hcp)
      simp only [hp, hel] at g1 g2
      simp only [List.length_append, List.length_replicate] at g1
      have he : j < es'.length := by omega
      refine ⟨es'[j], List.getElem?_eq_getElem he, g2 j v _ _ hv ?_ (List.getElem?_eq_getElem he)⟩
      rw [List.getElem?_append_right hj, List.getElem?_replicate, if_pos (by omega)]
    · have hp : prepSlice (zeroV x e) e.etype.isElemComposite vs.length V = (List.replicate vs.length (zeroV x e), []) := (if_pos hl).trans (if_neg hcp)
      simp only [hp] at g1 g2
      simp only [List.length_replicate] at g1
      have he : j < es'.length := by omega
      exact ⟨es'[j], List.getElem?_eq_getElem he, g2 j v _ _ hv (by rw [List.getElem?_replicate, if_pos hjv]) (List.getElem?_eq_getElem he)⟩
  | scalar k =>
    simp only [decPV] at h ⊢
    obtain ⟨es', base, spare, rfl, h1, -, -, h4⟩ := slice_reads (.scalar k) hw h
    obtain ⟨g1, g2, -⟩ := (elemsV_ok _ _ _ _).1 h4
    have he : j < es'.length := by omega
    have hb : j < base.length := by omega
    exact ⟨es'[j], List.getElem?_eq_getElem he, scalar_overwrites (g2 j v _ _ hv (List.getElem?_eq_getElem hb) (List.getElem?_eq_getElem he)) _⟩

/-- **C58, partial**: if the capacity does not suffice, each element behind the old ones is what decoding the JSON element into a zero value gives. (If it suffices they are decoded into what is in the spare part
of the array, see `C27_refuted`.) Restricted to documents within `RightDoc`. -/
theorem C58_new_partial {x : Ext} {ty e : Ty} (hs : SliceOf ty e) {d : Decoder} (hd : DecoderFor x ty d) {src : Bytes} {i z : Nat} {vs : List JVal} (hw : Wf src (.arr i vs z)) {mem : Block} {V : Val}
    (hm : Dest x ty mem V) {o : Option Options} (ht : RightDoc x src o ty (.arr i vs z)) {V' : Val} (h : Returns x ty (decode x d src (.ok (.arr i vs z)) (some mem) o) (-1) none V')
    (hc : (upToCap V).length < vs.length) {j : Nat} {v : JVal} (hv : vs[j]? = some v) (hj : (elements V).length ≤ j) :
    ∃ W', (elements V')[j]? = some W' ∧
      ∀ de memj, DecoderFor x e de → Dest x e memj (zeroV x e) → Returns x e (decode x de src (.ok v) (some memj) o) (-1) none W' := by
  rw [right_ok_iff hd hw hm ht] at h
  obtain ⟨W', h1, h2⟩ := slice_fresh hs hw.2.2.2.2 h hc hv hj
  refine ⟨W', h1, fun de memj hde hmj => ?_⟩
  have hv' := List.mem_of_getElem? hv
  have hte : RightDoc x src o e v := right_element hs ht v hv'
  rw [right_ok_iff hde (Safe.wfL_mem hw.2.2.2.2 v hv') hmj hte]
  exact h2

/-- The demo slice `[]struct{X int; Y string}{{7, ""}}` of capacity 1. -/
theorem demo_slice7 : Dest demoX (demoTree 5) (seg 24 (.slice 1 1 (seg 8 (.int 7) ++ zeros 16))) (.slice [.struct [.int 7, .str ⟨[], false⟩]] []) := by
  refine ⟨rfl, by decide, .inr ⟨_, [_], [], rfl, rfl, rfl, fun j W hW => ?_⟩⟩
  match j, hW with
  | 0, hW =>
    cases hW
    exact ⟨by decide, _, rfl, _, _, rfl, ⟨by decide, .inr ⟨7, rfl, rfl⟩⟩, _, _, rfl, ⟨by decide, .inl ⟨rfl, rfl⟩⟩, rfl⟩

/-- `[{"Y":"a"},{"Y":"b"}]` into `[]struct{X int; Y string}{{7, ""}}`: the array grows, and the first element keeps X = 7; decoding `{"Y":"a"}` alone into `{7, ""}` gives the same. -/
example : Returns demoX (demoTree 5) (decode demoX (demoDec 5) b!"[{\"Y\":\"a\"},{\"Y\":\"b\"}]" (.ok (demoDoc b!"[{\"Y\":\"a\"},{\"Y\":\"b\"}]")) (some (seg 24 (.slice 1 1 (seg 8 (.int 7) ++ zeros 16)))) (some defaultOptions)) (-1) none
      (.slice [.struct [.int 7, .str ⟨b!"a", true⟩], .struct [.int 0, .str ⟨b!"b", true⟩]] []) ∧
    ∀ de memj, DecoderFor demoX (demoTree 4) de → Dest demoX (demoTree 4) memj (.struct [.int 7, .str ⟨[], false⟩]) →
      ∃ v, (Returns demoX (demoTree 4) (decode demoX de b!"[{\"Y\":\"a\"},{\"Y\":\"b\"}]" (.ok v) (some memj) (some defaultOptions)) (-1) none (.struct [.int 7, .str ⟨b!"a", true⟩])) := by
  obtain ⟨hd, -, -, h2, ht⟩ := demo_case (t := 5) (src := b!"[{\"Y\":\"a\"},{\"Y\":\"b\"}]") (o := defaultOptions) (by decide) (by decide) (by decide)
  have h1 : Returns demoX (demoTree 5) (decode demoX (demoDec 5) b!"[{\"Y\":\"a\"},{\"Y\":\"b\"}]" (.ok (demoDoc b!"[{\"Y\":\"a\"},{\"Y\":\"b\"}]")) (some (seg 24 (.slice 1 1 (seg 8 (.int 7) ++ zeros 16)))) (some defaultOptions)) (-1) none
      (.slice [.struct [.int 7, .str ⟨b!"a", true⟩], .struct [.int 0, .str ⟨b!"b", true⟩]] []) := returns_ok hd demo_slice7 ht rfl
  refine ⟨h1, fun de memj hde hmj => ?_⟩
  obtain ⟨W', g1, g2⟩ := C58_existing_partial (.gen (demoTree 4)) hd h2 demo_slice7 (C35_contains ht) h1 (j := 0) rfl rfl
  cases g1
  exact ⟨_, g2 de memj hde hmj⟩

/-- A `[]*int` with the element `&2` and capacity 1. -/
theorem demo_ptr2 : Dest demoX (demoTree 9) (seg 24 (.slice 1 1 (seg 8 (.ptr (seg 8 (.int 2)))))) (.slice [.ptr (.int 2)] []) := by
  refine ⟨rfl, by decide, .inr ⟨_, [_], [], rfl, rfl, rfl, fun j W hW => ?_⟩⟩
  match j, hW with
  | 0, hW => cases hW; exact ⟨by decide, .inr ⟨_, _, rfl, rfl, by decide, by decide, .inr ⟨2, rfl, rfl⟩⟩⟩

/-- `[null,5]` into a `[]*int` with the element `&2` and capacity 1: the array grows; the new element is what `5` alone gives for a nil pointer. -/
example : ∃ vs, demoDoc b!"[null,5]" = .arr 0 vs 7 ∧ ∀ V', Returns demoX (demoTree 9) (decode demoX (demoDec 9) b!"[null,5]" (.ok (.arr 0 vs 7)) (some (seg 24 (.slice 1 1 (seg 8 (.ptr (seg 8 (.int 2))))))) (some defaultOptions)) (-1) none V' →
    ∃ W', (elements V')[1]? = some W' ∧
      ∀ de memj, DecoderFor demoX (demoTree 7) de → Dest demoX (demoTree 7) memj .nil → Returns demoX (demoTree 7) (decode demoX de b!"[null,5]" (.ok (.num true 6 7)) (some memj) (some defaultOptions)) (-1) none W' := by
  obtain ⟨hd, hw, hR⟩ := Right.demo_right (t := 9) (src := b!"[null,5]") (o := defaultOptions) (by decide) (by decide) (by decide)
  exact ⟨_, rfl, fun V' h => C58_new_partial (.gen (demoTree 7)) hd hw demo_ptr2 hR h (by decide) rfl (by decide)⟩

/-- The call does succeed. -/
example : Returns demoX (demoTree 9) (decode demoX (demoDec 9) b!"[null,5]" (.ok (demoDoc b!"[null,5]")) (some (seg 24 (.slice 1 1 (seg 8 (.ptr (seg 8 (.int 2))))))) (some defaultOptions)) (-1) none (.slice [.nil, .ptr (.int 5)] []) := by
  obtain ⟨hd, hw, hR⟩ := Right.demo_right (t := 9) (src := b!"[null,5]") (o := defaultOptions) (by decide) (by decide) (by decide)
  exact right_returns hd hw demo_ptr2 hR rfl

end Verif.Props

import Verif.Proof.CompMap
/-!
# Arrays, slices, maps, structs, pointers: C26, C27, C28, C29, C30, C33, C34, C35, C36

"The decoding of `v` into a variable of type `ty` that holds `W`" is `decV x src o ty v W`; by `C25_element_partial` it is what a decoder for `ty` does.
-/
namespace Verif.Props
open Verif.Model Verif.Spec Verif.Big Verif.Proof Verif.Proof.Demo Verif.Proof.Outcome Verif.Proof.Unique Verif.Proof.Comp

/-- **C25** for values inside a document: the reading of a value is exactly what any decoder for its type does with it, in success and failure. -/
theorem C25_element_partial {x : Ext} {ty : Ty} {d : Decoder} (hd : DecoderFor x ty d) {src : Bytes} {v : JVal} {mem : Block} {W : Val} (hm : Dest x ty mem W) {o : Option Options}
    (ht : Tame x src o ty v) :
    (∀ W', decV x src o ty v W = .ok W' ↔ Returns x ty (decode x d src (.ok v) (some mem) o) (-1) none W') ∧
    ∀ i e W', decV x src o ty v W = .err i e W' ↔ Returns x ty (decode x d src (.ok v) (some mem) o) (i : Nat) (some e) W' := by
  rw [← top_eq W ht]
  exact ⟨fun W' => (returns_ok_iff hd hm (tameDoc_of ht)).symm, fun i e W' => (returns_err_iff hd hm (tameDoc_of ht)).symm⟩

/-! ## Arrays: C26 -/

/-- **C26**: decoding an array into `[n]T` succeeds with elements `Ws'` exactly if each JSON element that has a place decodes into it and the other places keep their values; JSON elements without a place are ignored. -/
theorem C26_array_partial {x : Ext} {n : Nat} {ty : Ty} {d : Decoder} (hd : DecoderFor x (.array n ty) d) {src : Bytes} {i z : Nat} {vs : List JVal} {mem : Block} {Ws : List Val}
    (hm : Dest x (.array n ty) mem (.arr Ws)) {o : Option Options} (ht : Tame x src o (.array n ty) (.arr i vs z)) (Ws' : List Val) :
    Returns x (.array n ty) (decode x d src (.ok (.arr i vs z)) (some mem) o) (-1) none (.arr Ws') ↔
      Ws'.length = n ∧
      (∀ (j : Nat) v W W', vs[j]? = some v → Ws[j]? = some W → Ws'[j]? = some W' → decV x src o ty v W = .ok W') ∧
      ∀ j : Nat, vs.length ≤ j → Ws'[j]? = Ws[j]? := by
  have hl : Ws.length = n := by
    obtain ⟨-, -, es, h1, h2, -⟩ := hm
    cases h1; exact h2
  rw [returns_ok_iff hd hm (tameDoc_of ht)]
  simp only [decTopV, decV, map_ok_iff, Val.arr.injEq, exists_eq_right]
  rw [elemsV_ok, hl]

/-- A failing decode into an array: the first failing element decides; elements before it are decoded, elements behind it keep their values. -/
theorem C26_array_error_partial {x : Ext} {n : Nat} {ty : Ty} {d : Decoder} (hd : DecoderFor x (.array n ty) d) {src : Bytes} {i z : Nat} {vs : List JVal} {mem : Block} {Ws : List Val}
    (hm : Dest x (.array n ty) mem (.arr Ws)) {o : Option Options} (ht : Tame x src o (.array n ty) (.arr i vs z)) {p : Nat} {e : Err} {V' : Val}
    (h : Returns x (.array n ty) (decode x d src (.ok (.arr i vs z)) (some mem) o) (p : Nat) (some e) V') :
    ∃ Ws' j v W W', V' = .arr Ws' ∧ Ws'.length = n ∧ vs[j]? = some v ∧ Ws[j]? = some W ∧ Ws'[j]? = some W' ∧ decV x src o ty v W = .err p e W' ∧
      (∀ (k : Nat) v W W', k < j → vs[k]? = some v → Ws[k]? = some W → Ws'[k]? = some W' → decV x src o ty v W = .ok W') ∧ ∀ k : Nat, j < k → Ws'[k]? = Ws[k]? := by
  have hl : Ws.length = n := by
    obtain ⟨-, -, es, h1, h2, -⟩ := hm
    cases h1; exact h2
  rw [returns_err_iff hd hm (tameDoc_of ht)] at h
  simp only [decTopV, decV, map_err_iff] at h
  obtain ⟨Ws', h1, rfl⟩ := h
  obtain ⟨g1, j, v, W, W', g⟩ := elemsV_err _ _ _ _ h1
  exact ⟨Ws', j, v, W, W', rfl, g1.trans hl, g⟩

/-- `[0]T` accepts every array. -/
theorem C26_zero {x : Ext} {d : Decoder} (hd : DecoderFor x .array0 d) {src : Bytes} {i z : Nat} {vs : List JVal} {mem : Block} {V : Val} (hm : Dest x .array0 mem V) (o : Option Options) :
    Returns x .array0 (decode x d src (.ok (.arr i vs z)) (some mem) o) (-1) none V :=
  returns_ok hd hm trivial rfl

/-- `[10,20]` into a `[3]int` that holds 1, 2, 3; `[10,20,30,"x"]` ignores the last element. -/
example : Returns demoX (demoTree 26) (decode demoX (demoDec 26) b!"[10,20]" (.ok (.arr 0 [.num true 1 3, .num true 4 6] 6)) (some (seg 8 (.int 1) ++ seg 8 (.int 2) ++ seg 8 (.int 3))) (some defaultOptions)) (-1) none
      (.arr [.int 10, .int 20, .int 3]) ∧
    Returns demoX (demoTree 26) (decode demoX (demoDec 26) b!"[10,20,30,\"x\"]" (.ok (.arr 0 [.num true 1 3, .num true 4 6, .num true 7 9, .str 10 13] 13)) (some (zeros 24)) (some defaultOptions)) (-1) none
      (.arr [.int 10, .int 20, .int 30]) := by
  have hd : DecoderFor demoX (demoTree 26) (demoDec 26) := demo_for' (t := 26) (by decide)
  have hm : Dest demoX (demoTree 26) (seg 8 (.int 1) ++ seg 8 (.int 2) ++ seg 8 (.int 3)) (.arr [.int 1, .int 2, .int 3]) := by
    refine ⟨rfl, by decide, _, rfl, rfl, fun j W hW => ?_⟩
    match j, hW with
    | 0, hW | 1, hW | 2, hW => cases hW; exact ⟨by decide, .inr ⟨_, rfl, rfl⟩⟩
  refine ⟨(C26_array_partial (x := demoX) hd hm (fun w _ => trivial) _).2 ⟨rfl, fun j v W W' h1 h2 h3 => ?_, fun j hj => ?_⟩,
    (C26_array_partial (x := demoX) (ty := .scalar (.int .int)) (n := 3) hd (zero_dest hd) (fun w _ => trivial) _).2 ⟨rfl, fun j v W W' h1 h2 h3 => ?_, fun j hj => ?_⟩⟩
  · match j, h1, h2, h3 with
    | 0, h1, h2, h3 | 1, h1, h2, h3 => cases h1; cases h2; cases h3; rfl
  · match j, hj with
    | 2, _ => rfl
    | j + 3, _ => rfl
  · match j, h1, h2, h3 with
    | 0, h1, h2, h3 | 1, h1, h2, h3 | 2, h1, h2, h3 => cases h1; cases h2; cases h3; rfl
    | j + 3, h1, h2, h3 => cases h2
  · match j, hj with
    | j + 4, _ => rfl

/-! ## Slices: C27 -/

/-- The slice types and their element types. `[]struct{}`, for which C27 is false, is left out. -/
inductive SliceOf : Ty → Ty → Prop
  | gen (e : Ty) : SliceOf (.slice e) e
  | scalar (k : SKind) : SliceOf (.sliceOf k) (.scalar k)

/-- The elements of a slice value up to its capacity. -/
def upToCap : Val → List Val
  | .slice es spare => es ++ spare
  | _ => []

theorem slice_reads {x : Ext} {src : Bytes} {o : Option Options} {ty e : Ty} (hs : SliceOf ty e) {i z : Nat} {vs : List JVal} (hw : WfL src vs) {V V' : Val}
    (h : decV x src o ty (.arr i vs z) V = .ok V') :
    ∃ es base spare, V' = .slice es spare ∧ base.length = vs.length ∧ (∀ (j : Nat) W, base[j]? = some W → W = zeroV x e ∨ (upToCap V)[j]? = some W) ∧
      (upToCap V = [] → base = List.replicate vs.length (zeroV x e) ∧ spare = []) ∧ elemsV (decV x src o e) vs base = .ok es := by
  have hsp : ∀ V : Val, (sliceParts V).1 ++ (sliceParts V).2 = upToCap V := by intro V; cases V <;> rfl
  cases hs with
  | gen =>
    simp only [decV, sliceV] at h
    split at h
    · rename_i hv; subst hv; cases h
      exact ⟨[], [], [], rfl, rfl, by simp, fun _ => ⟨rfl, rfl⟩, rfl⟩
    · rename_i hv
      obtain ⟨es, h1, rfl⟩ := map_ok_iff.1 h
      refine ⟨es, _, _, rfl, ?_, ?_, ?_, h1⟩
      · simp only [prepSlice, hsp]
        split
        · split
          · rename_i hl _
            have : (sliceParts V).1.length ≤ (upToCap V).length := by rw [← hsp]; simp
            simp; omega
          · simp
        · simp; omega
      · intro j W hW
        simp only [prepSlice, hsp] at hW
        split at hW
        · split at hW
          · rcases Nat.lt_or_ge j (sliceParts V).1.length with hj | hj
            · rw [List.getElem?_append_left hj] at hW
              rw [← hsp, List.getElem?_append_left hj]; exact .inr hW
            · rw [List.getElem?_append_right hj] at hW
              exact .inl (List.eq_of_mem_replicate (List.mem_of_getElem? hW))
          · exact .inl (List.eq_of_mem_replicate (List.mem_of_getElem? hW))
        · rw [List.getElem?_take] at hW
          split at hW
          · exact .inr hW
          · cases hW
      · intro hc
        have hp : sliceParts V = ([], []) := by
          cases V <;> first | rfl | skip
          simp only [upToCap, List.append_eq_nil_iff] at hc
          simp [sliceParts, hc.1, hc.2]
        have hl : 0 < vs.length := List.length_pos_iff.2 hv
        simp [prepSlice, hp, hl]
  | scalar k =>
    simp only [decV, sliceOfV] at h
    have hel : ∀ (vs : List JVal) (Ws : List Val), WfL src vs → elemsV (fun v W => actV v.index (zeroS k) none W (elemAct x src k v)) vs Ws = elemsV (decV x src o (.scalar k)) vs Ws := by
      intro vs
      induction vs with
      | nil => intro Ws _; simp [elemsV]
      | cons v vs ih =>
        intro Ws hw
        cases Ws with
        | nil => simp [elemsV]
        | cons W Ws => simp only [elemsV, elem_scalar x o k hw.1 W, ih Ws hw.2]
    simp only [hel _ _ hw, hsp] at h
    split at h
    · rename_i hv; subst hv; cases h
      exact ⟨[], [], [], rfl, rfl, by simp, fun _ => ⟨rfl, rfl⟩, rfl⟩
    · split at h
      · split at h
        · rename_i es h1
          cases h
          exact ⟨es, _, _, rfl, by simp, fun j W hW => .inl (List.eq_of_mem_replicate (List.mem_of_getElem? hW)), fun _ => ⟨rfl, rfl⟩, h1⟩
        · cases h
        · cases h
        · cases h
      · rename_i hv hl
        split at h
        · rename_i es h1
          cases h
          refine ⟨es, _, _, rfl, by simp; omega, ?_, ?_, h1⟩
          · intro j W hW
            rw [List.getElem?_take] at hW
            split at hW
            · exact .inr hW
            · cases hW
          · intro hc
            rw [hc] at hl
            exact absurd (List.length_eq_zero_iff.1 (Nat.le_zero.1 (Nat.not_lt.1 hl))) hv
        · cases h
        · cases h
        · cases h

/-- **C27**: after success the slice is not nil and has exactly one element per JSON element, in order, each the decoding of its JSON element into a zero value or into the value that was at that place of the
old backing array. -/
theorem C27_slice_partial {x : Ext} {ty e : Ty} (hs : SliceOf ty e) {d : Decoder} (hd : DecoderFor x ty d) {src : Bytes} {i z : Nat} {vs : List JVal} (hw : Wf src (.arr i vs z)) {mem : Block} {V : Val}
    (hm : Dest x ty mem V) {o : Option Options} (ht : Tame x src o ty (.arr i vs z)) {V' : Val} (h : Returns x ty (decode x d src (.ok (.arr i vs z)) (some mem) o) (-1) none V') :
    ∃ es spare, V' = .slice es spare ∧ es.length = vs.length ∧ ∀ (j : Nat) v, vs[j]? = some v →
      ∃ W W', es[j]? = some W' ∧ decV x src o e v W = .ok W' ∧ (W = zeroV x e ∨ (upToCap V)[j]? = some W) := by
  rw [returns_ok_iff hd hm (tameDoc_of ht), top_eq V ht] at h
  obtain ⟨es, base, spare, rfl, h1, h2, -, h4⟩ := slice_reads hs hw.2.2.2.2 h
  obtain ⟨g1, g2, -⟩ := (elemsV_ok _ _ _ _).1 h4
  refine ⟨es, spare, rfl, g1.trans h1, fun j v hv => ?_⟩
  have hj := (List.getElem?_eq_some_iff.1 hv).1
  have hb : j < base.length := by omega
  have he : j < es.length := by omega
  exact ⟨base[j], es[j], List.getElem?_eq_getElem he, g2 j v _ _ hv (List.getElem?_eq_getElem hb) (List.getElem?_eq_getElem he), h2 j _ (List.getElem?_eq_getElem hb)⟩

/-- **C27**, into a nil slice or one without capacity: success exactly if every element decodes into a zero value, and these are the elements. Nothing else influences the result. -/
theorem C27_nil_partial {x : Ext} {ty e : Ty} (hs : SliceOf ty e) {d : Decoder} (hd : DecoderFor x ty d) {src : Bytes} {i z : Nat} {vs : List JVal} (hw : Wf src (.arr i vs z)) {mem : Block} {V : Val}
    (hm : Dest x ty mem V) (hV : upToCap V = []) {o : Option Options} (ht : Tame x src o ty (.arr i vs z)) (es : List Val) :
    Returns x ty (decode x d src (.ok (.arr i vs z)) (some mem) o) (-1) none (.slice es []) ↔
      es.length = vs.length ∧ ∀ (j : Nat) v W', vs[j]? = some v → es[j]? = some W' → decV x src o e v (zeroV x e) = .ok W' := by
  rw [returns_ok_iff hd hm (tameDoc_of ht), top_eq V ht]
  have key : ∀ es, elemsV (decV x src o e) vs (List.replicate vs.length (zeroV x e)) = .ok es ↔
      es.length = vs.length ∧ ∀ (j : Nat) v W', vs[j]? = some v → es[j]? = some W' → decV x src o e v (zeroV x e) = .ok W' := by
    intro es
    rw [elemsV_ok]
    constructor
    · rintro ⟨h1, h2, -⟩
      refine ⟨by simpa using h1, fun j v W' hv hW => h2 j v _ W' hv ?_ hW⟩
      rw [List.getElem?_replicate, if_pos (List.getElem?_eq_some_iff.1 hv).1]
    · rintro ⟨h1, h2⟩
      refine ⟨by simpa using h1, fun j v W W' hv hW hW' => ?_, fun j hj => ?_⟩
      · rw [List.eq_of_mem_replicate (List.mem_of_getElem? hW)]; exact h2 j v W' hv hW'
      · rw [List.getElem?_eq_none (by omega), List.getElem?_eq_none (by simpa using hj)]
  constructor
  · intro h
    obtain ⟨es', base, spare, he, -, -, h3, h4⟩ := slice_reads hs hw.2.2.2.2 h
    cases he
    rw [(h3 hV).1] at h4
    exact (key es).1 h4
  · intro h
    have h4 := (key es).2 h
    have hp : sliceParts V = ([], []) := by
      cases V <;> first | rfl | skip
      simp only [upToCap, List.append_eq_nil_iff] at hV
      simp [sliceParts, hV.1, hV.2]
    cases hs with
    | gen =>
      simp only [decV, sliceV]
      split
      · rename_i hv; subst hv
        simp only [List.length_nil, List.replicate_zero, elemsV, R.ok.injEq] at h4
        rw [← h4]
      · rename_i hv
        have hl : 0 < vs.length := List.length_pos_iff.2 hv
        have e1 : prepSlice (zeroV x e) e.etype.isElemComposite vs.length V = (List.replicate vs.length (zeroV x e), []) := by simp [prepSlice, hp, hl]
        simp only [e1, h4, R.map]
    | scalar k =>
      simp only [decV, sliceOfV, hp]
      have hel : ∀ (vs : List JVal) (Ws : List Val), WfL src vs → elemsV (fun v W => actV v.index (zeroS k) none W (elemAct x src k v)) vs Ws = elemsV (decV x src o (.scalar k)) vs Ws := by
        intro vs
        induction vs with
        | nil => intro Ws _; simp [elemsV]
        | cons v vs ih =>
          intro Ws hw
          cases Ws with
          | nil => simp [elemsV]
          | cons W Ws => simp only [elemsV, elem_scalar x o k hw.1 W, ih Ws hw.2]
      split
      · rename_i hv; subst hv
        simp only [List.length_nil, List.replicate_zero, elemsV, R.ok.injEq] at h4
        rw [← h4]
      · rename_i hv
        have hl : 0 < vs.length := List.length_pos_iff.2 hv
        rw [if_pos (by simpa using hl), hel _ _ hw.2.2.2.2]
        simp only [zeroV] at h4
        simp only [h4]

/-- `[{"X":1},{}]` into a nil `[]struct{X int; Y string}`. -/
example : Returns demoX (demoTree 5) (decode demoX (demoDec 5) b!"[{\"X\":1},{}]" (.ok (demoDoc b!"[{\"X\":1},{}]")) (some (zeros 24)) (some defaultOptions)) (-1) none
    (.slice [.struct [.int 1, .str ⟨[], false⟩], .struct [.int 0, .str ⟨[], false⟩]] []) := by
  obtain ⟨hd, hm, -, h2, ht⟩ := demo_case (t := 5) (src := b!"[{\"X\":1},{}]") (o := defaultOptions) (by decide) (by decide) (by decide)
  refine (C27_nil_partial (.gen (demoTree 4)) hd h2 hm rfl ht _).2 ⟨rfl, fun j v W' h3 h4 => ?_⟩
  match j, h3, h4 with
  | 0, h3, h4 | 1, h3, h4 => cases h3; cases h4; rfl

/-- `[1,null,3]` into a nil `[]int`. -/
example : Returns demoX (demoTree 27) (decode demoX (demoDec 27) b!"[1,null,3]" (.ok (demoDoc b!"[1,null,3]")) (some (zeros 24)) (some defaultOptions)) (-1) none
    (.slice [.int 1, .int 0, .int 3] []) := by
  obtain ⟨hd, hm, -, h2, ht⟩ := demo_case (t := 27) (src := b!"[1,null,3]") (o := defaultOptions) (by decide) (by decide) (by decide)
  refine (C27_nil_partial (.scalar (.int .int)) hd h2 hm rfl ht _).2 ⟨rfl, fun j v W' h3 h4 => ?_⟩
  match j, h3, h4 with
  | 0, h3, h4 | 1, h3, h4 | 2, h3, h4 => cases h3; cases h4; rfl

/-- The full statement of C27 for empty slices: what is behind the length of the old slice has no influence. -/
def EmptySliceFresh (x : Ext) : Prop :=
  ∀ (ty e : Ty) (d : Decoder) (src : Bytes) (v : JVal) (mem : Block) (spare es sp : List Val) (o : Options), SliceOf ty e → DecoderFor x ty d → Wf src v → Dest x ty mem (.slice [] spare) → Tame x src (some o) ty v →
    Returns x ty (decode x d src (.ok v) (some mem) (some o)) (-1) none (.slice es sp) →
    ∀ mem', Dest x ty mem' .nil → ∃ sp', Returns x ty (decode x d src (.ok v) (some mem') (some o)) (-1) none (.slice es sp')

/-- **C27 is false of the code** for empty slices with capacity: `[{}]` into `make([]struct{X int; Y string}, 0, 1)` shows what was in the backing array, here X = 7. -/
theorem C27_refuted : ¬ EmptySliceFresh demoX := by
  intro h
  obtain ⟨hd, hm, -, h2, ht⟩ := demo_case (t := 5) (src := b!"[{}]") (o := defaultOptions) (by decide) (by decide) (by decide)
  have hm7 : Dest demoX (demoTree 5) (seg 24 (.slice 0 1 (seg 8 (.int 7) ++ zeros 16))) (.slice [] [.struct [.int 7, .str ⟨[], false⟩]]) := by
    refine ⟨rfl, by decide, .inr ⟨_, [], _, rfl, rfl, rfl, fun j W hW => ?_⟩⟩
    match j, hW with
    | 0, hW =>
      cases hW
      exact ⟨by decide, _, rfl, _, _, rfl, ⟨by decide, .inr ⟨7, rfl, rfl⟩⟩, _, _, rfl, ⟨by decide, .inl ⟨rfl, rfl⟩⟩, rfl⟩
  have h1 : Returns demoX (demoTree 5) (decode demoX (demoDec 5) b!"[{}]" (.ok (demoDoc b!"[{}]")) (some (seg 24 (.slice 0 1 (seg 8 (.int 7) ++ zeros 16)))) (some defaultOptions)) (-1) none
      (.slice [.struct [.int 7, .str ⟨[], false⟩]] []) := returns_ok hd hm7 ht rfl
  obtain ⟨sp', h3⟩ := h _ _ _ _ _ _ _ _ _ _ (.gen (demoTree 4)) hd h2 hm7 ht h1 _ hm
  have h3 := (returns_ok_iff hd hm ht).1 h3
  revert h3
  show (R.ok (Val.slice [.struct [.int 0, .str ⟨[], false⟩]] []) = .ok _) → False
  intro h3
  simp at h3

/-- **C27 is false of the code** for `[]struct{}`: the elements are not looked at; `[1]` is accepted although `1` is not acceptable for a `struct{}`. -/
theorem C27_refuted_empty :
    Returns demoX (demoTree 55) (decode demoX (demoDec 55) b!"[1]" (.ok (demoDoc b!"[1]")) (some (zeros 24)) (some defaultOptions)) (-1) none (.slice [.struct []] []) ∧
    Returns demoX (demoTree 14) (decode demoX (demoDec 14) b!"1" (.ok (demoDoc b!"1")) (some []) (some defaultOptions)) 0 (some .unexpectedValue) (.struct []) := by
  obtain ⟨hd, hm, -, h2, ht⟩ := demo_case (t := 55) (src := b!"[1]") (o := defaultOptions) (by decide) (by decide) (by decide)
  obtain ⟨hd', hm', -, h2', ht'⟩ := demo_case (t := 14) (src := b!"1") (o := defaultOptions) (by decide) (by decide) (by decide)
  exact ⟨returns_ok hd hm ht rfl, returns_err hd' hm' ht' rfl⟩

end Verif.Props

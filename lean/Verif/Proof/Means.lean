import Verif.Props.Structs
import Verif.Props.Any
import Verif.Spec.Means
/-!
# Documents with a meaning are decoded to it
-/
namespace Verif.Proof.Means
open Verif.Model Verif.Big Verif.Spec Verif.Proof Verif.Proof.Outcome Verif.Proof.Comp Verif.Props

theorem parseInt_good {x : Ext} {k : IKind} {s : Bytes} {v : Int} (h : QuotedOK x.is64 k s v) : parseInt x.is64 k s = some (v, false) := by
  obtain ⟨h1, h2, h3⟩ := h
  unfold InRange at h2
  cases hk : k.signed with
  | true =>
    rw [hk, if_pos rfl] at h2
    exact (C03_signed_parse_partial x.is64 k hk s v h1).1 h2
  | false =>
    rw [hk, if_neg (by decide)] at h2
    cases h1 with
    | pos h =>
      refine (C01_unsigned_parse x.is64 k hk s h).1 ?_
      have := h2.2
      exact_mod_cast this
    | neg h => exact absurd rfl (h3 hk)

theorem floatOf_eq (x : Ext) (k : FKind) : floatOf x k = floatParser x k := by cases k <;> rfl
theorem parseFlt_eq (x : Ext) (k : FKind) : parseFlt x k = floatOf x k := by cases k <;> rfl

theorem intLit_nonempty {s : Bytes} {v : Int} (h : IsIntLit s v) : s ≠ [] := by
  rintro rfl
  generalize he : ([] : Bytes) = s at h
  cases h with
  | pos h => subst he; cases h
  | neg h => cases he

theorem num_int {src : Bytes} {b : Bool} {i e : Nat} (hw : Wf src (.num b i e)) {v : Int} (h : IsIntLit (text src i e) v) : b = true := by
  exact hw.2.2.2.2 (intLit_integer h)

theorem lit_dec {x : Ext} (hx : FloatContract x) {src : Bytes} {o : Option Options} {k : SKind} {v : JVal} {V : Val} (hw : Wf src v) (hz : noNegZero src v) (h : MeansLit x src k v V) (W : Val) :
    ∃ V', decV x src o (.scalar k) v W = .ok V' ∧ MeansLit x src k v V' := by
  cases k with
  | bool =>
    obtain ⟨b, i, e, rfl, rfl⟩ := h
    exact ⟨.bool b, rfl, b, i, e, rfl, rfl⟩
  | str =>
    obtain ⟨i, e, s, rfl, hs, rfl⟩ := h
    obtain ⟨u, hu⟩ := Safe.unescStr_some x hs
    refine ⟨.str u, ?_, i, e, u, rfl, ?_, rfl⟩
    · simp only [decV, leafV, leaf, Doc.slice_inner hw, Ty.etype, onString, hu]; rfl
    · rw [AnyTree.unesc_bytes hs hu]; exact hs
  | int k =>
    obtain ⟨b, i, e, n, rfl, hq, rfl⟩ := h
    have hb := num_int hw hq.1
    subst hb
    refine ⟨.int n, ?_, true, i, e, n, rfl, hq, rfl⟩
    have hp := parseInt_good hq
    have hne := intLit_nonempty hq.1
    simp only [decV, leafV, leaf, Doc.slice_text hw.1 hw.2.1, Ty.etype, onInteger]
    cases hk : k.signed with
    | true => simp [storeInt, hp, actV, cellV]
    | false =>
      have hq3 := hq.2.2 hk
      revert hp hne hq3
      generalize text src i e = s
      intro hp hne hq3
      cases s with
      | nil => exact absurd rfl hne
      | cons c cs =>
        have : c ≠ 45 := fun hc => hq3 (by simp [hc])
        simp [this, storeInt, hp, actV, cellV]
  | flt k =>
    obtain ⟨b, i, e, f, rfl, hf, rfl⟩ := h
    refine ⟨.flt f, ?_, b, i, e, f, rfl, hf, rfl⟩
    cases b with
    | false => simp only [decV, leafV, leaf, Doc.slice_text hw.1 hw.2.1, Ty.etype, onNumber, parseFlt_eq, hf, storeFlt]; rfl
    | true =>
      obtain ⟨v, hv⟩ := integer_intLit (hw.2.2.2.1 rfl)
      simp only [decV, leafV, leaf, Doc.slice_text hw.1 hw.2.1, Ty.etype, onInteger, intFlt_eq hx k hv hz, ← floatOf_eq, hf, storeFlt]; rfl

theorem scalar_dec {x : Ext} (hx : FloatContract x) {src : Bytes} {o : Option Options} {k : SKind} {v : JVal} {V : Val} (hw : Wf src v) (hz : noNegZero src v) (h : MeansS x src k v V) :
    ∃ V', decV x src o (.scalar k) v (zeroS k) = .ok V' ∧ MeansS x src k v V' := by
  rcases h with ⟨⟨i, e, rfl⟩, rfl⟩ | h
  · exact ⟨zeroS k, rfl, .inl ⟨⟨i, e, rfl⟩, rfl⟩⟩
  · obtain ⟨V', h1, h2⟩ := lit_dec hx (o := o) hw hz h (zeroS k)
    exact ⟨V', h1, .inr h2⟩

theorem quoted_dec {x : Ext} {src : Bytes} {o : Option Options} {k : SKind} {v : JVal} {V : Val} (hw : Wf src v) (h : MeansQ x src k v V) :
    ∃ V', decV x src o (.quoted k) v (zeroS k) = .ok V' ∧ MeansQ x src k v V' := by
  rcases h with ⟨⟨i, e, rfl⟩, rfl⟩ | ⟨i, e, rfl, h⟩
  · exact ⟨zeroS k, rfl, .inl ⟨⟨i, e, rfl⟩, rfl⟩⟩
  cases k with
  | bool =>
    obtain ⟨b, hb, rfl⟩ := h
    refine ⟨.bool b, ?_, .inr ⟨i, e, rfl, b, hb, rfl⟩⟩
    simp only [decV, leafV, leaf, Doc.slice_inner hw, Ty.etype, hb]
    cases b <;> rfl
  | str =>
    obtain ⟨s, hs, hn, rfl⟩ := h
    refine ⟨.str (x.mkStr s.bytes), ?_, .inr ⟨i, e, rfl, x.mkStr s.bytes, hs, hn, rfl⟩⟩
    simp only [decV, leafV, leaf, Doc.slice_inner hw, Ty.etype, hs]
    generalize s.bytes = t at hn
    have e1 : ¬ (([92, 34] ++ t ++ [92, 34] : Bytes).length < 4 ∨ ([92, 34] ++ t ++ [92, 34] : Bytes).take 2 ≠ [92, 34] ∨
        ([92, 34] ++ t ++ [92, 34] : Bytes).drop (([92, 34] ++ t ++ [92, 34] : Bytes).length - 2) ≠ [92, 34]) := by
      simp
    have e2 : (([92, 34] ++ t ++ [92, 34] : Bytes).drop 2).take (([92, 34] ++ t ++ [92, 34] : Bytes).length - 4) = t := by simp
    simp only [onString, if_neg e1, e2]
    rw [(noBackslash t).2 hn]
    rfl
  | int k =>
    obtain ⟨n, hq, rfl⟩ := h
    refine ⟨.int n, ?_, .inr ⟨i, e, rfl, n, hq, rfl⟩⟩
    simp only [decV, leafV, leaf, Doc.slice_inner hw, Ty.etype, onString, quotedInt_good hq]; rfl
  | flt k =>
    obtain ⟨f, hn, hf, rfl⟩ := h
    refine ⟨.flt f, ?_, .inr ⟨i, e, rfl, f, hn, hf, rfl⟩⟩
    obtain ⟨rc, h1, h2, -⟩ := C05_scan_number _ hn
    simp only [decV, leafV, leaf, Doc.slice_inner hw, Ty.etype, onString, h1, if_neg h2, parseFlt_eq, hf]; rfl

theorem number_dec {x : Ext} {src : Bytes} {o : Options} {v : JVal} {V : Val} (hw : Wf src v) (h : Means x src o .number v V) :
    ∃ V', decV x src (some o) .number v (zeroV x .number) = .ok V' ∧ Means x src o .number v V' := by
  simp only [Means] at h
  rcases h with ⟨⟨i, e, rfl⟩, rfl⟩ | ⟨s, rfl, ⟨b, i, e, rfl, hs⟩ | ⟨i, e, rfl, hn, hs⟩⟩
  · exact ⟨_, rfl, .inl ⟨⟨i, e, rfl⟩, rfl⟩⟩
  · refine ⟨.str (x.mkStr (text src i e)), ?_, .inr ⟨_, rfl, .inl ⟨b, i, e, rfl, rfl⟩⟩⟩
    cases b <;> simp [decV, leafV, leaf, Ty.etype, Doc.slice_text hw.1 hw.2.1, onInteger, onNumber, actV, cellV]
  · refine ⟨.str (x.mkStr (inner src i e)), ?_, .inr ⟨_, rfl, .inr ⟨i, e, rfl, hn, rfl⟩⟩⟩
    obtain ⟨rc, h1, h2, -⟩ := C05_scan_number _ hn
    simp only [decV, leafV, leaf, Doc.slice_inner hw, Ty.etype, onString, h1, if_neg h2]; rfl

/-! ## Elements, entries, fields -/

theorem elems_exist {f : JVal → Val → R Val} {P : JVal → Val → Prop} {z : Val} : ∀ (n : Nat) (vs : List JVal), (∀ w ∈ vs.take n, ∃ W, f w z = .ok W ∧ P w W) →
    ∃ Ws, elemsV f vs (List.replicate n z) = .ok Ws ∧ Ws.length = n ∧ ∀ (j : Nat) W, Ws[j]? = some W → (∃ w, vs[j]? = some w ∧ P w W) ∨ (vs.length ≤ j ∧ W = z)
  | 0, vs, _ => ⟨[], by cases vs <;> rfl, rfl, by simp⟩
  | n + 1, [], _ => by
    refine ⟨List.replicate (n + 1) z, rfl, by simp, fun j W h => .inr ⟨Nat.zero_le _, ?_⟩⟩
    exact (List.mem_replicate.1 (List.mem_of_getElem? h)).2
  | n + 1, v :: vs, h => by
    obtain ⟨W, h1, h2⟩ := h v (by simp)
    obtain ⟨Ws, g1, g2, g3⟩ := elems_exist n vs fun w hw => h w (by simp [hw])
    refine ⟨W :: Ws, by simp [List.replicate_succ, elemsV, h1, g1, R.map], by simp [g2], fun j U hU => ?_⟩
    cases j with
    | zero => simp at hU; subst hU; exact .inl ⟨v, rfl, h2⟩
    | succ j =>
      rcases g3 j U (by simpa using hU) with ⟨w, a, b⟩ | ⟨a, b⟩
      · exact .inl ⟨w, by simpa using a, b⟩
      · exact .inr ⟨by simp; omega, b⟩

theorem elems_slice {f : JVal → Val → R Val} {P : JVal → Val → Prop} {z : Val} {vs : List JVal} (h : ∀ w ∈ vs, ∃ W, f w z = .ok W ∧ P w W) :
    ∃ Ws, elemsV f vs (List.replicate vs.length z) = .ok Ws ∧ Ws.length = vs.length ∧ MeansElems P vs (.slice Ws []) := by
  obtain ⟨Ws, h1, h2, h3⟩ := elems_exist (f := f) (P := P) (z := z) vs.length vs (by simpa using h)
  refine ⟨Ws, h1, h2, Ws, rfl, h2, fun j w W hw hW => ?_⟩
  rcases h3 j W hW with ⟨w', a, b⟩ | ⟨a, -⟩
  · rw [hw] at a; cases a; exact b
  · have := (List.getElem?_eq_some_iff.1 hw).1; omega

theorem slice_dec {f : JVal → Val → R Val} {P : JVal → Val → Prop} {z : Val} {vs : List JVal} (c : Bool) (h : ∀ w ∈ vs, ∃ W, f w z = .ok W ∧ P w W) :
    ∃ V, sliceV f z c vs .nil = .ok V ∧ MeansElems P vs V := by
  obtain ⟨Ws, h1, h2, h3⟩ := elems_slice h
  unfold sliceV
  split
  · rename_i hv; subst hv
    exact ⟨_, rfl, [], rfl, rfl, by simp⟩
  · rename_i hv
    have hl := List.length_pos_iff.2 hv
    have : prepSlice z c vs.length .nil = (List.replicate vs.length z, []) := by
      simp only [prepSlice, sliceParts, List.append_nil, List.length_nil, hl, if_true]
      cases c <;> simp
    simp only [this, h1, R.map]
    exact ⟨_, rfl, h3⟩

theorem sliceOf_dec {f : JVal → Val → R Val} {P : JVal → Val → Prop} {z : Val} {vs : List JVal} (h : ∀ w ∈ vs, ∃ W, f w z = .ok W ∧ P w W) :
    ∃ V, sliceOfV f z vs .nil = .ok V ∧ MeansElems P vs V := by
  obtain ⟨Ws, h1, h2, h3⟩ := elems_slice h
  unfold sliceOfV
  split
  · rename_i hv; subst hv
    exact ⟨_, rfl, [], rfl, rfl, by simp⟩
  · rename_i hv
    have hl := List.length_pos_iff.2 hv
    simp only [sliceParts, List.append_nil, List.length_nil, hl, if_true, h1]
    exact ⟨_, rfl, h3⟩

theorem assign_new {k : Key} {v : Val} : ∀ {m : List (Key × Val)}, (∀ e ∈ m, e.1.same k = false) → assignV k v m = m ++ [(k, v)]
  | [], _ => rfl
  | e :: m, h => by simp [assignV, h e (List.mem_cons_self), assign_new fun e he => h e (List.mem_cons_of_mem _ he)]

theorem lookup_new {k : Key} : ∀ {m : List (Key × Val)}, (∀ e ∈ m, e.1.same k = false) → lookupV k m = none
  | [], _ => rfl
  | e :: m, h => by simp [lookupV, h e (List.mem_cons_self), lookup_new fun e he => h e (List.mem_cons_of_mem _ he)]

theorem keyOf_same {x : Ext} {k : KeyTy} {raw : Bytes} {K K' : Key} (h : KeyOf x k raw K) (hs : K'.same K = true) : KeyOf x k raw K' := by
  have hs := same_iff.1 hs
  cases h with
  | str h => cases K' <;> simp at hs; rename_i s _ ; exact .str (by rw [hs]; exact h)
  | int h => cases K' <;> simp at hs; subst hs; exact .int h
  | text h1 h2 => cases K' <;> simp at hs; subst hs; exact .text h1 h2

theorem map_dec {x : Ext} {src : Bytes} {f : JVal → Val → R Val} {P : JVal → Val → Prop} {k : KeyTy} {z : Val} {fresh : Bool} : ∀ {ms : List ((Nat × Nat) × JVal)} {es : List (Key × Val)}
    {acc : List (Key × Val)}, WfM src ms → es.length = ms.length → (∀ m ∈ ms, ∃ W, f m.2 z = .ok W ∧ P m.2 W) →
    (∀ (j : Nat) m e, ms[j]? = some m → es[j]? = some e → KeyOf x k (inner src m.1.1 m.1.2) e.1) →
    (∀ (i j : Nat) a b, es[i]? = some a → es[j]? = some b → a.1.same b.1 = true → i = j) → (∀ a ∈ acc, ∀ e ∈ es, a.1.same e.1 = false) →
    ∃ es', mapV x src f k z fresh ms acc = .ok (acc ++ es') ∧ es'.length = ms.length ∧
      (∀ (j : Nat) m e, ms[j]? = some m → es'[j]? = some e → KeyOf x k (inner src m.1.1 m.1.2) e.1 ∧ P m.2 e.2) ∧
      ∀ (j : Nat) e e', es[j]? = some e → es'[j]? = some e' → e'.1.same e.1 = true
  | [], es, acc, _, _, _, _, _, _ => ⟨[], by simp [mapV], rfl, by simp, by simp⟩
  | ((a, b), v) :: ms, [], acc, _, hl, _, _, _, _ => by simp at hl
  | ((a, b), v) :: ms, e :: es, acc, hw, hl, hf, hk, hd, ha => by
    obtain ⟨K', h1, h2⟩ := keyAt_of hw.1 (hk 0 _ _ rfl rfl)
    obtain ⟨W, h3, h4⟩ := hf _ List.mem_cons_self
    have hnew : ∀ c ∈ acc, c.1.same K' = false := by
      intro c hc
      cases hs : c.1.same K' with
      | false => rfl
      | true => rw [← ha c hc e List.mem_cons_self, same_trans hs h2]
    obtain ⟨es', g1, g2, g3, g4⟩ := map_dec (x := x) (src := src) (f := f) (P := P) (k := k) (z := z) (fresh := fresh) (es := es) (acc := acc ++ [(K', W)]) hw.2.2 (by simpa using hl)
      (fun m hm => hf m (List.mem_cons_of_mem _ hm)) (fun j m e h h' => hk (j + 1) m e (by simpa using h) (by simpa using h'))
      (fun i j a b h h' hs => by have := hd (i + 1) (j + 1) a b (by simpa using h) (by simpa using h') hs; omega) (by
        intro c hc e' he'
        simp only [List.mem_append, List.mem_singleton] at hc
        rcases hc with hc | rfl
        · exact ha c hc e' (List.mem_cons_of_mem _ he')
        · cases hs : K'.same e'.1 with
          | false => rfl
          | true =>
            obtain ⟨j, hj⟩ := List.getElem?_of_mem he'
            have := hd 0 (j + 1) e e' rfl (by simpa using hj) (same_trans (same_symm h2) hs)
            omega)
    refine ⟨(K', W) :: es', ?_, by simp [g2], ?_, ?_⟩
    · unfold keyAt at h1
      simp only [mapV, h1, lookup_new hnew, Option.getD_none, ite_self, h3, assign_new hnew, g1, List.append_assoc, List.singleton_append]
    · intro j m e' hj he'
      cases j with
      | zero =>
        simp at hj he'; subst hj he'
        exact ⟨keyOf_same (hk 0 _ _ rfl rfl) h2, h4⟩
      | succ j => exact g3 j m e' (by simpa using hj) (by simpa using he')
    · intro j c c' hj hj'
      cases j with
      | zero => simp at hj hj'; subst hj hj'; exact h2
      | succ j => exact g4 j c c' (by simpa using hj) (by simpa using hj')

theorem entries_dec {x : Ext} {src : Bytes} {f : JVal → Val → R Val} {P : JVal → Val → Prop} {k : KeyTy} {z : Val} {fresh : Bool} {ms : List ((Nat × Nat) × JVal)} {V : Val} (hw : WfM src ms)
    (h : MeansEntries src (KeyOf x k) P ms V) (hf : ∀ m ∈ ms, ∀ W, P m.2 W → ∃ W, f m.2 z = .ok W ∧ P m.2 W) :
    ∃ es, mapV x src f k z fresh ms [] = .ok es ∧ MeansEntries src (KeyOf x k) P ms (.map es) := by
  obtain ⟨es, rfl, h1, h2, h3⟩ := h
  obtain ⟨es', g1, g2, g3, g4⟩ := map_dec (x := x) (src := src) (f := f) (P := P) (k := k) (z := z) (fresh := fresh) (es := es) (acc := []) hw h1 (by
    intro m hm
    obtain ⟨j, hj⟩ := List.getElem?_of_mem hm
    have hlt := (List.getElem?_eq_some_iff.1 hj).1
    exact hf m hm _ (h2 j m (es[j]'(by omega)) hj (by simp)).2) (fun j m e a b => (h2 j m e a b).1) h3 (by simp)
  refine ⟨es', by simpa using g1, es', rfl, g2, g3, fun i j a b ha hb hs => ?_⟩
  have hi := (List.getElem?_eq_some_iff.1 ha).1
  have hj := (List.getElem?_eq_some_iff.1 hb).1
  have e1 : es[i]? = some (es[i]'(by omega)) := by simp
  have e2 : es[j]? = some (es[j]'(by omega)) := by simp
  exact h3 i j _ _ e1 e2 (same_trans (same_trans (same_symm (g4 i _ _ e1 ha)) hs) (g4 j _ _ e2 hb))

theorem struct_exists {x : Ext} {src : Bytes} {o : Options} {fs : List (Bytes × (JVal → Val → R Val))} : ∀ {ms : List ((Nat × Nat) × JVal)} {Ws : List Val}, WfM src ms →
    (∀ (a b : Nat) m m' j, ms[a]? = some m → ms[b]? = some m' → KeySelects x src o (fs.map (·.1)) m.1 j → KeySelects x src o (fs.map (·.1)) m'.1 j → a = b) →
    (∀ m ∈ ms, ∀ j, KeySelects x src o (fs.map (·.1)) m.1 j → ∃ f W W', fs[j]? = some f ∧ Ws[j]? = some W ∧ f.2 m.2 W = .ok W') →
    (∀ m ∈ ms, KeyUnknown x src o (fs.map (·.1)) m.1 → o.disallowUnknownFields = false ∧ hasObj m.2 = false) → ∃ Ws', structV x src o fs ms Ws = .ok Ws'
  | [], Ws, _, _, _, _ => ⟨Ws, rfl⟩
  | ((a, b), v) :: ms, Ws, hw, hd, hs, hu => by
    obtain ⟨name, h1, h2, h3⟩ := key_fun x o (fs.map (·.1)) (k := (a, b)) hw.1
    simp only [structV, h1]
    have hd' : ∀ (a b : Nat) m m' j, ms[a]? = some m → ms[b]? = some m' → KeySelects x src o (fs.map (·.1)) m.1 j → KeySelects x src o (fs.map (·.1)) m'.1 j → a = b := by
      intro a b m m' j h h' g g'
      have := hd (a + 1) (b + 1) m m' j (by simpa using h) (by simpa using h') g g'
      omega
    cases hf : findField x o ((fs.map (·.1)).zipIdx) name with
    | some j =>
      have hsel := (h2 j).2 hf
      obtain ⟨f, W, W', g1, g2, g3⟩ := hs _ List.mem_cons_self j hsel
      simp only [g1, g2, g3]
      refine struct_exists hw.2.2 hd' ?_ fun m hm => hu m (List.mem_cons_of_mem _ hm)
      intro m hm j' hj'
      obtain ⟨f', U, U', k1, k2, k3⟩ := hs m (List.mem_cons_of_mem _ hm) j' hj'
      refine ⟨f', U, U', k1, ?_, k3⟩
      rw [List.getElem?_set_ne, k2]
      rintro rfl
      obtain ⟨c, hc⟩ := List.getElem?_of_mem hm
      have := hd 0 (c + 1) _ m j rfl (by simpa using hc) hsel hj'
      omega
    | none =>
      obtain ⟨g1, g2⟩ := hu _ List.mem_cons_self (h3.2 hf)
      simp only [g1, g2]
      exact struct_exists hw.2.2 hd' (fun m hm => hs m (List.mem_cons_of_mem _ hm)) fun m hm => hu m (List.mem_cons_of_mem _ hm)

theorem nzL_mem {src : Bytes} : ∀ {vs : List JVal}, noNegZeroL src vs → ∀ v ∈ vs, noNegZero src v
  | _ :: _, h, _, hm => by
    rcases List.mem_cons.1 hm with rfl | hm
    · exact h.1
    · exact nzL_mem h.2 _ hm

theorem nzM_mem {src : Bytes} : ∀ {ms : List ((Nat × Nat) × JVal)}, noNegZeroM src ms → ∀ m ∈ ms, noNegZero src m.2
  | _ :: _, h, _, hm => by
    rcases List.mem_cons.1 hm with rfl | hm
    · exact h.1
    · exact nzM_mem h.2 _ hm

theorem meansF_get {x : Ext} {src : Bytes} {o : Options} : ∀ (fs : List (Bytes × Nat × Ty)) (j : Nat), (MeansF x src o fs)[j]? = (fs[j]?).map fun f => Means x src o f.2.2
  | [], _ => by simp [MeansF]
  | (_, _, t) :: fs, 0 => by simp [MeansF]
  | (_, _, t) :: fs, j + 1 => by simp [MeansF, meansF_get fs j]

theorem tameF_get {x : Ext} {src : Bytes} {o : Option Options} : ∀ (fs : List (Bytes × Nat × Ty)) (j : Nat), (TameF x src o fs)[j]? = (fs[j]?).map fun f => Tame x src o f.2.2
  | [], _ => by simp [TameF]
  | (_, _, t) :: fs, 0 => by simp [TameF]
  | (_, _, t) :: fs, j + 1 => by simp [TameF, tameF_get fs j]

theorem zeroF_get {x : Ext} : ∀ (fs : List (Bytes × Nat × Ty)) (j : Nat), (zeroF x fs)[j]? = (fs[j]?).map fun f => zeroV x f.2.2
  | [], _ => by simp [zeroF]
  | (_, _, t) :: fs, 0 => by simp [zeroF]
  | (_, _, t) :: fs, j + 1 => by simp [zeroF, zeroF_get fs j]

theorem zeroF_length {x : Ext} : ∀ (fs : List (Bytes × Nat × Ty)), (zeroF x fs).length = fs.length
  | [] => rfl
  | (_, _, t) :: fs => by simp [zeroF, zeroF_length fs]

/-- A value with a meaning is decoded to it. -/
def Good (x : Ext) (src : Bytes) (o : Options) (ty : Ty) : Prop :=
  ∀ v V, Wf src v → noNegZero src v → Tame x src (some o) ty v → Means x src o ty v V → ∃ V', decV x src (some o) ty v (zeroV x ty) = .ok V' ∧ Means x src o ty v V'

theorem mapSS_eq {x : Ext} {src : Bytes} {o : Option Options} : ∀ {ms : List ((Nat × Nat) × JVal)} {m es : List (Key × Val)}, WfM src ms →
    mapV x src (decV x src o (.scalar .str)) .str (zeroS .str) true ms m = .ok es → mapSSV x src ms m = some (.ok es)
  | [], m, es, _, h => by simp only [mapV, R.ok.injEq] at h; subst h; rfl
  | ((a, b), v) :: ms, m, es, hw, h => by
    obtain ⟨out, hout⟩ := hw.1.2.2
    obtain ⟨s, hs⟩ := Safe.unescStr_some x hout
    have h1 : (Model.slice src (a + 1) (b - 1)).bind x.unescStr = some s := by rw [Doc.slice_inner hw.1]; exact hs
    have h2 : (Model.slice src (a + 1) (b - 1)).bind (fun key => KeyTy.key x key .str) = some (.ok (.str s)) := by
      rw [Doc.slice_inner hw.1]; simp [KeyTy.key, hs]
    simp only [mapV, h2, if_true] at h
    cases v with
    | str i e =>
      obtain ⟨out, hout⟩ := hw.2.1.2.2
      obtain ⟨u, hu⟩ := Safe.unescStr_some x hout
      have h3 : (Model.slice src (i + 1) (e - 1)).bind x.unescStr = some u := by rw [Doc.slice_inner hw.2.1]; exact hu
      have h4 : decV x src o (.scalar .str) (.str i e) (zeroS .str) = .ok (.str u) := by simp only [decV, leafV, leaf, Doc.slice_inner hw.2.1, Ty.etype, onString, hu]; rfl
      simp only [h4] at h
      simp only [mapSSV, h1, h3]
      exact mapSS_eq hw.2.2 h
    | null i e =>
      have h4 : decV x src o (.scalar .str) (.null i e) (zeroS .str) = .ok (.str ⟨[], false⟩) := rfl
      simp only [h4] at h
      simp only [mapSSV, h1]
      exact mapSS_eq hw.2.2 h
    | bool c i e =>
      have h4 : decV x src o (.scalar .str) (.bool c i e) (zeroS .str) = .err i .unexpectedValue (zeroS .str) := rfl
      simp [h4] at h
    | num c i e =>
      have h4 : decV x src o (.scalar .str) (.num c i e) (zeroS .str) = .err i .unexpectedValue (zeroS .str) := by
        cases c <;> simp [decV, leafV, leaf, Doc.slice_text hw.2.1.1 hw.2.1.2.1, Ty.etype, onInteger, onNumber, actV, JVal.index]
      simp [h4] at h
    | arr i es' k =>
      have h4 : decV x src o (.scalar .str) (.arr i es' k) (zeroS .str) = .err i .unexpectedValue (zeroS .str) := rfl
      simp [h4] at h
    | obj i ms' k =>
      have h4 : decV x src o (.scalar .str) (.obj i ms' k) (zeroS .str) = .err i .unexpectedValue (zeroS .str) := rfl
      simp [h4] at h

/-- A struct with any decoders of its fields. -/
theorem struct_good {x : Ext} {src : Bytes} {o : Options} {n : Nat} {fs : List (Bytes × Nat × Ty)} {D : List (Bytes × (JVal → Val → R Val))} {i k : Nat} {ms : List ((Nat × Nat) × JVal)} {V : Val}
    (hw : Wf src (.obj i ms k)) (hD : D.map (·.1) = fs.map (·.1))
    (hf : ∀ m ∈ ms, ∀ j, KeySelects x src o (fs.map (·.1)) m.1 j → ∀ f, fs[j]? = some f → ∀ W, Means x src o f.2.2 m.2 W →
      ∃ D' W', D[j]? = some (f.1, D') ∧ D' m.2 (zeroV x f.2.2) = .ok W' ∧ Means x src o f.2.2 m.2 W')
    (hun : ∀ m ∈ ms, KeyUnknown x src o (fs.map (·.1)) m.1 → o.disallowUnknownFields = false → hasObj m.2 = false)
    (h : Means x src o (.struct n fs) (.obj i ms k) V) :
    ∃ Ws', structV x src o D ms (zeroF x fs) = .ok Ws' ∧ Means x src o (.struct n fs) (.obj i ms k) (.struct Ws') := by
  obtain ⟨⟨i, e, hc⟩, -⟩ | ⟨i, ms, k, Ws, hv, rfl, hl, hu, hd, h⟩ := h
  · cases hc
  cases hv
  have hwm := hw.2.2.2.2
  have hdec : ∀ m ∈ ms, ∀ j, KeySelects x src o (fs.map (·.1)) m.1 j → ∃ f D' W', fs[j]? = some f ∧ D[j]? = some (f.1, D') ∧ D' m.2 (zeroV x f.2.2) = .ok W' ∧ Means x src o f.2.2 m.2 W' := by
    intro m hm j hj
    obtain ⟨name, k1, k2, -⟩ := key_fun x o (fs.map (·.1)) (k := m.1) (Safe.wfM_mem hwm _ hm).1
    have hff := (k2 j).1 hj
    have hjl := Sim.findField_lt hff
    simp only [List.length_map] at hjl
    have hfj : fs[j]? = some fs[j] := by simp
    have hWj : Ws[j]? = some (Ws[j]'(by omega)) := by simp
    rcases h j _ _ _ hfj (by rw [meansF_get, hfj]; rfl) hWj with ⟨m', a, b, c⟩ | ⟨a, -⟩
    · have hmm : m' = m := by
        obtain ⟨p, hp⟩ := List.getElem?_of_mem a
        obtain ⟨q, hq⟩ := List.getElem?_of_mem hm
        have := hd p q m' m j hp hq b hj
        subst this
        rw [hp] at hq; cases hq; rfl
      subst hmm
      obtain ⟨D', W', g1, g2, g3⟩ := hf m' hm j hj _ hfj _ c
      exact ⟨_, D', W', hfj, g1, g2, g3⟩
    · exact absurd hj (a m hm)
  obtain ⟨Ws', g⟩ := struct_exists (x := x) (src := src) (o := o) (fs := D) (ms := ms) (Ws := zeroF x fs) hwm (by rw [hD]; exact hd) (by
    rw [hD]
    intro m hm j hj
    obtain ⟨f, D', W', a, b, c, -⟩ := hdec m hm j hj
    exact ⟨_, _, W', b, by rw [zeroF_get, a]; rfl, c⟩) (by
    rw [hD]
    intro m hm hun'
    have h0 : o.disallowUnknownFields = false := by
      cases hc : o.disallowUnknownFields with
      | false => rfl
      | true => exact absurd hun' (hu hc m hm)
    exact ⟨h0, hun m hm hun' h0⟩)
  have hlen := structV_length (.inl g)
  refine ⟨Ws', g, .inr ⟨i, ms, k, Ws', rfl, rfl, by rw [hlen, zeroF_length], hu, hd, ?_⟩⟩
  intro j f P W hf hP hW
  rw [meansF_get, hf] at hP
  cases hP
  by_cases hsel : ∃ m ∈ ms, KeySelects x src o (fs.map (·.1)) m.1 j
  · obtain ⟨m, hm, hs⟩ := hsel
    refine .inl ⟨m, hm, hs, ?_⟩
    obtain ⟨f', D', W', a, hDj, b, c⟩ := hdec m hm j hs
    rw [hf] at a; cases a
    obtain ⟨p, hp⟩ := List.getElem?_of_mem hm
    have hpl := (List.getElem?_eq_some_iff.1 hp).1
    have hsplit : ms = ms.take p ++ (m.1, m.2) :: ms.drop (p + 1) := by
      have : (m.1, m.2) = ms[p] := by
        have := (List.getElem?_eq_some_iff.1 hp).2; rw [this]
      rw [this, List.getElem_cons_drop, List.take_append_drop]
    rw [hsplit] at g
    have hwm2 := hwm
    rw [hsplit] at hwm2
    obtain ⟨U, U', e1, e2, e3⟩ := structV_last (x := x) (src := src) (o := o) (fs := D) (j := j) (f := (f.1, D')) hDj
      (by rw [hD]; exact hs) (by
        rw [hD]
        intro m' hm' hs'
        obtain ⟨q, hq⟩ := List.getElem?_of_mem hm'
        rw [List.getElem?_drop] at hq
        have := hd p _ m m' j hp hq hs hs'
        omega) hwm2 g
    rw [hD] at e3
    have e3 := e3 (by
      intro m' hm' hs'
      obtain ⟨q, hq⟩ := List.getElem?_of_mem hm'
      rw [List.getElem?_take] at hq
      split at hq
      · have := hd p q m m' j hp hq hs hs'
        omega
      · cases hq)
    rw [zeroF_get, hf] at e3
    cases e3
    rw [hW] at e1; cases e1
    change D' m.2 (zeroV x f.2.2) = .ok W at e2
    rw [b] at e2; cases e2
    exact c
  · have hno : ∀ m ∈ ms, ¬ KeySelects x src o (fs.map (·.1)) m.1 j := fun m hm hs => hsel ⟨m, hm, hs⟩
    refine .inr ⟨hno, ?_⟩
    have := structV_keep (j := j) hwm (.inl g) (by rw [hD]; exact hno)
    rw [hW, zeroF_get, hf] at this
    cases this; rfl

mutual
theorem good {x : Ext} (hx : FloatContract x) (ht : x.tokFloat64 = x.parseFloat64) {src : Bytes} {o : Options} : ∀ ty, Good x src o ty
  | .any => fun v V hw hz _ h => by
    obtain ⟨hn, a, rfl, ha⟩ := h
    have hp : anyParser x v = x.parseFloat64 := by cases v <;> simp [anyParser, ht]
    obtain ⟨h1, -⟩ := C17_inside (x := x) hw (some o) (zeroV x .any)
    rw [hp] at h1
    obtain ⟨a', g1, g2⟩ := h1 hn
    exact ⟨_, g1, hn, a', rfl, g2⟩
  | .number => fun v V hw _ _ h => number_dec hw h
  | .scalar k => fun v V hw hz _ h => scalar_dec hx hw hz h
  | .quoted k => fun v V hw hz _ h => quoted_dec hw h
  | .jsonU rt n impl => fun v V hw _ _ h => by
    obtain ⟨rfl, new, h1, rfl⟩ := h
    refine ⟨.user (fit n new), ?_, rfl, new, h1, rfl⟩
    simp only [decV, jsonV, zeroV, Safe.slice_extent hw, Safe.innerOK_wf hw, h1]
  | .textU rt n impl => fun v V hw _ _ h => by
    rcases h with ⟨⟨i, e, rfl⟩, rfl⟩ | ⟨i, e, out, new, rfl, rfl, h1, h2, rfl⟩
    · exact ⟨.user (zeros n), rfl, .inl ⟨⟨i, e, rfl⟩, rfl⟩⟩
    · refine ⟨.user (fit n new), ?_, .inr ⟨i, e, out, new, rfl, rfl, h1, h2, rfl⟩⟩
      have := C09_unescape _ _ h1
      simp [decV, leaf, Doc.slice_inner hw, onString, this, actV, textCall, zeroV, h2]
  | .array0 => fun v V _ _ _ h => by
    obtain ⟨⟨i, e, rfl⟩ | ⟨i, vs, k, rfl⟩, rfl⟩ := h
    · exact ⟨_, rfl, .inl ⟨i, e, rfl⟩, rfl⟩
    · exact ⟨_, rfl, .inr ⟨i, vs, k, rfl⟩, rfl⟩
  | .emptyStruct => fun v V _ _ ht h => by
    obtain ⟨⟨i, e, rfl⟩ | ⟨i, vs, k, rfl⟩, rfl⟩ := h
    · exact ⟨_, rfl, .inl ⟨i, e, rfl⟩, rfl⟩
    · exact ht.elim
  | .array n e => fun v V hw hz htm h => by
    rcases h with ⟨⟨i, e, rfl⟩, rfl⟩ | ⟨i, vs, k, Ws, rfl, rfl, hl, h⟩
    · exact ⟨_, rfl, .inl ⟨⟨i, e, rfl⟩, rfl⟩⟩
    · obtain ⟨Ws', g1, g2, g3⟩ := elems_exist (f := decV x src (some o) e) (P := Means x src o e) (z := zeroV x e) n vs fun w hw' => by
        obtain ⟨j, hj⟩ := List.getElem?_of_mem hw'
        rw [List.getElem?_take] at hj
        split at hj
        · rename_i hjn
          rcases h j (Ws[j]'(by omega)) (by simp) with ⟨w', a, b⟩ | ⟨a, -⟩
          · rw [hj] at a; cases a
            exact good hx ht e w _ (Safe.wfL_mem hw.2.2.2.2 _ (List.mem_of_mem_take hw')) (nzL_mem hz _ (List.mem_of_mem_take hw')) (htm _ hw') b
          · have := (List.getElem?_eq_some_iff.1 hj).1; omega
        · cases hj
      refine ⟨.arr Ws', ?_, .inr ⟨i, vs, k, Ws', rfl, rfl, g2, g3⟩⟩
      simp only [decV, zeroV, g1, R.map]
  | .slice e => fun v V hw hz htm h => by
    rcases h with ⟨⟨i, e, rfl⟩, rfl⟩ | ⟨i, vs, k, rfl, Ws, rfl, hl, h⟩
    · exact ⟨_, rfl, .inl ⟨⟨i, e, rfl⟩, rfl⟩⟩
    · obtain ⟨V', g1, g2⟩ := slice_dec (f := decV x src (some o) e) (P := Means x src o e) (z := zeroV x e) (vs := vs) e.etype.isElemComposite fun w hw' => by
        obtain ⟨j, hj⟩ := List.getElem?_of_mem hw'
        have hlt := (List.getElem?_eq_some_iff.1 hj).1
        exact good hx ht e w _ (Safe.wfL_mem hw.2.2.2.2 _ hw') (nzL_mem hz _ hw') (htm _ hw') (h j w (Ws[j]'(by omega)) hj (by simp))
      exact ⟨V', g1, .inr ⟨i, vs, k, rfl, g2⟩⟩
  | .sliceOf sk => fun v V hw hz htm h => by
    rcases h with ⟨⟨i, e, rfl⟩, rfl⟩ | ⟨i, vs, k, rfl, Ws, rfl, hl, h⟩
    · exact ⟨_, rfl, .inl ⟨⟨i, e, rfl⟩, rfl⟩⟩
    · obtain ⟨V', g1, g2⟩ := sliceOf_dec (f := fun v W => actV v.index (zeroS sk) none W (elemAct x src sk v)) (P := MeansS x src sk) (z := zeroS sk) (vs := vs) fun w hw' => by
        obtain ⟨j, hj⟩ := List.getElem?_of_mem hw'
        have hlt := (List.getElem?_eq_some_iff.1 hj).1
        rw [elem_scalar x (some o) sk (Safe.wfL_mem hw.2.2.2.2 _ hw')]
        exact scalar_dec hx (Safe.wfL_mem hw.2.2.2.2 _ hw') (nzL_mem hz _ hw') (h j w (Ws[j]'(by omega)) hj (by simp))
      exact ⟨V', g1, .inr ⟨i, vs, k, rfl, g2⟩⟩
  | .sliceES => fun v V hw hz htm h => by
    rcases h with ⟨⟨i, e, rfl⟩, rfl⟩ | ⟨i, vs, k, rfl, Ws, rfl, hl, h⟩
    · exact ⟨_, rfl, .inl ⟨⟨i, e, rfl⟩, rfl⟩⟩
    · refine ⟨.slice (List.replicate vs.length (.struct [])) [], rfl, .inr ⟨i, vs, k, rfl, _, rfl, by simp, fun j w W hj hW => ?_⟩⟩
      have hlt := (List.getElem?_eq_some_iff.1 hj).1
      exact ⟨(h j w (Ws[j]'(by omega)) hj (by simp)).1, (List.mem_replicate.1 (List.mem_of_getElem? hW)).2⟩
  | .mapSS => fun v V hw hz htm h => by
    rcases h with ⟨⟨i, e, rfl⟩, rfl⟩ | ⟨i, ms, k, rfl, h⟩
    · exact ⟨_, rfl, .inl ⟨⟨i, e, rfl⟩, rfl⟩⟩
    · obtain ⟨es, g1, g2⟩ := entries_dec (f := decV x src (some o) (.scalar .str)) (z := zeroS .str) (fresh := true) hw.2.2.2.2 h
        fun m hm W hW => scalar_dec hx (Safe.wfM_mem hw.2.2.2.2 _ hm).2 (nzM_mem hz _ hm) hW
      refine ⟨.map es, ?_, .inr ⟨i, ms, k, rfl, g2⟩⟩
      simp only [decV, mapSS_eq hw.2.2.2.2 g1]
  | .map kt e => fun v V hw hz htm h => by
    rcases h with ⟨⟨i, e, rfl⟩, rfl⟩ | ⟨i, ms, k, rfl, h⟩
    · exact ⟨_, rfl, .inl ⟨⟨i, e, rfl⟩, rfl⟩⟩
    · obtain ⟨es, g1, g2⟩ := entries_dec (f := decV x src (some o) e) (z := zeroV x e) (fresh := e.etype == .struct) hw.2.2.2.2 h
        fun m hm W hW => good hx ht e m.2 W (Safe.wfM_mem hw.2.2.2.2 _ hm).2 (nzM_mem hz _ hm) (htm.2 _ hm) hW
      refine ⟨.map es, ?_, .inr ⟨i, ms, k, rfl, g2⟩⟩
      have : ¬ (kt = .other ∧ ms ≠ []) := fun hc => hc.2 (htm.1 hc.1)
      simp only [decV, if_neg this, zeroV, mapParts, g1, R.map]
  | .struct n fs => fun v V hw hz htm h => by
    rcases h with ⟨⟨i, e, rfl⟩, rfl⟩ | ⟨i, ms, k, Ws, rfl, rfl, hl, hu, hd, h⟩
    · exact ⟨_, rfl, .inl ⟨⟨i, e, rfl⟩, rfl⟩⟩
    · have hwm := hw.2.2.2.2
      obtain ⟨Ws', g, hm⟩ := struct_good (n := n) (D := decVF x src (some o) fs) hw (Val.decVF_names ..) (fun m hm j hj f hf W hW => by
        obtain ⟨name, k1, k2, -⟩ := key_fun x o (fs.map (·.1)) (k := m.1) (Safe.wfM_mem hwm _ hm).1
        have hff := (k2 j).1 hj
        have hm' := htm m hm o rfl
        rw [Doc.slice_inner (Safe.wfM_mem hwm _ hm).1] at hm' k1
        have hm' := hm' _ name rfl k1
        rw [hff] at hm'
        have hm' := hm' _ (by rw [tameF_get, hf]; rfl)
        obtain ⟨W', g1, g2⟩ := goodF hx ht (src := src) (o := o) fs _ (List.mem_of_getElem? hf) m.2 _ (Safe.wfM_mem hwm _ hm).2 (nzM_mem hz _ hm) hm' hW
        exact ⟨_, W', by rw [Val.decVF_get, hf]; rfl, g1, g2⟩) (fun m hm hun h0 => by
        obtain ⟨name, k1, -, k2⟩ := key_fun x o (fs.map (·.1)) (k := m.1) (Safe.wfM_mem hwm _ hm).1
        have hm' := htm m hm o rfl
        rw [Doc.slice_inner (Safe.wfM_mem hwm _ hm).1] at hm' k1
        have hm' := hm' _ name rfl k1
        rw [k2.1 hun] at hm'
        rcases hm' with hm' | hm'
        · rw [h0] at hm'; cases hm'
        · exact hm') (.inr ⟨i, ms, k, Ws, rfl, rfl, hl, hu, hd, h⟩)
      exact ⟨.struct Ws', by simp only [zeroV]; rw [struct_reads, g]; rfl, hm⟩
  | .ptr e => fun v V _ _ htm h => by
    rcases h with ⟨⟨i, e, rfl⟩, rfl⟩ | ⟨hn, -⟩
    · exact ⟨_, rfl, .inl ⟨⟨i, e, rfl⟩, rfl⟩⟩
    · cases v with
      | null i e => exact absurd ⟨i, e, rfl⟩ hn
      | _ => exact htm.elim
theorem goodF {x : Ext} (hx : FloatContract x) (ht : x.tokFloat64 = x.parseFloat64) {src : Bytes} {o : Options} : ∀ (fs : List (Bytes × Nat × Ty)), ∀ f ∈ fs, Good x src o f.2.2
  | (_, _, t) :: fs, f, hf => by
    rcases List.mem_cons.1 hf with rfl | hf
    · exact good hx ht t
    · exact goodF hx ht fs f hf
end

/-- A document with a meaning is decoded to it. -/
theorem top_good {x : Ext} (hx : FloatContract x) (ht : x.tokFloat64 = x.parseFloat64) {src : Bytes} {o : Options} : ∀ (ty : Ty) (v : JVal) (V : Val), Wf src v → noNegZero src v →
    TameDoc x src (some o) ty v → Means x src o ty v V → ∃ V', decTopV x src (some o) ty v (zeroV x ty) = .ok V' ∧ Means x src o ty v V'
  | .ptr e, v, V, hw, hz, htm, h => by
    rcases h with ⟨⟨i, e, rfl⟩, rfl⟩ | ⟨hn, W, rfl, h⟩
    · exact ⟨_, rfl, .inl ⟨⟨i, e, rfl⟩, rfl⟩⟩
    · have hv : ∀ i e, v ≠ .null i e := fun i e hv => hn ⟨i, e, hv⟩
      have htm' : e.size x ≠ 0 ∧ TameDoc x src (some o) e v := by
        cases v with
        | null i e => exact absurd rfl (hv i e)
        | _ => exact htm
      obtain ⟨W', g1, g2⟩ := top_good hx ht e v W hw hz htm'.2 h
      refine ⟨.ptr W', ?_, .inr ⟨hn, W', rfl, g2⟩⟩
      have hto := Safe.tokOK_wf hw
      cases v with
      | null i e => exact absurd rfl (hv i e)
      | _ => simp only [decTopV, hto, htm'.1, g1, R.map]; simp
  | .emptyStruct, v, V, _, _, _, h => by
    obtain ⟨⟨i, e, rfl⟩ | ⟨i, ms, k, rfl⟩, rfl⟩ := h
    · exact ⟨_, rfl, .inl ⟨i, e, rfl⟩, rfl⟩
    · exact ⟨_, rfl, .inr ⟨i, ms, k, rfl⟩, rfl⟩
  | .any, v, V, hw, hz, htm, h | .number, v, V, hw, hz, htm, h | .scalar _, v, V, hw, hz, htm, h | .quoted _, v, V, hw, hz, htm, h | .jsonU _ _ _, v, V, hw, hz, htm, h
  | .textU _ _ _, v, V, hw, hz, htm, h | .array0, v, V, hw, hz, htm, h | .array _ _, v, V, hw, hz, htm, h | .slice _, v, V, hw, hz, htm, h | .sliceOf _, v, V, hw, hz, htm, h
  | .sliceES, v, V, hw, hz, htm, h | .mapSS, v, V, hw, hz, htm, h | .map _ _, v, V, hw, hz, htm, h | .struct _ _, v, V, hw, hz, htm, h => good hx ht _ v V hw hz htm h

end Verif.Proof.Means

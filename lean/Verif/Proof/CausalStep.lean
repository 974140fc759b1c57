import Verif.Proof.CausalRun
/-!
# Steps on documents that agree up to some token
-/
namespace Verif.Proof.Causal
open Verif.Model Verif.Spec Verif.Big Verif.Proof Verif.Proof.Judge Verif.Proof.Place Verif.Proof.Term

variable {i p z : Nat} {pr : Prog} {src' : Bytes} {toks' : List Token}

theorem Ag.len (h : Ag pr src' toks' i p z) : p ≤ pr.toks.length ∧ p ≤ toks'.length := by
  cases p with
  | zero => exact ⟨Nat.zero_le _, Nat.zero_le _⟩
  | succ p =>
    obtain ⟨t, t', h1, h2, -⟩ := h.tok p (by omega)
    have := lt_of_get h1
    have := lt_of_get h2
    omega

/-- The tokens of an array or object that is over before `p` are the same. -/
theorem Ag.sub (h : Ag pr src' toks' i p z) {n : Nat} {t : Token} (ht : pr.toks[n]? = some t) (hc : Con t) (he : t.end_ < p) :
    ∃ w r r', pr.toks.drop n = flatten n w ++ r ∧ toks'.drop n = flatten n w ++ r' ∧ t.end_ + 1 = n + (flatten n w).length ∧ (∀ u ∈ flatten n w, u.index < z ∧ (¬ Con u → u.end_ ≤ z)) := by
  obtain ⟨v, hv⟩ := h.tree
  have h0 := ht
  rw [hv] at h0
  obtain ⟨w, r, h1, h2⟩ := sub_one v 0 [] n t h0 hc
  rw [List.append_nil, ← hv, Nat.zero_add] at h1
  rw [Nat.zero_add] at h2
  have key : ∀ m u, (flatten n w)[m]? = some u → toks'[n + m]? = some u ∧ u.index < z ∧ (¬ Con u → u.end_ ≤ z) := by
    intro m u hu
    have hm := lt_of_get hu
    obtain ⟨a, a', g1, g2, -, -, g3, g4⟩ := h.tok (n + m) (by omega)
    have e : pr.toks[n + m]? = some u := by
      rw [← List.getElem?_drop, h1, List.getElem?_append_left hm]; exact hu
    rw [e] at g1
    cases g1
    rcases g4 with ⟨rfl, g5, g6⟩ | ⟨g5, g6, -⟩
    · exact ⟨g2, g3, g6⟩
    · have := flatten_in n w u (List.mem_of_getElem? hu) g5
      omega
  refine ⟨w, r, toks'.drop (n + (flatten n w).length), h1, ?_, h2, fun u hu => ?_⟩
  · refine List.ext_getElem? fun m => ?_
    rw [List.getElem?_drop, List.getElem?_append]
    split
    · rename_i hm
      rw [List.getElem?_eq_getElem hm]
      exact (key m _ (List.getElem?_eq_getElem hm)).1
    · rw [List.getElem?_drop]
      congr 1
      omega
  · obtain ⟨m, hm⟩ := List.getElem?_of_mem hu
    exact (key m u hm).2

theorem inner_eq {l : List Token} {n e : Nat} {w : JVal} {r : List Token} (h : l.drop n = flatten n w ++ r) (he : e + 1 = n + (flatten n w).length) :
    (l.take e).drop (n + 1) = ((flatten n w).take (e - n)).drop 1 := by
  rw [List.drop_take, ← List.drop_drop, h]
  rw [List.drop_take]
  have := Any.flatten_pos n w
  rw [List.drop_append_of_le_length (by omega), List.take_append_of_le_length (by simp only [List.length_drop]; omega)]
  rw [show e - (n + 1) = e - n - 1 by omega]

theorem elems_src {x : Ext} {src : Bytes} {k : SKind} : ∀ (ts : List Token) (n : Nat) (a : Block), (∀ t ∈ ts, elemOf x src k t = elemOf x src' k t) →
    sliceElems x src k ts n a = sliceElems x src' k ts n a
  | [], _, _, _ => rfl
  | t :: ts, n, a, h => by
    simp only [sliceElems, h t List.mem_cons_self]
    have hs := fun n a => elems_src (k := k) ts n a fun t ht => h t (List.mem_cons_of_mem _ ht)
    simp only [hs]

theorem mapSS_src {x : Ext} {src : Bytes} {W : Nat} (ht : src.take z = src'.take z) : ∀ (ms : List ((Nat × Nat) × JVal)) (ti : Nat) (m : List (Key × Block)), (∀ t ∈ flattenM ti ms, ¬ Con t → t.end_ ≤ z) →
    mapSSLoop x src W (flattenM ti ms) m = mapSSLoop x src' W (flattenM ti ms) m
  | [], _, _, _ => rfl
  | ((a, e), v) :: ms, ti, m, h => by
    simp only [flattenM, List.mem_cons, List.mem_append] at h ⊢
    have hk : e ≤ z := h _ (.inl rfl) (by simp [Con])
    have hs := fun m => mapSS_src (x := x) (W := W) ht ms (ti + 1 + (flatten (ti + 1) v).length) m fun t hm => h t (.inr (.inr hm))
    cases v with
    | arr i' vs k => simp only [flatten, List.cons_append, mapSSLoop]
    | obj i' vs k => simp only [flatten, List.cons_append, mapSSLoop]
    | null i' e' =>
      simp only [flatten, List.length_cons, List.length_nil] at hs
      simp only [flatten, List.length_cons, List.length_nil, List.cons_append, List.nil_append, mapSSLoop, hs, slice_take ht (show e - 1 ≤ z by omega)]
    | bool b i' e' =>
      cases b
      · simp only [flatten, List.cons_append, mapSSLoop, Bool.false_eq_true, if_false]
      · simp only [flatten, List.cons_append, mapSSLoop, if_true]
    | num b i' e' =>
      cases b
      · simp only [flatten, List.cons_append, mapSSLoop, Bool.false_eq_true, if_false]
      · simp only [flatten, List.cons_append, mapSSLoop, if_true]
    | str i' e' =>
      have hv : e' ≤ z := h ⟨.string, i', e', 0⟩ (.inr (.inl (by simp [flatten]))) (by simp [Con])
      simp only [flatten, List.length_cons, List.length_nil] at hs
      simp only [flatten, List.length_cons, List.length_nil, List.cons_append, List.nil_append, mapSSLoop, hs, slice_take ht (show e - 1 ≤ z by omega), slice_take ht (show e' - 1 ≤ z by omega)]

/-! ## Arrays and objects that are over before `p` -/

theorem onSliceOf_same (h : Ag pr src' toks' i p z) {s : St} {t : Token} {k : SKind} (ht : pr.toks[s.ti]? = some t) (hc : Con t) (he : t.end_ < p) :
    onSliceOf pr s t k = onSliceOf (other pr src' toks') s t k := by
  obtain ⟨w, r, r', h1, h2, h3, h4⟩ := h.sub ht hc he
  have hl := h.len
  unfold onSliceOf
  simp only [other]
  rw [inner_eq h1 h3, inner_eq h2 h3]
  have hs : ∀ a, sliceElems pr.x pr.src k (((flatten s.ti w).take (t.end_ - s.ti)).drop 1) 0 a = sliceElems pr.x src' k (((flatten s.ti w).take (t.end_ - s.ti)).drop 1) 0 a :=
    fun a => elems_src _ _ _ fun u hu => elemOf_lk h.take ⟨rfl, rfl, fun hc => ⟨rfl, (h4 u (List.mem_of_mem_take (List.mem_of_mem_drop hu))).2 hc⟩⟩
  simp only [hs, show (pr.toks.length < t.end_) = False from eq_false (by omega), show (toks'.length < t.end_) = False from eq_false (by omega)]

theorem decodeAny_same (h : Ag pr src' toks' i p z) {n : Nat} {t : Token} (ht : pr.toks[n]? = some t) (hc : Con t) (he : t.end_ < p) :
    ∃ r r' o, decodeAny pr.x pr.src (pr.toks.length + 1) (pr.toks.drop n) = Any.outA r o ∧ decodeAny pr.x src' (toks'.length + 1) (toks'.drop n) = Any.outA r' o ∧
      pr.toks.length - r.length = toks'.length - r'.length := by
  obtain ⟨w, r, r', h1, h2, h3, h4⟩ := h.sub ht hc he
  have l1 := congrArg List.length h1
  have l2 := congrArg List.length h2
  simp only [List.length_drop, List.length_append] at l1 l2
  have hl := h.len
  refine ⟨r, r', anyOf pr.x pr.src w, ?_, ?_, by omega⟩
  · rw [h1, Any.decodeAny_flatten _ _ _ _ _ _ (by omega)]
  · rw [h2, Any.decodeAny_flatten _ _ _ _ _ _ (by omega), any_same (x := pr.x) h.take w n fun u hu => (h4 u hu).2]

theorem onArray_same (h : Ag pr src' toks' i p z) {s : St} {f : Frame} {t : Token} (ht : pr.toks[s.ti]? = some t) (hc : Con t) (he : t.end_ < p) :
    onArray pr s f t = onArray (other pr src' toks') s f t := by
  unfold onArray
  cases f.type <;> try rfl
  · simp only [other]
    obtain ⟨r, r', o, h1, h2, h3⟩ := decodeAny_same h ht hc he
    rw [h1, h2]
    cases o with
    | none => rfl
    | some o =>
    cases o with
    | error e => rfl
    | ok v => simp only [Any.outA, h3]
  · exact onSliceOf_same h ht hc he

theorem obj_of {n : Nat} {w : JVal} {t : Token} {l r : List Token} (h : l.drop n = flatten n w ++ r) (ht : l[n]? = some t) (ho : t.type = .object) : ∃ a ms k, w = .obj a ms k := by
  have h0 : (l.drop n)[0]? = some t := by rw [List.getElem?_drop]; exact ht
  rw [h] at h0
  cases w with
  | obj a ms k => exact ⟨a, ms, k, rfl⟩
  | null => simp [flatten] at h0; subst h0; cases ho
  | bool b => simp [flatten] at h0; subst h0; cases b <;> cases ho
  | num b => simp [flatten] at h0; subst h0; cases b <;> cases ho
  | str => simp [flatten] at h0; subst h0; cases ho
  | arr => simp [flatten] at h0; subst h0; cases ho

theorem onObject_same (h : Ag pr src' toks' i p z) {s : St} {f : Frame} {t : Token} (ht : pr.toks[s.ti]? = some t) (ho : t.type = .object) (he : t.end_ < p) :
    onObject pr s f t = onObject (other pr src' toks') s f t := by
  have hc : Con t := .inr ho
  unfold onObject
  cases f.type <;> try rfl
  · simp only [other]
    obtain ⟨r, r', o, h1, h2, h3⟩ := decodeAny_same h ht hc he
    rw [h1, h2]
    cases o with
    | none => rfl
    | some o =>
    cases o with
    | error e => rfl
    | ok v => simp only [Any.outA, h3]
  · simp only [other]
    obtain ⟨w, r, r', h1, h2, h3, h4⟩ := h.sub ht hc he
    have hl := h.len
    obtain ⟨a, ms, k, rfl⟩ := obj_of h1 ht ho
    have e0 : ((flatten s.ti (.obj a ms k)).take (t.end_ - s.ti)).drop 1 = flattenM (s.ti + 1) ms := by
      simp only [flatten, List.length_cons, List.length_append, List.length_nil] at h3 ⊢
      rw [show t.end_ - s.ti = (flattenM (s.ti + 1) ms).length + 1 by omega, List.take_succ_cons, List.drop_succ_cons, List.drop_zero, List.take_left']
      rfl
    rw [inner_eq h1 h3, inner_eq h2 h3, e0]
    have hs : mapSSLoop pr.x pr.src pr.x.W (flattenM (s.ti + 1) ms) [] = mapSSLoop pr.x src' pr.x.W (flattenM (s.ti + 1) ms) [] :=
      mapSS_src h.take ms _ _ fun u hu => (h4 u (by simp only [flatten]; exact List.mem_cons_of_mem _ (List.mem_append_left _ hu))).2
    simp only [hs, show (pr.toks.length ≤ t.end_) = False from eq_false (by omega), show (toks'.length ≤ t.end_) = False from eq_false (by omega)]

theorem at_sub {l L r : List Token} {n e : Nat} (h : l.drop n = L ++ r) (hn : n ≤ e) (hm : e - n < L.length) : l[e]? = some (L[e - n]) := by
  have : (l.drop n)[e - n]? = some (L[e - n]) := by rw [h, List.getElem?_append_left hm, List.getElem?_eq_getElem hm]
  rwa [List.getElem?_drop, show n + (e - n) = e by omega] at this

theorem rawValue_same (h : Ag pr src' toks' i p z) {n : Nat} {t : Token} (ht : pr.toks[n]? = some t) (hs : Settled p z t t) : rawValue pr n t = rawValue (other pr src' toks') n t := by
  unfold rawValue
  by_cases hc : t.type = .object ∨ t.type = .array
  · rw [if_pos hc, if_pos hc]
    have he := hs.2.1 hc.symm
    obtain ⟨w, r, r', h1, h2, h3, h4⟩ := h.sub ht hc.symm he
    have hm : t.end_ - n < (flatten n w).length := by have := Any.flatten_pos n w; omega
    have hn : n ≤ t.end_ := by
      obtain ⟨v, hv⟩ := h.tree
      have := flatten_fwd 0 v n t (hv ▸ ht) hc.symm
      omega
    have e1 := at_sub h1 hn hm
    have e2 := at_sub h2 hn hm
    simp only [other]
    rw [e1, e2]
    simp only []
    have hz := (h4 _ (List.getElem_mem hm)).1
    rw [slice_take h.take (by omega)]
  · rw [if_neg hc, if_neg hc]
    have := hs.2.2 (fun hx => hc hx.symm)
    simp only [other]
    rw [slice_take h.take this]

end Verif.Proof.Causal

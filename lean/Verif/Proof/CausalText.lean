import Verif.Proof.CausalAll
import Verif.Proof.FootTok
import Verif.Proof.JsonParse
import Verif.Spec.Causal
/-!
# Texts that agree up to some byte have tokens that agree
-/
namespace Verif.Proof.Causal
open Verif.Model Verif.Spec Verif.Proof Verif.Proof.Place Verif.Proof.Json

variable {i z : Nat}

/-- The lists, which begin at token `b`, agree in their first `q` tokens. -/
structure Up (i z b q : Nat) (T T' : List Token) : Prop where
  tok : ∀ n, n < q → ∃ t t', T[n]? = some t ∧ T'[n]? = some t' ∧ t'.type = t.type ∧ t'.index = t.index ∧ t.index < z ∧ (Settled (b + q) z t t' ∨ Open (b + q) t t')
  pos : ∃ (n : Nat) (t : Token), n < q ∧ T[n]? = some t ∧ t.index = i ∧ (Con t → t.end_ < b + q)

theorem Up.len {b q : Nat} {T T' : List Token} (h : Up i z b q T T') : 0 < q ∧ q ≤ T.length ∧ q ≤ T'.length := by
  obtain ⟨n, -, hn, -⟩ := h.pos
  obtain ⟨t, t', h1, h2, -⟩ := h.tok (q - 1) (by omega)
  have := Term.lt_of_get h1
  have := Term.lt_of_get h2
  omega

theorem Up.append {b q : Nat} {T T' : List Token} (h : Up i z b q T T') (r r' : List Token) : Up i z b q (T ++ r) (T' ++ r') := by
  refine ⟨fun n hn => ?_, ?_⟩
  · obtain ⟨t, t', h1, h2, h3⟩ := h.tok n hn
    exact ⟨t, t', by rw [List.getElem?_append_left (Term.lt_of_get h1)]; exact h1, by rw [List.getElem?_append_left (Term.lt_of_get h2)]; exact h2, h3⟩
  · obtain ⟨n, t, h1, h2, h3⟩ := h.pos
    exact ⟨n, t, h1, by rw [List.getElem?_append_left (Term.lt_of_get h2)]; exact h2, h3⟩

/-- Tokens that both documents have, with everything that belongs to them. -/
def Whole (z b : Nat) (L : List Token) : Prop := ∀ t ∈ L, t.index < z ∧ (Con t → t.end_ < b + L.length) ∧ (¬ Con t → t.end_ ≤ z)

theorem Up.whole {b : Nat} {L : List Token} (h : Whole z b L) (hi : ∃ t ∈ L, t.index = i) : Up i z b L.length L L := by
  refine ⟨fun n hn => ⟨L[n], L[n], List.getElem?_eq_getElem hn, List.getElem?_eq_getElem hn, rfl, rfl, (h _ (List.getElem_mem hn)).1, .inl ⟨rfl, (h _ (List.getElem_mem hn)).2⟩⟩, ?_⟩
  obtain ⟨t, ht, hi⟩ := hi
  obtain ⟨n, hn⟩ := List.getElem?_of_mem ht
  exact ⟨n, t, Term.lt_of_get hn, hn, hi, (h t ht).2.1⟩

theorem Up.after {b q : Nat} {L T T' : List Token} (h : Whole z b L) (hu : Up i z (b + L.length) q T T') : Up i z b (L.length + q) (L ++ T) (L ++ T') := by
  refine ⟨fun n hn => ?_, ?_⟩
  · by_cases hl : n < L.length
    · obtain ⟨h1, h2, h3⟩ := h _ (List.getElem_mem hl)
      refine ⟨L[n], L[n], ?_, ?_, rfl, rfl, h1, .inl ⟨rfl, fun hc => ?_, h3⟩⟩
      · rw [List.getElem?_append_left hl, List.getElem?_eq_getElem hl]
      · rw [List.getElem?_append_left hl, List.getElem?_eq_getElem hl]
      · have := h2 hc; omega
    · obtain ⟨t, t', h1, h2, h3, h4, h5, h6⟩ := hu.tok (n - L.length) (by omega)
      rw [Nat.add_assoc] at h6
      exact ⟨t, t', by rw [List.getElem?_append_right (by omega)]; exact h1, by rw [List.getElem?_append_right (by omega)]; exact h2, h3, h4, h5, h6⟩
  · obtain ⟨n, t, h1, h2, h3, h4⟩ := hu.pos
    refine ⟨L.length + n, t, by omega, ?_, h3, fun hc => by have := h4 hc; omega⟩
    rw [List.getElem?_append_right (by omega), Nat.add_sub_cancel_left]; exact h2

theorem Up.inside {b q : Nat} {T T' r r' : List Token} {ty : TokType} (hty : ty = .array ∨ ty = .object) {a n n' : Nat} (ha : a < z) (hn : n ≠ 0) (hn' : n' ≠ 0) (hu : Up i z (b + 1) q T T') :
    Up i z b (q + 1) (⟨ty, a, b + 1 + T.length, n⟩ :: (T ++ r)) (⟨ty, a, b + 1 + T'.length, n'⟩ :: (T' ++ r')) := by
  have hl := hu.len
  refine ⟨fun m hm => ?_, ?_⟩
  · cases m with
    | zero => exact ⟨_, _, rfl, rfl, rfl, rfl, ha, .inr ⟨hty, show b + (q + 1) ≤ b + 1 + T.length by omega, show b + (q + 1) ≤ b + 1 + T'.length by omega, hn, hn'⟩⟩
    | succ m =>
      obtain ⟨t, t', h1, h2, h3⟩ := (hu.append r r').tok m (by omega)
      rw [show b + 1 + q = b + (q + 1) by omega] at h3
      exact ⟨t, t', by simpa using h1, by simpa using h2, h3⟩
  · obtain ⟨m, t, h1, h2, h3, h4⟩ := (hu.append r r').pos
    exact ⟨m + 1, t, by omega, by simpa using h2, h3, fun hc => by have := h4 hc; omega⟩

/-! ## Positions -/

theorem ord_bound {src : Bytes} : ∀ {ts : List Token}, Foot.Ordered src ts → ∀ t ∈ ts, Foot.posL src ts ≤ t.index ∧ t.index < Foot.stopOf t ∧ Foot.stopOf t ≤ src.length
  | [], _, t, ht => by simp at ht
  | u :: ts, h, t, ht => by
    obtain ⟨h1, h2, h3⟩ := h
    have hp := Foot.ord_pos h3
    rcases List.mem_cons.1 ht with rfl | ht
    · exact ⟨Nat.le_refl _, h1, by omega⟩
    · have := ord_bound h3 t ht
      simp only [Foot.posL]
      exact ⟨by omega, this.2⟩

theorem tok_bound {v : JVal} {a b : Nat} {s : Bytes} (h : IsJson v a s) {t : Token} (ht : t ∈ flatten b v) : a ≤ t.index ∧ t.index < Foot.stopOf t ∧ Foot.stopOf t ≤ a + s.length := by
  obtain ⟨h1, h2⟩ := Foot.json_ord (List.replicate (a + s.length) 0) v a b s [] h (by simp [Foot.posL]) trivial
  rw [List.append_nil] at h1 h2
  have := ord_bound h1 t ht
  rw [h2, List.length_replicate] at this
  exact this

theorem json_whole {v : JVal} {a b : Nat} {s : Bytes} (h : IsJson v a s) (hz : a + s.length ≤ z) : Whole z b (flatten b v) := by
  intro t ht
  have hb := tok_bound h ht
  refine ⟨by omega, fun hc => flatten_in b v t ht hc, fun hc => ?_⟩
  have : Foot.stopOf t = t.end_ := if_neg hc
  omega

theorem json_ne {v : JVal} {a : Nat} {s : Bytes} (h : IsJson v a s) : 0 < s.length := by
  obtain ⟨c, s', rfl, -⟩ := json_head h
  simp

mutual
theorem extents_bound : ∀ (v : JVal) (a : Nat) (s : Bytes), IsJson v a s → ∀ q ∈ extents v, a ≤ q.1 ∧ q.1 < q.2 ∧ q.2 ≤ a + s.length
  | .null i e, a, s, h, q, hq => by
    have := json_ne h
    obtain ⟨rfl, rfl, rfl⟩ := h; simp only [extents, List.mem_singleton] at hq; subst hq; simp
  | .bool b i e, a, s, h, q, hq => by
    have := json_ne h
    obtain ⟨rfl, rfl, rfl⟩ := h; simp only [extents, List.mem_singleton] at hq; subst hq; simp; exact this
  | .num b i e, a, s, h, q, hq => by
    have := json_ne h
    obtain ⟨-, -, rfl, rfl⟩ := h; simp only [extents, List.mem_singleton] at hq; subst hq; simp; exact this
  | .str i e, a, s, h, q, hq => by
    have := json_ne h
    obtain ⟨raw, rfl, -, h⟩ := h
    cases h
    simp only [extents, List.mem_singleton] at hq; subst hq; simp
  | .arr i vs k, a, s, h, q, hq => by
    obtain ⟨body, rfl, rfl, rfl, hb⟩ := h
    simp only [extents, List.mem_cons, List.mem_append, List.length_cons, List.length_append, List.length_nil] at hq ⊢
    rcases hq with rfl | hq | rfl | hq
    · simp only []; omega
    · have := extents_boundL vs _ _ hb q hq; omega
    · simp only []; omega
    · cases hq
  | .obj i ms k, a, s, h, q, hq => by
    obtain ⟨body, rfl, rfl, rfl, hb⟩ := h
    simp only [extents, List.mem_cons, List.mem_append, List.length_cons, List.length_append, List.length_nil] at hq ⊢
    rcases hq with rfl | hq | rfl | hq
    · simp only []; omega
    · have := extents_boundM ms _ _ hb q hq; omega
    · simp only []; omega
    · cases hq
theorem extents_boundL : ∀ (vs : List JVal) (a : Nat) (s : Bytes), IsElems vs a s → ∀ q ∈ extentsL vs, a ≤ q.1 ∧ q.1 < q.2 ∧ q.2 ≤ a + s.length
  | [], _, _, _, q, hq => by simp [extentsL] at hq
  | v :: vs, a, s, h, q, hq => by
    simp only [extentsL, List.mem_append] at hq
    rcases h with ⟨rfl, w, t, w', rfl, -, -, hj⟩ | ⟨-, s1, s2, rfl, ⟨w, t, w', rfl, -, -, hj⟩, hs⟩
    · rcases hq with hq | hq
      · have := extents_bound v _ _ hj q hq
        simp only [List.length_append]; omega
      · simp [extentsL] at hq
    · simp only [List.length_append, List.length_cons] at hs ⊢
      rcases hq with hq | hq
      · have := extents_bound v _ _ hj q hq; omega
      · have := extents_boundL vs _ _ hs q hq; omega
theorem extents_boundM : ∀ (ms : List ((Nat × Nat) × JVal)) (a : Nat) (s : Bytes), IsMembers ms a s → ∀ q ∈ extentsM ms, a ≤ q.1 ∧ q.1 < q.2 ∧ q.2 ≤ a + s.length
  | [], _, _, _, q, hq => by simp [extentsM] at hq
  | (k, v) :: ms, a, s, h, q, hq => by
    obtain ⟨key, val, tl, rfl, ⟨w, u, w', rfl, -, -, raw, rfl, -, hk⟩, ⟨x, t, x', rfl, -, -, hj⟩, hr⟩ := h
    replace hk : k = _ := hk
    simp only [extentsM, List.mem_cons, List.mem_append] at hq
    simp only [List.length_append, List.length_cons, List.length_nil] at hj hr hk ⊢
    rcases hq with rfl | hq | hq
    · subst hk; simp only []; omega
    · have := extents_bound v _ _ hj q hq; omega
    · rcases hr with ⟨rfl, rfl⟩ | ⟨-, s2, rfl, hs⟩
      · simp [extentsM] at hq
      · have := extents_boundM ms _ _ hs q hq
        simp only [List.length_cons]; omega
end

mutual
theorem extents_tok : ∀ (v : JVal) (b : Nat), ∀ q ∈ extents v, ∃ t ∈ flatten b v, t.index = q.1
  | .null i e, b, q, hq => by simp [extents] at hq; subst hq; simp [flatten]
  | .bool _ i e, b, q, hq => by simp [extents] at hq; subst hq; simp [flatten]
  | .num _ i e, b, q, hq => by simp [extents] at hq; subst hq; simp [flatten]
  | .str i e, b, q, hq => by simp [extents] at hq; subst hq; simp [flatten]
  | .arr i vs k, b, q, hq => by
    simp only [extents, List.mem_cons, List.mem_append] at hq
    rcases hq with rfl | hq | rfl | hq
    · exact ⟨_, List.mem_cons_self, rfl⟩
    · obtain ⟨t, h1, h2⟩ := extents_tokL vs (b + 1) q hq
      exact ⟨t, by simp only [flatten]; exact List.mem_cons_of_mem _ (List.mem_append_left _ h1), h2⟩
    · exact ⟨⟨.arrayEnd, k, k + 1, 0⟩, by simp [flatten], rfl⟩
    · cases hq
  | .obj i ms k, b, q, hq => by
    simp only [extents, List.mem_cons, List.mem_append] at hq
    rcases hq with rfl | hq | rfl | hq
    · exact ⟨_, List.mem_cons_self, rfl⟩
    · obtain ⟨t, h1, h2⟩ := extents_tokM ms (b + 1) q hq
      exact ⟨t, by simp only [flatten]; exact List.mem_cons_of_mem _ (List.mem_append_left _ h1), h2⟩
    · exact ⟨⟨.objectEnd, k, k + 1, 0⟩, by simp [flatten], rfl⟩
    · cases hq
theorem extents_tokL : ∀ (vs : List JVal) (b : Nat), ∀ q ∈ extentsL vs, ∃ t ∈ flattenL b vs, t.index = q.1
  | [], _, q, hq => by simp [extentsL] at hq
  | v :: vs, b, q, hq => by
    simp only [extentsL, List.mem_append] at hq
    simp only [flattenL, List.mem_append]
    rcases hq with hq | hq
    · obtain ⟨t, h1, h2⟩ := extents_tok v b q hq; exact ⟨t, .inl h1, h2⟩
    · obtain ⟨t, h1, h2⟩ := extents_tokL vs _ q hq; exact ⟨t, .inr h1, h2⟩
theorem extents_tokM : ∀ (ms : List ((Nat × Nat) × JVal)) (b : Nat), ∀ q ∈ extentsM ms, ∃ t ∈ flattenM b ms, t.index = q.1
  | [], _, q, hq => by simp [extentsM] at hq
  | ((a, e), v) :: ms, b, q, hq => by
    simp only [extentsM, List.mem_cons, List.mem_append] at hq
    simp only [flattenM, List.mem_cons, List.mem_append]
    rcases hq with rfl | hq | hq
    · exact ⟨_, .inl rfl, rfl⟩
    · obtain ⟨t, h1, h2⟩ := extents_tok v _ q hq; exact ⟨t, .inr (.inl h1), h2⟩
    · obtain ⟨t, h1, h2⟩ := extents_tokM ms _ q hq; exact ⟨t, .inr (.inr h1), h2⟩
end

/-! ## Texts -/

theorem ws_split : ∀ {w w2 x y : Bytes} {n : Nat}, IsSpace w → IsSpace w2 → (∃ c x', x = c :: x' ∧ isWs c = false) → (∃ c y', y = c :: y' ∧ isWs c = false) →
    (w ++ x).take n = (w2 ++ y).take n → w.length < n → w = w2 ∧ x.take (n - w.length) = y.take (n - w.length)
  | [], [], x, y, n, _, _, _, _, h, hn => ⟨rfl, by simpa using h⟩
  | [], d :: w2, x, y, n + 1, _, h2, ⟨c, x', hx, hc⟩, _, h, _ => by
    subst hx
    simp only [List.nil_append, List.cons_append, List.take_succ_cons, List.cons.injEq] at h
    rw [h.1] at hc
    rw [(isWs_iff d).2 (h2 d List.mem_cons_self)] at hc
    cases hc
  | d :: w, [], x, y, n + 1, h1, _, _, ⟨c, y', hy, hc⟩, h, _ => by
    subst hy
    simp only [List.nil_append, List.cons_append, List.take_succ_cons, List.cons.injEq] at h
    rw [← h.1] at hc
    rw [(isWs_iff d).2 (h1 d List.mem_cons_self)] at hc
    cases hc
  | d :: w, d2 :: w2, x, y, n + 1, h1, h2, hx, hy, h, hn => by
    simp only [List.cons_append, List.take_succ_cons, List.cons.injEq, List.length_cons] at h hn ⊢
    obtain ⟨h3, h4⟩ := ws_split (w := w) (w2 := w2) (fun c hc => h1 c (List.mem_cons_of_mem _ hc)) (fun c hc => h2 c (List.mem_cons_of_mem _ hc)) hx hy h.2 (by omega)
    refine ⟨⟨h.1, h3⟩, ?_⟩
    rw [show n + 1 - (w.length + 1) = n - w.length by omega]
    exact h4

theorem ends_head {t t'' : Bytes} (h : t.take 1 = t''.take 1) (ht : Ends t) : Ends t'' := by
  cases t <;> cases t'' <;> simp at h
  · exact ht
  · subst h
    intro d hd
    exact ht d hd

/-- A value that is over before the texts differ is the same in both. -/
theorem json_closed {v v' : JVal} {a n : Nat} {s s' t t' : Bytes} (h : IsJson v a s) (h' : IsJson v' a s') (ht : Ends t) (ht' : Ends t') (he : (s ++ t).take n = (s' ++ t').take n) (hn : s.length < n) :
    v' = v ∧ s'.length = s.length ∧ t.take (n - s.length) = t'.take (n - s.length) := by
  have e1 : (s' ++ t').take s.length = s := by
    have := congrArg (List.take s.length) he
    rw [List.take_take, List.take_take, Nat.min_eq_left (by omega), List.take_left'] at this
    · exact this.symm
    · rfl
  have e2 : ((s' ++ t').drop s.length).take (n - s.length) = t.take (n - s.length) := by
    have := congrArg (List.drop s.length) he
    rw [List.drop_take, List.drop_take, List.drop_left'] at this
    · exact this.symm
    · rfl
  have e3 : s' ++ t' = s ++ (s' ++ t').drop s.length := by
    conv => lhs; rw [← List.take_append_drop s.length (s' ++ t'), e1]
  have hE : Ends ((s' ++ t').drop s.length) := by
    refine ends_head ?_ ht
    have := congrArg (List.take 1) e2
    rw [List.take_take, List.take_take, Nat.min_eq_left (by omega)] at this
    exact this.symm
  have f1 := finds v a s ((s' ++ t').drop s.length) (s.length + s'.length + 1) h hE (by omega)
  have f2 := finds v' a s' t' (s.length + s'.length + 1) h' ht' (by omega)
  rw [← e3, f2] at f1
  simp only [Option.some.injEq, Prod.mk.injEq] at f1
  obtain ⟨g1, g2, g3⟩ := f1
  refine ⟨g1, by omega, ?_⟩
  rw [← e2, ← g2]

/-- The white space in front of a value is the same. -/
theorem pad_K {P' : Nat → Bytes → Prop} (hP : ∀ a t, P' a t → ∃ c t', t = c :: t' ∧ isWs c = false) {a n : Nat} {w u w' s' R R' : Bytes} (hw : IsSpace w) (hu : ∃ c x, u = c :: x ∧ isWs c = false)
    (hp' : Padded P' a s') (h : (w ++ u ++ w' ++ R).take n = (s' ++ R').take n) (hn : w.length < n) :
    ∃ u' w'', s' = w ++ u' ++ w'' ∧ IsSpace w'' ∧ P' (a + w.length) u' ∧ (u ++ (w' ++ R)).take (n - w.length) = (u' ++ (w'' ++ R')).take (n - w.length) := by
  obtain ⟨w2, u', w'', rfl, h1, h2, h3⟩ := hp'
  obtain ⟨c, x, rfl, hc⟩ := hu
  obtain ⟨d, y, rfl, hd⟩ := hP _ _ h3
  simp only [List.append_assoc] at h
  obtain ⟨rfl, h4⟩ := ws_split hw h1 ⟨c, _, rfl, hc⟩ ⟨d, _, rfl, hd⟩ h hn
  exact ⟨d :: y, w'', rfl, h2, h3, h4⟩

/-- A value that is over is the same, and so are the white space and the character that follow. -/
theorem close_K {v v' : JVal} {a n : Nat} {u u' w' w'' Y Y' : Bytes} {c c' : UInt8} (h : IsJson v a u) (h' : IsJson v' a u') (hw : IsSpace w') (hw' : IsSpace w'')
    (hc : isWs c = false ∧ isNumChar c = false) (hc' : isWs c' = false ∧ isNumChar c' = false)
    (he : (u ++ (w' ++ c :: Y)).take n = (u' ++ (w'' ++ c' :: Y')).take n) (hn : u.length + w'.length < n) :
    v' = v ∧ u'.length = u.length ∧ w'' = w' ∧ c' = c ∧ Y.take (n - u.length - w'.length - 1) = Y'.take (n - u.length - w'.length - 1) := by
  obtain ⟨h1, h2, h3⟩ := json_closed h h' (ends_space hw (ends_of hc.2)) (ends_space hw' (ends_of hc'.2)) he (by omega)
  obtain ⟨h4, h5⟩ := ws_split hw hw' ⟨c, _, rfl, hc.1⟩ ⟨c', _, rfl, hc'.1⟩ h3 (by omega)
  obtain ⟨m, hm⟩ : ∃ m, n - u.length - w'.length = m + 1 := ⟨n - u.length - w'.length - 1, by omega⟩
  rw [hm, List.take_succ_cons, List.take_succ_cons, List.cons.injEq] at h5
  refine ⟨h1, h2, h4.symm, h5.1.symm, ?_⟩
  rw [hm, Nat.add_sub_cancel]
  exact h5.2

theorem head_ws {v : JVal} {a : Nat} {s : Bytes} (h : IsJson v a s) : ∃ c s', s = c :: s' ∧ isWs c = false := by
  obtain ⟨c, s', h1, h2, -⟩ := json_head h
  exact ⟨c, s', h1, h2⟩

/-- A nonempty list of elements with the bracket behind it. -/
theorem elems_cons {v : JVal} {vs : List JVal} {a : Nat} {s t : Bytes} (h : IsElems (v :: vs) a s) : ∃ s₁ c Y, s ++ 93 :: t = s₁ ++ c :: Y ∧ Padded (IsJson v) a s₁ ∧ s₁.length ≤ s.length ∧
    ((vs = [] ∧ c = 93) ∨ (vs ≠ [] ∧ c = 44 ∧ ∃ s₂, Y = s₂ ++ 93 :: t ∧ IsElems vs (a + s₁.length + 1) s₂)) := by
  rcases h with ⟨rfl, hp⟩ | ⟨hvs, s₁, s₂, rfl, hp, hr⟩
  · exact ⟨s, 93, t, rfl, hp, Nat.le_refl _, .inl ⟨rfl, rfl⟩⟩
  · exact ⟨s₁, 44, s₂ ++ 93 :: t, by simp, hp, by simp, .inr ⟨hvs, rfl, s₂, rfl, hr⟩⟩

/-- A nonempty list of members with the brace behind it. -/
theorem members_cons {k : Nat × Nat} {v : JVal} {ms : List ((Nat × Nat) × JVal)} {a : Nat} {s t : Bytes} (h : IsMembers ((k, v) :: ms) a s) :
    ∃ key val c Y, s ++ 125 :: t = key ++ 58 :: (val ++ c :: Y) ∧ Padded (IsString k) a key ∧ Padded (IsJson v) (a + key.length + 1) val ∧
    ((ms = [] ∧ c = 125) ∨ (ms ≠ [] ∧ c = 44 ∧ ∃ s₂, Y = s₂ ++ 125 :: t ∧ IsMembers ms (a + key.length + 1 + val.length + 1) s₂)) := by
  obtain ⟨key, val, rest, rfl, hk, hv, hr⟩ := h
  rcases hr with ⟨rfl, rfl⟩ | ⟨hms, s₂, rfl, hr⟩
  · exact ⟨key, val, 125, t, by simp, hk, hv, .inl ⟨rfl, rfl⟩⟩
  · exact ⟨key, val, 44, s₂ ++ 125 :: t, by simp, hk, hv, .inr ⟨hms, rfl, s₂, rfl, hr⟩⟩

theorem delim {c : UInt8} {P Q : Prop} (h : (P ∧ c = 93) ∨ (Q ∧ c = 44 ∧ True)) : isWs c = false ∧ isNumChar c = false := by
  rcases h with ⟨-, rfl⟩ | ⟨-, rfl, -⟩ <;> decide

theorem delim' {c : UInt8} {P Q : Prop} (h : (P ∧ c = 125) ∨ (Q ∧ c = 44 ∧ True)) : isWs c = false ∧ isNumChar c = false := by
  rcases h with ⟨-, rfl⟩ | ⟨-, rfl, -⟩ <;> decide

theorem flattenL_ne {vs : List JVal} {b : Nat} (h : 0 < (flattenL b vs).length) : vs.length ≠ 0 := by
  cases vs with
  | nil => simp [flattenL] at h
  | cons => simp

theorem flattenM_ne {ms : List ((Nat × Nat) × JVal)} {b : Nat} (h : 0 < (flattenM b ms).length) : ms.length ≠ 0 := by
  cases ms with
  | nil => simp [flattenM] at h
  | cons => simp

mutual
theorem up_json : ∀ (v v' : JVal) (a b : Nat) (s s' t t' : Bytes), IsJson v a s → IsJson v' a s' → Ends t → Ends t' → (s ++ t).take (z + 1 - a) = (s' ++ t').take (z + 1 - a) → (i, z) ∈ extents v →
    ∃ q, Up i z b q (flatten b v) (flatten b v')
  | v, v', a, b, s, s', t, t', h, h', ht, ht', he, hi => by
    have hb := extents_bound v a s h _ hi
    simp only [] at hb
    by_cases hz : z = a + s.length
    · obtain ⟨rfl, -, -⟩ := json_closed h h' ht ht' he (by omega)
      obtain ⟨u, h1, h2⟩ := extents_tok v' b _ hi
      exact ⟨_, .whole (json_whole h (by omega)) ⟨u, h1, h2⟩⟩
    · have hl : ∃ m, z + 1 - a = m + 1 := ⟨z - a, by omega⟩
      obtain ⟨m, hm⟩ := hl
      match v, h, hi with
      | .null j e, h, hi =>
        simp only [extents, List.mem_singleton, Prod.mk.injEq] at hi
        exact absurd (hi.2.trans h.2.2) hz
      | .bool b' j e, h, hi =>
        simp only [extents, List.mem_singleton, Prod.mk.injEq] at hi
        exact absurd (hi.2.trans h.2.2) hz
      | .num b' j e, h, hi =>
        simp only [extents, List.mem_singleton, Prod.mk.injEq] at hi
        exact absurd (hi.2.trans h.2.2.2) hz
      | .str j e, h, hi =>
        simp only [extents, List.mem_singleton, Prod.mk.injEq] at hi
        obtain ⟨raw, -, -, hk⟩ := h
        simp only [Prod.mk.injEq] at hk
        exact absurd (hi.2.trans hk.2) hz
      | .arr j vs k, h, hi =>
        obtain ⟨body, rfl, rfl, rfl, hb'⟩ := h
        have hi' : (i, z) ∈ extentsL vs := by
          simp only [extents, List.mem_cons, List.mem_append, Prod.mk.injEq, List.not_mem_nil, or_false] at hi
          simp only [List.length_cons, List.length_append, List.length_nil] at hz
          rcases hi with hi | hi | hi
          · omega
          · exact hi
          · omega
        rw [hm] at he
        simp only [List.cons_append, List.take_succ_cons] at he
        obtain ⟨k', vs', body', rfl, rfl, hb2⟩ : ∃ k' vs' body', v' = .arr j vs' k' ∧ s' = 91 :: (body' ++ [93]) ∧ IsElems vs' (j + 1) body' := by
          cases v' with
          | null => obtain ⟨rfl, -⟩ := h'; simp at he
          | bool b' => obtain ⟨rfl, -⟩ := h'; cases b' <;> simp at he
          | num =>
            have hn := num_chars h'.1
            cases s' with
            | nil => exact absurd (json_ne h') (by simp)
            | cons c s' =>
              simp only [List.cons_append, List.take_succ_cons, List.cons.injEq] at he
              have := hn c List.mem_cons_self
              rw [← he.1] at this
              simp [isNumChar] at this
          | str => obtain ⟨raw, rfl, -⟩ := h'; simp at he
          | obj => obtain ⟨raw, rfl, -⟩ := h'; simp at he
          | arr j' vs' k' =>
            obtain ⟨body', rfl, rfl, -, hb2⟩ := h'
            exact ⟨_, _, _, rfl, rfl, hb2⟩
        simp only [List.cons_append, List.take_succ_cons, List.cons.injEq, List.append_assoc, List.nil_append, true_and] at he
        obtain ⟨q, hq⟩ := up_elems vs vs' (j + 1) (b + 1) body body' t t' hb' hb2 (by rwa [show z + 1 - (j + 1) = m by omega]) hi'
        have hql := hq.len
        exact ⟨q + 1, hq.inside (.inl rfl) (by omega) (flattenL_ne (b := b + 1) (by omega)) (flattenL_ne (b := b + 1) (by omega))⟩
      | .obj j ms k, h, hi =>
        obtain ⟨body, rfl, rfl, rfl, hb'⟩ := h
        have hi' : (i, z) ∈ extentsM ms := by
          simp only [extents, List.mem_cons, List.mem_append, Prod.mk.injEq, List.not_mem_nil, or_false] at hi
          simp only [List.length_cons, List.length_append, List.length_nil] at hz
          rcases hi with hi | hi | hi
          · omega
          · exact hi
          · omega
        rw [hm] at he
        simp only [List.cons_append, List.take_succ_cons] at he
        obtain ⟨k', ms', body', rfl, rfl, hb2⟩ : ∃ k' ms' body', v' = .obj j ms' k' ∧ s' = 123 :: (body' ++ [125]) ∧ IsMembers ms' (j + 1) body' := by
          cases v' with
          | null => obtain ⟨rfl, -⟩ := h'; simp at he
          | bool b' => obtain ⟨rfl, -⟩ := h'; cases b' <;> simp at he
          | num =>
            have hn := num_chars h'.1
            cases s' with
            | nil => exact absurd (json_ne h') (by simp)
            | cons c s' =>
              simp only [List.cons_append, List.take_succ_cons, List.cons.injEq] at he
              have := hn c List.mem_cons_self
              rw [← he.1] at this
              simp [isNumChar] at this
          | str => obtain ⟨raw, rfl, -⟩ := h'; simp at he
          | arr => obtain ⟨raw, rfl, -⟩ := h'; simp at he
          | obj j' vs' k' =>
            obtain ⟨body', rfl, rfl, -, hb2⟩ := h'
            exact ⟨_, _, _, rfl, rfl, hb2⟩
        simp only [List.cons_append, List.take_succ_cons, List.cons.injEq, List.append_assoc, List.nil_append, true_and] at he
        obtain ⟨q, hq⟩ := up_members ms ms' (j + 1) (b + 1) body body' t t' hb' hb2 (by rwa [show z + 1 - (j + 1) = m by omega]) hi'
        have hql := hq.len
        exact ⟨q + 1, hq.inside (.inr rfl) (by omega) (flattenM_ne (b := b + 1) (by omega)) (flattenM_ne (b := b + 1) (by omega))⟩
theorem up_elems : ∀ (vs vs' : List JVal) (a b : Nat) (s s' t t' : Bytes), IsElems vs a s → IsElems vs' a s' → (s ++ 93 :: t).take (z + 1 - a) = (s' ++ 93 :: t').take (z + 1 - a) → (i, z) ∈ extentsL vs →
    ∃ q, Up i z b q (flattenL b vs) (flattenL b vs')
  | [], _, _, _, _, _, _, _, _, _, _, hi => by simp [extentsL] at hi
  | v :: vs, vs', a, b, s, s', t, t', h, h', he, hi => by
    obtain ⟨s₁, c, Y, e1, ⟨w, u, w', rfl, hw, hw', hu⟩, -, hc⟩ := elems_cons (t := t) h
    have hcd : isWs c = false ∧ isNumChar c = false := delim (hc.imp id fun h => ⟨h.1, h.2.1, trivial⟩)
    have hza : a + w.length + 1 ≤ z := by
      simp only [extentsL, List.mem_append] at hi
      rcases hi with hi | hi
      · have := extents_bound v _ _ hu _ hi
        simp only [] at this
        omega
      · rcases hc with ⟨rfl, -⟩ | ⟨-, -, s₂, -, hr⟩
        · simp [extentsL] at hi
        · have := extents_boundL vs _ _ hr _ hi
          simp only [List.length_append] at this
          omega
    rw [e1] at he
    cases vs' with
    | nil =>
      obtain ⟨d, x, hx, hd⟩ := json_head hu
      rw [hx] at he
      simp only [List.append_assoc, List.cons_append] at he
      obtain ⟨-, h2⟩ := ws_split hw (show IsSpace s' from h') ⟨d, _, rfl, hd.1⟩ ⟨93, _, rfl, by decide⟩ he (by omega)
      obtain ⟨m, hm⟩ : ∃ m, z + 1 - a - w.length = m + 1 := ⟨z - a - w.length, by omega⟩
      rw [hm, List.take_succ_cons, List.take_succ_cons, List.cons.injEq] at h2
      exact absurd h2.1 hd.2.1
    | cons v' vs' =>
      obtain ⟨s₁', c', Y', e1', hp', -, hc'⟩ := elems_cons (t := t') h'
      have hcd' : isWs c' = false ∧ isNumChar c' = false := delim (hc'.imp id fun h => ⟨h.1, h.2.1, trivial⟩)
      rw [e1'] at he
      obtain ⟨u', w'', rfl, hw'', hu', he'⟩ := pad_K (P' := IsJson v') (fun _ _ => head_ws) hw (head_ws hu) hp' he (by omega)
      rw [show z + 1 - a - w.length = z + 1 - (a + w.length) by omega] at he'
      simp only [extentsL, List.mem_append] at hi
      simp only [flattenL]
      by_cases hiv : (i, z) ∈ extents v
      · obtain ⟨q, hq⟩ := up_json v v' (a + w.length) b u u' _ _ hu hu' (ends_space hw' (ends_of hcd.2)) (ends_space hw'' (ends_of hcd'.2)) he' hiv
        exact ⟨q, hq.append _ _⟩
      · replace hi := hi.resolve_left hiv
        rcases hc with ⟨rfl, -⟩ | ⟨hvs, rfl, s₂, rfl, hr⟩
        · simp [extentsL] at hi
        · have hz2 := extents_boundL vs _ _ hr _ hi
          simp only [List.length_append] at hz2 hr
          obtain ⟨rfl, g2, rfl, rfl, g5⟩ := close_K hu hu' hw' hw'' hcd hcd' he' (by omega)
          rcases hc' with ⟨-, hx⟩ | ⟨hvs', -, s₂', rfl, hr'⟩
          · exact absurd hx (by decide)
          · simp only [List.length_append, g2] at hr'
            obtain ⟨q, hq⟩ := up_elems vs vs' _ (b + (flatten b v').length) s₂ s₂' t t' hr hr' (by
              rwa [show z + 1 - (a + w.length) - u.length - w''.length - 1 = z + 1 - (a + (w.length + u.length + w''.length) + 1) by omega] at g5) hi
            exact ⟨_, .after (json_whole hu (by omega)) hq⟩
theorem up_members : ∀ (ms ms' : List ((Nat × Nat) × JVal)) (a b : Nat) (s s' t t' : Bytes), IsMembers ms a s → IsMembers ms' a s' → (s ++ 125 :: t).take (z + 1 - a) = (s' ++ 125 :: t').take (z + 1 - a) →
    (i, z) ∈ extentsM ms → ∃ q, Up i z b q (flattenM b ms) (flattenM b ms')
  | [], _, _, _, _, _, _, _, _, _, _, hi => by simp [extentsM] at hi
  | (k, v) :: ms, ms', a, b, s, s', t, t', h, h', he, hi => by
    have hall := extents_boundM _ _ _ h _ hi
    obtain ⟨key, val, c, Y, e1, ⟨w, u, w', rfl, hw, hw', hu⟩, ⟨x, y, x', rfl, hx, hx', hy⟩, hc⟩ := members_cons (t := t) h
    have hcd : isWs c = false ∧ isNumChar c = false := delim' (hc.imp id fun h => ⟨h.1, h.2.1, trivial⟩)
    have hk1 : k.1 = a + w.length ∧ k.2 = a + w.length + u.length := by
      obtain ⟨raw, -, -, hk⟩ := hu
      rw [hk]; exact ⟨rfl, rfl⟩
    have hus : IsJson (.str k.1 k.2) (a + w.length) u := hu
    have hun := json_ne hus
    simp only [List.length_append] at hy hc
    have hzs : k = (i, z) ∨ a + w.length + u.length + w'.length + 1 + x.length + 1 ≤ z := by
      simp only [extentsM, List.mem_cons, List.mem_append] at hi
      rcases hi with hi | hi | hi
      · exact .inl hi.symm
      · have := extents_bound v _ _ hy _ hi
        simp only [] at this
        exact .inr (by omega)
      · rcases hc with ⟨rfl, -⟩ | ⟨-, -, s₂, -, hr⟩
        · simp [extentsM] at hi
        · have := extents_boundM ms _ _ hr _ hi
          simp only [] at this
          exact .inr (by omega)
    have hza : a + w.length + u.length ≤ z := by
      rcases hzs with rfl | hzs
      · exact Nat.le_of_eq hk1.2.symm
      · omega
    rw [e1] at he
    cases ms' with
    | nil =>
      obtain ⟨d, x0, hx0, hd⟩ := json_head hus
      rw [hx0] at he
      simp only [List.append_assoc, List.cons_append] at he
      obtain ⟨-, h2⟩ := ws_split hw (show IsSpace s' from h') ⟨d, _, rfl, hd.1⟩ ⟨125, _, rfl, by decide⟩ he (by omega)
      obtain ⟨m, hm⟩ : ∃ m, z + 1 - a - w.length = m + 1 := ⟨z - a - w.length, by omega⟩
      rw [hm, List.take_succ_cons, List.take_succ_cons, List.cons.injEq] at h2
      exact absurd h2.1 hd.2.2
    | cons mv' ms' =>
      obtain ⟨k', v'⟩ := mv'
      obtain ⟨key', val', c', Y', e1', hk', hv', hc'⟩ := members_cons (t := t') h'
      have hcd' : isWs c' = false ∧ isNumChar c' = false := delim' (hc'.imp id fun h => ⟨h.1, h.2.1, trivial⟩)
      rw [e1'] at he
      obtain ⟨u', w'', rfl, hw'', hu', he'⟩ := pad_K (P' := IsString k') (fun a t h => by
        obtain ⟨c, t', h1, h2, -⟩ := string_head h
        exact ⟨c, t', h1, h2⟩) hw (head_ws hus) hk' he (by omega)
      have hus' : IsJson (.str k'.1 k'.2) (a + w.length) u' := hu'
      rw [show z + 1 - a - w.length = z + 1 - (a + w.length) by omega] at he'
      have hcol : isWs 58 = false ∧ isNumChar 58 = false := by decide
      obtain ⟨j, e⟩ := k
      obtain ⟨j', e'⟩ := k'
      simp only [] at hk1 hus hus'
      simp only [flattenM]
      have hkw : Whole z b [⟨.key, j, e, 0⟩] := by
        intro t ht
        rcases List.mem_singleton.1 ht with rfl
        exact ⟨show j < z by omega, (fun hc => by rcases hc with hc | hc <;> cases hc), fun _ => show e ≤ z by omega⟩
      obtain ⟨hv0, -, -⟩ := json_closed hus hus' (ends_space hw' (ends_of hcol.2)) (ends_space hw'' (ends_of hcol.2)) he' (by omega)
      cases hv0
      rcases hzs with hkk | hzs
      · cases hkk
        have := (Up.whole hkw ⟨_, List.mem_singleton.2 rfl, rfl⟩).append (flatten (b + 1) v ++ flattenM (b + 1 + (flatten (b + 1) v).length) ms)
          (flatten (b + 1) v' ++ flattenM (b + 1 + (flatten (b + 1) v').length) ms')
        exact ⟨_, this⟩
      · obtain ⟨-, g2, rfl, -, g5⟩ := close_K hus hus' hw' hw'' hcol hcol he' (by omega)
        simp only [List.length_append, g2] at hv' hc'
        rw [show z + 1 - (a + w.length) - u.length - w''.length - 1 = z + 1 - (a + (w.length + u.length + w''.length) + 1) by omega] at g5
        obtain ⟨y', x'', rfl, hx'', hy', he''⟩ := pad_K (P' := IsJson v') (fun _ _ => head_ws) hx (head_ws hy) hv' g5 (by omega)
        rw [show z + 1 - (a + (w.length + u.length + w''.length) + 1) - x.length = z + 1 - (a + (w.length + u.length + w''.length) + 1 + x.length) by omega] at he''
        simp only [extentsM, List.mem_cons, List.mem_append] at hi
        have hi2 : (i, z) ∈ extents v ∨ (i, z) ∈ extentsM ms := by
          rcases hi with hi | hi
          · cases hi; omega
          · exact hi
        by_cases hiv : (i, z) ∈ extents v
        · obtain ⟨q, hq⟩ := up_json v v' _ (b + 1) y y' _ _ hy hy' (ends_space hx' (ends_of hcd.2)) (ends_space hx'' (ends_of hcd'.2)) he'' hiv
          exact ⟨_, .after (L := [⟨.key, j, e, 0⟩]) hkw (hq.append _ _)⟩
        · replace hi2 := hi2.resolve_left hiv
          rcases hc with ⟨rfl, -⟩ | ⟨hms, rfl, s₂, rfl, hr⟩
          · simp [extentsM] at hi2
          · have hz2 := extents_boundM ms _ _ hr _ hi2
            simp only [] at hz2
            obtain ⟨rfl, k2, rfl, rfl, k5⟩ := close_K hy hy' hx' hx'' hcd hcd' he'' (by omega)
            rcases hc' with ⟨-, hbad⟩ | ⟨hms', -, s₂', rfl, hr'⟩
            · exact absurd hbad (by decide)
            · simp only [List.length_append, k2] at hr'
              obtain ⟨q, hq⟩ := up_members ms ms' _ (b + 1 + (flatten (b + 1) v').length) s₂ s₂' t t' hr hr' (by
                rwa [show z + 1 - (a + (w.length + u.length + w''.length) + 1 + x.length) - y.length - x''.length - 1 =
                  z + 1 - (a + (w.length + u.length + w''.length) + 1 + (x.length + y.length + x''.length) + 1) by omega] at k5) hi2
              exact ⟨_, .after (L := [⟨.key, j, e, 0⟩]) hkw (.after (json_whole hy (by omega)) hq)⟩
end

/-! ## Documents -/

theorem ord_lt {src : Bytes} : ∀ {ts : List Token}, Foot.Ordered src ts → ∀ (n m : Nat) (t u : Token), ts[n]? = some t → ts[m]? = some u → n < m → t.index < u.index
  | [], _, n, m, t, u, ht, _, _ => by simp at ht
  | w :: ts, h, 0, m + 1, t, u, ht, hu, _ => by
    cases ht
    have := ord_bound h.2.2 u (List.mem_of_getElem? hu)
    have := h.1
    have := h.2.1
    omega
  | w :: ts, h, n + 1, m + 1, t, u, ht, hu, hl => ord_lt h.2.2 n m t u (by simpa using ht) (by simpa using hu) (by omega)

theorem ag_of {src src' : Bytes} {v v' : JVal} (h : IsDoc src v) (h' : IsDoc src' v') (hi : (i, z) ∈ extents v) (he : src.take (z + 1) = src'.take (z + 1)) :
    ∃ p, ∀ pr : Prog, pr.src = src → pr.toks = flatten 0 v → Ag pr src' (flatten 0 v') i p z := by
  have ho := Foot.doc_ord h
  have htk : src.take z = src'.take z := by
    have := congrArg (List.take z) he
    simpa only [List.take_take, Nat.min_eq_left (Nat.le_succ z)] using this
  obtain ⟨w, u, w', rfl, hw, hw', hu⟩ := h
  have hb := extents_bound v _ u hu _ hi
  simp only [] at hb
  obtain ⟨u', w'', rfl, hw'', hu', he'⟩ := pad_K (P' := IsJson v') (R := []) (R' := []) (fun _ _ => head_ws) hw (head_ws hu) h' (by simpa using he) (by omega)
  rw [show z + 1 - w.length = z + 1 - (0 + w.length) by omega] at he'
  obtain ⟨q, hq⟩ := up_json v v' _ 0 u u' _ _ hu hu' (ends_space hw' (fun c hc => by cases hc)) (ends_space hw'' (fun c hc => by cases hc)) he' hi
  refine ⟨q, fun pr h1 h2 => ⟨?_, h1 ▸ htk, ?_, v, h2⟩⟩
  · rw [h2]; simpa only [Nat.zero_add] using hq.tok
  · rw [h2]
    intro n t ht hti
    obtain ⟨m, t', h3, h4, h5, h6⟩ := hq.pos
    rcases Nat.lt_trichotomy n m with hl | rfl | hl
    · have := ord_lt ho n m t t' ht h4 hl; omega
    · rw [h4] at ht; cases ht
      exact ⟨h3, by simpa only [Nat.zero_add] using h6⟩
    · have := ord_lt ho m n t' t h4 ht hl; omega

mutual
theorem starts_extents : ∀ (v : JVal), ∀ i ∈ starts v, ∃ z, (i, z) ∈ extents v
  | .null i e, j, h | .bool _ i e, j, h | .num _ i e, j, h | .str i e, j, h => by
    simp only [starts, List.mem_singleton] at h
    subst h
    exact ⟨e, by simp [extents]⟩
  | .arr i vs k, j, h => by
    simp only [starts, List.mem_cons, List.mem_append, List.mem_singleton, List.not_mem_nil, or_false] at h
    simp only [extents, List.mem_cons, List.mem_append, List.not_mem_nil, or_false]
    rcases h with rfl | h | rfl
    · exact ⟨_, .inl rfl⟩
    · obtain ⟨z, hz⟩ := starts_extentsL vs j h
      exact ⟨z, .inr (.inl hz)⟩
    · exact ⟨_, .inr (.inr rfl)⟩
  | .obj i ms k, j, h => by
    simp only [starts, List.mem_cons, List.mem_append, List.mem_singleton, List.not_mem_nil, or_false] at h
    simp only [extents, List.mem_cons, List.mem_append, List.not_mem_nil, or_false]
    rcases h with rfl | h | rfl
    · exact ⟨_, .inl rfl⟩
    · obtain ⟨z, hz⟩ := starts_extentsM ms j h
      exact ⟨z, .inr (.inl hz)⟩
    · exact ⟨_, .inr (.inr rfl)⟩
theorem starts_extentsL : ∀ (vs : List JVal), ∀ i ∈ startsL vs, ∃ z, (i, z) ∈ extentsL vs
  | [], j, h => by simp [startsL] at h
  | v :: vs, j, h => by
    simp only [startsL, List.mem_append] at h
    simp only [extentsL, List.mem_append]
    rcases h with h | h
    · obtain ⟨z, hz⟩ := starts_extents v j h
      exact ⟨z, .inl hz⟩
    · obtain ⟨z, hz⟩ := starts_extentsL vs j h
      exact ⟨z, .inr hz⟩
theorem starts_extentsM : ∀ (ms : List ((Nat × Nat) × JVal)), ∀ i ∈ startsM ms, ∃ z, (i, z) ∈ extentsM ms
  | [], j, h => by simp [startsM] at h
  | (k, v) :: ms, j, h => by
    simp only [startsM, List.mem_cons, List.mem_append] at h
    simp only [extentsM, List.mem_cons, List.mem_append]
    rcases h with rfl | h | h
    · exact ⟨k.2, .inl rfl⟩
    · obtain ⟨z, hz⟩ := starts_extents v j h
      exact ⟨z, .inr (.inl hz)⟩
    · obtain ⟨z, hz⟩ := starts_extentsM ms j h
      exact ⟨z, .inr (.inr hz)⟩
end

end Verif.Proof.Causal

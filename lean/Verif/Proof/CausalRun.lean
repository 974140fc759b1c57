import Verif.Proof.Judge
import Verif.Proof.ErrIdx
/-!
# Two runs on documents that agree up to some token
-/
namespace Verif.Proof.Causal
open Verif.Model Verif.Spec Verif.Big Verif.Proof Verif.Proof.Judge Verif.Proof.Place Verif.Proof.Term

/-- The steps do not go back. -/
theorem step_mono {pr : Prog} {s s' : St} (hT : TokOK pr.toks) (h : step pr s = .run s') : s.ti ≤ s'.ti := by
  unfold step at h
  split at h
  · split at h
    · cases h
    · rename_i t ht
      split at h
      · cases h
      · rcases dispatch_adv hT ht h with h1 | ⟨h1, -⟩ <;> omega
  · split at h
    · cases h
    · simp only [onRecurObjEnd] at h
      split at h
      · cases h; exact Nat.le_refl _
      · split at h
        · cases h
        · split at h <;> cases h <;> exact Nat.le_refl _
  · split at h
    · cases h
    · simp only [onValEnd] at h
      split at h
      · cases h; exact Nat.le_refl _
      · split at h
        · cases h
        · split at h
          · cases h; exact Nat.le_refl _
          · split at h
            · split at h <;> cases h
              exact Nat.le_add_right _ _
            · cases h; exact Nat.le_refl _
          all_goals cases h; exact Nat.le_refl _
  · simp only [onPtr] at h
    split at h
    · cases h
    · split at h
      · cases h
      · split at h
        · cases h; exact Nat.le_refl _
        · split at h <;> cases h
          exact Nat.le_refl _
  · split at h
    · rename_i t f ht hf
      simp only [onJSONUnmarshaler] at h
      split at h
      · rename_i raw ti rt old hraw _ _ _
        have hti : s.ti < ti := by
          simp only [rawValue] at hraw
          split at hraw
          · rename_i hty
            have hend := hT _ _ ht (hty.symm)
            split at hraw
            · cases hraw
            · simp only [Option.map_eq_some_iff, Prod.mk.injEq] at hraw
              obtain ⟨_, _, -, h2⟩ := hraw
              omega
          · simp only [Option.map_eq_some_iff, Prod.mk.injEq] at hraw
            obtain ⟨_, _, -, h2⟩ := hraw
            omega
        split at h
        · cases h
        · split at h <;> cases h
          exact Nat.le_of_lt hti
      · cases h
    · cases h

/-- A token that is the same in both documents, with everything that belongs to it. -/
def Settled (p z : Nat) (t t' : Token) : Prop := t' = t ∧ (Con t → t.end_ < p) ∧ (¬ Con t → t.end_ ≤ z)

/-- The first token of an array or object that is not over at the token `p`. -/
def Open (p : Nat) (t t' : Token) : Prop := Con t ∧ p ≤ t.end_ ∧ p ≤ t'.end_ ∧ t.elements ≠ 0 ∧ t'.elements ≠ 0

/-- The documents agree in the tokens before `p` and in the bytes before `z`, and the token at byte `i` is one of them. -/
structure Ag (pr : Prog) (src' : Bytes) (toks' : List Token) (i p z : Nat) : Prop where
  tok : ∀ n, n < p → ∃ t t', pr.toks[n]? = some t ∧ toks'[n]? = some t' ∧ t'.type = t.type ∧ t'.index = t.index ∧ t.index < z ∧ (Settled p z t t' ∨ Open p t t')
  take : pr.src.take z = src'.take z
  idx : ∀ (n : Nat) t, pr.toks[n]? = some t → t.index = i → n < p ∧ (Con t → t.end_ < p)
  tree : ∃ v, pr.toks = flatten 0 v

/-- The second outcome is what the first one says it has to be. -/
def K (i p : Nat) : Out → Out → Prop
  | .err j e _, o' => j = i → o' = .crash ∨ ∃ s', o' = .err i e s'
  | .run s, o' => p ≤ s.ti ∨ o' = .crash ∨ ∃ s', o' = .run s' ∧ Ctl s s'
  | _, _ => True

variable {i p z : Nat}

theorem K.left {o : Out} : K i p .crash o := trivial
theorem K.right {o : Out} : K i p o .crash := by
  cases o with
  | err => exact fun _ => .inl rfl
  | run => exact .inr (.inl rfl)
  | _ => trivial
theorem K.late {s : St} {o : Out} (h : p ≤ s.ti) : K i p (.run s) o := .inl h
theorem K.go {s s' : St} (h : Ctl s s') : K i p (.run s) (.run s') := .inr (.inr ⟨s', rfl, h⟩)
theorem K.other {j : Nat} {e : Err} {s : St} {o : Out} (h : j ≠ i) : K i p (.err j e s) o := fun h' => absurd h' h
theorem K.same {j : Nat} {e : Err} {s s' : St} : K i p (.err j e s) (.err j e s') := fun h => .inr ⟨s', by rw [h]⟩

theorem K.of {o o' : Out} (h : OutC o o') : K i p o o' := by
  cases o <;> cases o' <;> first | trivial | exact h.elim | exact K.right | exact K.go h | skip
  obtain ⟨rfl, rfl, -⟩ := h
  exact K.same

theorem opt_K {o o' : Option Block} {k k' : Block → Out} (h : ∀ a a', K i p (k a) (k' a')) :
    K i p (match o with | none => .crash | some a => k a) (match o' with | none => .crash | some a => k' a) := by
  cases o with
  | none => exact .left
  | some a =>
    cases o' with
    | none => exact .right
    | some a' => exact h a a'

/-- The same outcome for the same state. -/
theorem K.eq {o o1 o' : Out} (h : o = o1) (hc : OutC o1 o') : K i p o o' := h ▸ K.of hc

/-! ## Texts -/

theorem slice_take {s s' : Bytes} (h : s.take z = s'.take z) {a b : Nat} (hb : b ≤ z) : slice s a b = slice s' a b := by
  have key : ∀ s : Bytes, slice s a b = slice (s.take z) a b := by
    intro s
    unfold slice
    have hl : (s.take z).length = min z s.length := List.length_take
    by_cases hc : a ≤ b ∧ b ≤ s.length
    · rw [if_pos hc, if_pos ⟨hc.1, by omega⟩, List.drop_take, List.take_take, Nat.min_eq_left (by omega)]
    · rw [if_neg hc, if_neg (fun h => hc ⟨h.1, by omega⟩)]
  rw [key s, key s', h]

mutual
theorem any_same {x : Ext} {src src' : Bytes} (h : src.take z = src'.take z) : ∀ (w : JVal) (ti : Nat), (∀ t ∈ flatten ti w, ¬ Con t → t.end_ ≤ z) → anyOf x src w = anyOf x src' w
  | .null _ _, _, _ => rfl
  | .bool _ _ _, _, _ => rfl
  | .num b a e, ti, ht => by
    have := ht _ (by simp only [flatten]; exact List.mem_singleton.2 rfl) (by cases b <;> simp [Con])
    simp only [anyOf, slice_take h (show e ≤ z from this)]
  | .str a e, ti, ht => by
    have := ht _ (by simp only [flatten]; exact List.mem_singleton.2 rfl) (by simp [Con])
    simp only [anyOf, slice_take h (show e - 1 ≤ z by simp only [] at this; omega)]
  | .arr a vs k, ti, ht => by
    simp only [anyOf, any_sameL h vs (ti + 1) fun t hm => ht t (by simp only [flatten]; exact List.mem_cons_of_mem _ (List.mem_append_left _ hm))]
  | .obj a ms k, ti, ht => by
    simp only [anyOf, any_sameM h ms (ti + 1) [] fun t hm => ht t (by simp only [flatten]; exact List.mem_cons_of_mem _ (List.mem_append_left _ hm))]
theorem any_sameL {x : Ext} {src src' : Bytes} (h : src.take z = src'.take z) : ∀ (ws : List JVal) (ti : Nat), (∀ t ∈ flattenL ti ws, ¬ Con t → t.end_ ≤ z) → anyOfL x src ws = anyOfL x src' ws
  | [], _, _ => rfl
  | w :: ws, ti, ht => by
    simp only [flattenL, List.mem_append] at ht
    simp only [anyOfL, any_same h w ti fun t hm => ht t (.inl hm), any_sameL h ws _ fun t hm => ht t (.inr hm)]
theorem any_sameM {x : Ext} {src src' : Bytes} (h : src.take z = src'.take z) : ∀ (ms : List ((Nat × Nat) × JVal)) (ti : Nat) (m : List (Str × AnyVal)), (∀ t ∈ flattenM ti ms, ¬ Con t → t.end_ ≤ z) → anyOfM x src m ms = anyOfM x src' m ms
  | [], _, _, _ => rfl
  | ((a, e), w) :: ms, ti, m, ht => by
    simp only [flattenM, List.mem_cons, List.mem_append] at ht
    have hk := ht _ (.inl rfl) (by simp [Con])
    simp only [anyOfM, slice_take h (show e - 1 ≤ z by simp only [] at hk; omega), any_same h w _ fun t hm => ht t (.inr (.inl hm))]
    cases slice src' (a + 1) (e - 1) with
    | none => rfl
    | some key =>
      simp only []
      cases anyOf x src' w with
      | none => rfl
      | some r =>
      cases r with
      | error e => rfl
      | ok v =>
        simp only []
        cases x.unescStr key with
        | none => rfl
        | some k => exact any_sameM h ms _ _ fun t hm => ht t (.inr (.inr hm))
end

/-! ## Subtrees -/

mutual
/-- The closing token of everything that begins in a value belongs to the value. -/
theorem flatten_in (ti : Nat) : ∀ (v : JVal) (t : Token), t ∈ flatten ti v → Con t → t.end_ < ti + (flatten ti v).length
  | .null _ _, t, h, hc => by simp [flatten] at h; subst h; simp [Con] at hc
  | .bool b _ _, t, h, hc => by simp [flatten] at h; subst h; cases b <;> simp [Con] at hc
  | .num b _ _, t, h, hc => by simp [flatten] at h; subst h; cases b <;> simp [Con] at hc
  | .str _ _, t, h, hc => by simp [flatten] at h; subst h; simp [Con] at hc
  | .arr i vs k, t, h, hc => by
    simp only [flatten, List.mem_cons, List.mem_append, List.length_cons, List.length_append, List.length_nil] at h ⊢
    rcases h with rfl | h | h | h
    · show ti + 1 + _ < _; omega
    · have := flattenL_in (ti + 1) vs t h hc; omega
    · subst h; simp [Con] at hc
    · cases h
  | .obj i ms k, t, h, hc => by
    simp only [flatten, List.mem_cons, List.mem_append, List.length_cons, List.length_append, List.length_nil] at h ⊢
    rcases h with rfl | h | h | h
    · show ti + 1 + _ < _; omega
    · have := flattenM_in (ti + 1) ms t h hc; omega
    · subst h; simp [Con] at hc
    · cases h
theorem flattenL_in (ti : Nat) : ∀ (vs : List JVal) (t : Token), t ∈ flattenL ti vs → Con t → t.end_ < ti + (flattenL ti vs).length
  | [], t, h, _ => by simp [flattenL] at h
  | v :: vs, t, h, hc => by
    simp only [flattenL, List.mem_append, List.length_append] at h ⊢
    rcases h with h | h
    · have := flatten_in ti v t h hc; omega
    · have := flattenL_in _ vs t h hc; omega
theorem flattenM_in (ti : Nat) : ∀ (ms : List ((Nat × Nat) × JVal)) (t : Token), t ∈ flattenM ti ms → Con t → t.end_ < ti + (flattenM ti ms).length
  | [], t, h, _ => by simp [flattenM] at h
  | ((a, e), v) :: ms, t, h, hc => by
    simp only [flattenM, List.mem_cons, List.mem_append, List.length_append, List.length_cons] at h ⊢
    rcases h with rfl | h | h
    · simp [Con] at hc
    · have := flatten_in _ v t h hc; omega
    · have := flattenM_in _ ms t h hc; omega
end

/-- An array or object begins here. -/
def SubV (ti : Nat) (t : Token) (l : List Token) : Prop := ∃ w r, l = flatten ti w ++ r ∧ t.end_ + 1 = ti + (flatten ti w).length

mutual
theorem sub_one : ∀ (v : JVal) (ti : Nat) (r : List Token) (n : Nat) (t : Token), (flatten ti v)[n]? = some t → Con t → SubV (ti + n) t ((flatten ti v ++ r).drop n)
  | .null _ _, _, _, n, t, hi, hc => by
    cases n <;> simp [flatten] at hi
    subst hi; simp [Con] at hc
  | .bool b _ _, _, _, n, t, hi, hc => by
    cases n <;> simp [flatten] at hi
    subst hi; cases b <;> simp [Con] at hc
  | .num b _ _, _, _, n, t, hi, hc => by
    cases n <;> simp [flatten] at hi
    subst hi; cases b <;> simp [Con] at hc
  | .str _ _, _, _, n, t, hi, hc => by
    cases n <;> simp [flatten] at hi
    subst hi; simp [Con] at hc
  | .arr a vs k, ti, r, n, t, hi, hc => by
    cases n with
    | zero =>
      simp [flatten] at hi
      subst hi
      exact ⟨.arr a vs k, r, by simp, by simp [flatten]; omega⟩
    | succ n =>
      simp only [flatten, List.getElem?_cons_succ] at hi
      rw [List.getElem?_append] at hi
      split at hi
      · have := sub_oneL vs (ti + 1) (⟨.arrayEnd, k, k + 1, 0⟩ :: r) n t hi hc
        simpa [flatten, Nat.add_assoc, Nat.add_comm 1 n] using this
      · generalize hj : n - (flattenL (ti + 1) vs).length = j at hi
        cases j <;> simp at hi
        subst hi; simp [Con] at hc
  | .obj a ms k, ti, r, n, t, hi, hc => by
    cases n with
    | zero =>
      simp [flatten] at hi
      subst hi
      exact ⟨.obj a ms k, r, by simp, by simp [flatten]; omega⟩
    | succ n =>
      simp only [flatten, List.getElem?_cons_succ] at hi
      rw [List.getElem?_append] at hi
      split at hi
      · have := sub_oneM ms (ti + 1) (⟨.objectEnd, k, k + 1, 0⟩ :: r) n t hi hc
        simpa [flatten, Nat.add_assoc, Nat.add_comm 1 n] using this
      · generalize hj : n - (flattenM (ti + 1) ms).length = j at hi
        cases j <;> simp at hi
        subst hi; simp [Con] at hc
theorem sub_oneL : ∀ (vs : List JVal) (ti : Nat) (r : List Token) (n : Nat) (t : Token), (flattenL ti vs)[n]? = some t → Con t → SubV (ti + n) t ((flattenL ti vs ++ r).drop n)
  | [], _, _, n, t, hi, _ => by simp [flattenL] at hi
  | v :: vs, ti, r, n, t, hi, hc => by
    simp only [flattenL] at hi ⊢
    rw [List.append_assoc]
    rw [List.getElem?_append] at hi
    split at hi
    · exact sub_one v ti _ n t hi hc
    · rename_i hl
      have := sub_oneL vs (ti + (flatten ti v).length) r _ t hi hc
      rw [drop_more (l := flatten ti v) (by omega)]
      rwa [show ti + (flatten ti v).length + (n - (flatten ti v).length) = ti + n by omega] at this
theorem sub_oneM : ∀ (ms : List ((Nat × Nat) × JVal)) (ti : Nat) (r : List Token) (n : Nat) (t : Token), (flattenM ti ms)[n]? = some t → Con t → SubV (ti + n) t ((flattenM ti ms ++ r).drop n)
  | [], _, _, n, t, hi, _ => by simp [flattenM] at hi
  | ((a, e), v) :: ms, ti, r, n, t, hi, hc => by
    simp only [flattenM] at hi ⊢
    cases n with
    | zero => simp at hi; subst hi; simp [Con] at hc
    | succ n =>
      simp only [List.getElem?_cons_succ] at hi
      simp only [List.cons_append, List.drop_succ_cons]
      rw [List.append_assoc]
      rw [List.getElem?_append] at hi
      rw [show ti + (n + 1) = ti + 1 + n by omega]
      split at hi
      · exact sub_one v (ti + 1) _ n t hi hc
      · rename_i hl
        have := sub_oneM ms (ti + 1 + (flatten (ti + 1) v).length) r _ t hi hc
        rw [drop_more (l := flatten (ti + 1) v) (by omega)]
        rwa [show ti + 1 + (flatten (ti + 1) v).length + (n - (flatten (ti + 1) v).length) = ti + 1 + n by omega] at this
end

/-! ## Tokens that correspond -/

/-- Tokens of the same kind at the same place; if they are not arrays or objects, with the same text. -/
structure Lk (z : Nat) (t t' : Token) : Prop where
  type : t'.type = t.type
  index : t'.index = t.index
  leaf : ¬ Con t → t'.end_ = t.end_ ∧ t.end_ ≤ z

theorem Ag.lk {pr : Prog} {src' : Bytes} {toks' : List Token} (h : Ag pr src' toks' i p z) {n : Nat} (hn : n < p) : ∃ t t', pr.toks[n]? = some t ∧ toks'[n]? = some t' ∧ Lk z t t' := by
  obtain ⟨t, t', h1, h2, h3, h4, -, h5⟩ := h.tok n hn
  refine ⟨t, t', h1, h2, h3, h4, fun hc => ?_⟩
  rcases h5 with ⟨rfl, -, h6⟩ | ⟨h6, -⟩
  · exact ⟨rfl, h6 hc⟩
  · exact absurd h6 hc

theorem elemOf_lk {x : Ext} {src src' : Bytes} {k : SKind} {t t' : Token} (ht : src.take z = src'.take z) (h : Lk z t t') : elemOf x src k t = elemOf x src' k t' := by
  unfold elemOf
  rw [h.type, h.index]
  cases hty : t.type <;> simp only
  · obtain ⟨h1, h2⟩ := h.leaf (not_con hty (by simp) (by simp))
    rw [h1, slice_take ht h2]
  · obtain ⟨h1, h2⟩ := h.leaf (not_con hty (by simp) (by simp))
    rw [h1, slice_take ht h2]
  · obtain ⟨h1, h2⟩ := h.leaf (not_con hty (by simp) (by simp))
    rw [h1, slice_take ht (by omega : t.end_ - 1 ≤ z)]

/-- The tokens up to the one at byte `i` correspond. -/
def Ah (i z : Nat) (ts ts' : List Token) : Prop :=
  ∀ (n : Nat) t, ts[n]? = some t → t.index = i → ∀ j, j ≤ n → ∃ u u', ts[j]? = some u ∧ ts'[j]? = some u' ∧ Lk z u u'

theorem Ah.tail {t t' : Token} {ts ts' : List Token} (h : Ah i z (t :: ts) (t' :: ts')) : Ah i z ts ts' := by
  intro n u hu hi j hj
  obtain ⟨v, v', h1, h2, h3⟩ := h (n + 1) u (by simpa using hu) hi (j + 1) (by omega)
  exact ⟨v, v', by simpa using h1, by simpa using h2, h3⟩

theorem Ah.head {t : Token} {ts ts' : List Token} {j : Nat} {u : Token} (h : Ah i z (t :: ts) ts') (hj : (t :: ts)[j]? = some u) (hi : u.index = i) :
    ∃ t' ts'', ts' = t' :: ts'' ∧ Lk z t t' := by
  obtain ⟨v, v', h1, h2, h3⟩ := h j u hj hi 0 (by omega)
  cases ts' with
  | nil => simp at h2
  | cons t' ts'' => simp at h1 h2; subst h1; subst h2; exact ⟨_, _, rfl, h3⟩

theorem mem_idx {ts : List Token} (h : ∃ t ∈ ts, t.index = i) : ∃ (j : Nat) (u : Token), ts[j]? = some u ∧ u.index = i := by
  obtain ⟨t, h1, h2⟩ := h
  obtain ⟨j, hj⟩ := List.getElem?_of_mem h1
  exact ⟨j, t, hj, h2⟩

/-- An error of the loop over the elements does not depend on what comes after it. -/
theorem elems_K {x : Ext} {src src' : Bytes} {k : SKind} {e : Err} {b : Block} (ht : src.take z = src'.take z) : ∀ (ts ts' : List Token) (n : Nat) (a a' : Block), Ah i z ts ts' →
    sliceElems x src k ts n a = .err i e b → sliceElems x src' k ts' n a' = .crash ∨ ∃ b', sliceElems x src' k ts' n a' = .err i e b'
  | [], _, _, _, _, _, h => by simp [sliceElems] at h
  | t :: ts, ts', n, a, a', hA, h => by
    obtain ⟨j, u, hj, hi⟩ := mem_idx (ErrIdx.sliceElems_idx _ _ _ h)
    obtain ⟨t', ts'', rfl, hl⟩ := hA.head hj hi
    simp only [sliceElems] at h ⊢
    rw [← elemOf_lk ht hl]
    cases he : elemOf x src k t with
    | store n' c =>
      rw [he] at h
      simp only [] at h ⊢
      split at h
      · cases h
      · split
        · exact .inl rfl
        · exact elems_K ht ts ts'' _ _ _ hA.tail h
    | clear n' =>
      rw [he] at h
      simp only [] at h ⊢
      split at h
      · cases h
      · split
        · exact .inl rfl
        · exact elems_K ht ts ts'' _ _ _ hA.tail h
    | err e' =>
      rw [he] at h
      simp only [SliceRes.err.injEq] at h ⊢
      obtain ⟨rfl, rfl, rfl⟩ := h
      exact .inr ⟨a', hl.index, rfl, rfl⟩
    | _ => rw [he] at h; cases h

/-- An error of the loop over the entries of a `map[string]string` does not depend on what comes after it. -/
theorem mapSS_K {x : Ext} {src src' : Bytes} {W : Nat} {e : Err} : ∀ (ts ts' : List Token) (m m' : List (Key × Block)), Ah i z ts ts' →
    mapSSLoop x src W ts m = some (.error (i, e)) → mapSSLoop x src' W ts' m' = none ∨ mapSSLoop x src' W ts' m' = some (.error (i, e))
  | [], _, _, _, _, h => by simp [mapSSLoop] at h
  | [_], _, _, _, _, h => by simp [mapSSLoop] at h
  | k :: v :: ts, ts', m, m', hA, h => by
    obtain ⟨j, u, hj, hi⟩ := mem_idx (ErrIdx.mapSS_idx _ _ h)
    obtain ⟨k', ts'', rfl, -⟩ := hA.head hj hi
    cases ts'' with
    | nil => exact .inl (by simp [mapSSLoop])
    | cons v' ts'' =>
      have hv : Lk z v v' := by
        cases j with
        | zero =>
          -- the error is not at the first token of a pair unless a later one is at the same byte
          simp only [mapSSLoop] at h
          split at h
          · split at h
            · obtain ⟨j', u', hj', hi'⟩ := mem_idx (ErrIdx.mapSS_idx _ _ h)
              obtain ⟨w, w', h1, h2, h3⟩ := hA (j' + 2) u' (by simpa using hj') hi' 1 (by omega)
              simp at h1 h2; subst h1; subst h2; exact h3
            · cases h
          · split at h
            · obtain ⟨j', u', hj', hi'⟩ := mem_idx (ErrIdx.mapSS_idx _ _ h)
              obtain ⟨w, w', h1, h2, h3⟩ := hA (j' + 2) u' (by simpa using hj') hi' 1 (by omega)
              simp at h1 h2; subst h1; subst h2; exact h3
            · cases h
          · simp only [Option.some.injEq, Except.error.injEq, Prod.mk.injEq] at h
            obtain ⟨w, w', h1, h2, h3⟩ := hA 1 v (by simp) h.1 1 (by omega)
            simp at h1 h2; subst h1; subst h2; exact h3
        | succ j =>
          obtain ⟨w, w', h1, h2, h3⟩ := hA (j + 1) u hj hi 1 (by omega)
          simp at h1 h2; subst h1; subst h2; exact h3
      simp only [mapSSLoop] at h ⊢
      rw [hv.type]
      split at h
      · rename_i hty
        split at h
        · split
          · exact mapSS_K ts ts'' _ _ hA.tail.tail h
          · exact .inl rfl
        · cases h
      · rename_i hty
        split at h
        · split
          · exact mapSS_K ts ts'' _ _ hA.tail.tail h
          · exact .inl rfl
        · cases h
      · rename_i h1 h2
        simp only [Option.some.injEq, Except.error.injEq, Prod.mk.injEq] at h
        obtain ⟨h3, rfl⟩ := h
        exact .inr (by rw [hv.index, h3])

/-! ## The key loop and the skip loop -/

/-- Two token lists from `ti` on, of which the tokens before `p` correspond. -/
structure Al (i p z ti : Nat) (ts ts' : List Token) : Prop where
  lk : ∀ n, ti + n < p → ∃ u u', ts[n]? = some u ∧ ts'[n]? = some u' ∧ Lk z u u'
  idx : ∀ (n : Nat) u, ts[n]? = some u → u.index = i → ti + n < p

theorem Al.tail {ti : Nat} {t t' : Token} {ts ts' : List Token} (h : Al i p z ti (t :: ts) (t' :: ts')) : Al i p z (ti + 1) ts ts' :=
  ⟨fun n hn => by
    obtain ⟨u, u', h1, h2, h3⟩ := h.lk (n + 1) (by omega)
    exact ⟨u, u', by simpa using h1, by simpa using h2, h3⟩,
   fun n u hu hi => by have := h.idx (n + 1) u (by simpa using hu) hi; omega⟩

theorem Ag.al {pr : Prog} {src' : Bytes} {toks' : List Token} (h : Ag pr src' toks' i p z) (ti : Nat) : Al i p z ti (pr.toks.drop ti) (toks'.drop ti) :=
  ⟨fun n hn => by
    obtain ⟨u, u', h1, h2, h3⟩ := h.lk hn
    exact ⟨u, u', by rw [List.getElem?_drop]; exact h1, by rw [List.getElem?_drop]; exact h2, h3⟩,
   fun n u hu hi => by rw [List.getElem?_drop] at hu; exact (h.idx _ u hu hi).1⟩

/-- What the second key loop has to find. -/
def ScanK (i p : Nat) : ScanRes → ScanRes → Prop
  | .crash, _ => True
  | .unknown j, r => j = i → r = .crash ∨ r = .unknown i
  | .brk q, r => p ≤ q + 1 ∨ r = .brk q
  | .found q fi, r => p ≤ q + 1 ∨ r = .found q fi

theorem ScanK.refl {r : ScanRes} : ScanK i p r r := by
  cases r with
  | crash => trivial
  | unknown j => exact fun h => .inr (by rw [h])
  | brk q => exact .inr rfl
  | found q fi => exact .inr rfl

theorem scan_K {x : Ext} {src src' : Bytes} (ht : src.take z = src'.take z) {o : Options} {tbl : List (Bytes × Nat)} : ∀ (ts ts' : List Token) (skip : Option Nat) (ti : Nat), Al i p z ti ts ts' →
    (skip = none → ∀ t, ts[0]? = some t → t.type = .key) → ScanK i p (scanKeys x src o tbl skip ts ti) (scanKeys x src' o tbl skip ts' ti)
  | [], _, _, _, _, _ => by simp only [scanKeys]; trivial
  | t :: ts, ts', skip, ti, hA, hk => by
    by_cases hp : ti < p
    · obtain ⟨u, u', h1, h2, hl⟩ := hA.lk 0 hp
      cases ts' with
      | nil => simp at h2
      | cons t' ts' =>
        simp at h1 h2
        subst h1; subst h2
        have sub : ∀ l, ScanK i p (scanKeys x src o tbl (some l) ts (ti + 1)) (scanKeys x src' o tbl (some l) ts' (ti + 1)) :=
          fun l => scan_K ht ts ts' (some l) (ti + 1) hA.tail (fun h => by cases h)
        have key : t.type = .key → ScanK i p
            (match (slice src (t.index + 1) (t.end_ - 1)).bind (keyName o) with
              | none => .crash
              | some name =>
                match findField x o tbl name with
                | some fi => .found ti fi
                | none => if o.disallowUnknownFields then .unknown t.index else scanKeys x src o tbl (some 0) ts (ti + 1))
            (match (slice src' (t'.index + 1) (t'.end_ - 1)).bind (keyName o) with
              | none => .crash
              | some name =>
                match findField x o tbl name with
                | some fi => .found ti fi
                | none => if o.disallowUnknownFields then .unknown t'.index else scanKeys x src' o tbl (some 0) ts' (ti + 1)) := by
          intro hty
          obtain ⟨g1, g2⟩ := hl.leaf (not_con hty (by simp) (by simp))
          rw [hl.index, g1, slice_take ht (show t.end_ - 1 ≤ z by omega)]
          split
          · trivial
          · split
            · exact .refl
            · split
              · exact .refl
              · exact sub 0
        cases skip with
        | none =>
          simp only [scanKeys]
          exact key (hk rfl t rfl)
        | some l =>
          simp only [scanKeys]
          rw [hl.type]
          split
          · rename_i hty
            split
            · exact key hty
            · exact sub l
          · exact sub _
          · split
            · exact .refl
            · exact sub _
          · exact sub _
    · have ha := scan_adv x src o tbl (t :: ts) skip ti
      have hx := fun j => ErrIdx.scan_idx x src o tbl j (t :: ts) skip ti
      cases hr : scanKeys x src o tbl skip (t :: ts) ti with
      | crash => trivial
      | unknown j =>
        intro hj
        subst hj
        obtain ⟨n, u, hu, hi⟩ := mem_idx (hx _ hr)
        have := hA.idx n u hu hi
        omega
      | brk q => exact .inl (by have := (ha.2 q hr).1; omega)
      | found q fi => exact .inl (by have := ha.1 q fi hr; omega)

theorem skip_K : ∀ (ts ts' : List Token) (l ti n : Nat), Al i p z ti ts ts' → skipExtra l ts = some n → p ≤ ti + n ∨ skipExtra l ts' = some n
  | [], _, _, _, _, _, h => by simp [skipExtra] at h
  | t :: ts, ts', l, ti, n, hA, h => by
    by_cases hp : ti < p
    · obtain ⟨u, u', h1, h2, hl⟩ := hA.lk 0 hp
      cases ts' with
      | nil => simp at h2
      | cons t' ts' =>
        simp at h1 h2
        subst h1; subst h2
        have sub : ∀ l, (skipExtra l ts).map (· + 1) = some n → p ≤ ti + n ∨ (skipExtra l ts').map (· + 1) = some n := by
          intro l hs
          simp only [Option.map_eq_some_iff] at hs
          obtain ⟨m, hm, rfl⟩ := hs
          rcases skip_K ts ts' l (ti + 1) m hA.tail hm with h | h
          · exact .inl (by omega)
          · exact .inr (by rw [h]; rfl)
        simp only [skipExtra] at h ⊢
        rw [hl.type]
        split at h
        · exact sub _ h
        · split at h
          · rename_i hle
            rw [if_pos hle]; exact .inr h
          · rename_i hle
            rw [if_neg hle]; exact sub _ h
        · exact sub _ h
    · exact .inl (by omega)

end Verif.Proof.Causal

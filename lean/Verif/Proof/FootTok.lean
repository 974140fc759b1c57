import Verif.Proof.FootMem
import Verif.Proof.Unescape
import Verif.Proof.Term
import Verif.Proof.Json
import Verif.Proof.Safe
import Verif.Proof.Any
import Verif.Proof.SimFlat
/-!
# What remains of the input, as a potential
-/
namespace Verif.Proof.Foot
open Verif.Model Verif.Spec Verif.Big

/-! ## Unescaping never makes a text longer -/

theorem unit_short (a b c d : UInt8) : (Unescape.encodeUnit a b c d).length ≤ 3 := by
  unfold Unescape.encodeUnit
  simp only []
  split
  · simp
  · split
    · simp
    · split <;> simp [Unescape.runeError]

theorem one_short {buf s b' s' : Bytes} (h : Unescape.oneEscape buf s = some (b', s')) : b'.length + s'.length ≤ buf.length + s.length := by
  unfold Unescape.oneEscape at h
  split at h
  · split at h
    · split at h
      · cases h
        rename_i c2 c3 c4 c5
        have := unit_short c2 c3 c4 c5
        simp only [List.length_append, List.length_cons]; omega
      · cases h
    · cases h; simp; omega
  · cases h

theorem esc_short : ∀ (n : Nat) (buf s o : Bytes), Unescape.escapeSequence n buf s = some o → o.length ≤ buf.length + s.length
  | 0, buf, s, o, h => by simp [Unescape.escapeSequence] at h
  | n + 1, buf, s, o, h => by
    rw [Unescape.escapeSequence] at h
    cases ho : Unescape.oneEscape buf s with
    | none => rw [ho] at h; cases h
    | some p =>
      obtain ⟨b', s'⟩ := p
      have h1 := one_short ho
      rw [ho] at h
      simp only [] at h
      have next : ∀ i, (if (s'.drop i).length < 1 then some (b' ++ s'.take i) else Unescape.escapeSequence n (b' ++ s'.take i) (s'.drop i)) = some o →
          o.length ≤ b'.length + s'.length := by
        intro i hi
        split at hi
        · cases hi; simp only [List.length_append, List.length_take]; omega
        · have := esc_short n _ _ _ hi
          simp only [List.length_append, List.length_take, List.length_drop] at this; omega
      suffices o.length ≤ b'.length + s'.length by omega
      split at h
      · split at h
        · exact esc_short n _ _ _ h
        split at h
        · exact next 1 h
        split at h
        · exact next 2 h
        split at h
        · exact next 3 h
        split at h
        · exact next 4 h
        split at h
        · exact next 5 h
        split at h
        · exact next 6 h
        split at h
        · exact next 7 h
        split at h
        · cases h; simp
        · exact next _ h
      · exact next _ h

theorem valid_short {s o : Bytes} (h : Unescape.valid s = some o) : o.length ≤ s.length := by
  unfold Unescape.valid at h
  split at h
  · cases h; simp
  · split at h
    · cases h; simp
    · simp only [] at h
      split at h
      · cases h; simp only [List.length_take]; omega
      · have := esc_short _ _ _ _ h
        simp only [List.length_take, List.length_drop] at this; omega

theorem unesc_short {x : Ext} {s : Bytes} {o : Str} (h : x.unescStr s = some o) : o.bytes.length ≤ s.length := by
  unfold Ext.unescStr at h
  rw [Option.map_eq_some_iff] at h
  obtain ⟨b, hb, rfl⟩ := h
  exact valid_short hb

theorem slice_short {s t : Bytes} {i j : Nat} (h : slice s i j = some t) : t.length ≤ j - i := by
  unfold slice at h
  split at h <;> cases h
  simp only [List.length_take, List.length_drop]; omega

/-! ## Positions -/

/-- Where a token ends in the text. -/
def stopOf (t : Token) : Nat := if t.type = .array ∨ t.type = .object then t.index + 1 else t.end_

/-- Where the first of the tokens is. -/
def posL (src : Bytes) : List Token → Nat
  | [] => src.length
  | t :: _ => t.index

/-- The tokens stand one behind the other. -/
def Ordered (src : Bytes) : List Token → Prop
  | [] => True
  | t :: ts => t.index < stopOf t ∧ stopOf t ≤ posL src ts ∧ Ordered src ts

/-- Tokens and elements. -/
def count : List Token → Nat
  | [] => 0
  | t :: ts => 1 + t.elements + count ts

/-- What remains: tokens, elements and bytes. -/
def Phi (src : Bytes) (ts : List Token) : Nat := count ts + (src.length - posL src ts)

/-- What tokens are worth. -/
def cost : List Token → Nat
  | [] => 0
  | t :: ts => 1 + t.elements + (stopOf t - t.index) + cost ts

theorem ord_pos {src : Bytes} : ∀ {ts : List Token}, Ordered src ts → posL src ts ≤ src.length
  | [], _ => by simp [posL]
  | t :: ts, h => by
    obtain ⟨h1, h2, h3⟩ := h
    have := ord_pos h3
    simp only [posL] at *; omega

theorem pos_drop {src : Bytes} : ∀ (n : Nat) {ts : List Token}, Ordered src ts → posL src ts ≤ posL src (ts.drop n)
  | 0, _, _ => Nat.le_refl _
  | n + 1, [], _ => by simp
  | n + 1, t :: ts, h => by
    have := pos_drop n h.2.2
    obtain ⟨h1, h2, -⟩ := h
    simp only [List.drop_succ_cons, posL] at *; omega

theorem phi_cons {src : Bytes} {t : Token} {ts : List Token} (h : Ordered src (t :: ts)) :
    1 + t.elements + (stopOf t - t.index) + Phi src ts ≤ Phi src (t :: ts) := by
  obtain ⟨h1, h2, h3⟩ := h
  have := ord_pos h3
  simp only [Phi, count, posL] at *; omega

theorem ord_drop {src : Bytes} : ∀ (n : Nat) {ts : List Token}, Ordered src ts → Ordered src (ts.drop n)
  | 0, _, h => h
  | n + 1, [], h => by simpa using h
  | n + 1, t :: ts, h => by simpa using ord_drop n h.2.2

theorem phi_take {src : Bytes} : ∀ (n : Nat) {ts : List Token}, Ordered src ts → cost (ts.take n) + Phi src (ts.drop n) ≤ Phi src ts
  | 0, ts, h => by simp [cost]
  | n + 1, [], h => by simp [cost]
  | n + 1, t :: ts, h => by
    have h1 := phi_cons h
    have h2 := phi_take n h.2.2
    simp only [List.take_succ_cons, List.drop_succ_cons, cost]; omega

theorem phi_mono {src : Bytes} {ts : List Token} {i j : Nat} (h : Ordered src ts) (hij : i ≤ j) : Phi src (ts.drop j) ≤ Phi src (ts.drop i) := by
  have := phi_take (j - i) (ord_drop i h)
  rw [List.drop_drop, Nat.add_sub_cancel' hij] at this
  omega

/-! ## The tokens of a document -/

theorem ord_leaf {src : Bytes} {t : Token} {rest : List Token} (h1 : t.index < stopOf t) (h2 : stopOf t ≤ posL src rest) (h3 : Ordered src rest) :
    Ordered src ([t] ++ rest) := ⟨h1, h2, h3⟩

mutual
theorem json_ord (src : Bytes) : ∀ (v : JVal) (a ti : Nat) (s : Bytes) (rest : List Token), IsJson v a s → a + s.length ≤ posL src rest → Ordered src rest →
    Ordered src (flatten ti v ++ rest) ∧ posL src (flatten ti v ++ rest) = a
  | .null i e, a, ti, s, rest, h, hp, ho => by
    obtain ⟨rfl, rfl, rfl⟩ := h
    simp only [flatten]
    exact ⟨ord_leaf (by simp [stopOf]) (by simpa [stopOf] using hp) ho, rfl⟩
  | .bool b i e, a, ti, s, rest, h, hp, ho => by
    obtain ⟨rfl, rfl, rfl⟩ := h
    simp only [flatten]
    cases b
    · exact ⟨ord_leaf (by simp [stopOf]) (by simpa [stopOf] using hp) ho, rfl⟩
    · exact ⟨ord_leaf (by simp [stopOf]) (by simpa [stopOf] using hp) ho, rfl⟩
  | .num isInt i e, a, ti, s, rest, h, hp, ho => by
    obtain ⟨hn, -, rfl, rfl⟩ := h
    have hne : 0 < s.length := List.length_pos_iff.mpr (Safe.number_ne hn)
    simp only [flatten]
    cases isInt
    · exact ⟨ord_leaf (by simpa [stopOf] using hne) (by simpa [stopOf] using hp) ho, rfl⟩
    · exact ⟨ord_leaf (by simpa [stopOf] using hne) (by simpa [stopOf] using hp) ho, rfl⟩
  | .str i e, a, ti, s, rest, h, hp, ho => by
    obtain ⟨raw, rfl, -, h⟩ := h
    cases h
    simp only [flatten]
    exact ⟨ord_leaf (by simp [stopOf]) (by simpa [stopOf] using hp) ho, rfl⟩
  | .arr i vs k, a, ti, s, rest, h, hp, ho => by
    obtain ⟨body, rfl, rfl, rfl, hb⟩ := h
    simp only [List.length_cons, List.length_append, List.length_nil] at hp
    have hend : Ordered src (⟨.arrayEnd, i + 1 + body.length, i + 1 + body.length + 1, 0⟩ :: rest) := ⟨by simp [stopOf], by simp [stopOf]; omega, ho⟩
    obtain ⟨h1, h2⟩ := elems_ord src vs (i + 1) (ti + 1) body _ hb (by simp [posL]) hend
    simp only [flatten, List.cons_append, List.append_assoc, List.nil_append]
    exact ⟨⟨by simp [stopOf], by simpa [stopOf] using h2, h1⟩, rfl⟩
  | .obj i ms k, a, ti, s, rest, h, hp, ho => by
    obtain ⟨body, rfl, rfl, rfl, hb⟩ := h
    simp only [List.length_cons, List.length_append, List.length_nil] at hp
    have hend : Ordered src (⟨.objectEnd, i + 1 + body.length, i + 1 + body.length + 1, 0⟩ :: rest) := ⟨by simp [stopOf], by simp [stopOf]; omega, ho⟩
    obtain ⟨h1, h2⟩ := members_ord src ms (i + 1) (ti + 1) body _ hb (by simp [posL]) hend
    simp only [flatten, List.cons_append, List.append_assoc, List.nil_append]
    exact ⟨⟨by simp [stopOf], by simpa [stopOf] using h2, h1⟩, rfl⟩
theorem elems_ord (src : Bytes) : ∀ (vs : List JVal) (a ti : Nat) (s : Bytes) (rest : List Token), IsElems vs a s → a + s.length ≤ posL src rest → Ordered src rest →
    Ordered src (flattenL ti vs ++ rest) ∧ a ≤ posL src (flattenL ti vs ++ rest)
  | [], a, ti, s, rest, h, hp, ho => by simp only [flattenL, List.nil_append]; exact ⟨ho, by omega⟩
  | v :: vs, a, ti, s, rest, h, hp, ho => by
    simp only [flattenL, List.append_assoc]
    rcases h with ⟨rfl, w, t, w', rfl, -, -, hj⟩ | ⟨-, s1, s2, rfl, ⟨w, t, w', rfl, -, -, hj⟩, hs⟩
    · simp only [flattenL, List.nil_append]
      simp only [List.length_append] at hp
      obtain ⟨h1, h2⟩ := json_ord src v _ ti t rest hj (by omega) ho
      exact ⟨h1, by omega⟩
    · simp only [List.length_append, List.length_cons] at hp
      obtain ⟨h1, h2⟩ := elems_ord src vs _ (ti + (flatten ti v).length) s2 rest hs (by simp only [List.length_append]; omega) ho
      simp only [List.length_append] at h2
      obtain ⟨h3, h4⟩ := json_ord src v _ ti t _ hj (by omega) h1
      exact ⟨h3, by omega⟩
theorem members_ord (src : Bytes) : ∀ (ms : List ((Nat × Nat) × JVal)) (a ti : Nat) (s : Bytes) (rest : List Token), IsMembers ms a s → a + s.length ≤ posL src rest → Ordered src rest →
    Ordered src (flattenM ti ms ++ rest) ∧ a ≤ posL src (flattenM ti ms ++ rest)
  | [], a, ti, s, rest, h, hp, ho => by simp only [flattenM, List.nil_append]; exact ⟨ho, by omega⟩
  | ((i, e), v) :: ms, a, ti, s, rest, h, hp, ho => by
    obtain ⟨key, val, tl, rfl, ⟨w, k, w', rfl, -, -, raw, rfl, -, hk⟩, ⟨u, t, u', rfl, -, -, hj⟩, hr⟩ := h
    simp only [Prod.mk.injEq] at hk
    obtain ⟨rfl, rfl⟩ := hk
    simp only [List.length_append, List.length_cons] at hp hj hr ⊢
    have hm : Ordered src (flattenM (ti + 1 + (flatten (ti + 1) v).length) ms ++ rest) ∧
        a + (w.length + (raw.length + ([] : Bytes).length + 1 + 1) + w'.length) + 1 + (u.length + t.length + u'.length) ≤
          posL src (flattenM (ti + 1 + (flatten (ti + 1) v).length) ms ++ rest) := by
      rcases hr with ⟨rfl, rfl⟩ | ⟨-, s2, rfl, hs⟩
      · simp only [flattenM, List.nil_append, List.length_nil] at hp ⊢
        exact ⟨ho, by omega⟩
      · simp only [List.length_cons, List.length_nil] at hp hs ⊢
        obtain ⟨h1, h2⟩ := members_ord src ms _ (ti + 1 + (flatten (ti + 1) v).length) s2 rest hs (by omega) ho
        exact ⟨h1, by omega⟩
    obtain ⟨h1, h2⟩ := hm
    simp only [List.length_nil] at h2 hj
    obtain ⟨h3, h4⟩ := json_ord src v _ (ti + 1) t _ hj (by omega) h1
    simp only [flattenM, List.cons_append, List.append_assoc, List.length_nil]
    refine ⟨⟨by simp [stopOf], ?_, h3⟩, by simp only [posL]; omega⟩
    rw [h4]
    simp only [stopOf, reduceCtorEq, or_self, if_false]; omega
end

theorem doc_ord {src : Bytes} {v : JVal} (h : IsDoc src v) : Ordered src (flatten 0 v) := by
  obtain ⟨w, t, w', rfl, -, -, hj⟩ := h
  have := (json_ord (w ++ t ++ w') v _ 0 t [] hj (by simp only [posL, List.length_append]; omega) trivial).1
  simpa using this

/-- There are not more tokens than bytes. -/
theorem tok_bytes {src : Bytes} : ∀ {ts : List Token}, Ordered src ts → posL src ts + ts.length ≤ src.length
  | [], _ => by simp [posL]
  | t :: ts, h => by
    obtain ⟨h1, h2, h3⟩ := h
    have := tok_bytes h3
    simp only [posL, List.length_cons] at *; omega

theorem count_append : ∀ (a b : List Token), count (a ++ b) = count a + count b
  | [], b => by simp [count]
  | t :: a, b => by simp only [List.cons_append, count, count_append a b]; omega

mutual
theorem count_flatten : ∀ (ti : Nat) (v : JVal), count (flatten ti v) + 1 ≤ 2 * (flatten ti v).length
  | ti, .null i e => by simp [flatten, count]
  | ti, .bool b i e => by simp [flatten, count]
  | ti, .num b i e => by simp [flatten, count]
  | ti, .str i e => by simp [flatten, count]
  | ti, .arr i vs k => by
    have := count_flattenL (ti + 1) vs
    simp only [flatten, count, count_append, List.length_cons, List.length_append, List.length_nil]; omega
  | ti, .obj i ms k => by
    have := count_flattenM (ti + 1) ms
    simp only [flatten, count, count_append, List.length_cons, List.length_append, List.length_nil]; omega
theorem count_flattenL : ∀ (ti : Nat) (vs : List JVal), count (flattenL ti vs) + vs.length ≤ 2 * (flattenL ti vs).length
  | ti, [] => by simp [flattenL, count]
  | ti, v :: vs => by
    have h1 := count_flatten ti v
    have h2 := count_flattenL (ti + (flatten ti v).length) vs
    simp only [flattenL, count_append, List.length_append, List.length_cons]; omega
theorem count_flattenM : ∀ (ti : Nat) (ms : List ((Nat × Nat) × JVal)), count (flattenM ti ms) + ms.length ≤ 2 * (flattenM ti ms).length
  | ti, [] => by simp [flattenM, count]
  | ti, ((i, e), v) :: ms => by
    have h1 := count_flatten (ti + 1) v
    have h2 := count_flattenM (ti + 1 + (flatten (ti + 1) v).length) ms
    simp only [flattenM, count, count_append, List.length_append, List.length_cons]; omega
end

theorem doc_len {src : Bytes} {v : JVal} (h : IsDoc src v) : (flatten 0 v).length ≤ src.length := by
  have := tok_bytes (doc_ord h); omega

theorem doc_phi {src : Bytes} {v : JVal} (h : IsDoc src v) : Phi src (flatten 0 v) ≤ 3 * src.length := by
  have h1 := doc_len h
  have h2 := count_flatten 0 v
  simp only [Phi]; omega

/-! ## Values of an `any` -/

theorem bytesL_append : ∀ (a b : List AnyVal), anyBytesL (a ++ b) = anyBytesL a + anyBytesL b
  | [], b => by simp [anyBytesL]
  | v :: a, b => by simp only [List.cons_append, anyBytesL, bytesL_append a b]; omega

theorem assoc_bytes (k : Str) (v : AnyVal) : ∀ (m : List (Str × AnyVal)), anyBytesM (assocSet k v m) ≤ anyBytesM m + (32 + k.bytes.length + anyBytes v)
  | [] => by simp only [assocSet, anyBytesM]; omega
  | e :: m => by
    have := assoc_bytes k v m
    simp only [assocSet]
    split
    · obtain ⟨k', v'⟩ := e
      simp only [anyBytesM]; omega
    · obtain ⟨k', v'⟩ := e
      simp only [anyBytesM]; omega

theorem tok_text {src : Bytes} {t : Token} {tv : Bytes} (hty : t.type ≠ .array ∧ t.type ≠ .object) (h : slice src t.index t.end_ = some tv) : tv.length ≤ stopOf t - t.index := by
  have := slice_short h
  simp only [stopOf, hty, or_self, if_false]; exact this

theorem tok_inner {src : Bytes} {t : Token} {tv : Bytes} (hty : t.type ≠ .array ∧ t.type ≠ .object) (h : slice src (t.index + 1) (t.end_ - 1) = some tv) :
    tv.length ≤ stopOf t - t.index := by
  have := slice_short h
  simp only [stopOf, hty, or_self, if_false]; omega

theorem cost_append : ∀ (a b : List Token), cost (a ++ b) = cost a + cost b
  | [], b => by simp [cost]
  | t :: a, b => by simp only [List.cons_append, cost, cost_append a b]; omega

theorem inner_short {x : Ext} {src : Bytes} {i e : Nat} {s : Str} (h : (slice src (i + 1) (e - 1)).bind x.unescStr = some s) : s.bytes.length ≤ e - i := by
  cases hs : slice src (i + 1) (e - 1) with
  | none => rw [hs] at h; cases h
  | some tv =>
    rw [hs] at h
    have := slice_short hs
    have := unesc_short (x := x) (s := tv) h
    omega

mutual
/-- What a value becomes is paid by its tokens. -/
theorem any_cost (x : Ext) (src : Bytes) : ∀ (v : JVal) (ti : Nat) (w : AnyVal), anyOf x src v = some (.ok w) → 16 + anyBytes w ≤ 32 * cost (flatten ti v)
  | .null i e, ti, w, h => by cases h; simp only [flatten, cost, anyBytes]; omega
  | .bool b i e, ti, w, h => by cases h; simp only [flatten, cost, anyBytes]; omega
  | .num b i e, ti, w, h => by
    simp only [anyOf] at h
    rw [Option.map_eq_some_iff] at h
    obtain ⟨tv, -, h⟩ := h
    cases hf : x.tokFloat64 tv with
    | error e => rw [hf] at h; cases h
    | ok f => rw [hf] at h; cases h; simp only [flatten, cost, anyBytes]; omega
  | .str i e, ti, w, h => by
    simp only [anyOf] at h
    rw [Option.map_eq_some_iff] at h
    obtain ⟨s, hs, h⟩ := h
    cases h
    have := inner_short hs
    simp only [flatten, cost, anyBytes, stopOf, reduceCtorEq, or_self, if_false]; omega
  | .arr i vs k, ti, w, h => by
    simp only [anyOf] at h
    rw [Option.map_eq_some_iff] at h
    obtain ⟨r, hr, h⟩ := h
    cases r with
    | error e => cases h
    | ok l =>
      cases h
      have := anyL_cost x src vs (ti + 1) l hr
      simp only [flatten, cost, cost_append, anyBytes]; omega
  | .obj i ms k, ti, w, h => by
    simp only [anyOf] at h
    rw [Option.map_eq_some_iff] at h
    obtain ⟨r, hr, h⟩ := h
    cases r with
    | error e => cases h
    | ok l =>
      cases h
      have := anyM_cost x src ms (ti + 1) [] l hr
      simp only [flatten, cost, cost_append, anyBytes, anyBytesM] at *; omega
theorem anyL_cost (x : Ext) (src : Bytes) : ∀ (vs : List JVal) (ti : Nat) (l : List AnyVal), anyOfL x src vs = some (.ok l) → anyBytesL l ≤ 32 * cost (flattenL ti vs)
  | [], ti, l, h => by cases h; simp [anyBytesL]
  | v :: vs, ti, l, h => by
    simp only [anyOfL] at h
    split at h
    · cases h
    · cases h
    · rename_i a ha
      rw [Option.map_eq_some_iff] at h
      obtain ⟨r, hr, h⟩ := h
      cases r with
      | error e => cases h
      | ok l' =>
        cases h
        have h1 := any_cost x src v ti a ha
        have h2 := anyL_cost x src vs (ti + (flatten ti v).length) l' hr
        simp only [flattenL, cost_append, anyBytesL]; omega
theorem anyM_cost (x : Ext) (src : Bytes) : ∀ (ms : List ((Nat × Nat) × JVal)) (ti : Nat) (m l : List (Str × AnyVal)), anyOfM x src m ms = some (.ok l) →
    anyBytesM l ≤ anyBytesM m + 32 * cost (flattenM ti ms)
  | [], ti, m, l, h => by cases h; simp [flattenM, cost]
  | ((i, e), v) :: ms, ti, m, l, h => by
    simp only [anyOfM] at h
    split at h
    · cases h
    · rename_i key hk
      split at h
      · cases h
      · cases h
      · rename_i a ha
        split at h
        · cases h
        · rename_i k hu
          have h1 := any_cost x src v (ti + 1) a ha
          have h2 := anyM_cost x src ms (ti + 1 + (flatten (ti + 1) v).length) _ l h
          have h3 := assoc_bytes k a m
          have h4 := slice_short hk
          have h5 := unesc_short hu
          simp only [flattenM, cost, cost_append, stopOf, reduceCtorEq, or_self, if_false] at *; omega
end

theorem assign_bytes (k : Key) (b : Block) : ∀ (m : List (Key × Block)), entryBytes (mapSSLoop.mapAssign k b m) ≤ entryBytes m + keyBytes k + b.length + footprint b := by
  intro m
  unfold mapSSLoop.mapAssign
  have aux : ∀ m : List (Key × Block), entryBytes (putKey k b m) ≤ entryBytes m + b.length + footprint b := by
    intro m
    induction m with
    | nil => simp [putKey, entryBytes]
    | cons e m ih =>
      obtain ⟨k', b'⟩ := e
      simp only [putKey]
      split
      · simp only [entryBytes]; omega
      · simp only [entryBytes]; omega
  split
  · have := aux m; omega
  · rw [entry_append]; simp only [entryBytes]; omega

theorem W_le (x : Ext) : x.W ≤ 8 := by unfold Ext.W; split <;> omega

theorem seg_len (n : Nat) (c : Cell) : (seg n c).length = n := by
  cases n <;> simp [seg]

/-- The entries of a `map[string]string`. -/
theorem mapSS_cost (x : Ext) (src : Bytes) : ∀ (ms : List ((Nat × Nat) × JVal)) (ti : Nat) (m es : List (Key × Block)), mapSSB x src ms m = some (.ok es) →
    entryBytes es ≤ entryBytes m + 32 * cost (flattenM ti ms)
  | [], ti, m, es, h => by cases h; simp [flattenM, cost]
  | ((i, e), v) :: ms, ti, m, es, h => by
    have hW := W_le x
    simp only [mapSSB] at h
    split at h
    · split at h
      · rename_i ks vs hk hv
        have h1 := mapSS_cost x src ms (ti + 1 + 1) _ _ h
        have h2 := assign_bytes (.str ks) (seg (2 * x.W) (.str vs)) m
        have h3 := inner_short hk
        have h4 := inner_short hv
        have h5 := foot_seg (2 * x.W) (.str vs)
        simp only [flattenM, flatten, cost, cost_append, stopOf, reduceCtorEq, or_self, if_false, keyBytes, seg_len, cellBytes, List.length_cons, List.length_nil, Nat.zero_add] at *; omega
      · cases h
    · split at h
      · rename_i ks hk
        have h1 := mapSS_cost x src ms (ti + 1 + 1) _ _ h
        have h2 := assign_bytes (.str ks) (zeros (2 * x.W)) m
        have h3 := inner_short hk
        rw [foot_zeros] at h2
        simp only [flattenM, flatten, cost, cost_append, stopOf, reduceCtorEq, or_self, if_false, keyBytes, zeros, List.length_replicate, List.length_cons, List.length_nil, Nat.zero_add] at *; omega
      · cases h
    · cases h

/-! ## Containers in the token list -/

/-- At every array or object token there is a value. -/
def SubAt (ti : Nat) (l : List Token) : Prop := ∃ w r, l = flatten ti w ++ r

mutual
theorem sub_at : ∀ (v : JVal) (ti : Nat) (r : List Token) (i : Nat) (t : Token), (flatten ti v)[i]? = some t → (t.type = .array ∨ t.type = .object) →
    SubAt (ti + i) ((flatten ti v ++ r).drop i)
  | .null _ _, ti, r, i, t, hi, hc => by
    cases i <;> simp [flatten] at hi
    subst hi; simp at hc
  | .bool b _ _, ti, r, i, t, hi, hc => by
    cases i <;> simp [flatten] at hi
    subst hi; cases b <;> simp at hc
  | .num b _ _, ti, r, i, t, hi, hc => by
    cases i <;> simp [flatten] at hi
    subst hi; cases b <;> simp at hc
  | .str _ _, ti, r, i, t, hi, hc => by
    cases i <;> simp [flatten] at hi
    subst hi; simp at hc
  | .arr a vs k, ti, r, i, t, hi, hc => by
    cases i with
    | zero => exact ⟨.arr a vs k, r, by simp⟩
    | succ i =>
      simp only [flatten, List.getElem?_cons_succ] at hi
      rw [List.getElem?_append] at hi
      split at hi
      · have := sub_atL vs (ti + 1) (⟨.arrayEnd, k, k + 1, 0⟩ :: r) i t hi hc
        simpa [flatten, Nat.add_assoc, Nat.add_comm 1 i] using this
      · generalize hj : i - (flattenL (ti + 1) vs).length = j at hi
        cases j <;> simp at hi
        subst hi; simp at hc
  | .obj a ms k, ti, r, i, t, hi, hc => by
    cases i with
    | zero => exact ⟨.obj a ms k, r, by simp⟩
    | succ i =>
      simp only [flatten, List.getElem?_cons_succ] at hi
      rw [List.getElem?_append] at hi
      split at hi
      · have := sub_atM ms (ti + 1) (⟨.objectEnd, k, k + 1, 0⟩ :: r) i t hi hc
        simpa [flatten, Nat.add_assoc, Nat.add_comm 1 i] using this
      · generalize hj : i - (flattenM (ti + 1) ms).length = j at hi
        cases j <;> simp at hi
        subst hi; simp at hc
theorem sub_atL : ∀ (vs : List JVal) (ti : Nat) (r : List Token) (i : Nat) (t : Token), (flattenL ti vs)[i]? = some t → (t.type = .array ∨ t.type = .object) →
    SubAt (ti + i) ((flattenL ti vs ++ r).drop i)
  | [], ti, r, i, t, hi, hc => by simp [flattenL] at hi
  | v :: vs, ti, r, i, t, hi, hc => by
    simp only [flattenL] at hi ⊢
    rw [List.append_assoc]
    rw [List.getElem?_append] at hi
    split at hi
    · exact sub_at v ti _ i t hi hc
    · rename_i hl
      have := sub_atL vs (ti + (flatten ti v).length) r _ t hi hc
      rw [List.drop_append, List.drop_eq_nil_of_le (by omega), List.nil_append]
      rwa [show ti + (flatten ti v).length + (i - (flatten ti v).length) = ti + i by omega] at this
theorem sub_atM : ∀ (ms : List ((Nat × Nat) × JVal)) (ti : Nat) (r : List Token) (i : Nat) (t : Token), (flattenM ti ms)[i]? = some t → (t.type = .array ∨ t.type = .object) →
    SubAt (ti + i) ((flattenM ti ms ++ r).drop i)
  | [], ti, r, i, t, hi, hc => by simp [flattenM] at hi
  | ((a, e), v) :: ms, ti, r, i, t, hi, hc => by
    simp only [flattenM] at hi ⊢
    cases i with
    | zero => simp at hi; subst hi; simp at hc
    | succ i =>
      simp only [List.getElem?_cons_succ] at hi
      simp only [List.cons_append, List.drop_succ_cons]
      rw [List.append_assoc]
      rw [List.getElem?_append] at hi
      rw [show ti + (i + 1) = ti + 1 + i by omega]
      split at hi
      · exact sub_at v (ti + 1) _ i t hi hc
      · rename_i hl
        have := sub_atM ms (ti + 1 + (flatten (ti + 1) v).length) r _ t hi hc
        rw [List.drop_append, List.drop_eq_nil_of_le (by omega), List.nil_append]
        rwa [show ti + 1 + (flatten (ti + 1) v).length + (i - (flatten (ti + 1) v).length) = ti + 1 + i by omega] at this
end

end Verif.Proof.Foot

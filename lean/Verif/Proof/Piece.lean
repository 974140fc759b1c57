import Verif.Spec.Piece
import Verif.Proof.PlaceRun
import Verif.Proof.JsonParse
/-!
# Parts of a document as documents
-/
namespace Verif.Proof.Piece
open Verif.Model Verif.Big Verif.Spec Verif.Proof Verif.Proof.Json

mutual
/-- The same tree, `k` bytes further to the left. -/
def back (k : Nat) : JVal → JVal
  | .null i e => .null (i - k) (e - k)
  | .bool b i e => .bool b (i - k) (e - k)
  | .num b i e => .num b (i - k) (e - k)
  | .str i e => .str (i - k) (e - k)
  | .arr i vs e => .arr (i - k) (backL k vs) (e - k)
  | .obj i ms e => .obj (i - k) (backM k ms) (e - k)
def backL (k : Nat) : List JVal → List JVal
  | [] => []
  | v :: vs => back k v :: backL k vs
def backM (k : Nat) : List ((Nat × Nat) × JVal) → List ((Nat × Nat) × JVal)
  | [] => []
  | m :: ms => ((m.1.1 - k, m.1.2 - k), back k m.2) :: backM k ms
end

theorem backL_nil {k : Nat} {vs : List JVal} : backL k vs = [] ↔ vs = [] := by cases vs <;> simp [backL]

theorem backM_nil {k : Nat} {ms : List ((Nat × Nat) × JVal)} : backM k ms = [] ↔ ms = [] := by cases ms <;> simp [backM]

theorem backL_get {k : Nat} : ∀ (vs : List JVal) (i : Nat), (backL k vs)[i]? = vs[i]?.map (back k)
  | [], i => by simp [backL]
  | v :: vs, 0 => by simp [backL]
  | v :: vs, i + 1 => by simpa [backL] using backL_get vs i

theorem backM_get {k : Nat} : ∀ (ms : List ((Nat × Nat) × JVal)) (i : Nat), (backM k ms)[i]? = ms[i]?.map (fun m => ((m.1.1 - k, m.1.2 - k), back k m.2))
  | [], i => by simp [backM]
  | v :: vs, 0 => by simp [backM]
  | v :: vs, i + 1 => by simpa [backM] using backM_get vs i

theorem padded_back {P Q : Nat → Bytes → Prop} {k a : Nat} {s : Bytes} (h : ∀ b t, P (k + b) t → Q b t) (hp : Padded P (k + a) s) : Padded Q a s := by
  obtain ⟨w, t, w', h1, h2, h3, h4⟩ := hp
  exact ⟨w, t, w', h1, h2, h3, h _ _ (by rw [← Nat.add_assoc]; exact h4)⟩

theorem string_back {m : Nat × Nat} {k a : Nat} {s : Bytes} (h : IsString m (k + a) s) : IsString (m.1 - k, m.2 - k) a s := by
  obtain ⟨raw, h1, h2, rfl⟩ := h
  refine ⟨raw, h1, h2, ?_⟩
  simp only [Prod.mk.injEq]
  omega

mutual
theorem json_back (k : Nat) : ∀ (v : JVal) (a : Nat) (s : Bytes), IsJson v (k + a) s → IsJson (back k v) a s
  | .null i e, a, s, h => by
    obtain ⟨h1, rfl, rfl⟩ := h
    exact ⟨h1, by omega, by omega⟩
  | .bool b i e, a, s, h => by
    obtain ⟨h1, rfl, rfl⟩ := h
    exact ⟨h1, by omega, by omega⟩
  | .num b i e, a, s, h => by
    obtain ⟨h1, h2, rfl, rfl⟩ := h
    exact ⟨h1, h2, by omega, by omega⟩
  | .str i e, a, s, h => string_back h
  | .arr i vs e, a, s, h => by
    obtain ⟨body, h1, rfl, rfl, h2⟩ := h
    exact ⟨body, h1, by omega, by omega, elems_back k vs (a + 1) body (by rw [← Nat.add_assoc]; exact h2)⟩
  | .obj i ms e, a, s, h => by
    obtain ⟨body, h1, rfl, rfl, h2⟩ := h
    exact ⟨body, h1, by omega, by omega, members_back k ms (a + 1) body (by rw [← Nat.add_assoc]; exact h2)⟩
theorem elems_back (k : Nat) : ∀ (vs : List JVal) (a : Nat) (s : Bytes), IsElems vs (k + a) s → IsElems (backL k vs) a s
  | [], _, _, h => h
  | v :: vs, a, s, h => by
    rcases h with ⟨rfl, h⟩ | ⟨hn, s₁, s₂, h1, h2, h3⟩
    · exact .inl ⟨rfl, padded_back (json_back k v) h⟩
    · refine .inr ⟨fun h => hn (backL_nil.1 h), s₁, s₂, h1, padded_back (json_back k v) h2, elems_back k vs _ _ ?_⟩
      rw [show k + (a + s₁.length + 1) = k + a + s₁.length + 1 by omega]; exact h3
theorem members_back (k : Nat) : ∀ (ms : List ((Nat × Nat) × JVal)) (a : Nat) (s : Bytes), IsMembers ms (k + a) s → IsMembers (backM k ms) a s
  | [], _, _, h => h
  | m :: ms, a, s, h => by
    obtain ⟨key, val, rest, h1, h2, h3, h4⟩ := h
    refine ⟨key, val, rest, h1, padded_back (fun _ _ => string_back) h2, padded_back (json_back k m.2) (by rw [show k + (a + key.length + 1) = k + a + key.length + 1 by omega]; exact h3), ?_⟩
    rcases h4 with ⟨rfl, h4⟩ | ⟨hn, s₂, h4, h5⟩
    · exact .inl ⟨rfl, h4⟩
    · refine .inr ⟨fun h => hn (backM_nil.1 h), s₂, h4, members_back k ms _ _ ?_⟩
      rw [show k + (a + key.length + 1 + val.length + 1) = k + a + key.length + 1 + val.length + 1 by omega]; exact h5
end

/-! ## Parts of a text -/

theorem padded_part {P : Nat → Bytes → Prop} {a : Nat} {s : Bytes} (h : Padded P a s) : ∃ u t u', s = u ++ t ++ u' ∧ P (a + u.length) t := by
  obtain ⟨w, t, w', h1, -, -, h2⟩ := h
  exact ⟨w, t, w', h1, h2⟩

theorem elems_part : ∀ (vs : List JVal) (a : Nat) (s : Bytes), IsElems vs a s → ∀ (i : Nat) v, vs[i]? = some v → ∃ u t u', s = u ++ t ++ u' ∧ IsJson v (a + u.length) t
  | [], _, _, _, i, v, h => by simp at h
  | w :: vs, a, s, h, i, v, hv => by
    rcases h with ⟨rfl, h⟩ | ⟨hn, s₁, s₂, rfl, h2, h3⟩
    · cases i with
      | zero => simp at hv; subst hv; exact padded_part h
      | succ i => simp at hv
    · cases i with
      | zero =>
        simp at hv; subst hv
        obtain ⟨u, t, u', rfl, ht⟩ := padded_part h2
        exact ⟨u, t, u' ++ 44 :: s₂, by simp, ht⟩
      | succ i =>
        obtain ⟨u, t, u', rfl, ht⟩ := elems_part vs _ _ h3 i v (by simpa using hv)
        refine ⟨s₁ ++ 44 :: u, t, u', by simp, ?_⟩
        rw [show a + (s₁ ++ 44 :: u).length = a + s₁.length + 1 + u.length by simp; omega]; exact ht

theorem members_part : ∀ (ms : List ((Nat × Nat) × JVal)) (a : Nat) (s : Bytes), IsMembers ms a s → ∀ (i : Nat) m, ms[i]? = some m → ∃ u t u', s = u ++ t ++ u' ∧ IsJson m.2 (a + u.length) t
  | [], _, _, _, i, v, h => by simp at h
  | m :: ms, a, s, h, i, m', hm => by
    obtain ⟨key, val, rest, rfl, h2, h3, h4⟩ := h
    cases i with
    | zero =>
      simp at hm; subst hm
      obtain ⟨u, t, u', rfl, ht⟩ := padded_part h3
      refine ⟨key ++ 58 :: u, t, u' ++ rest, by simp, ?_⟩
      rw [show a + (key ++ 58 :: u).length = a + key.length + 1 + u.length by simp; omega]; exact ht
    | succ i =>
      rcases h4 with ⟨rfl, h4⟩ | ⟨hn, s₂, rfl, h5⟩
      · simp at hm
      · obtain ⟨u, t, u', rfl, ht⟩ := members_part ms _ _ h5 i m' (by simpa using hm)
        refine ⟨key ++ 58 :: (val ++ 44 :: u), t, u', by simp, ?_⟩
        rw [show a + (key ++ 58 :: (val ++ 44 :: u)).length = a + key.length + 1 + val.length + 1 + u.length by simp; omega]; exact ht

theorem arr_part {i k : Nat} {vs : List JVal} {a : Nat} {s : Bytes} (h : IsJson (.arr i vs k) a s) {j : Nat} {v : JVal} (hv : vs[j]? = some v) : ∃ u t u', s = u ++ t ++ u' ∧ IsJson v (a + u.length) t := by
  obtain ⟨body, rfl, -, -, hb⟩ := h
  obtain ⟨u, t, u', rfl, ht⟩ := elems_part vs _ _ hb j v hv
  refine ⟨91 :: u, t, u' ++ [93], by simp, ?_⟩
  rw [show a + (91 :: u).length = a + 1 + u.length by simp; omega]; exact ht

theorem obj_part {i k : Nat} {ms : List ((Nat × Nat) × JVal)} {a : Nat} {s : Bytes} (h : IsJson (.obj i ms k) a s) {j : Nat} {m : (Nat × Nat) × JVal} (hm : ms[j]? = some m) :
    ∃ u t u', s = u ++ t ++ u' ∧ IsJson m.2 (a + u.length) t := by
  obtain ⟨body, rfl, -, -, hb⟩ := h
  obtain ⟨u, t, u', rfl, ht⟩ := members_part ms _ _ hb j m hm
  refine ⟨123 :: u, t, u' ++ [125], by simp, ?_⟩
  rw [show a + (123 :: u).length = a + 1 + u.length by simp; omega]; exact ht

theorem inside_part {w v : JVal} (h : Inside w v) : ∀ {a : Nat} {s : Bytes}, IsJson v a s → ∃ u t u', s = u ++ t ++ u' ∧ IsJson w (a + u.length) t := by
  induction h with
  | self => exact fun {a s} h => ⟨[], s, [], by simp, h⟩
  | elem hu _ ih =>
    intro a s h
    obtain ⟨j, hj⟩ := List.getElem?_of_mem hu
    replace h := arr_part h hj
    obtain ⟨u, t, u', rfl, h⟩ := h
    replace h := ih h
    obtain ⟨y, t, y', rfl, h⟩ := h
    exact ⟨u ++ y, t, y' ++ u', by simp, by rw [List.length_append, ← Nat.add_assoc]; exact h⟩
  | member hu _ ih =>
    intro a s h
    obtain ⟨j, hj⟩ := List.getElem?_of_mem hu
    replace h := obj_part h hj
    obtain ⟨u, t, u', rfl, h⟩ := h
    replace h := ih h
    obtain ⟨y, t, y', rfl, h⟩ := h
    exact ⟨u ++ y, t, y' ++ u', by simp, by rw [List.length_append, ← Nat.add_assoc]; exact h⟩

/-- Where a part stands. -/
theorem inside_doc {src : Bytes} {v w : JVal} (hd : IsDoc src v) (h : Inside w v) : ∃ p t q, src = p ++ t ++ q ∧ IsJson w p.length t := by
  obtain ⟨p, t, q, rfl, ht⟩ := padded_part hd
  replace ht := inside_part h ht
  obtain ⟨u, t, u', rfl, ht⟩ := ht
  exact ⟨p ++ u, t, u' ++ q, by simp, by simpa using ht⟩

theorem json_index {v : JVal} {a : Nat} {s : Bytes} (h : IsJson v a s) : v.index = a ∧ v.stop = a + s.length := by
  cases v with
  | null => exact ⟨h.2.1, h.2.2⟩
  | bool => exact ⟨h.2.1, h.2.2⟩
  | num => exact ⟨h.2.2.1, h.2.2.2⟩
  | str =>
    obtain ⟨raw, -, -, h⟩ := h
    cases h; exact ⟨rfl, rfl⟩
  | arr => obtain ⟨body, rfl, rfl, rfl, -⟩ := h; exact ⟨rfl, by simp [JVal.stop]; omega⟩
  | obj => obtain ⟨body, rfl, rfl, rfl, -⟩ := h; exact ⟨rfl, by simp [JVal.stop]; omega⟩

theorem json_text {src p t q : Bytes} {w : JVal} (h : src = p ++ t ++ q) (hj : IsJson w p.length t) : textOf src w = t := by
  obtain ⟨h1, h2⟩ := json_index hj
  rw [textOf, h1, h2]; exact text_at h rfl

theorem doc_text {src p t q : Bytes} {w : JVal} (hj : IsJson w p.length t) : IsDoc t (back p.length w) :=
  ⟨[], t, [], by simp, fun _ h => by simp at h, fun _ h => by simp at h, json_back _ _ _ _ (by simpa using hj)⟩

/-! ## The same document -/

theorem padded_text {m : Nat × Nat} {src p s q : Bytes} {a : Nat} (h : src = p ++ s ++ q) (ha : a = p.length) (hp : Padded (IsString m) a s) : ∃ w t w', s = w ++ t ++ w' ∧ m = (a + w.length, a + w.length + t.length) ∧ text src m.1 m.2 = t := by
  obtain ⟨w, t, w', rfl, -, -, raw, -, -, rfl⟩ := hp
  refine ⟨w, t, w', rfl, rfl, ?_⟩
  exact text_at (pre := p ++ w) (post := w' ++ q) (by simp [h]) (by simp [ha])

theorem key_same {m : Nat × Nat} {src src' p s q p' q' : Bytes} {k : Nat} (h : src = p ++ s ++ q) (h' : src' = p' ++ s ++ q') (hk : p.length = k + p'.length) (hp : Padded (IsString m) p.length s) :
    text src m.1 m.2 = text src' (m.1 - k) (m.2 - k) := by
  obtain ⟨w, t, w', rfl, -, -, raw, -, -, rfl⟩ := hp
  rw [text_at (pre := p ++ w) (s := t) (post := w' ++ q) (by simp [h]) (by simp)]
  rw [show p.length + w.length - k = p'.length + w.length by omega, show p.length + w.length + t.length - k = p'.length + w.length + t.length by omega]
  exact (text_at (pre := p' ++ w) (post := w' ++ q') (by simp [h']) (by simp)).symm

theorem tok_same {src src' p s q p' q' : Bytes} {i e k : Nat} (h : src = p ++ s ++ q) (h' : src' = p' ++ s ++ q') (hk : p.length = k + p'.length) (hi : i = p.length) (he : e = p.length + s.length) :
    text src i e = text src' (i - k) (e - k) := by
  subst hi he
  rw [text_at h rfl, show p.length - k = p'.length by omega, show p.length + s.length - k = p'.length + s.length by omega]
  exact (text_at h' rfl).symm

mutual
theorem back_same {src src' : Bytes} {k : Nat} : ∀ (v : JVal) (p s q p' q' : Bytes), src = p ++ s ++ q → src' = p' ++ s ++ q' → p.length = k + p'.length → IsJson v p.length s → SameDoc src src' v (back k v)
  | .null i e, p, s, q, p', q', h, h', hk, hj => trivial
  | .bool b i e, p, s, q, p', q', h, h', hk, hj => rfl
  | .num b i e, p, s, q, p', q', h, h', hk, hj => ⟨rfl, tok_same h h' hk hj.2.2.1 hj.2.2.2⟩
  | .str i e, p, s, q, p', q', h, h', hk, hj => by
    obtain ⟨raw, -, -, hj⟩ := hj
    cases hj
    exact tok_same h h' hk rfl rfl
  | .arr i vs e, p, s, q, p', q', h, h', hk, hj => by
    obtain ⟨body, rfl, -, -, hb⟩ := hj
    exact back_sameL vs (p ++ [91]) body (93 :: q) (p' ++ [91]) (93 :: q') (by simp [h]) (by simp [h']) (by simp; omega) (by simpa using hb)
  | .obj i ms e, p, s, q, p', q', h, h', hk, hj => by
    obtain ⟨body, rfl, -, -, hb⟩ := hj
    exact back_sameM ms (p ++ [123]) body (125 :: q) (p' ++ [123]) (125 :: q') (by simp [h]) (by simp [h']) (by simp; omega) (by simpa using hb)
theorem back_sameL {src src' : Bytes} {k : Nat} : ∀ (vs : List JVal) (p s q p' q' : Bytes), src = p ++ s ++ q → src' = p' ++ s ++ q' → p.length = k + p'.length → IsElems vs p.length s → SameDocL src src' vs (backL k vs)
  | [], p, s, q, p', q', h, h', hk, hj => trivial
  | v :: vs, p, s, q, p', q', h, h', hk, hj => by
    rcases hj with ⟨rfl, hv⟩ | ⟨-, s₁, s₂, rfl, hv, hr⟩
    · obtain ⟨w, t, w', rfl, -, -, hv⟩ := hv
      exact ⟨back_same v (p ++ w) t (w' ++ q) (p' ++ w) (w' ++ q') (by simp [h]) (by simp [h']) (by simp; omega) (by simpa using hv), trivial⟩
    · refine ⟨?_, back_sameL vs (p ++ s₁ ++ [44]) s₂ q (p' ++ s₁ ++ [44]) q' (by simp [h]) (by simp [h']) (by simp; omega) (by simpa [Nat.add_assoc] using hr)⟩
      obtain ⟨w, t, w', rfl, -, -, hv⟩ := hv
      exact back_same v (p ++ w) t (w' ++ 44 :: s₂ ++ q) (p' ++ w) (w' ++ 44 :: s₂ ++ q') (by simp [h]) (by simp [h']) (by simp; omega) (by simpa using hv)
theorem back_sameM {src src' : Bytes} {k : Nat} : ∀ (ms : List ((Nat × Nat) × JVal)) (p s q p' q' : Bytes), src = p ++ s ++ q → src' = p' ++ s ++ q' → p.length = k + p'.length → IsMembers ms p.length s → SameDocM src src' ms (backM k ms)
  | [], p, s, q, p', q', h, h', hk, hj => trivial
  | m :: ms, p, s, q, p', q', h, h', hk, hj => by
    obtain ⟨key, val, rest, rfl, h1, hv, hr⟩ := hj
    refine ⟨key_same (p := p) (s := key) (q := 58 :: (val ++ rest) ++ q) (p' := p') (q' := 58 :: (val ++ rest) ++ q') (by simp [h]) (by simp [h']) hk h1, ?_, ?_⟩
    · obtain ⟨w, t, w', rfl, -, -, hv⟩ := hv
      exact back_same m.2 (p ++ key ++ [58] ++ w) t (w' ++ rest ++ q) (p' ++ key ++ [58] ++ w) (w' ++ rest ++ q') (by simp [h]) (by simp [h']) (by simp; omega) (by simpa [Nat.add_assoc, Nat.add_comm, Nat.add_left_comm] using hv)
    · rcases hr with ⟨rfl, -⟩ | ⟨-, s₂, rfl, hr⟩
      · trivial
      · exact back_sameM ms (p ++ key ++ [58] ++ val ++ [44]) s₂ q (p' ++ key ++ [58] ++ val ++ [44]) q' (by simp [h]) (by simp [h']) (by simp; omega) (by simpa [Nat.add_assoc, Nat.add_comm, Nat.add_left_comm] using hr)
end

/-! ## Positions of the tokens -/

mutual
theorem starts_back (k : Nat) : ∀ v : JVal, starts (back k v) = (starts v).map (· - k)
  | .null _ _ => rfl
  | .bool _ _ _ => rfl
  | .num _ _ _ => rfl
  | .str _ _ => rfl
  | .arr _ vs _ => by simp [back, starts, starts_backL k vs]
  | .obj _ ms _ => by simp [back, starts, starts_backM k ms]
theorem starts_backL (k : Nat) : ∀ vs : List JVal, startsL (backL k vs) = (startsL vs).map (· - k)
  | [] => rfl
  | v :: vs => by simp [backL, startsL, starts_back k v, starts_backL k vs]
theorem starts_backM (k : Nat) : ∀ ms : List ((Nat × Nat) × JVal), startsM (backM k ms) = (startsM ms).map (· - k)
  | [] => rfl
  | m :: ms => by simp [backM, startsM, starts_back k m.2, starts_backM k ms]
end

theorem padded_ge {P : Nat → Bytes → Prop} {Q : Nat → Prop} {a : Nat} {s : Bytes} (h : Padded P a s) (hP : ∀ b t, a ≤ b → P b t → Q a) : Q a := by
  obtain ⟨w, t, w', -, -, -, h⟩ := h
  exact hP _ _ (by omega) h

mutual
theorem starts_ge : ∀ (v : JVal) (a : Nat) (s : Bytes), IsJson v a s → ∀ i ∈ starts v, a ≤ i
  | .null _ _, a, s, h => by obtain ⟨-, rfl, -⟩ := h; simp [starts]
  | .bool _ _ _, a, s, h => by obtain ⟨-, rfl, -⟩ := h; simp [starts]
  | .num _ _ _, a, s, h => by obtain ⟨-, -, rfl, -⟩ := h; simp [starts]
  | .str _ _, a, s, h => by obtain ⟨raw, -, -, h⟩ := h; cases h; simp [starts]
  | .arr _ vs _, a, s, h => by
    obtain ⟨body, -, rfl, rfl, hb⟩ := h
    intro i hi
    simp only [starts, List.mem_cons, List.mem_append, List.mem_nil_iff, or_false] at hi
    rcases hi with rfl | hi | rfl
    · omega
    · have := starts_geL vs _ _ hb i hi; omega
    · omega
  | .obj _ ms _, a, s, h => by
    obtain ⟨body, -, rfl, rfl, hb⟩ := h
    intro i hi
    simp only [starts, List.mem_cons, List.mem_append, List.mem_nil_iff, or_false] at hi
    rcases hi with rfl | hi | rfl
    · omega
    · have := starts_geM ms _ _ hb i hi; omega
    · omega
theorem starts_geL : ∀ (vs : List JVal) (a : Nat) (s : Bytes), IsElems vs a s → ∀ i ∈ startsL vs, a ≤ i
  | [], a, s, h => by simp [startsL]
  | v :: vs, a, s, h => by
    intro i hi
    simp only [startsL, List.mem_append] at hi
    rcases h with ⟨rfl, w, t, w', -, -, -, hv⟩ | ⟨-, s₁, s₂, rfl, ⟨w, t, w', -, -, -, hv⟩, hr⟩
    · rcases hi with hi | hi
      · have := starts_ge v _ _ hv i hi; omega
      · simp [startsL] at hi
    · rcases hi with hi | hi
      · have := starts_ge v _ _ hv i hi; omega
      · have := starts_geL vs _ _ hr i hi; omega
theorem starts_geM : ∀ (ms : List ((Nat × Nat) × JVal)) (a : Nat) (s : Bytes), IsMembers ms a s → ∀ i ∈ startsM ms, a ≤ i
  | [], a, s, h => by simp [startsM]
  | m :: ms, a, s, h => by
    intro i hi
    obtain ⟨key, val, rest, rfl, ⟨w, t, w', -, -, -, raw, -, -, hk⟩, ⟨y, z, y', -, -, -, hv⟩, hr⟩ := h
    simp only [startsM, List.mem_cons, List.mem_append] at hi
    rcases hi with rfl | hi | hi
    · rw [hk]; show a ≤ a + w.length; omega
    · have := starts_ge m.2 _ _ hv i hi; omega
    · rcases hr with ⟨rfl, -⟩ | ⟨-, s₂, rfl, hr⟩
      · simp [startsM] at hi
      · have := starts_geM ms _ _ hr i hi; omega
end

/-! ## The decoder -/

/-- Corresponding parts of two texts. -/
def Copy (src src' : Bytes) (k : Nat) (w w' : JVal) : Prop :=
  w' = back k w ∧ ∃ p s q p' q', src = p ++ s ++ q ∧ src' = p' ++ s ++ q' ∧ p.length = k + p'.length ∧ IsJson w p.length s

theorem copy_hered {src src' : Bytes} {k : Nat} : Place.Hered (Copy src src' k) := by
  constructor
  · rintro a vs e a' vs' e' ⟨he, p, s, q, p', q', h1, h2, h3, h4⟩ i w w' hw hw'
    simp only [back, JVal.arr.injEq] at he
    rw [he.2.1, backL_get, hw] at hw'
    simp only [Option.map_some, Option.some.injEq] at hw'
    obtain ⟨u, t, u', rfl, h⟩ := arr_part h4 hw
    exact ⟨hw'.symm, p ++ u, t, u' ++ q, p' ++ u, u' ++ q', by simp [h1], by simp [h2], by simp; omega, by simpa using h⟩
  · rintro a ms e a' ms' e' ⟨he, p, s, q, p', q', h1, h2, h3, h4⟩ i m m' hw hw'
    simp only [back, JVal.obj.injEq] at he
    rw [he.2.1, backM_get, hw] at hw'
    simp only [Option.map_some, Option.some.injEq] at hw'
    obtain ⟨u, t, u', rfl, h⟩ := obj_part h4 hw
    subst hw'
    exact ⟨rfl, p ++ u, t, u' ++ q, p' ++ u, u' ++ q', by simp [h1], by simp [h2], by simp; omega, by simpa using h⟩

theorem copy_text {src src' : Bytes} {k : Nat} {w w' : JVal} (h : Copy src src' k w w') : text src w.index w.stop = text src' w'.index w'.stop := by
  obtain ⟨rfl, p, s, q, p', q', h1, h2, h3, h4⟩ := h
  have e1 := json_text h1 h4
  have e2 := json_text (w := back k w) h2 (json_back _ _ _ _ (by rw [← h3]; exact h4))
  rw [textOf] at e1 e2
  rw [e1, e2]

theorem decode_copy {x : Ext} {d : Decoder} {src src' : Bytes} {k : Nat} {w w' : JVal} (hc : Copy src src' k w w') (hw : Wf src w) (hw' : Wf src' w') (mem : Block) (o : Option Options) :
    ShiftedBy k (decode x d src (.ok w) (some mem) o) (decode x d src' (.ok w') (some mem) o) := by
  have hs : SameDoc src src' w w' := by
    obtain ⟨rfl, p, s, q, p', q', h1, h2, h3, h4⟩ := hc
    exact back_same w p s q p' q' h1 h2 h3 h4
  have h := Place.decode_or (x := x) (d := d) hw hw' ((Place.same_iff w w').1 hs) copy_hered hc (fun rt _ old v v' _ _ _ h => by
    rcases h with h | ⟨a, b, h⟩
    · rw [copy_text h]
    · exact h.elim) mem o (fun _ _ h => h.elim) (fun _ _ h => h.elim) (fun _ _ h => h.elim)
  cases h1 : decode x d src (.ok w) (some mem) o with
  | none =>
    cases h2 : decode x d src' (.ok w') (some mem) o with
    | none => trivial
    | some r' => rw [h1, h2] at h; exact h
  | some r =>
    cases h2 : decode x d src' (.ok w') (some mem) o with
    | none => rw [h1, h2] at h; exact h
    | some r' =>
      rw [h1, h2] at h
      obtain ⟨g1, g2, g3, g4⟩ := h
      refine ⟨g1, g2, g3, g4.imp id ?_⟩
      rintro ⟨n, a, a', e1, e2, e3, e4⟩
      obtain ⟨rfl, p, s, q, p', q', -, -, h3, h4⟩ := hc
      rw [starts_back, List.getElem?_map, e1] at e2
      simp only [Option.map_some, Option.some.injEq] at e2
      have := starts_ge w _ _ h4 a (List.mem_of_getElem? e1)
      exact ⟨a', e4, by rw [e3]; omega⟩

theorem inside_self {w v : JVal} {src : Bytes} (hd : IsDoc src v) (h : Inside w v) : IsDoc (textOf src w) (back w.index w) ∧ Copy src (textOf src w) w.index w (back w.index w) := by
  obtain ⟨p, t, q, h1, h2⟩ := inside_doc hd h
  have ht := json_text h1 h2
  have hi := (json_index h2).1
  rw [ht, hi]
  exact ⟨doc_text (src := src) (q := q) h2, rfl, p, t, q, [], [], h1, by simp, by simp, h2⟩

theorem inside_wf {src : Bytes} {v w : JVal} (hd : IsDoc src v) (h : Inside w v) : Wf src w := by
  obtain ⟨p, t, q, h1, h2⟩ := inside_doc hd h
  exact json_wf w p t q _ h1 rfl h2

/-- A part of a document, in its place and as a document of its own. -/
theorem decode_piece {x : Ext} {d : Decoder} {src : Bytes} {v w v' : JVal} (hd : IsDoc src v) (h : Inside w v) (hv : IsDoc (textOf src w) v') (mem : Block) (o : Option Options) :
    ShiftedBy w.index (decode x d src (.ok w) (some mem) o) (decode x d (textOf src w) (.ok v') (some mem) o) := by
  obtain ⟨h1, h2⟩ := inside_self hd h
  rw [doc_unique hv h1]
  exact decode_copy h2 (inside_wf hd h) (doc_wf h1) mem o

end Verif.Proof.Piece

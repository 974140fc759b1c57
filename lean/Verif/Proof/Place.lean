import Verif.Spec.Place
import Verif.Proof.Any
import Verif.Proof.Doc
import Verif.Proof.SimFlat
import Verif.Proof.Session
/-!
# The decoder does not look at positions
-/
namespace Verif.Proof.Place
open Verif.Model Verif.Big Verif.Spec Verif.Proof

variable {K S : Bytes → Bytes → Prop} {P : JVal → JVal → Prop}

/-- Array or object token. -/
def Con (t : Token) : Prop := t.type = .array ∨ t.type = .object

/-- Strings with the same contents, up to spelling. -/
def StrR (R : Bytes → Bytes → Prop) (src src' : Bytes) (i e i' e' : Nat) : Prop :=
  WfStr src i e ∧ WfStr src' i' e' ∧ (text src i e = text src' i' e' ∨ R (inner src i e) (inner src' i' e'))

/-- Tokens with the same contents. -/
structure TR (K S : Bytes → Bytes → Prop) (src src' : Bytes) (t t' : Token) : Prop where
  type : t.type = t'.type
  elements : t.elements = t'.elements
  con : Con t → t.end_ = t'.end_
  leaf : ¬ Con t → t.type ≠ .string → t.type ≠ .key → ∃ tv, slice src t.index t.end_ = some tv ∧ slice src' t'.index t'.end_ = some tv
  str : t.type = .string → StrR S src src' t.index t.end_ t'.index t'.end_
  key : t.type = .key → StrR K src src' t.index t.end_ t'.index t'.end_

/-- A relation between values that holds for the corresponding parts, too. -/
structure Hered (P : JVal → JVal → Prop) : Prop where
  arr : ∀ {a vs k a' vs' k'}, P (.arr a vs k) (.arr a' vs' k') → ∀ (i : Nat) w w', vs[i]? = some w → vs'[i]? = some w' → P w w'
  obj : ∀ {a ms k a' ms' k'}, P (.obj a ms k) (.obj a' ms' k') → ∀ (i : Nat) m m', ms[i]? = some m → ms'[i]? = some m' → P m.2 m'.2

/-- Containers of the same contents begin here. -/
def SubAt (P : JVal → JVal → Prop) (K S : Bytes → Bytes → Prop) (src src' : Bytes) (ti : Nat) (l l' : List Token) : Prop :=
  ∃ w w' s s', Wf src w ∧ Wf src' w' ∧ Respelled K S src src' w w' ∧ P w w' ∧ l = flatten ti w ++ s ∧ l' = flatten ti w' ++ s'

/-- Corresponding token lists. -/
def Zip {α : Type} (R : α → α → Prop) (l l' : List α) : Prop := l.length = l'.length ∧ ∀ (i : Nat) a a', l[i]? = some a → l'[i]? = some a' → R a a'

theorem zip_nil {α : Type} {R : α → α → Prop} : Zip R [] [] := ⟨rfl, fun i a a' h => by simp at h⟩

theorem zip_cons {α : Type} {R : α → α → Prop} {a a' : α} {l l' : List α} (h : R a a') (hl : Zip R l l') : Zip R (a :: l) (a' :: l') := by
  refine ⟨by simp [hl.1], fun i b b' h1 h2 => ?_⟩
  cases i with
  | zero => simp at h1 h2; subst h1; subst h2; exact h
  | succ i => exact hl.2 i b b' (by simpa using h1) (by simpa using h2)

theorem zip_append {α : Type} {R : α → α → Prop} {l l' r r' : List α} (hl : Zip R l l') (hr : Zip R r r') : Zip R (l ++ r) (l' ++ r') := by
  refine ⟨by simp [hl.1, hr.1], fun i b b' h1 h2 => ?_⟩
  rw [List.getElem?_append] at h1 h2
  rw [← hl.1] at h2
  split at h1
  · rename_i hi; rw [if_pos hi] at h2; exact hl.2 i b b' h1 h2
  · rename_i hi; rw [if_neg hi] at h2; exact hr.2 _ b b' h1 h2

theorem zip_drop {α : Type} {R : α → α → Prop} {l l' : List α} (h : Zip R l l') (n : Nat) : Zip R (l.drop n) (l'.drop n) :=
  ⟨by simp [h.1], fun i a a' h1 h2 => h.2 (n + i) a a' (by rwa [List.getElem?_drop] at h1) (by rwa [List.getElem?_drop] at h2)⟩

theorem zip_take {α : Type} {R : α → α → Prop} {l l' : List α} (h : Zip R l l') (n : Nat) : Zip R (l.take n) (l'.take n) := by
  refine ⟨by simp [h.1], fun i a a' h1 h2 => ?_⟩
  rw [List.getElem?_take] at h1 h2
  split at h1
  · rename_i hi; rw [if_pos hi] at h2; exact h.2 i a a' h1 h2
  · cases h1

theorem zip_uncons {α : Type} {R : α → α → Prop} {a a' : α} {l l' : List α} (h : Zip R (a :: l) (a' :: l')) : R a a' ∧ Zip R l l' :=
  ⟨h.2 0 a a' rfl rfl, by simpa using h.1, fun i b b' h1 h2 => h.2 (i + 1) b b' (by simpa using h1) (by simpa using h2)⟩

theorem zip_mono {α : Type} {R S : α → α → Prop} (h : ∀ a b, R a b → S a b) {l l' : List α} (hl : Zip R l l') : Zip S l l' :=
  ⟨hl.1, fun i a a' h1 h2 => h _ _ (hl.2 i a a' h1 h2)⟩

/-- The text between the quotes, from the whole text. -/
theorem slice_inside {src : Bytes} {i e : Nat} {tv : Bytes} (h : slice src i e = some tv) :
    slice src (i + 1) (e - 1) = if tv.length < 2 then none else some ((tv.drop 1).take (tv.length - 2)) := by
  unfold slice at h ⊢
  split at h
  · rename_i hb
    cases h
    simp only [List.length_take, List.length_drop]
    have : min (e - i) (src.length - i) = e - i := by omega
    rw [this]
    by_cases hl : e - i < 2
    · rw [if_pos hl, if_neg (by omega)]
    · rw [if_neg hl, if_pos (by omega)]
      congr 1
      rw [List.drop_take, List.drop_drop, List.take_take]
      congr 1
      omega
  · cases h

theorem StrR.inside {R : Bytes → Bytes → Prop} {src src' : Bytes} {i e i' e' : Nat} (h : StrR R src src' i e i' e') :
    ∃ a b, slice src (i + 1) (e - 1) = some a ∧ slice src' (i' + 1) (e' - 1) = some b ∧ (a = b ∨ R a b) := by
  obtain ⟨h1, h2, h3⟩ := h
  refine ⟨_, _, Doc.slice_inner h1, Doc.slice_inner h2, h3.imp (fun h => ?_) id⟩
  have e1 := slice_inside (Doc.slice_text (src := src) (i := i) (e := e) (by have := h1.1; omega) h1.2.1)
  have e2 := slice_inside (Doc.slice_text (src := src') (i := i') (e := e') (by have := h2.1; omega) h2.2.1)
  rw [Doc.slice_inner h1] at e1
  rw [Doc.slice_inner h2, ← h, ← e1] at e2
  exact (Option.some.inj e2).symm

theorem TR.whole {src src' : Bytes} {t t' : Token} (h : TR K S src src' t t') (hc : ¬ Con t) (hs : t.type ≠ .string) (hk : t.type ≠ .key) : slice src t.index t.end_ = slice src' t'.index t'.end_ := by
  obtain ⟨tv, h1, h2⟩ := h.leaf hc hs hk
  rw [h1, h2]

mutual
theorem same_len {src src' : Bytes} : ∀ (v v' : JVal) (ti tj : Nat), Respelled K S src src' v v' → (flatten ti v).length = (flatten tj v').length
  | .null _ _, .null _ _, _, _, _ => rfl
  | .bool _ _ _, .bool _ _ _, _, _, _ => rfl
  | .num _ _ _, .num _ _ _, _, _, _ => rfl
  | .str _ _, .str _ _, _, _, _ => rfl
  | .arr _ vs _, .arr _ vs' _, ti, tj, h => by simp [flatten, same_lenL vs vs' (ti + 1) (tj + 1) h]
  | .obj _ ms _, .obj _ ms' _, ti, tj, h => by simp [flatten, same_lenM ms ms' (ti + 1) (tj + 1) h]
theorem same_lenL {src src' : Bytes} : ∀ (vs vs' : List JVal) (ti tj : Nat), RespelledL K S src src' vs vs' → (flattenL ti vs).length = (flattenL tj vs').length
  | [], [], _, _, _ => rfl
  | v :: vs, v' :: vs', ti, tj, h => by
    simp only [flattenL, List.length_append]
    rw [same_len v v' ti tj h.1, same_lenL vs vs' _ _ h.2]
theorem same_lenM {src src' : Bytes} : ∀ (ms ms' : List ((Nat × Nat) × JVal)) (ti tj : Nat), RespelledM K S src src' ms ms' → (flattenM ti ms).length = (flattenM tj ms').length
  | [], [], _, _, _ => rfl
  | m :: ms, m' :: ms', ti, tj, h => by
    simp only [flattenM, List.length_append, List.length_cons]
    rw [same_len m.2 m'.2 _ _ h.2.1, same_lenM ms ms' _ _ h.2.2]
end

theorem sameL_length {src src' : Bytes} : ∀ (vs vs' : List JVal), RespelledL K S src src' vs vs' → vs.length = vs'.length
  | [], [], _ => rfl
  | _ :: vs, _ :: vs', h => by simp [sameL_length vs vs' h.2]

theorem sameM_length {src src' : Bytes} : ∀ (ms ms' : List ((Nat × Nat) × JVal)), RespelledM K S src src' ms ms' → ms.length = ms'.length
  | [], [], _ => rfl
  | _ :: ms, _ :: ms', h => by simp [sameM_length ms ms' h.2.2]

theorem tr_leaf {src src' : Bytes} {ty : TokType} {i e i' e' n : Nat} (hc : ty ≠ .array ∧ ty ≠ .object ∧ ty ≠ .string ∧ ty ≠ .key) (h : i ≤ e) (h1 : e ≤ src.length) (h' : i' ≤ e') (h2 : e' ≤ src'.length)
    (ht : text src i e = text src' i' e') : TR K S src src' ⟨ty, i, e, n⟩ ⟨ty, i', e', n⟩ :=
  ⟨rfl, rfl, fun h => by
    rcases h with h | h
    · exact absurd h hc.1
    · exact absurd h hc.2.1, fun _ _ _ => ⟨_, Doc.slice_text h h1, by rw [ht]; exact Doc.slice_text h' h2⟩, fun h => absurd h hc.2.2.1, fun h => absurd h hc.2.2.2⟩

theorem tr_str {src src' : Bytes} {i e i' e' n : Nat} (h : StrR S src src' i e i' e') : TR K S src src' ⟨.string, i, e, n⟩ ⟨.string, i', e', n⟩ :=
  ⟨rfl, rfl, (fun h => by rcases h with h | h <;> cases h), fun _ h => absurd rfl h, fun _ => h, (fun h => by cases h)⟩

theorem tr_key {src src' : Bytes} {i e i' e' n : Nat} (h : StrR K src src' i e i' e') : TR K S src src' ⟨.key, i, e, n⟩ ⟨.key, i', e', n⟩ :=
  ⟨rfl, rfl, (fun h => by rcases h with h | h <;> cases h), fun _ _ h => absurd rfl h, (fun h => by cases h), fun _ => h⟩

theorem text_one {src : Bytes} {k : Nat} {c : UInt8} (h : src[k]? = some c) : text src k (k + 1) = [c] := by
  obtain ⟨hk, h⟩ := List.getElem?_eq_some_iff.1 h
  simp only [text, show k + 1 - k = 1 by omega]
  rw [List.drop_eq_getElem_cons hk, List.take_succ_cons, List.take_zero, h]

mutual
theorem toks_zip {src src' : Bytes} : ∀ (v v' : JVal) (ti : Nat), Wf src v → Wf src' v' → Respelled K S src src' v v' → Zip (TR K S src src') (flatten ti v) (flatten ti v')
  | .null _ _, .null _ _, _, h, h', _ => zip_cons (tr_leaf (by simp) h.1 h.2.1 h'.1 h'.2.1 (h.2.2.trans h'.2.2.symm)) zip_nil
  | .bool b _ _, .bool b' _ _, _, h, h', hs => by
    cases (hs : b = b')
    exact zip_cons (tr_leaf (by cases b <;> simp) h.1 h.2.1 h'.1 h'.2.1 (h.2.2.trans h'.2.2.symm)) zip_nil
  | .num b _ _, .num b' _ _, _, h, h', hs => by
    cases hs.1
    exact zip_cons (tr_leaf (by cases b <;> simp) h.1 h.2.1 h'.1 h'.2.1 hs.2) zip_nil
  | .str _ _, .str _ _, _, h, h', hs => zip_cons (tr_str ⟨h, h', hs⟩) zip_nil
  | .arr _ vs k, .arr _ vs' k', ti, h, h', hs => by
    refine zip_cons ⟨rfl, ?_, fun _ => ?_, fun hc => absurd (.inl rfl) hc, (fun h => by cases h), (fun h => by cases h)⟩ (zip_append (toks_zipL vs vs' (ti + 1) h.2.2.2.2 h'.2.2.2.2 hs) (zip_cons (tr_leaf (by simp) (by omega) (by have := h.2.1; omega) (by omega)
      (by have := h'.2.1; omega) ?_) zip_nil))
    · exact sameL_length vs vs' hs
    · simp only [same_lenL vs vs' (ti + 1) (ti + 1) hs]
    · rw [text_one h.2.2.2.1, text_one h'.2.2.2.1]
  | .obj _ ms k, .obj _ ms' k', ti, h, h', hs => by
    refine zip_cons ⟨rfl, ?_, fun _ => ?_, fun hc => absurd (.inr rfl) hc, (fun h => by cases h), (fun h => by cases h)⟩ (zip_append (toks_zipM ms ms' (ti + 1) h.2.2.2.2 h'.2.2.2.2 hs) (zip_cons (tr_leaf (by simp) (by omega) (by have := h.2.1; omega) (by omega)
      (by have := h'.2.1; omega) ?_) zip_nil))
    · exact sameM_length ms ms' hs
    · simp only [same_lenM ms ms' (ti + 1) (ti + 1) hs]
    · rw [text_one h.2.2.2.1, text_one h'.2.2.2.1]
theorem toks_zipL {src src' : Bytes} : ∀ (vs vs' : List JVal) (ti : Nat), WfL src vs → WfL src' vs' → RespelledL K S src src' vs vs' → Zip (TR K S src src') (flattenL ti vs) (flattenL ti vs')
  | [], [], _, _, _, _ => zip_nil
  | v :: vs, v' :: vs', ti, h, h', hs => by
    simp only [flattenL]
    rw [← same_len v v' ti ti hs.1]
    exact zip_append (toks_zip v v' ti h.1 h'.1 hs.1) (toks_zipL vs vs' _ h.2 h'.2 hs.2)
theorem toks_zipM {src src' : Bytes} : ∀ (ms ms' : List ((Nat × Nat) × JVal)) (ti : Nat), WfM src ms → WfM src' ms' → RespelledM K S src src' ms ms' → Zip (TR K S src src') (flattenM ti ms) (flattenM ti ms')
  | [], [], _, _, _, _ => zip_nil
  | m :: ms, m' :: ms', ti, h, h', hs => by
    simp only [flattenM]
    rw [← same_len m.2 m'.2 (ti + 1) (ti + 1) hs.2.1]
    exact zip_cons (tr_key ⟨h.1, h'.1, hs.1⟩)
      (zip_append (toks_zip m.2 m'.2 _ h.2.1 h'.2.1 hs.2.1) (toks_zipM ms ms' _ h.2.2 h'.2.2 hs.2.2))
end

theorem drop_more {α : Type} {l r : List α} {i : Nat} (h : l.length ≤ i) : (l ++ r).drop i = r.drop (i - l.length) := by
  rw [List.drop_append, List.drop_eq_nil_of_le h, List.nil_append]

mutual
/-- At every array or object token of the first document there are values of the same contents in both. -/
theorem sub_at {src src' : Bytes} (hP : Hered P) : ∀ (v v' : JVal) (ti : Nat) (r r' : List Token), Wf src v → Wf src' v' → Respelled K S src src' v v' → P v v' → ∀ (i : Nat) t, (flatten ti v)[i]? = some t → Con t →
    SubAt P K S src src' (ti + i) ((flatten ti v ++ r).drop i) ((flatten ti v' ++ r').drop i)
  | .null _ _, .null _ _, _, _, _, _, _, _, _, i, t, hi, hc => by
    cases i <;> simp [flatten] at hi
    subst hi; simp [Con] at hc
  | .bool b _ _, .bool b' _ _, _, _, _, _, _, _, _, i, t, hi, hc => by
    cases i <;> simp [flatten] at hi
    subst hi; cases b <;> simp [Con] at hc
  | .num b _ _, .num b' _ _, _, _, _, _, _, _, _, i, t, hi, hc => by
    cases i <;> simp [flatten] at hi
    subst hi; cases b <;> simp [Con] at hc
  | .str _ _, .str _ _, _, _, _, _, _, _, _, i, t, hi, hc => by
    cases i <;> simp [flatten] at hi
    subst hi; simp [Con] at hc
  | .arr a vs k, .arr a' vs' k', ti, r, r', h, h', hs, hp, i, t, hi, hc => by
    cases i with
    | zero => exact ⟨_, _, r, r', h, h', hs, hp, by simp, by simp⟩
    | succ i =>
      simp only [flatten, List.getElem?_cons_succ] at hi
      rw [List.getElem?_append] at hi
      split at hi
      · have := sub_atL hP vs vs' (ti + 1) (⟨.arrayEnd, k, k + 1, 0⟩ :: r) (⟨.arrayEnd, k', k' + 1, 0⟩ :: r') h.2.2.2.2 h'.2.2.2.2 hs (hP.arr hp) i t hi hc
        simpa [flatten, Nat.add_assoc, Nat.add_comm 1 i] using this
      · generalize hj : i - (flattenL (ti + 1) vs).length = j at hi
        cases j <;> simp at hi
        subst hi; simp [Con] at hc
  | .obj a ms k, .obj a' ms' k', ti, r, r', h, h', hs, hp, i, t, hi, hc => by
    cases i with
    | zero => exact ⟨_, _, r, r', h, h', hs, hp, by simp, by simp⟩
    | succ i =>
      simp only [flatten, List.getElem?_cons_succ] at hi
      rw [List.getElem?_append] at hi
      split at hi
      · have := sub_atM hP ms ms' (ti + 1) (⟨.objectEnd, k, k + 1, 0⟩ :: r) (⟨.objectEnd, k', k' + 1, 0⟩ :: r') h.2.2.2.2 h'.2.2.2.2 hs (hP.obj hp) i t hi hc
        simpa [flatten, Nat.add_assoc, Nat.add_comm 1 i] using this
      · generalize hj : i - (flattenM (ti + 1) ms).length = j at hi
        cases j <;> simp at hi
        subst hi; simp [Con] at hc
theorem sub_atL {src src' : Bytes} (hP : Hered P) : ∀ (vs vs' : List JVal) (ti : Nat) (r r' : List Token), WfL src vs → WfL src' vs' → RespelledL K S src src' vs vs' → (∀ (i : Nat) w w', vs[i]? = some w → vs'[i]? = some w' → P w w') → ∀ (i : Nat) t, (flattenL ti vs)[i]? = some t → Con t →
    SubAt P K S src src' (ti + i) ((flattenL ti vs ++ r).drop i) ((flattenL ti vs' ++ r').drop i)
  | [], [], _, _, _, _, _, _, _, i, t, hi, _ => by simp [flattenL] at hi
  | v :: vs, v' :: vs', ti, r, r', h, h', hs, hp, i, t, hi, hc => by
    simp only [flattenL] at hi ⊢
    rw [List.append_assoc, List.append_assoc]
    rw [List.getElem?_append] at hi
    split at hi
    · exact sub_at hP v v' ti _ _ h.1 h'.1 hs.1 (hp 0 _ _ rfl rfl) i t hi hc
    · rename_i hl
      have := sub_atL hP vs vs' (ti + (flatten ti v).length) r r' h.2 h'.2 hs.2 (fun i w w' h h' => hp (i + 1) w w' h h') _ t hi hc
      have e := same_len v v' ti ti hs.1
      rw [drop_more (l := flatten ti v) (by omega), drop_more (l := flatten ti v') (by omega), ← e]
      rwa [show ti + (flatten ti v).length + (i - (flatten ti v).length) = ti + i by omega] at this
theorem sub_atM {src src' : Bytes} (hP : Hered P) : ∀ (ms ms' : List ((Nat × Nat) × JVal)) (ti : Nat) (r r' : List Token), WfM src ms → WfM src' ms' → RespelledM K S src src' ms ms' → (∀ (i : Nat) m m', ms[i]? = some m → ms'[i]? = some m' → P m.2 m'.2) →
    ∀ (i : Nat) t, (flattenM ti ms)[i]? = some t → Con t → SubAt P K S src src' (ti + i) ((flattenM ti ms ++ r).drop i) ((flattenM ti ms' ++ r').drop i)
  | [], [], _, _, _, _, _, _, _, i, t, hi, _ => by simp [flattenM] at hi
  | m :: ms, m' :: ms', ti, r, r', h, h', hs, hp, i, t, hi, hc => by
    simp only [flattenM] at hi ⊢
    cases i with
    | zero => simp at hi; subst hi; simp [Con] at hc
    | succ i =>
      simp only [List.getElem?_cons_succ] at hi
      simp only [List.cons_append, List.drop_succ_cons]
      rw [List.append_assoc, List.append_assoc]
      rw [List.getElem?_append] at hi
      rw [show ti + (i + 1) = ti + 1 + i by omega]
      split at hi
      · exact sub_at hP m.2 m'.2 (ti + 1) _ _ h.2.1 h'.2.1 hs.2.1 (hp 0 _ _ rfl rfl) i t hi hc
      · rename_i hl
        have := sub_atM hP ms ms' (ti + 1 + (flatten (ti + 1) m.2).length) r r' h.2.2 h'.2.2 hs.2.2 (fun i w w' h h' => hp (i + 1) w w' h h') _ t hi hc
        have e := same_len m.2 m'.2 (ti + 1) (ti + 1) hs.2.1
        rw [drop_more (l := flatten (ti + 1) m.2) (by omega), drop_more (l := flatten (ti + 1) m'.2) (by omega), ← e]
        rwa [show ti + 1 + (flatten (ti + 1) m.2).length + (i - (flatten (ti + 1) m.2).length) = ti + 1 + i by omega] at this
end

end Verif.Proof.Place

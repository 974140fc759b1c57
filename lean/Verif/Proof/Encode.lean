import Verif.Spec.Encode
import Verif.Spec.RightVal
import Verif.Proof.JsonParse
import Verif.Proof.Same
/-!
# What `encode` writes is a JSON text, and it means the value
-/
namespace Verif.Proof.Encode
open Verif.Model Verif.Big Verif.Spec Verif.Proof Verif.Proof.Outcome Verif.Proof.Unescape Verif.Proof.Json

/-! ## Integers -/

theorem digit_ok {n : Nat} (h : n < 10) : IsDigit (UInt8.ofNat (48 + n)) ∧ digitVal (UInt8.ofNat (48 + n)) = n ∧ (UInt8.ofNat (48 + n) = 48 → n = 0) := by
  have : n = 0 ∨ n = 1 ∨ n = 2 ∨ n = 3 ∨ n = 4 ∨ n = 5 ∨ n = 6 ∨ n = 7 ∨ n = 8 ∨ n = 9 := by omega
  rcases this with rfl | rfl | rfl | rfl | rfl | rfl | rfl | rfl | rfl | rfl <;> decide

theorem digitsVal_snoc (s : Bytes) (c : UInt8) : digitsVal (s ++ [c]) = 10 * digitsVal s + digitVal c := by
  simp [digitsVal, List.foldl_append]

theorem digits_ok : ∀ (fuel n : Nat), n < fuel → IsNatLit (digitsOf fuel n) ∧ digitsVal (digitsOf fuel n) = n
  | fuel + 1, n, h => by
    rw [digitsOf]
    split
    · rename_i hn
      obtain ⟨h1, h2, h3⟩ := digit_ok hn
      refine ⟨?_, by simpa [digitsVal] using h2⟩
      by_cases hz : n = 0
      · subst hz; exact .zero
      · exact .cons h1 (fun hc => hz (h3 hc)) (by simp)
    · rename_i hn
      obtain ⟨h1, h2⟩ := digits_ok fuel (n / 10) (by omega)
      obtain ⟨g1, g2, -⟩ := digit_ok (n := n % 10) (by omega)
      refine ⟨?_, by rw [digitsVal_snoc, h2, g2]; omega⟩
      generalize digitsOf fuel (n / 10) = s at h1 h2
      cases h1 with
      | zero => simp [digitsVal, digitVal] at h2; omega
      | cons a b c =>
        refine .cons a b ?_
        intro d hd
        rcases List.mem_append.1 hd with hd | hd
        · exact c d hd
        · rw [List.mem_singleton.1 hd]; exact g1

theorem nat_head {s : Bytes} (h : IsNatLit s) : s.head? ≠ some 45 := by
  cases h with
  | zero => decide
  | cons h _ _ => rintro ⟨⟩; exact absurd h (by decide)

theorem int_lit (i : Int) : IsIntLit (intText i) i ∧ (0 ≤ i → (intText i).head? ≠ some 45) := by
  obtain ⟨h1, h2⟩ := digits_ok (i.natAbs + 1) i.natAbs (by omega)
  unfold intText
  split
  · have := IsIntLit.neg h1
    rw [h2] at this
    refine ⟨?_, by omega⟩
    rwa [show -(i.natAbs : Int) = i by omega] at this
  · have := IsIntLit.pos h1
    rw [h2] at this
    refine ⟨?_, fun _ => nat_head h1⟩
    rwa [show (i.natAbs : Int) = i by omega] at this

theorem int_integer {s : Bytes} {i : Int} (h : IsIntLit s i) : IsInteger s := by
  cases h with
  | pos h => exact ⟨[], _, rfl, .inl rfl, h⟩
  | neg h => exact ⟨[45], _, rfl, .inr rfl, h⟩

theorem int_quoted {x : Ext} {k : IKind} {i : Int} (h : InRange x.is64 k i) : QuotedOK x.is64 k (intText i) i := by
  refine ⟨(int_lit i).1, h, fun hs => (int_lit i).2 ?_⟩
  simp only [InRange, hs] at h
  exact h.1

theorem int_negzero (i : Int) : intText i ≠ b!"-0" := by
  intro h
  have := (int_lit i).1
  rw [h] at this
  have h0 : i = 0 := by
    have h0 : IsIntLit b!"-0" 0 := .neg .zero
    exact Same.intLit_unique this h0
  subst h0
  exact absurd h (by decide)

/-! ## Strings -/

theorem content_append {s t : Bytes} (hs : IsContent s) (ht : IsContent t) : IsContent (s ++ t) := by
  induction hs with
  | nil => exact ht
  | plain h1 h2 h3 _ ih => exact .plain h1 h2 h3 ih
  | esc h _ ih => exact .esc h ih
  | uni ha hb hc hd _ ih => exact .uni ha hb hc hd ih

theorem content_plain : ∀ {s : Bytes}, (∀ c ∈ s, c ≠ 34 ∧ c ≠ 92 ∧ 32 ≤ c) → IsContent s
  | [], _ => .nil
  | c :: s, h => .plain (h c List.mem_cons_self).1 (h c List.mem_cons_self).2.1 (h c List.mem_cons_self).2.2 (content_plain fun d hd => h d (List.mem_cons_of_mem _ hd))

theorem content_escape : ∀ s : Bytes, IsContent (escape s)
  | [] => .nil
  | c :: s => by
    have ih := content_escape s
    simp only [escape, List.flatMap_cons] at ih ⊢
    refine content_append ?_ ih
    unfold escapeByte
    split
    · exact .esc (r := 34) (by decide) .nil
    · split
      · exact .esc (r := 92) (by decide) .nil
      · split
        · rename_i h
          have h : c.toNat < 32 := by simpa [UInt8.lt_iff_toNat_lt] using h
          exact .uni (w := 0) (x := 0) (by decide) (by decide) (hexDigit_val _ (by omega)) (hexDigit_val _ (by omega)) .nil
        · rename_i h1 h2 h3
          exact .plain h1 h2 (by rw [UInt8.le_iff_toNat_le]; rw [UInt8.lt_iff_toNat_lt] at h3; have : (32 : UInt8).toNat = 32 := rfl; omega) .nil

theorem num_plain {s : Bytes} (h : IsNumber s) : ∀ c ∈ s, c ≠ 34 ∧ c ≠ 92 ∧ 32 ≤ c := by
  intro c hc
  have hn := num_chars h c hc
  refine ⟨by rintro rfl; simp [isNumChar] at hn, by rintro rfl; simp [isNumChar] at hn, ?_⟩
  simp only [isNumChar, Bool.or_eq_true, Bool.and_eq_true, decide_eq_true_eq, beq_iff_eq] at hn
  rw [UInt8.le_iff_toNat_le]
  have h32 : (32 : UInt8).toNat = 32 := rfl
  rcases hn with ((((hn | rfl) | rfl) | rfl) | rfl) | rfl
  · have := UInt8.le_iff_toNat_le.1 hn.1
    have h48 : (48 : UInt8).toNat = 48 := rfl
    omega
  all_goals decide

/-! ## Texts inside a document -/

/-- Wherever the text stands in the document, it is a JSON value with a tree that satisfies `P`. -/
def Written (src s : Bytes) (P : JVal → Prop) : Prop := ∀ pre post, src = pre ++ s ++ post → ∃ v, IsJson v pre.length s ∧ P v

theorem padded_of {P : Nat → Bytes → Prop} {a : Nat} {s : Bytes} (h : P a s) : Padded P a s :=
  ⟨[], s, [], by simp, by simp [IsSpace], by simp [IsSpace], by simpa using h⟩

theorem written_elems {α : Type} {src : Bytes} {f : α → Bytes} {P : α → JVal → Prop} : ∀ {l : List α}, (∀ p ∈ l, Written src (f p) (P p)) → ∀ pre post, src = pre ++ commas (l.map f) ++ post →
    ∃ vs, IsElems vs pre.length (commas (l.map f)) ∧ vs.length = l.length ∧ ∀ (j : Nat) v p, vs[j]? = some v → l[j]? = some p → P p v
  | [], _, pre, post, _ => ⟨[], by simp [IsElems, commas, IsSpace], rfl, by simp⟩
  | [p], h, pre, post, hs => by
    obtain ⟨v, h1, h2⟩ := h p List.mem_cons_self pre post hs
    refine ⟨[v], .inl ⟨rfl, padded_of h1⟩, rfl, ?_⟩
    intro j v' p' hv hp
    match j with
    | 0 => cases hv; cases hp; exact h2
    | j + 1 => simp at hv
  | p :: q :: l, h, pre, post, hs => by
    have hs' : src = pre ++ (f p ++ 44 :: commas ((q :: l).map f)) ++ post := hs
    obtain ⟨v, h1, h2⟩ := h p List.mem_cons_self pre (44 :: commas ((q :: l).map f) ++ post) (by simp [hs'])
    obtain ⟨vs, h3, h4, h5⟩ := written_elems (l := q :: l) (fun p hp => h p (List.mem_cons_of_mem _ hp)) (pre ++ f p ++ [44]) post (by simp [hs'])
    refine ⟨v :: vs, .inr ⟨?_, f p, commas ((q :: l).map f), rfl, padded_of h1, ?_⟩, by simp [h4], ?_⟩
    · rintro rfl; simp at h4
    · simpa [Nat.add_assoc] using h3
    · intro j v' p' hv hp
      match j with
      | 0 => cases hv; cases hp; exact h2
      | j + 1 => exact h5 j v' p' (by simpa using hv) (by simpa using hp)

theorem written_arr {α : Type} {src : Bytes} {f : α → Bytes} {P : α → JVal → Prop} {l : List α} (h : ∀ p ∈ l, Written src (f p) (P p)) {Q : JVal → Prop}
    (hQ : ∀ i vs k, vs.length = l.length → (∀ (j : Nat) v p, vs[j]? = some v → l[j]? = some p → P p v) → Q (.arr i vs k)) : Written src (brackets (l.map f)) Q := by
  intro pre post hs
  obtain ⟨vs, h1, h2, h3⟩ := written_elems h (pre ++ [91]) (93 :: post) (by simp [hs, brackets])
  exact ⟨.arr pre.length vs (pre.length + 1 + (commas (l.map f)).length), ⟨_, rfl, rfl, rfl, by simpa using h1⟩, hQ _ _ _ h2 h3⟩

theorem written_members {α : Type} {src : Bytes} {f : α → Bytes × Bytes} {P : α → JVal → Prop} : ∀ {l : List α}, (∀ p ∈ l, IsContent (f p).1 ∧ Written src (f p).2 (P p)) →
    ∀ pre post, src = pre ++ commas (l.map fun p => quote (f p).1 ++ 58 :: (f p).2) ++ post →
    ∃ ms, IsMembers ms pre.length (commas (l.map fun p => quote (f p).1 ++ 58 :: (f p).2)) ∧ ms.length = l.length ∧
      ∀ (j : Nat) m p, ms[j]? = some m → l[j]? = some p → inner src m.1.1 m.1.2 = (f p).1 ∧ P p m.2
  | [], _, pre, post, _ => ⟨[], by simp [IsMembers, commas, IsSpace], rfl, by simp⟩
  | [p], h, pre, post, hs => by
    have hs' : src = pre ++ (quote (f p).1 ++ 58 :: (f p).2) ++ post := hs
    obtain ⟨hc, hw⟩ := h p List.mem_cons_self
    obtain ⟨v, h1, h2⟩ := hw (pre ++ quote (f p).1 ++ [58]) post (by simp [hs'])
    refine ⟨[((pre.length, pre.length + (quote (f p).1).length), v)], ⟨quote (f p).1, (f p).2, [], by simp [commas], padded_of ⟨_, rfl, hc, rfl⟩, ?_, .inl ⟨rfl, rfl⟩⟩, rfl, ?_⟩
    · refine padded_of ?_; simpa [Nat.add_assoc] using h1
    · intro j m' p' hv hp
      match j with
      | 0 =>
        cases hv; cases hp
        exact ⟨string_inner (pre := pre) (post := 58 :: (f p).2 ++ post) (by simp [hs', quote]) rfl, h2⟩
      | j + 1 => simp at hv
  | p :: q :: l, h, pre, post, hs => by
    have hs' : src = pre ++ ((quote (f p).1 ++ 58 :: (f p).2) ++ 44 :: commas ((q :: l).map fun p => quote (f p).1 ++ 58 :: (f p).2)) ++ post := hs
    obtain ⟨hc, hw⟩ := h p List.mem_cons_self
    obtain ⟨v, h1, h2⟩ := hw (pre ++ quote (f p).1 ++ [58]) (44 :: commas ((q :: l).map fun p => quote (f p).1 ++ 58 :: (f p).2) ++ post) (by simp [hs'])
    obtain ⟨ms, h3, h4, h5⟩ := written_members (l := q :: l) (fun p hp => h p (List.mem_cons_of_mem _ hp)) (pre ++ quote (f p).1 ++ [58] ++ (f p).2 ++ [44]) post (by simp [hs'])
    refine ⟨((pre.length, pre.length + (quote (f p).1).length), v) :: ms, ⟨quote (f p).1, (f p).2, 44 :: commas ((q :: l).map fun p => quote (f p).1 ++ 58 :: (f p).2), ?_, padded_of ⟨_, rfl, hc, rfl⟩, ?_,
      .inr ⟨?_, _, rfl, ?_⟩⟩, by simp [h4], ?_⟩
    · show (quote (f p).1 ++ 58 :: (f p).2) ++ 44 :: commas ((q :: l).map fun p => quote (f p).1 ++ 58 :: (f p).2) = _
      simp
    · refine padded_of ?_; simpa [Nat.add_assoc] using h1
    · rintro rfl; simp at h4
    · refine (congrArg (fun a => IsMembers ms a _) ?_).mp h3
      simp; omega
    · intro j m' p' hv hp
      match j with
      | 0 =>
        cases hv; cases hp
        exact ⟨string_inner (pre := pre) (post := 58 :: (f p).2 ++ 44 :: commas ((q :: l).map fun p => quote (f p).1 ++ 58 :: (f p).2) ++ post) (by simp [hs', quote]) rfl, h2⟩
      | j + 1 => exact h5 j m' p' (by simpa using hv) (by simpa using hp)

theorem written_obj {α : Type} {src : Bytes} {f : α → Bytes × Bytes} {P : α → JVal → Prop} {l : List α} (h : ∀ p ∈ l, IsContent (f p).1 ∧ Written src (f p).2 (P p)) {Q : JVal → Prop}
    (hQ : ∀ i ms k, ms.length = l.length → (∀ (j : Nat) m p, ms[j]? = some m → l[j]? = some p → inner src m.1.1 m.1.2 = (f p).1 ∧ P p m.2) → Q (.obj i ms k)) :
    Written src (braces (l.map f)) Q := by
  intro pre post hs
  have he : (l.map f).map (fun m : Bytes × Bytes => quote m.1 ++ 58 :: m.2) = l.map fun p => quote (f p).1 ++ 58 :: (f p).2 := by rw [List.map_map]; rfl
  rw [braces, he] at hs ⊢
  obtain ⟨ms, h1, h2, h3⟩ := written_members h (pre ++ [123]) (125 :: post) (by simp [hs])
  exact ⟨.obj pre.length ms _, ⟨_, rfl, rfl, rfl, by simpa using h1⟩, hQ _ _ _ h2 h3⟩

theorem written_mono {src s : Bytes} {P Q : JVal → Prop} (h : Written src s P) (hPQ : ∀ v, P v → Q v) : Written src s Q := fun pre post hs => by
  obtain ⟨v, h1, h2⟩ := h pre post hs
  exact ⟨v, h1, hPQ v h2⟩

theorem written_null {src : Bytes} {Q : JVal → Prop} (hQ : ∀ i e, Q (.null i e)) : Written src b!"null" Q := fun pre _ _ => ⟨.null pre.length _, ⟨rfl, rfl, rfl⟩, hQ _ _⟩

theorem written_bool {src : Bytes} {Q : JVal → Prop} {b : Bool} (hQ : ∀ i e, Q (.bool b i e)) : Written src (if b then b!"true" else b!"false") Q :=
  fun pre _ _ => ⟨.bool b pre.length _, ⟨rfl, rfl, rfl⟩, hQ _ _⟩

theorem written_num {src s : Bytes} {Q : JVal → Prop} (hn : IsNumber s) (hQ : ∀ b i e, text src i e = s → Q (.num b i e)) : Written src s Q := fun pre post hs => by
  classical
  exact ⟨.num (decide (IsInteger s)) pre.length _, ⟨hn, by simp, rfl, rfl⟩, hQ _ _ _ (text_at hs rfl)⟩

theorem written_str {src s : Bytes} {Q : JVal → Prop} (hn : IsContent s) (hQ : ∀ i e, inner src i e = s → Q (.str i e)) : Written src (quote s) Q := fun pre post hs =>
  ⟨.str pre.length _, ⟨s, rfl, hn, rfl⟩, hQ _ _ (string_inner hs rfl)⟩

/-! ## `any` -/

theorem encodeAnyL_eq (fmt : FKind → Flt → Bytes) : ∀ as : List AnyVal, encodeAnyL fmt as = as.map (encodeAny fmt)
  | [] => rfl
  | a :: as => by rw [encodeAnyL, encodeAnyL_eq fmt as]; rfl

theorem encodeAnyE_eq (fmt : FKind → Flt → Bytes) : ∀ m : List (Str × AnyVal), encodeAnyE fmt m = m.map fun e => (escape e.1.bytes, encodeAny fmt e.2)
  | [] => rfl
  | (k, a) :: m => by rw [encodeAnyE, encodeAnyE_eq fmt m]; rfl

/-- What is shown of the tree of an `any`. -/
def AnyGood (x : Ext) (src : Bytes) (a : AnyVal) (v : JVal) : Prop :=
  NumbersParse x.parseFloat64 src v ∧ AnyTree x.parseFloat64 src v a ∧ noNegZero src v

theorem anyElems_of {pf : Bytes → Except Nat Flt} {src : Bytes} : ∀ {vs : List JVal} {as : List AnyVal}, vs.length = as.length → (∀ (j : Nat) v a, vs[j]? = some v → as[j]? = some a → AnyTree pf src v a) → AnyElems pf src vs as
  | [], as, hl, _ => List.length_eq_zero_iff.1 hl.symm
  | v :: vs, [], hl, _ => by simp at hl
  | v :: vs, a :: as, hl, h => ⟨a, as, rfl, h 0 _ _ rfl rfl, anyElems_of (by simpa using hl) fun j v a h1 h2 => h (j + 1) v a (by simpa using h1) (by simpa using h2)⟩

theorem parseL_of {pf : Bytes → Except Nat Flt} {src : Bytes} : ∀ {vs : List JVal}, (∀ v ∈ vs, NumbersParse pf src v) → NumbersParseL pf src vs
  | [], _ => trivial
  | v :: vs, h => ⟨h v List.mem_cons_self, parseL_of fun w hw => h w (List.mem_cons_of_mem _ hw)⟩

theorem parseM_of {pf : Bytes → Except Nat Flt} {src : Bytes} : ∀ {ms : List ((Nat × Nat) × JVal)}, (∀ m ∈ ms, NumbersParse pf src m.2) → NumbersParseM pf src ms
  | [], _ => trivial
  | v :: vs, h => ⟨h v List.mem_cons_self, parseM_of fun w hw => h w (List.mem_cons_of_mem _ hw)⟩

theorem nzL_of {src : Bytes} : ∀ {vs : List JVal}, (∀ v ∈ vs, noNegZero src v) → noNegZeroL src vs
  | [], _ => trivial
  | v :: vs, h => ⟨h v List.mem_cons_self, nzL_of fun w hw => h w (List.mem_cons_of_mem _ hw)⟩

theorem nzM_of {src : Bytes} : ∀ {ms : List ((Nat × Nat) × JVal)}, (∀ m ∈ ms, noNegZero src m.2) → noNegZeroM src ms
  | [], _ => trivial
  | v :: vs, h => ⟨h v List.mem_cons_self, nzM_of fun w hw => h w (List.mem_cons_of_mem _ hw)⟩

/-- A property of corresponding elements holds for all elements of the first list. -/
theorem mem_of_zip {α β : Type} {P : β → α → Prop} {l : List α} {r : List β} (hl : l.length = r.length) (h : ∀ (j : Nat) a b, l[j]? = some a → r[j]? = some b → P b a) : ∀ a ∈ l, ∃ b ∈ r, P b a := by
  intro a ha
  obtain ⟨j, hj⟩ := List.getElem?_of_mem ha
  have hlt := (List.getElem?_eq_some_iff.1 hj).1
  have hb : r[j]? = some (r[j]'(by omega)) := by simp
  exact ⟨_, List.mem_of_getElem? hb, h j _ _ hj hb⟩

theorem last_of {pf : Bytes → Except Nat Flt} {src : Bytes} : ∀ {ms : List ((Nat × Nat) × JVal)} {m : List (Str × AnyVal)}, ms.length = m.length →
    (∀ (j : Nat) k e, ms[j]? = some k → m[j]? = some e → Denotes (inner src k.1.1 k.1.2) e.1.bytes ∧ AnyTree pf src k.2 e.2) → DistinctNames m → ∀ e ∈ m, LastMember pf src ms e.1.bytes e.2
  | [], [], _, _, _, e, he => by cases he
  | k :: ms, e' :: m, hl, h, hd, e, he => by
    have hl' : ms.length = m.length := by simpa using hl
    have h' : ∀ (j : Nat) k e, ms[j]? = some k → m[j]? = some e → Denotes (inner src k.1.1 k.1.2) e.1.bytes ∧ AnyTree pf src k.2 e.2 :=
      fun j k e h1 h2 => h (j + 1) k e (by simpa using h1) (by simpa using h2)
    rcases List.mem_cons.1 he with rfl | he
    · refine .inr ⟨(h 0 _ _ rfl rfl).1, ?_, (h 0 _ _ rfl rfl).2⟩
      intro k' hk' hden
      obtain ⟨e'', he'', h1, -⟩ := mem_of_zip (P := fun e k => Denotes (inner src k.1.1 k.1.2) e.1.bytes ∧ AnyTree pf src k.2 e.2) hl' h' k' hk'
      exact hd.1 e'' he'' (denotes_fun h1 hden)
    · exact .inl (last_of hl' h' hd.2 e he)

mutual
theorem any_written {x : Ext} {fmt : FKind → Flt → Bytes} {src : Bytes} : ∀ a : AnyVal, CanAny x fmt a → Written src (encodeAny fmt a) (AnyGood x src a)
  | .null, _ => written_null fun _ _ => ⟨trivial, rfl, trivial⟩
  | .bool b, _ => written_bool fun _ _ => ⟨trivial, rfl, trivial⟩
  | .num f, ⟨h1, h2, h3⟩ => written_num h1 fun _ _ _ ht => ⟨⟨f, by rw [ht]; exact h3⟩, ⟨f, by rw [ht]; exact h3, rfl⟩, by rw [noNegZero, ht]; exact h2⟩
  | .str s, _ => written_str (content_escape _) fun _ _ ht => ⟨trivial, ⟨s, by rw [ht]; exact denotes_escape _, rfl⟩, trivial⟩
  | .arr as, h => by
    rw [encodeAny, encodeAnyL_eq]
    refine written_arr (P := fun a v => AnyGood x src a v) (anyL_written as h) fun i vs k hl hv => ?_
    have hz := mem_of_zip (P := fun a v => AnyGood x src a v) hl hv
    exact ⟨parseL_of fun v hm => (hz v hm).choose_spec.2.1, ⟨as, rfl, anyElems_of hl fun j v a h1 h2 => (hv j v a h1 h2).2.1⟩, nzL_of fun v hm => (hz v hm).choose_spec.2.2.2⟩
  | .obj m, ⟨hd, h⟩ => by
    rw [encodeAny, encodeAnyE_eq]
    refine written_obj (P := fun e v => AnyGood x src e.2 v) (fun e he => ⟨content_escape _, anyE_written m h e he⟩) fun i ms k hl hv => ?_
    have hz := mem_of_zip (P := fun e (m : (Nat × Nat) × JVal) => inner src m.1.1 m.1.2 = escape e.1.bytes ∧ AnyGood x src e.2 m.2) hl hv
    refine ⟨parseM_of fun v hm => (hz v hm).choose_spec.2.2.1, ⟨m, rfl, hd, fun k hk => ?_, ?_⟩, nzM_of fun v hm => (hz v hm).choose_spec.2.2.2.2⟩
    · obtain ⟨e, he, h1, -⟩ := hz k hk
      exact ⟨e, he, by rw [h1]; exact denotes_escape _⟩
    · exact last_of hl (fun j k e h1 h2 => ⟨by rw [(hv j k e h1 h2).1]; exact denotes_escape _, (hv j k e h1 h2).2.2.1⟩) hd
theorem anyL_written {x : Ext} {fmt : FKind → Flt → Bytes} {src : Bytes} : ∀ as : List AnyVal, CanAnyL x fmt as → ∀ a ∈ as, Written src (encodeAny fmt a) (AnyGood x src a)
  | a :: as, h, b, hb => by
    rcases List.mem_cons.1 hb with hb | hb
    · rw [hb]; exact any_written a h.1
    · exact anyL_written as h.2 b hb
theorem anyE_written {x : Ext} {fmt : FKind → Flt → Bytes} {src : Bytes} : ∀ m : List (Str × AnyVal), CanAnyE x fmt m → ∀ e ∈ m, Written src (encodeAny fmt e.2) (AnyGood x src e.2)
  | (k, a) :: m, h, b, hb => by
    rcases List.mem_cons.1 hb with hb | hb
    · rw [hb]; exact any_written a h.1
    · exact anyE_written m h.2 b hb
end

/-! ## Scalars and keys -/

theorem scalar_written {x : Ext} {fmt : FKind → Flt → Bytes} {src : Bytes} {k : SKind} {V : Val} (h : CanS x fmt k V) :
    Written src (encodeS fmt k V) fun v => MeansS x src k v V ∧ noNegZero src v := by
  cases k with
  | bool => obtain ⟨b, rfl⟩ := h; exact written_bool fun i e => ⟨.inr ⟨b, i, e, rfl, rfl⟩, trivial⟩
  | int k =>
    obtain ⟨n, rfl, hr⟩ := h
    refine written_num (Doc.integer_number (int_integer (int_lit n).1)) fun b i e ht => ⟨.inr ⟨b, i, e, n, rfl, ?_, rfl⟩, ?_⟩
    · rw [ht]; exact int_quoted hr
    · rw [noNegZero, ht]; exact int_negzero n
  | flt k =>
    obtain ⟨f, rfl, h1, h2, h3⟩ := h
    refine written_num h1 fun b i e ht => ⟨.inr ⟨b, i, e, f, rfl, ?_, rfl⟩, ?_⟩
    · rw [ht]; exact h3
    · rw [noNegZero, ht]; exact h2
  | str => obtain ⟨s, rfl⟩ := h; exact written_str (content_escape _) fun i e ht => ⟨.inr ⟨i, e, s, rfl, by rw [ht]; exact denotes_escape _, rfl⟩, trivial⟩

theorem quoted_written {x : Ext} {fmt : FKind → Flt → Bytes} {src : Bytes} {k : SKind} {V : Val} (h : CanQ x fmt k V) :
    Written src (encodeQ fmt k V) fun v => MeansQ x src k v V ∧ noNegZero src v := by
  obtain ⟨h, hs⟩ := h
  cases k with
  | bool =>
    obtain ⟨b, rfl⟩ := h
    exact written_str (s := if b then b!"true" else b!"false") (content_plain (by cases b <;> decide)) fun i e ht => ⟨.inr ⟨i, e, rfl, b, ht, rfl⟩, trivial⟩
  | int k =>
    obtain ⟨n, rfl, hr⟩ := h
    exact written_str (s := intText n) (content_plain (num_plain (Doc.integer_number (int_integer (int_lit n).1)))) fun i e ht => ⟨.inr ⟨i, e, rfl, n, by rw [ht]; exact int_quoted hr, rfl⟩, trivial⟩
  | flt k =>
    obtain ⟨f, rfl, h1, h2, h3⟩ := h
    exact written_str (s := fmt k f) (content_plain (num_plain h1)) fun i e ht => ⟨.inr ⟨i, e, rfl, f, by rw [ht]; exact h1, by rw [ht]; exact h3, rfl⟩, trivial⟩
  | str =>
    obtain ⟨s, rfl⟩ := h
    have hs := hs s rfl
    exact written_str (s := [92, 34] ++ s.bytes ++ [92, 34]) (content_append (.esc (r := 34) (by decide) (content_plain hs)) (.esc (r := 34) (by decide) .nil))
      fun i e ht => ⟨.inr ⟨i, e, rfl, s, ht, fun h => (hs _ h).2.1 rfl, rfl⟩, trivial⟩

theorem key_written {x : Ext} {k : KeyTy} {K : Key} (h : CanKey x k K) : IsContent (encodeKey K) ∧ KeyOf x k (encodeKey K) K := by
  cases k with
  | str => obtain ⟨s, rfl⟩ := h; exact ⟨content_escape _, .str (denotes_escape _)⟩
  | int ik =>
    obtain ⟨i, rfl, hr⟩ := h
    exact ⟨content_plain (num_plain (Doc.integer_number (int_integer (int_lit i).1))), .int (int_quoted hr)⟩
  | text => exact h.elim
  | other => exact h.elim

/-! ## All types -/

/-- What is shown of the tree of a value. -/
def Good (x : Ext) (src : Bytes) (o : Options) (ty : Ty) (V : Val) (v : JVal) : Prop := Means x src o ty v V ∧ (ty.plain = true → Tame x src (some o) ty v) ∧ (∀ p, RightV x ty p V → Right x src (some o) ty p v) ∧ noNegZero src v

theorem butLast_zip {α β : Type} {P Q : α → Prop} {P' Q' : β → Prop} : ∀ {l : List α} {r : List β}, r.length = l.length → (∀ (j : Nat) b a, r[j]? = some b → l[j]? = some a → (P a → P' b) ∧ (Q a → Q' b)) →
    ButLast P Q l → ButLast P' Q' r
  | [], r, hl, _, _ => by
    have : r = [] := List.length_eq_zero_iff.1 hl
    subst this; trivial
  | [a], r, hl, h, hb => by
    match r, hl with
    | [b], _ => exact (h 0 b a rfl rfl).2 hb
  | a :: a' :: l, r, hl, h, hb => by
    match r, hl with
    | b :: b' :: r, hl =>
      refine ⟨(h 0 b a rfl rfl).1 hb.1, butLast_zip (l := a' :: l) (r := b' :: r) (by simpa using hl) (fun j => ?_) hb.2⟩
      have := h (j + 1)
      simpa using this

/-- From the fields of a value to the members of an object. -/
theorem butLast_fields {x : Ext} {β : Type} {R : Place → β → Prop} {p : Place} : ∀ {fs : List (Bytes × Nat × Ty)} {Ws : List Val} {ms : List β}, Ws.length = fs.length → ms.length = fs.length →
    (∀ (j : Nat) m f W q, ms[j]? = some m → fs[j]? = some f → Ws[j]? = some W → RightV x f.2.2 q W → R q m) → RightVF x fs p Ws → ButLast (R .inside) (R p) ms
  | [], Ws, ms, _, hl, _, _ => by
    have : ms = [] := List.length_eq_zero_iff.1 hl
    subst this; trivial
  | [f], Ws, ms, hW, hl, h, hb => by
    match Ws, hW, ms, hl with
    | [W], _, [m], _ => exact h 0 m f W p rfl rfl rfl hb.1
  | f :: g :: fs, Ws, ms, hW, hl, h, hb => by
    match Ws, hW, ms, hl with
    | W :: W' :: Ws, hW, m :: m' :: ms, hl =>
      refine ⟨h 0 m f W .inside rfl rfl rfl hb.1, butLast_fields (fs := g :: fs) (Ws := W' :: Ws) (ms := m' :: ms) (by simpa using hW) (by simpa using hl) (fun j => ?_) hb.2⟩
      have := h (j + 1)
      simpa using this

/-- The key written for field number `j` selects it. -/
theorem field_selects {x : Ext} {src : Bytes} {o : Options} {fs : List (Bytes × Nat × Ty)} (hn : (fs.map (·.1)).Nodup) {j : Nat} {f : Bytes × Nat × Ty} (hf : fs[j]? = some f)
    (he : o.disableFieldNameUnescaping = true → escape f.1 = f.1) {k : Nat × Nat} (hk : inner src k.1 k.2 = escape f.1) : KeySelects x src o (fs.map (·.1)) k j := by
  have hfirst : ∀ (ns : List Bytes) (i j : Nat), ns.Nodup → ns[j]? = some f.1 → FirstField (· = f.1) (ns.zipIdx i) (i + j) := by
    intro ns
    induction ns with
    | nil => intro i j _ h; simp at h
    | cons n ns ih =>
      intro i j hnd h
      cases j with
      | zero => cases h; exact .here rfl
      | succ j =>
        have h' : ns[j]? = some f.1 := by simpa using h
        have hne : n ≠ f.1 := by
          rintro rfl
          exact (List.nodup_cons.1 hnd).1 (List.mem_of_getElem? h')
        have := ih (i + 1) j (List.nodup_cons.1 hnd).2 h'
        rw [show i + (j + 1) = i + 1 + j by omega]
        exact .there hne this
  have h1 := hfirst (fs.map (·.1)) 0 j hn (by simp [hf])
  rw [Nat.zero_add] at h1
  refine ⟨f.1, ?_, ?_⟩
  · unfold KeyIs
    rw [hk]
    split
    · rename_i hd; rw [he hd]
    · exact denotes_escape _
  · unfold SelectsField
    split
    · exact h1
    · exact .exact h1

theorem namesF_get {o : Options} : ∀ {fs : List (Bytes × Nat × Ty)} {j : Nat} {f : Bytes × Nat × Ty}, NamesOKF o fs → fs[j]? = some f → (o.disableFieldNameUnescaping = true → escape f.1 = f.1) ∧ NamesOK o f.2.2
  | (n, a, t) :: fs, 0, f, h, hf => by cases hf; exact ⟨h.1, h.2.1⟩
  | _ :: fs, j + 1, f, h, hf => namesF_get h.2.2 (by simpa using hf)

theorem encodeF_eq {fmt : FKind → Flt → Bytes} {x : Ext} : ∀ {fs : List (Bytes × Nat × Ty)} {Ws : List Val}, CanEncodeF x fmt fs Ws →
    encodeF fmt fs Ws = (fs.zip Ws).map (fun p => (escape p.1.1, encode fmt p.1.2.2 p.2)) ∧ Ws.length = fs.length
  | [], Ws, h => by cases h; exact ⟨rfl, rfl⟩
  | (n, a, t) :: fs, Ws, ⟨W, Ws', hW, _, h⟩ => by
    subst hW
    obtain ⟨h1, h2⟩ := encodeF_eq h
    refine ⟨?_, by simp [h2]⟩
    show (escape n, encode fmt t W) :: encodeF fmt fs Ws' = _
    rw [h1]; rfl

theorem plainF_get : ∀ {fs : List (Bytes × Nat × Ty)} {j : Nat} {f : Bytes × Nat × Ty}, plainF fs = true → fs[j]? = some f → f.2.2.plain = true
  | (n, a, t) :: fs, 0, f, h, hf => by cases hf; simp only [plainF, Bool.and_eq_true] at h; exact h.1
  | (n, a, t) :: fs, j + 1, f, h, hf => by simp only [plainF, Bool.and_eq_true] at h; exact plainF_get h.2 (by simpa using hf)

theorem rightF_get' {x : Ext} {src : Bytes} {o : Option Options} : ∀ {fs : List (Bytes × Nat × Ty)} {j : Nat}, (RightF x src o fs)[j]? = (fs[j]?).map (fun f => Right x src o f.2.2)
  | [], _ => by simp [RightF]
  | (n, a, t) :: fs, 0 => by simp [RightF]
  | (n, a, t) :: fs, j + 1 => by simp only [RightF, List.getElem?_cons_succ]; exact rightF_get'

theorem null_text {v : JVal} {a : Nat} {s : Bytes} (h : IsJson v a s) : IsNull v ↔ s = b!"null" := by
  constructor
  · rintro ⟨i, e, rfl⟩; exact h.1
  · rintro rfl
    cases v with
    | null i e => exact ⟨i, e, rfl⟩
    | bool b => obtain ⟨h, -⟩ := h; cases b <;> cases h
    | num b =>
      obtain ⟨h, -⟩ := h
      have := num_chars h 110 (by decide)
      exact absurd this (by decide)
    | str => obtain ⟨_, h, -⟩ := h; cases h
    | arr => obtain ⟨_, h, -⟩ := h; cases h
    | obj => obtain ⟨_, h, -⟩ := h; cases h

mutual
theorem written {x : Ext} {fmt : FKind → Flt → Bytes} {src : Bytes} {o : Options} : ∀ (ty : Ty) (V : Val), CanEncode x fmt ty V → NamesOK o ty → Written src (encode fmt ty V) (Good x src o ty V)
  | .any, V, h, _ => by
    obtain ⟨a, rfl, h⟩ := h
    exact written_mono (any_written a h) fun v hv => ⟨⟨hv.1, a, rfl, hv.2.1⟩, fun _ => trivial, fun _ _ => trivial, hv.2.2⟩
  | .number, V, h, _ => by
    obtain ⟨s, rfl, h1, h2⟩ := h
    exact written_num h1 fun b i e ht => ⟨.inr ⟨s, rfl, .inl ⟨b, i, e, rfl, ht.symm⟩⟩, fun _ => trivial, fun _ _ => trivial, by rw [noNegZero, ht]; exact h2⟩
  | .scalar k, V, h, _ => written_mono (scalar_written h) fun v hv => ⟨hv.1, fun _ => trivial, fun _ _ => trivial, hv.2⟩
  | .quoted k, V, h, _ => written_mono (quoted_written h) fun v hv => ⟨hv.1, fun _ => trivial, fun _ _ => trivial, hv.2⟩
  | .array0, V, h, _ => by
    cases h
    exact written_arr (l := ([] : List Unit)) (f := fun _ => []) (P := fun _ _ => True) (by simp) fun i vs k hl _ => ⟨⟨.inr ⟨i, vs, k, rfl⟩, rfl⟩, fun _ => trivial, fun _ _ => trivial, by
      have : vs = [] := List.length_eq_zero_iff.1 hl
      subst this; trivial⟩
  | .array n t, V, h, ho => by
    obtain ⟨Ws, rfl, rfl, h⟩ := h
    refine written_arr (P := fun W v => Good x src o t W v) (fun W hW => written t W (h W hW) ho) fun i vs k hl hv => ?_
    have hz := mem_of_zip (P := fun W v => Good x src o t W v) hl hv
    refine ⟨.inr ⟨i, vs, k, Ws, rfl, rfl, rfl, fun j W hj => .inl ?_⟩, fun hp w hw => (hz w (List.mem_of_mem_take hw)).choose_spec.2.2.1 hp,
      fun p hR => ?_, nzL_of fun v hm => (hz v hm).choose_spec.2.2.2.2⟩
    rotate_left
    · show if vs.length ≤ Ws.length then _ else _
      rw [if_pos (by omega)]
      exact butLast_zip hl (fun j v W h1 h2 => ⟨(hv j v W h1 h2).2.2.1 _, (hv j v W h1 h2).2.2.1 _⟩) hR
    have hlt := (List.getElem?_eq_some_iff.1 hj).1
    have hw : vs[j]? = some (vs[j]'(by omega)) := by simp
    exact ⟨_, hw, (hv j _ W hw hj).1⟩
  | .slice t, V, h, ho => by
    rcases h with rfl | ⟨Ws, rfl, h⟩
    · exact written_null fun i e => ⟨.inl ⟨⟨i, e, rfl⟩, rfl⟩, fun _ => trivial, fun _ _ => trivial, trivial⟩
    refine written_arr (P := fun W v => Good x src o t W v) (fun W hW => written t W (h W hW) ho) fun i vs k hl hv => ?_
    have hz := mem_of_zip (P := fun W v => Good x src o t W v) hl hv
    exact ⟨.inr ⟨i, vs, k, rfl, Ws, rfl, hl.symm, fun j w W h1 h2 => (hv j w W h1 h2).1⟩, fun hp w hw => (hz w hw).choose_spec.2.2.1 hp,
      fun p hR => butLast_zip hl (fun j v W h1 h2 => ⟨(hv j v W h1 h2).2.2.1 _, (hv j v W h1 h2).2.2.1 _⟩) hR, nzL_of fun v hm => (hz v hm).choose_spec.2.2.2.2⟩
  | .sliceOf sk, V, h, ho => by
    rcases h with rfl | ⟨Ws, rfl, h⟩
    · exact written_null fun i e => ⟨.inl ⟨⟨i, e, rfl⟩, rfl⟩, fun _ => trivial, fun _ _ => trivial, trivial⟩
    refine written_arr (P := fun W v => MeansS x src sk v W ∧ noNegZero src v) (fun W hW => scalar_written (h W hW)) fun i vs k hl hv => ?_
    have hz := mem_of_zip (P := fun W v => MeansS x src sk v W ∧ noNegZero src v) hl hv
    exact ⟨.inr ⟨i, vs, k, rfl, Ws, rfl, hl.symm, fun j w W h1 h2 => (hv j w W h1 h2).1⟩, fun _ => trivial, fun _ _ => trivial, nzL_of fun v hm => (hz v hm).choose_spec.2.2⟩
  | .sliceES, V, h, ho => by
    rcases h with rfl | ⟨Ws, rfl, h⟩
    · exact written_null fun i e => ⟨.inl ⟨⟨i, e, rfl⟩, rfl⟩, fun _ => trivial, fun _ _ => trivial, trivial⟩
    refine written_arr (f := fun _ => b!"{}") (P := fun W v => ((IsNull v ∨ ∃ a ms z, v = .obj a ms z) ∧ W = .struct []) ∧ noNegZero src v) (fun W hW => ?_) fun i vs k hl hv => ?_
    · exact written_obj (l := ([] : List Unit)) (f := fun _ => ([], [])) (P := fun _ _ => True) (by simp) fun i ms k hl _ => ⟨⟨.inr ⟨i, ms, k, rfl⟩, h W hW⟩, by
        have : ms = [] := List.length_eq_zero_iff.1 hl
        subst this; trivial⟩
    have hz := mem_of_zip (P := fun W v => ((IsNull v ∨ ∃ a ms z, v = .obj a ms z) ∧ W = .struct []) ∧ noNegZero src v) hl hv
    exact ⟨.inr ⟨i, vs, k, rfl, Ws, rfl, hl.symm, fun j w W h1 h2 => (hv j w W h1 h2).1⟩, fun _ => trivial, fun _ _ => trivial, nzL_of fun v hm => (hz v hm).choose_spec.2.2⟩
  | .mapSS, V, h, ho => by
    rcases h with rfl | ⟨es, rfl, hd, h⟩
    · exact written_null fun i e => ⟨.inl ⟨⟨i, e, rfl⟩, rfl⟩, fun _ => trivial, fun _ _ => trivial, trivial⟩
    refine written_obj (f := fun e => (encodeKey e.1, encodeS fmt .str e.2)) (P := fun e v => CanKey x .str e.1 ∧ MeansS x src .str v e.2 ∧ noNegZero src v)
      (fun e he => ⟨(key_written (h e he).1).1, written_mono (scalar_written (h e he).2) fun v hv => ⟨(h e he).1, hv⟩⟩) fun i ms k hl hv => ?_
    have hz := mem_of_zip (P := fun e (m : (Nat × Nat) × JVal) => inner src m.1.1 m.1.2 = encodeKey e.1 ∧ CanKey x .str e.1 ∧ MeansS x src .str m.2 e.2 ∧ noNegZero src m.2) hl hv
    exact ⟨.inr ⟨i, ms, k, rfl, es, rfl, hl.symm, fun j m e h1 h2 => ⟨by rw [(hv j m e h1 h2).1]; exact (key_written (hv j m e h1 h2).2.1).2, (hv j m e h1 h2).2.2.1⟩, hd⟩, fun _ => trivial, fun _ _ => trivial,
      nzM_of fun m hm => (hz m hm).choose_spec.2.2.2.2⟩
  | .map kt t, V, h, ho => by
    rcases h with rfl | ⟨es, rfl, hd, h⟩
    · exact written_null fun i e => ⟨.inl ⟨⟨i, e, rfl⟩, rfl⟩, fun _ => trivial, fun _ _ => trivial, trivial⟩
    refine written_obj (f := fun e => (encodeKey e.1, encode fmt t e.2)) (P := fun e v => CanKey x kt e.1 ∧ Good x src o t e.2 v)
      (fun e he => ⟨(key_written (h e he).1).1, written_mono (written t e.2 (h e he).2 ho) fun v hv => ⟨(h e he).1, hv⟩⟩) fun i ms k hl hv => ?_
    have hz := mem_of_zip (P := fun e (m : (Nat × Nat) × JVal) => inner src m.1.1 m.1.2 = encodeKey e.1 ∧ CanKey x kt e.1 ∧ Good x src o t e.2 m.2) hl hv
    refine ⟨.inr ⟨i, ms, k, rfl, es, rfl, hl.symm, fun j m e h1 h2 => ⟨by rw [(hv j m e h1 h2).1]; exact (key_written (hv j m e h1 h2).2.1).2, (hv j m e h1 h2).2.2.1⟩, hd⟩, fun hp => ⟨?_, fun m hm => (hz m hm).choose_spec.2.2.2.2.1 (by simp only [Ty.plain, Bool.and_eq_true] at hp; exact hp.2)⟩,
      fun p hR => ⟨?_, butLast_zip hl (fun j m e h1 h2 => ⟨(hv j m e h1 h2).2.2.2.2.1 _, (hv j m e h1 h2).2.2.2.2.1 _⟩) hR⟩, nzM_of fun m hm => (hz m hm).choose_spec.2.2.2.2.2.2⟩
    all_goals
    rintro rfl
    cases ms with
    | nil => rfl
    | cons m ms => exact (hz m List.mem_cons_self).choose_spec.2.2.1.elim
  | .struct n fs, V, h, ho => by
    obtain ⟨Ws, rfl, h⟩ := h
    obtain ⟨he, hlen⟩ := encodeF_eq h
    have hw := writtenF (src := src) (o := o) fs Ws h ho.2
    show Written src (braces (encodeF fmt fs Ws)) _
    rw [he]
    refine written_obj (l := fs.zip Ws) (P := fun p v => Good x src o p.1.2.2 p.2 v) (fun p hp => ⟨content_escape _, hw p hp⟩) fun i ms k hl hv => ?_
    have hlz : (fs.zip Ws).length = fs.length := by simp [hlen]
    have hz := mem_of_zip (P := fun (p : (Bytes × Nat × Ty) × Val) (m : (Nat × Nat) × JVal) => inner src m.1.1 m.1.2 = escape p.1.1 ∧ Good x src o p.1.2.2 p.2 m.2) hl hv
    -- member number j selects field number j
    have hsel : ∀ (j : Nat) m, ms[j]? = some m → ∃ f W, fs[j]? = some f ∧ Ws[j]? = some W ∧ KeySelects x src o (fs.map (·.1)) m.1 j ∧ Good x src o f.2.2 W m.2 := by
      intro j m hj
      have hlt := (List.getElem?_eq_some_iff.1 hj).1
      have hf : fs[j]? = some (fs[j]'(by omega)) := by simp
      have hW : Ws[j]? = some (Ws[j]'(by omega)) := by simp
      have hp : (fs.zip Ws)[j]? = some (fs[j]'(by omega), Ws[j]'(by omega)) := by rw [List.getElem?_zip_eq_some]; exact ⟨hf, hW⟩
      obtain ⟨h1, h2⟩ := hv j m _ hj hp
      exact ⟨_, _, hf, hW, field_selects ho.1 hf (namesF_get ho.2 hf).1 h1, h2⟩
    -- and no other
    have hone : ∀ (j : Nat) m i, ms[j]? = some m → KeySelects x src o (fs.map (·.1)) m.1 i → i = j := by
      intro j m i hj hs
      obtain ⟨f, W, -, -, ⟨nm, hk, hs'⟩, -⟩ := hsel j m hj
      obtain ⟨nm', hk', hs''⟩ := hs
      rw [keyIs_unique hk' hk] at hs''
      have a := selects_iff.2 hs'
      have b := selects_iff.2 hs''
      rw [a] at b; cases b; rfl
    refine ⟨.inr ⟨i, ms, k, Ws, rfl, rfl, hlen, ?_, ?_, ?_⟩, ?_, ?_, nzM_of fun m hm => (hz m hm).choose_spec.2.2.2.2.2⟩
    · intro _ m hm hun
      obtain ⟨j, hj⟩ := List.getElem?_of_mem hm
      obtain ⟨f, W, -, -, ⟨nm, hk, hs'⟩, -⟩ := hsel j m hj
      obtain ⟨nm', hk', hs''⟩ := hun
      rw [keyIs_unique hk' hk] at hs''
      exact hs'' j hs'
    · intro a b m m' j ha hb hs hs'
      rw [← hone a m j ha hs, ← hone b m' j hb hs']
    · intro j f P W hf hP hW
      have hlt := (List.getElem?_eq_some_iff.1 hf).1
      have hm : ms[j]? = some (ms[j]'(by omega)) := by simp
      obtain ⟨f', W', h1, h2, h3, h4⟩ := hsel j _ hm
      rw [hf] at h1; cases h1
      rw [hW] at h2; cases h2
      rw [Means.meansF_get, hf] at hP; cases hP
      exact .inl ⟨_, List.mem_of_getElem? hm, h3, h4.1⟩
    · intro hpl m hm o' ho' raw name hraw hkn
      cases ho'
      obtain ⟨j, hj⟩ := List.getElem?_of_mem hm
      obtain ⟨f, W, h1, h2, ⟨nm, hk, hs⟩, h4⟩ := hsel j m hj
      have hraw' : raw = inner src m.1.1 m.1.2 := by
        unfold Model.slice at hraw
        split at hraw
        · cases hraw; rfl
        · cases hraw
      subst hraw'
      have := keyName_is hk
      rw [hkn] at this; cases this
      rw [selects_iff.2 hs]
      intro T hT
      rw [Means.tameF_get, h1] at hT; cases hT
      exact h4.2.1 (plainF_get hpl h1)
    · intro p hR o' ho'
      cases ho'
      refine butLast_fields (R := fun q m => RightM x src o (fs.map (·.1)) (RightF x src (some o) fs) q m) hlen (hl.trans hlz) (fun j m f W q hj hf hW hq raw name hraw hkn => ?_) hR
      obtain ⟨f', W', h1, h2, ⟨nm, hk, hs⟩, h4⟩ := hsel j m hj
      rw [hf] at h1; cases h1
      rw [hW] at h2; cases h2
      have hraw' : raw = inner src m.1.1 m.1.2 := by
        unfold Model.slice at hraw
        split at hraw
        · cases hraw; rfl
        · cases hraw
      subst hraw'
      have := keyName_is hk
      rw [hkn] at this; cases this
      rw [selects_iff.2 hs]
      intro T hT
      rw [rightF_get', hf] at hT; cases hT
      exact h4.2.2.1 q hq
  | .jsonU _ _ _, V, h, _ => h.elim
  | .textU _ _ _, V, h, _ => h.elim
  | .emptyStruct, V, h, _ => by
    cases h
    exact written_obj (l := ([] : List Unit)) (f := fun _ => ([], [])) (P := fun _ _ => True) (by simp) fun i ms k hl _ => ⟨⟨.inr ⟨i, ms, k, rfl⟩, rfl⟩, fun hp => (by cases hp), fun p hp => hp, by
      have : ms = [] := List.length_eq_zero_iff.1 hl
      subst this; trivial⟩
  | .ptr t, V, h, ho => by
    rcases h with rfl | ⟨W, rfl, hn, h⟩
    · exact written_null fun i e => ⟨.inl ⟨⟨i, e, rfl⟩, rfl⟩, fun _ => trivial, fun _ _ => trivial, trivial⟩
    · intro pre post hsrc
      obtain ⟨v, h1, h2, h3, h5, h4⟩ := written (src := src) t W h ho pre post hsrc
      have hnn : ¬ IsNull v := fun hnull => hn ((null_text h1).1 hnull)
      refine ⟨v, h1, .inr ⟨hnn, W, rfl, h2⟩, fun hp => (by cases hp), fun p hp => ?_, h4⟩
      cases v with
      | null i e => exact absurd ⟨i, e, rfl⟩ hnn
      | _ =>
        refine ⟨hp.1, ?_⟩
        cases p with
        | inside => exact hp.2.elim
        | last => exact h5 _ hp.2
        | final => exact h5 _ hp.2
theorem writtenF {x : Ext} {fmt : FKind → Flt → Bytes} {src : Bytes} {o : Options} : ∀ (fs : List (Bytes × Nat × Ty)) (Ws : List Val), CanEncodeF x fmt fs Ws → NamesOKF o fs →
    ∀ p ∈ fs.zip Ws, Written src (encode fmt p.1.2.2 p.2) (Good x src o p.1.2.2 p.2)
  | (n, a, t) :: fs, Ws, ⟨W, Ws', hW, hc, h⟩, ho, p, hp => by
    subst hW
    rcases List.mem_cons.1 hp with rfl | hp
    · exact written t W hc ho.2.1
    · exact writtenF fs Ws' h ho.2.2 p hp
end

/-- What is shown of the tree of a document. -/
def GoodDoc (x : Ext) (src : Bytes) (o : Options) (ty : Ty) (V : Val) (v : JVal) : Prop :=
  Means x src o ty v V ∧ (PlainDoc x ty → TameDoc x src (some o) ty v) ∧ (∀ p, RightV x ty p V → Right x src (some o) ty p v) ∧ noNegZero src v

theorem written_doc {x : Ext} {fmt : FKind → Flt → Bytes} {src : Bytes} {o : Options} : ∀ (ty : Ty) (V : Val), CanEncode x fmt ty V → NamesOK o ty → Written src (encode fmt ty V) (GoodDoc x src o ty V)
  | .ptr t, V, h, ho => by
    rcases h with rfl | ⟨W, rfl, hn, h⟩
    · exact written_null fun i e => ⟨.inl ⟨⟨i, e, rfl⟩, rfl⟩, fun _ => trivial, fun _ _ => trivial, trivial⟩
    · intro pre post hsrc
      obtain ⟨v, h1, h2, h3, h5, h4⟩ := written_doc t W h ho pre post hsrc
      have hnn : ¬ IsNull v := fun hnull => hn ((null_text h1).1 hnull)
      refine ⟨v, h1, .inr ⟨hnn, W, rfl, h2⟩, fun hp => ?_, fun p hp => ?_, h4⟩
      · cases v with
        | null i e => exact absurd ⟨i, e, rfl⟩ hnn
        | _ => exact ⟨hp.1, h3 hp.2⟩
      · cases v with
        | null i e => exact absurd ⟨i, e, rfl⟩ hnn
        | _ =>
          refine ⟨hp.1, ?_⟩
          cases p with
          | inside => exact hp.2.elim
          | last => exact h5 _ hp.2
          | final => exact h5 _ hp.2
  | .emptyStruct, V, h, ho => written_mono (written _ V h ho) fun _ hv => ⟨hv.1, fun _ => trivial, hv.2.2⟩
  | .any, V, h, ho | .number, V, h, ho | .scalar _, V, h, ho | .quoted _, V, h, ho | .jsonU _ _ _, V, h, ho | .textU _ _ _, V, h, ho | .array0, V, h, ho | .array _ _, V, h, ho
  | .slice _, V, h, ho | .sliceOf _, V, h, ho | .sliceES, V, h, ho | .mapSS, V, h, ho | .map _ _, V, h, ho | .struct _ _, V, h, ho =>
    written_mono (written _ V h ho) fun _ hv => ⟨hv.1, fun hp => hv.2.1 hp, hv.2.2⟩

/-- The encoding of a value is a JSON document, which means the value. -/
theorem encode_doc {x : Ext} {fmt : FKind → Flt → Bytes} {o : Options} {ty : Ty} {V : Val} (h : CanEncode x fmt ty V) (ho : NamesOK o ty) :
    ∃ v, IsDoc (encode fmt ty V) v ∧ GoodDoc x (encode fmt ty V) o ty V v := by
  obtain ⟨v, h1, h2⟩ := written_doc (src := encode fmt ty V) (o := o) ty V h ho [] [] (by simp)
  exact ⟨v, padded_of h1, h2⟩

end Verif.Proof.Encode

import Verif.Model.Number
import Verif.Spec.Number
/-!
# `strconv.ParseInt` on JSON number literals
-/
namespace Verif.Proof.Number
open Verif Verif.Model Verif.Spec

/-- Value of digits read after `n`. -/
def after (n : Nat) (s : Bytes) : Nat := s.foldl (fun a c => 10 * a + digitVal c) n

theorem after_le (n : Nat) (s : Bytes) : n ≤ after n s := by
  induction s generalizing n with
  | nil => exact Nat.le_refl _
  | cons c cs ih => exact Nat.le_trans (by omega) (ih (10 * n + digitVal c))

theorem loop_digits {s : Bytes} (h : ∀ c ∈ s, IsDigit c) (n : Nat) (hn : n < 2 ^ 64) :
    parseUintLoop s n = if after n s < 2 ^ 64 then .ok (after n s) else .error .range := by
  induction s generalizing n with
  | nil => simp [parseUintLoop, after, hn]
  | cons c cs ih =>
    obtain ⟨h1, h2⟩ := h c (by simp)
    have hcs := fun c hc => h c (List.mem_cons_of_mem _ hc)
    have hd : digitVal c = c.toNat - 48 := rfl
    have ha : after n (c :: cs) = after (10 * n + digitVal c) cs := rfl
    have hle := after_le (10 * n + digitVal c) cs
    simp only [parseUintLoop]
    rw [if_neg (by omega)]
    split
    · rw [if_neg (by omega)]
    · split
      · rw [if_neg (by omega)]
      · have e : (n * 10 + (c.toNat - 48)) % 2 ^ 64 = 10 * n + digitVal c := by omega
        rw [e, ih hcs _ (by omega), ha]

/-- Digits followed by something that is not a digit. -/
theorem loop_stop {s : Bytes} {c : UInt8} {t : Bytes} (h : ∀ c ∈ s, IsDigit c) (hc : ¬ IsDigit c) (n : Nat) : ∃ e, parseUintLoop (s ++ c :: t) n = .error e := by
  induction s generalizing n with
  | nil =>
    refine ⟨.syntax, ?_⟩
    simp only [List.nil_append, parseUintLoop]
    rw [if_pos (by simp only [IsDigit] at hc; omega)]
  | cons d ds ih =>
    obtain ⟨h1, h2⟩ := h d (by simp)
    simp only [List.cons_append, parseUintLoop]
    rw [if_neg (by omega)]
    split
    · exact ⟨_, rfl⟩
    · split
      · exact ⟨_, rfl⟩
      · exact ih (fun c hc => h c (List.mem_cons_of_mem _ hc)) _

theorem nat_digits {s : Bytes} (h : IsNatLit s) : s ≠ [] ∧ ∀ c ∈ s, IsDigit c := by
  cases h with
  | zero => exact ⟨by simp, by simp [IsDigit]⟩
  | cons h1 h2 h3 => exact ⟨by simp, by simpa using ⟨h1, h3⟩⟩

theorem uint_nat {s : Bytes} (h : IsNatLit s) : parseUint64 s = if digitsVal s < 2 ^ 64 then (digitsVal s, none) else (2 ^ 64 - 1, some .range) := by
  obtain ⟨h1, h2⟩ := nat_digits h
  simp only [parseUint64, if_neg h1]
  have e : parseUintLoop s 0 = if digitsVal s < 2 ^ 64 then .ok (digitsVal s) else .error .range := loop_digits h2 0 (by omega)
  rw [e]
  by_cases hr : digitsVal s < 2 ^ 64
  · rw [if_pos hr, if_pos hr]
  · rw [if_neg hr, if_neg hr]

theorem nat_head {s : Bytes} (h : IsNatLit s) : s ≠ [] ∧ s.head? ≠ some 43 ∧ s.head? ≠ some 45 := by
  obtain ⟨h1, h2⟩ := nat_digits h
  cases s with
  | nil => exact absurd rfl h1
  | cons c cs =>
    have := h2 c (by simp)
    refine ⟨h1, ?_, ?_⟩ <;> simp only [List.head?_cons, ne_eq, Option.some.injEq] <;> rintro rfl <;> simp [IsDigit] at this

theorem int_pos {s : Bytes} (h : IsNatLit s) : parseInt64 s = if digitsVal s < 2 ^ 63 then ((digitsVal s : Int), none) else (2 ^ 63 - 1, some .range) := by
  obtain ⟨h1, h2, h3⟩ := nat_head h
  simp only [parseInt64, if_neg h1, h2, h3, or_self, if_false, decide_false]
  rw [uint_nat h]
  by_cases hr : digitsVal s < 2 ^ 64
  · rw [if_pos hr]
    by_cases hr' : digitsVal s < 2 ^ 63
    · rw [if_pos hr']
      simp only [ge_iff_le, true_and, Bool.false_eq_true, false_and, if_false]
      rw [if_neg (by omega)]
    · rw [if_neg hr']
      simp only [ge_iff_le, true_and]
      rw [if_pos (by omega)]
  · rw [if_neg hr, if_neg (by omega)]
    simp

theorem int_neg {s : Bytes} (h : IsNatLit s) : parseInt64 (45 :: s) = if digitsVal s ≤ 2 ^ 63 then (-(digitsVal s : Int), none) else (-2 ^ 63, some .range) := by
  obtain ⟨h1, h2, h3⟩ := nat_head h
  simp only [parseInt64, reduceCtorEq, if_false, List.head?_cons, or_true, if_true, List.drop_succ_cons, List.drop_zero, decide_true]
  rw [uint_nat h]
  by_cases hr : digitsVal s < 2 ^ 64
  · rw [if_pos hr]
    by_cases hr' : digitsVal s ≤ 2 ^ 63
    · rw [if_pos hr']
      simp only [Bool.true_eq_false, false_and, if_false, true_and, if_true]
      rw [if_neg (by omega)]
    · rw [if_neg hr']
      simp only [Bool.true_eq_false, false_and, if_false, true_and]
      rw [if_pos (by omega)]
  · rw [if_neg hr, if_neg (by omega)]
    simp

theorem uint_stop {s : Bytes} {c : UInt8} {t : Bytes} (h : IsNatLit s) (hc : ¬ IsDigit c) : ∃ w e, parseUint64 (s ++ c :: t) = (w, some e) ∧ (e = .range → w = 2 ^ 64 - 1) := by
  obtain ⟨-, h2⟩ := nat_digits h
  obtain ⟨e, he⟩ := loop_stop (t := t) h2 hc 0
  simp only [parseUint64, List.append_eq_nil_iff, reduceCtorEq, and_false, if_false, he]
  cases e
  · exact ⟨_, _, rfl, by simp⟩
  · exact ⟨_, _, rfl, by simp⟩

/-- Not an integer: an error, whatever the size. -/
theorem int_stop {sg s : Bytes} {c : UInt8} {t : Bytes} (hs : IsSign sg) (h : IsNatLit s) (hc : ¬ IsDigit c) : ∃ w e, parseInt64 (sg ++ s ++ c :: t) = (w, some e) := by
  obtain ⟨w, e, h1, h2⟩ := uint_stop (t := t) h hc
  obtain ⟨g1, g2, g3⟩ := nat_head h
  rcases hs with rfl | rfl
  · have hh : (s ++ c :: t).head? = s.head? := by cases s <;> simp_all
    simp only [parseInt64, List.nil_append, List.append_eq_nil_iff, reduceCtorEq, and_false, if_false, hh, g2, g3, or_self, decide_false, h1]
    cases e with
    | «syntax» => exact ⟨_, _, rfl⟩
    | range => rw [h2 rfl]; exact ⟨_, _, rfl⟩
  · simp only [parseInt64, List.cons_append, List.nil_append, reduceCtorEq, if_false, List.head?_cons, or_true, if_true, List.drop_succ_cons, List.drop_zero, decide_true, h1]
    cases e with
    | «syntax» => exact ⟨_, _, rfl⟩
    | range => rw [h2 rfl]; exact ⟨_, _, rfl⟩

theorem int_other {s : Bytes} (h : IsNumber s) (hi : ¬ IsInteger s) : ∃ w e, parseInt64 s = (w, some e) := by
  obtain ⟨sg, i, f, e, rfl, h1, h2, h3, h4⟩ := h
  rcases h3 with rfl | ⟨ds, rfl, -⟩
  · rcases h4 with rfl | ⟨c, sg', ds, rfl, hc, -, -⟩
    · exact absurd ⟨sg, i, by simp, h1, h2⟩ hi
    · rw [List.append_nil]
      refine int_stop h1 h2 ?_
      rcases hc with rfl | rfl <;> simp [IsDigit]
  · rw [show sg ++ i ++ 46 :: ds ++ e = sg ++ i ++ 46 :: (ds ++ e) by simp]
    exact int_stop h1 h2 (by simp [IsDigit])

end Verif.Proof.Number

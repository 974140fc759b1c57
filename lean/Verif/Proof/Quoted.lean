import Verif.Proof.AtoiBytes
import Verif.Model.IntKind
/-!
# What the integer parsers make of arbitrary bytes
-/
namespace Verif.Proof.AtoiBytes
open Verif Verif.Spec Verif.Model Verif.Model.Atoi

theorem U8_reads (s : Bytes) (n : Nat) : ((U8 s).1.toNat = n ∧ (U8 s).2 = false) ↔ ReadsU 8 s n := by
  rcases Nat.lt_trichotomy s.length 3 with hl | hl | hl
  · by_cases hs : s = []
    · subst hs
      rw [U8.long [] (.inl rfl)]
      constructor
      · rintro ⟨-, h⟩; cases h
      · intro h
        cases h with
        | short h => exact absurd rfl h
    · rw [U8.short_eval s hs hl]
      constructor
      · rintro ⟨h, -⟩
        rw [UInt8.toNat_ofNat'] at h
        exact h ▸ .short hs hl
      · intro h
        refine ⟨?_, rfl⟩
        rw [UInt8.toNat_ofNat']
        cases h with
        | short => rfl
        | wide _ h1 => simp only [List.length_cons, uDigits] at hl h1; omega
  · obtain ⟨c0, c1, c2, rfl⟩ : ∃ c0 c1 c2, s = [c0, c1, c2] := by
      match s, hl with | [c0, c1, c2], _ => exact ⟨c0, c1, c2, rfl⟩
    rw [U8.arm3 _ _ _ ]
    constructor
    · intro h
      split at h
      · cases h.2
      · rename_i h1
        split at h
        · cases h.2
        · rename_i h2
          rw [UInt8.le_iff_toNat_le, UInt8.toNat_ofNat', UInt8.toNat_ofNat'] at h2
          have h3 := h.1
          rw [UInt8.toNat_ofNat'] at h3
          exact h3 ▸ .wide (by decide) hl (Nat.not_lt.1 h1) (Nat.not_le.1 h2)
    · intro h
      cases h with
      | short _ h1 => simp only [uDigits] at h1; simp only [List.length_cons, List.length_nil] at h1; omega
      | wide _ _ h1 h2 =>
        rw [if_neg (show ¬ byteVal c0 > 2 from Nat.not_lt.2 h1), if_neg (by
          rw [UInt8.le_iff_toNat_le, UInt8.toNat_ofNat', UInt8.toNat_ofNat']; exact Nat.not_le.2 h2)]
        exact ⟨UInt8.toNat_ofNat' .., rfl⟩
  · rw [U8.long s (.inr hl)]
    constructor
    · rintro ⟨-, h⟩; cases h
    · intro h
      cases h with
      | short _ h1 => simp only [uDigits] at h1; omega
      | wide _ h1 => simp only [List.length_cons, uDigits] at hl h1; omega

theorem U16_reads (s : Bytes) (n : Nat) : ((U16 s).1.toNat = n ∧ (U16 s).2 = false) ↔ ReadsU 16 s n := by
  rcases Nat.lt_trichotomy s.length 5 with hl | hl | hl
  · by_cases hs : s = []
    · subst hs
      rw [U16.long [] (.inl rfl)]
      constructor
      · rintro ⟨-, h⟩; cases h
      · intro h
        cases h with
        | short h => exact absurd rfl h
    · rw [U16.short_eval s hs hl]
      constructor
      · rintro ⟨h, -⟩
        rw [UInt16.toNat_ofNat'] at h
        exact h ▸ .short hs hl
      · intro h
        refine ⟨?_, rfl⟩
        rw [UInt16.toNat_ofNat']
        cases h with
        | short => rfl
        | wide _ h1 => simp only [List.length_cons, uDigits] at hl h1; omega
  · obtain ⟨c0, c1, c2, c3, c4, rfl⟩ : ∃ c0 c1 c2 c3 c4, s = [c0, c1, c2, c3, c4] := by
      match s, hl with | [c0, c1, c2, c3, c4], _ => exact ⟨c0, c1, c2, c3, c4, rfl⟩
    rw [U16.arm5 _ _ _ _ _ ]
    constructor
    · intro h
      split at h
      · cases h.2
      · rename_i h1
        split at h
        · cases h.2
        · rename_i h2
          rw [UInt16.le_iff_toNat_le, UInt16.toNat_ofNat', UInt16.toNat_ofNat'] at h2
          have h3 := h.1
          rw [UInt16.toNat_ofNat'] at h3
          exact h3 ▸ .wide (by decide) hl (Nat.not_lt.1 h1) (Nat.not_le.1 h2)
    · intro h
      cases h with
      | short _ h1 => simp only [uDigits] at h1; simp only [List.length_cons, List.length_nil] at h1; omega
      | wide _ _ h1 h2 =>
        rw [if_neg (show ¬ byteVal c0 > 6 from Nat.not_lt.2 h1), if_neg (by
          rw [UInt16.le_iff_toNat_le, UInt16.toNat_ofNat', UInt16.toNat_ofNat']; exact Nat.not_le.2 h2)]
        exact ⟨UInt16.toNat_ofNat' .., rfl⟩
  · rw [U16.long s (.inr hl)]
    constructor
    · rintro ⟨-, h⟩; cases h
    · intro h
      cases h with
      | short _ h1 => simp only [uDigits] at h1; omega
      | wide _ h1 => simp only [List.length_cons, uDigits] at hl h1; omega

theorem U32_reads (s : Bytes) (n : Nat) : ((U32 s).1.toNat = n ∧ (U32 s).2 = false) ↔ ReadsU 32 s n := by
  rcases Nat.lt_trichotomy s.length 10 with hl | hl | hl
  · by_cases hs : s = []
    · subst hs
      rw [U32.long [] (.inl rfl)]
      constructor
      · rintro ⟨-, h⟩; cases h
      · intro h
        cases h with
        | short h => exact absurd rfl h
    · rw [U32.short_eval s hs hl]
      constructor
      · rintro ⟨h, -⟩
        rw [UInt32.toNat_ofNat'] at h
        exact h ▸ .short hs hl
      · intro h
        refine ⟨?_, rfl⟩
        rw [UInt32.toNat_ofNat']
        cases h with
        | short => rfl
        | wide _ h1 => simp only [List.length_cons, uDigits] at hl h1; omega
  · obtain ⟨c0, c1, c2, c3, c4, c5, c6, c7, c8, c9, rfl⟩ : ∃ c0 c1 c2 c3 c4 c5 c6 c7 c8 c9, s = [c0, c1, c2, c3, c4, c5, c6, c7, c8, c9] := by
      match s, hl with | [c0, c1, c2, c3, c4, c5, c6, c7, c8, c9], _ => exact ⟨c0, c1, c2, c3, c4, c5, c6, c7, c8, c9, rfl⟩
    rw [U32.arm10 _ _ _ _ _ _ _ _ _ _ ]
    constructor
    · intro h
      split at h
      · cases h.2
      · rename_i h1
        split at h
        · cases h.2
        · rename_i h2
          rw [UInt32.le_iff_toNat_le, UInt32.toNat_ofNat', UInt32.toNat_ofNat'] at h2
          have h3 := h.1
          rw [UInt32.toNat_ofNat'] at h3
          exact h3 ▸ .wide (by decide) hl (Nat.not_lt.1 h1) (Nat.not_le.1 h2)
    · intro h
      cases h with
      | short _ h1 => simp only [uDigits] at h1; simp only [List.length_cons, List.length_nil] at h1; omega
      | wide _ _ h1 h2 =>
        rw [if_neg (show ¬ byteVal c0 > 4 from Nat.not_lt.2 h1), if_neg (by
          rw [UInt32.le_iff_toNat_le, UInt32.toNat_ofNat', UInt32.toNat_ofNat']; exact Nat.not_le.2 h2)]
        exact ⟨UInt32.toNat_ofNat' .., rfl⟩
  · rw [U32.long s (.inr hl)]
    constructor
    · rintro ⟨-, h⟩; cases h
    · intro h
      cases h with
      | short _ h1 => simp only [uDigits] at h1; omega
      | wide _ h1 => simp only [List.length_cons, uDigits] at hl h1; omega

theorem U64_reads (s : Bytes) (n : Nat) : ((U64 s).1.toNat = n ∧ (U64 s).2 = false) ↔ ReadsU 64 s n := by
  rcases Nat.lt_trichotomy s.length 20 with hl | hl | hl
  · by_cases hs : s = []
    · subst hs
      rw [U64.long [] (.inl rfl)]
      constructor
      · rintro ⟨-, h⟩; cases h
      · intro h
        cases h with
        | short h => exact absurd rfl h
    · rw [U64.short_eval s hs hl]
      constructor
      · rintro ⟨h, -⟩
        rw [UInt64.toNat_ofNat'] at h
        exact h ▸ .short hs hl
      · intro h
        refine ⟨?_, rfl⟩
        rw [UInt64.toNat_ofNat']
        cases h with
        | short => rfl
        | wide h => exact absurd rfl h
        | wide64 h1 => simp only [List.length_cons] at hl; omega
  · obtain ⟨c0, c1, c2, c3, c4, c5, c6, c7, c8, c9, c10, c11, c12, c13, c14, c15, c16, c17, c18, c19, rfl⟩ : ∃ c0 c1 c2 c3 c4 c5 c6 c7 c8 c9 c10 c11 c12 c13 c14 c15 c16 c17 c18 c19, s = [c0, c1, c2, c3, c4, c5, c6, c7, c8, c9, c10, c11, c12, c13, c14, c15, c16, c17, c18, c19] := by
      iterate 20 (rcases s with _ | ⟨_, s⟩; · simp only [List.length_cons, List.length_nil] at hl; omega)
      rcases s with _ | ⟨_, s⟩
      · exact ⟨_, _, _, _, _, _, _, _, _, _, _, _, _, _, _, _, _, _, _, _, rfl⟩
      · simp only [List.length_cons] at hl; omega
    rw [U64.arm20 _ _ _ _ _ _ _ _ _ _ _ _ _ _ _ _ _ _ _ _ ]
    have hlim : ∀ y : UInt64, ¬ y > 8446744073709551615 → y.toNat < 2 ^ 64 - 10 ^ 19 := by
      intro y hy
      rw [gt_iff_lt, UInt64.lt_iff_toNat_lt] at hy
      have : (8446744073709551615 : UInt64).toNat = 8446744073709551615 := rfl
      omega
    have hadd : ∀ y : UInt64, y.toNat < 2 ^ 64 - 10 ^ 19 → ((10000000000000000000 : UInt64) + y).toNat = 10 ^ 19 + y.toNat := by
      intro y hy
      rw [UInt64.toNat_add]
      have : (10000000000000000000 : UInt64).toNat = 10000000000000000000 := rfl
      rw [this]
      omega
    constructor
    · intro h
      split at h
      · cases h.2
      · rename_i h1
        rw [ne_eq, Classical.not_not] at h1
        subst h1
        split at h
        · cases h.2
        · rename_i h2
          have h3 := hlim _ h2
          have h4 := h.1
          rw [hadd _ h3, UInt64.toNat_ofNat'] at h4
          rw [UInt64.toNat_ofNat'] at h3
          exact h4 ▸ .wide64 rfl h3
    · intro h
      cases h with
      | short _ h1 => simp only [uDigits] at h1; simp only [List.length_cons, List.length_nil] at h1; omega
      | wide h => exact absurd rfl h
      | wide64 _ h2 =>
        have h3 : (UInt64.ofNat (bytesVal [c1, c2, c3, c4, c5, c6, c7, c8, c9, c10, c11, c12, c13, c14, c15, c16, c17, c18, c19])).toNat < 2 ^ 64 - 10 ^ 19 := by rw [UInt64.toNat_ofNat']; exact h2
        rw [if_neg (by decide), if_neg (by
          rw [gt_iff_lt, UInt64.lt_iff_toNat_lt]
          have : (8446744073709551615 : UInt64).toNat = 8446744073709551615 := rfl
          omega)]
        refine ⟨?_, rfl⟩
        rw [hadd _ h3, UInt64.toNat_ofNat']
  · rw [U64.long s (.inr hl)]
    constructor
    · rintro ⟨-, h⟩; cases h
    · intro h
      cases h with
      | short _ h1 => simp only [uDigits] at h1; omega
      | wide h => exact absurd rfl h
      | wide64 h1 => simp only [List.length_cons] at hl; omega

theorem I8_reads (s : Bytes) (hs : s ≠ [45]) (v : Int) : ((I8 s).map fun r => (r.1.toInt, r.2)) = some (v, false) ↔ ReadsI 8 s v := by
  cases s with
  | nil =>
    constructor
    · intro h; simp [I8] at h
    · intro h; cases h
  | cons c s =>
    by_cases hc : c = 45
    · subst hc
      have hne : s ≠ [] := fun h => hs (by rw [h])
      have e1 : (Int8.ofInt (-(bytesVal s : Int)) > 0) ↔ 0 < (-(bytesVal s : Int)).bmod (2 ^ 8) := by
        rw [gt_iff_lt, Int8.lt_iff_toInt_lt, Int8.toInt_ofInt]; exact Iff.rfl
      have e2 : I8 (45 :: s) = some (I8.neg s) := by simp [I8]
      rw [e2, I8.neg_eval s hne]
      simp only [e1, Option.map_some]
      constructor
      · intro h
        split at h
        · simp at h
        · rename_i h1
          simp only [Option.some.injEq, Prod.mk.injEq, and_true, Int8.toInt_ofInt] at h
          rw [← h]
          exact .neg hne (by simp only [iDigits]; omega) fun h2 => Int.not_lt.1 fun h3 => h1 (.inr ⟨h2, h3⟩)
      · intro h
        cases h with
        | pos h => exact absurd rfl h
        | neg _ h1 h2 =>
          simp only [iDigits] at h1 h2
          rw [if_neg (by
            rintro (h3 | ⟨h3, h4⟩)
            · omega
            · have := h2 h3; omega)]
          simp only [Int8.toInt_ofInt]
    · have e1 : (Int8.ofInt (bytesVal (c :: s) : Int) < 0) ↔ (bytesVal (c :: s) : Int).bmod (2 ^ 8) < 0 := by
        rw [Int8.lt_iff_toInt_lt, Int8.toInt_ofInt]; exact Iff.rfl
      have e2 : I8 (c :: s) = some (I8.pos (c :: s)) := by simp [I8, hc]
      rw [e2, I8.pos_eval (c :: s) (by simp)]
      simp only [e1, Option.map_some, List.length_cons]
      constructor
      · intro h
        split at h
        · simp at h
        · rename_i h1
          simp only [Option.some.injEq, Prod.mk.injEq, and_true, Int8.toInt_ofInt] at h
          rw [← h]
          exact .pos hc (by simp only [iDigits]; omega) fun h2 => Int.not_lt.1 fun h3 => h1 (.inr ⟨h2, h3⟩)
      · intro h
        cases h with
        | neg => exact absurd rfl hc
        | pos _ h1 h2 =>
          simp only [iDigits] at h1 h2
          rw [if_neg (by
            rintro (h3 | ⟨h3, h4⟩)
            · omega
            · have := h2 h3; omega)]
          simp only [Int8.toInt_ofInt]

theorem I16_reads (s : Bytes) (hs : s ≠ [45]) (v : Int) : ((I16 s).map fun r => (r.1.toInt, r.2)) = some (v, false) ↔ ReadsI 16 s v := by
  cases s with
  | nil =>
    constructor
    · intro h; simp [I16] at h
    · intro h; cases h
  | cons c s =>
    by_cases hc : c = 45
    · subst hc
      have hne : s ≠ [] := fun h => hs (by rw [h])
      have e1 : (Int16.ofInt (-(bytesVal s : Int)) > 0) ↔ 0 < (-(bytesVal s : Int)).bmod (2 ^ 16) := by
        rw [gt_iff_lt, Int16.lt_iff_toInt_lt, Int16.toInt_ofInt]; exact Iff.rfl
      have e2 : I16 (45 :: s) = some (I16.neg s) := by simp [I16]
      rw [e2, I16.neg_eval s hne]
      simp only [e1, Option.map_some]
      constructor
      · intro h
        split at h
        · simp at h
        · rename_i h1
          simp only [Option.some.injEq, Prod.mk.injEq, and_true, Int16.toInt_ofInt] at h
          rw [← h]
          exact .neg hne (by simp only [iDigits]; omega) fun h2 => Int.not_lt.1 fun h3 => h1 (.inr ⟨h2, h3⟩)
      · intro h
        cases h with
        | pos h => exact absurd rfl h
        | neg _ h1 h2 =>
          simp only [iDigits] at h1 h2
          rw [if_neg (by
            rintro (h3 | ⟨h3, h4⟩)
            · omega
            · have := h2 h3; omega)]
          simp only [Int16.toInt_ofInt]
    · have e1 : (Int16.ofInt (bytesVal (c :: s) : Int) < 0) ↔ (bytesVal (c :: s) : Int).bmod (2 ^ 16) < 0 := by
        rw [Int16.lt_iff_toInt_lt, Int16.toInt_ofInt]; exact Iff.rfl
      have e2 : I16 (c :: s) = some (I16.pos (c :: s)) := by simp [I16, hc]
      rw [e2, I16.pos_eval (c :: s) (by simp)]
      simp only [e1, Option.map_some, List.length_cons]
      constructor
      · intro h
        split at h
        · simp at h
        · rename_i h1
          simp only [Option.some.injEq, Prod.mk.injEq, and_true, Int16.toInt_ofInt] at h
          rw [← h]
          exact .pos hc (by simp only [iDigits]; omega) fun h2 => Int.not_lt.1 fun h3 => h1 (.inr ⟨h2, h3⟩)
      · intro h
        cases h with
        | neg => exact absurd rfl hc
        | pos _ h1 h2 =>
          simp only [iDigits] at h1 h2
          rw [if_neg (by
            rintro (h3 | ⟨h3, h4⟩)
            · omega
            · have := h2 h3; omega)]
          simp only [Int16.toInt_ofInt]

theorem I32_reads (s : Bytes) (hs : s ≠ [45]) (v : Int) : ((I32 s).map fun r => (r.1.toInt, r.2)) = some (v, false) ↔ ReadsI 32 s v := by
  cases s with
  | nil =>
    constructor
    · intro h; simp [I32] at h
    · intro h; cases h
  | cons c s =>
    by_cases hc : c = 45
    · subst hc
      have hne : s ≠ [] := fun h => hs (by rw [h])
      have e1 : (Int32.ofInt (-(bytesVal s : Int)) > 0) ↔ 0 < (-(bytesVal s : Int)).bmod (2 ^ 32) := by
        rw [gt_iff_lt, Int32.lt_iff_toInt_lt, Int32.toInt_ofInt]; exact Iff.rfl
      have e2 : I32 (45 :: s) = some (I32.neg s) := by simp [I32]
      rw [e2, I32.neg_eval s hne]
      simp only [e1, Option.map_some]
      constructor
      · intro h
        split at h
        · simp at h
        · rename_i h1
          simp only [Option.some.injEq, Prod.mk.injEq, and_true, Int32.toInt_ofInt] at h
          rw [← h]
          exact .neg hne (by simp only [iDigits]; omega) fun h2 => Int.not_lt.1 fun h3 => h1 (.inr ⟨h2, h3⟩)
      · intro h
        cases h with
        | pos h => exact absurd rfl h
        | neg _ h1 h2 =>
          simp only [iDigits] at h1 h2
          rw [if_neg (by
            rintro (h3 | ⟨h3, h4⟩)
            · omega
            · have := h2 h3; omega)]
          simp only [Int32.toInt_ofInt]
    · have e1 : (Int32.ofInt (bytesVal (c :: s) : Int) < 0) ↔ (bytesVal (c :: s) : Int).bmod (2 ^ 32) < 0 := by
        rw [Int32.lt_iff_toInt_lt, Int32.toInt_ofInt]; exact Iff.rfl
      have e2 : I32 (c :: s) = some (I32.pos (c :: s)) := by simp [I32, hc]
      rw [e2, I32.pos_eval (c :: s) (by simp)]
      simp only [e1, Option.map_some, List.length_cons]
      constructor
      · intro h
        split at h
        · simp at h
        · rename_i h1
          simp only [Option.some.injEq, Prod.mk.injEq, and_true, Int32.toInt_ofInt] at h
          rw [← h]
          exact .pos hc (by simp only [iDigits]; omega) fun h2 => Int.not_lt.1 fun h3 => h1 (.inr ⟨h2, h3⟩)
      · intro h
        cases h with
        | neg => exact absurd rfl hc
        | pos _ h1 h2 =>
          simp only [iDigits] at h1 h2
          rw [if_neg (by
            rintro (h3 | ⟨h3, h4⟩)
            · omega
            · have := h2 h3; omega)]
          simp only [Int32.toInt_ofInt]

theorem I64_reads (s : Bytes) (hs : s ≠ [45]) (v : Int) : ((I64 s).map fun r => (r.1.toInt, r.2)) = some (v, false) ↔ ReadsI 64 s v := by
  cases s with
  | nil =>
    constructor
    · intro h; simp [I64] at h
    · intro h; cases h
  | cons c s =>
    by_cases hc : c = 45
    · subst hc
      have hne : s ≠ [] := fun h => hs (by rw [h])
      have e1 : (Int64.ofInt (-(bytesVal s : Int)) > 0) ↔ 0 < (-(bytesVal s : Int)).bmod (2 ^ 64) := by
        rw [gt_iff_lt, Int64.lt_iff_toInt_lt, Int64.toInt_ofInt]; exact Iff.rfl
      have e2 : I64 (45 :: s) = some (I64.neg s) := by simp [I64]
      rw [e2, I64.neg_eval s hne]
      simp only [e1, Option.map_some]
      constructor
      · intro h
        split at h
        · simp at h
        · rename_i h1
          simp only [Option.some.injEq, Prod.mk.injEq, and_true, Int64.toInt_ofInt] at h
          rw [← h]
          exact .neg hne (by simp only [iDigits]; omega) fun h2 => Int.not_lt.1 fun h3 => h1 (.inr ⟨h2, h3⟩)
      · intro h
        cases h with
        | pos h => exact absurd rfl h
        | neg _ h1 h2 =>
          simp only [iDigits] at h1 h2
          rw [if_neg (by
            rintro (h3 | ⟨h3, h4⟩)
            · omega
            · have := h2 h3; omega)]
          simp only [Int64.toInt_ofInt]
    · have e1 : (Int64.ofInt (bytesVal (c :: s) : Int) < 0) ↔ (bytesVal (c :: s) : Int).bmod (2 ^ 64) < 0 := by
        rw [Int64.lt_iff_toInt_lt, Int64.toInt_ofInt]; exact Iff.rfl
      have e2 : I64 (c :: s) = some (I64.pos (c :: s)) := by simp [I64, hc]
      rw [e2, I64.pos_eval (c :: s) (by simp)]
      simp only [e1, Option.map_some, List.length_cons]
      constructor
      · intro h
        split at h
        · simp at h
        · rename_i h1
          simp only [Option.some.injEq, Prod.mk.injEq, and_true, Int64.toInt_ofInt] at h
          rw [← h]
          exact .pos hc (by simp only [iDigits]; omega) fun h2 => Int.not_lt.1 fun h3 => h1 (.inr ⟨h2, h3⟩)
      · intro h
        cases h with
        | neg => exact absurd rfl hc
        | pos _ h1 h2 =>
          simp only [iDigits] at h1 h2
          rw [if_neg (by
            rintro (h3 | ⟨h3, h4⟩)
            · omega
            · have := h2 h3; omega)]
          simp only [Int64.toInt_ofInt]

/-- The parser of every kind, on every text. -/
theorem parseInt_reads (is64 : Bool) (k : IKind) {s : Bytes} (hs : s ≠ [45]) (v : Int) : parseInt is64 k s = some (v, false) ↔ ReadsInt is64 k s v := by
  have hU : ∀ (b : Nat) (m : Nat) (f : Bool), (∀ n, (m = n ∧ f = false) ↔ ReadsU b s n) → (some ((m : Int), f) = some (v, false) ↔ ∃ n : Nat, ReadsU b s n ∧ v = n) := by
    intro b m f h
    constructor
    · intro h1
      simp only [Option.some.injEq, Prod.mk.injEq] at h1
      exact ⟨m, (h m).1 ⟨rfl, h1.2⟩, h1.1.symm⟩
    · rintro ⟨n, h1, rfl⟩
      obtain ⟨rfl, rfl⟩ := (h n).2 h1
      rfl
  cases k <;> simp only [parseInt, ReadsInt, IKind.signed, IKind.bits, if_true, if_false, Bool.false_eq_true]
  all_goals first
    | exact I8_reads s hs v
    | exact I16_reads s hs v
    | exact I32_reads s hs v
    | exact I64_reads s hs v
    | exact hU 8 _ _ (U8_reads s)
    | exact hU 16 _ _ (U16_reads s)
    | exact hU 32 _ _ (U32_reads s)
    | exact hU 64 _ _ (U64_reads s)
    | (cases is64
       · simp only [Bool.false_eq_true, if_false]
         first | exact I32_reads s hs v | exact hU 32 _ _ (U32_reads s)
       · simp only [if_true]
         first | exact I64_reads s hs v | exact hU 64 _ _ (U64_reads s))

end Verif.Proof.AtoiBytes

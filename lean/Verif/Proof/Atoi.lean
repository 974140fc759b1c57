import Verif.Proof.AtoiArms
import Verif.Model.IntKind
/-!
# Integer parsing: exact values and overflow
-/
namespace Verif.Proof.Atoi
open Verif Verif.Spec Verif.Model Verif.Model.Atoi

theorem foldl_digits (s : Bytes) (a : Nat) :
    s.foldl (fun a c => 10 * a + digitVal c) a = a * 10 ^ s.length + digitsVal s := by
  induction s generalizing a with
  | nil => simp [digitsVal]
  | cons c cs ih =>
    rw [List.foldl_cons, ih]
    unfold digitsVal
    rw [List.foldl_cons, ih (10 * 0 + digitVal c)]
    simp only [List.length_cons, Nat.pow_succ]
    rw [Nat.add_mul]
    have : 10 * a * 10 ^ cs.length = a * (10 ^ cs.length * 10) := by
      rw [Nat.mul_comm 10 a, Nat.mul_assoc, Nat.mul_comm 10 (10 ^ _)]
    simp only [digitsVal, Nat.mul_zero, Nat.zero_add]
    omega

theorem digitsVal_cons (c : UInt8) (cs : Bytes) :
    digitsVal (c :: cs) = digitVal c * 10 ^ cs.length + digitsVal cs := by
  show List.foldl _ (10 * 0 + digitVal c) cs = _
  rw [foldl_digits]; simp

theorem digitsVal_lt (s : Bytes) (h : ∀ c ∈ s, IsDigit c) : digitsVal s < 10 ^ s.length := by
  induction s with
  | nil => decide
  | cons c cs ih =>
    rw [digitsVal_cons, List.length_cons, Nat.pow_succ]
    have h1 := ih fun c hc => h c (List.mem_cons_of_mem _ hc)
    have h2 := digitVal_le (h c List.mem_cons_self)
    have h3 : digitVal c * 10 ^ cs.length ≤ 9 * 10 ^ cs.length := Nat.mul_le_mul_right _ h2
    omega

theorem natLit_digits {s : Bytes} (h : IsNatLit s) : ∀ c ∈ s, IsDigit c := by
  cases h with
  | zero => simp [IsDigit]
  | cons h1 h2 h3 =>
    intro x hx
    rcases List.mem_cons.mp hx with rfl | hx
    · exact h1
    · exact h3 x hx

theorem natLit_ne_nil {s : Bytes} (h : IsNatLit s) : s ≠ [] := by cases h <;> simp

theorem natLit_head_ne_minus {s : Bytes} (h : IsNatLit s) : ∀ c cs, s = c :: cs → c ≠ 45 := by
  intro c cs e hc
  have := natLit_digits h c (by rw [e]; simp)
  subst hc; simp [IsDigit] at this

/-- A literal of more than one digit is at least a power of ten. -/
theorem natLit_lower {s : Bytes} (h : IsNatLit s) (hl : 2 ≤ s.length) :
    10 ^ (s.length - 1) ≤ digitsVal s := by
  cases h with
  | zero => simp at hl
  | @cons c cs h1 h2 h3 =>
    rw [digitsVal_cons]
    have : 1 ≤ digitVal c := by
      unfold digitVal; unfold IsDigit at h1
      have : c.toNat ≠ 48 := fun h => h2 (UInt8.toNat_inj.mp (by simpa using h))
      omega
    have h4 : 1 * 10 ^ cs.length ≤ digitVal c * 10 ^ cs.length := Nat.mul_le_mul_right _ this
    simp only [List.length_cons, Nat.add_sub_cancel]
    omega

theorem natLit_big {s : Bytes} (h : IsNatLit s) (n : Nat) (hn : 1 ≤ n) (hl : n < s.length) :
    10 ^ n ≤ digitsVal s := by
  refine Nat.le_trans (Nat.pow_le_pow_right (by decide) ?_) (natLit_lower h (by omega))
  omega

theorem natLit_small {s : Bytes} (h : IsNatLit s) (n : Nat) (hl : s.length ≤ n) :
    digitsVal s < 10 ^ n :=
  Nat.lt_of_lt_of_le (digitsVal_lt s (natLit_digits h)) (Nat.pow_le_pow_right (by decide) hl)

/-! ## Unsigned -/

theorem U8_spec {s : Bytes} (h : IsNatLit s) :
    U8 s = if digitsVal s < 2 ^ 8 then (UInt8.ofNat (digitsVal s), false) else (0, true) := by
  have hd := natLit_digits h
  rcases Nat.lt_trichotomy s.length 3 with hl | hl | hl
  · rw [U8.short_eval s hd (natLit_ne_nil h) hl, if_pos]
    have := natLit_small h 2 (by omega); omega
  · have hlo := natLit_lower h (by omega)
    rw [hl] at hlo
    obtain ⟨c0, c1, c2, rfl⟩ : ∃ c0 c1 c2, s = [c0, c1, c2] := by
      match s, hl with | [a, b, c], _ => exact ⟨a, b, c, rfl⟩
    rw [U8.arm3 _ _ _ hd]
    have e := digitsVal_cons c0 [c1, c2]
    have l1 := digitsVal_lt [c1, c2] (fun c hc => hd c (List.mem_cons_of_mem _ hc))
    have l0 := digitVal_le (hd c0 (by simp))
    simp only [List.length_cons, List.length_nil] at e l1
    generalize digitsVal [c0, c1, c2] = v at *
    generalize digitsVal [c1, c2] = p at *
    generalize digitVal c0 = a at *
    by_cases ha : a > 2
    · rw [if_pos ha, if_neg (by omega)]
    · rw [if_neg ha]
      by_cases hv : v < 256
      · rw [if_neg, if_pos (by omega)]
        rw [UInt8.le_iff_toNat_le]; simp; omega
      · rw [if_pos, if_neg (by omega)]
        rw [UInt8.le_iff_toNat_le]; simp; omega
  · rw [U8.long s (Or.inr hl), if_neg]
    have := natLit_big h 3 (by omega) hl; omega

theorem U16_spec {s : Bytes} (h : IsNatLit s) :
    U16 s = if digitsVal s < 2 ^ 16 then (UInt16.ofNat (digitsVal s), false) else (0, true) := by
  have hd := natLit_digits h
  rcases Nat.lt_trichotomy s.length 5 with hl | hl | hl
  · rw [U16.short_eval s hd (natLit_ne_nil h) hl, if_pos]
    have := natLit_small h 4 (by omega); omega
  · have hlo := natLit_lower h (by omega)
    rw [hl] at hlo
    obtain ⟨c0, c1, c2, c3, c4, rfl⟩ : ∃ c0 c1 c2 c3 c4, s = [c0, c1, c2, c3, c4] := by
      match s, hl with | [a, b, c, d, e], _ => exact ⟨a, b, c, d, e, rfl⟩
    rw [U16.arm5 _ _ _ _ _ hd]
    have e := digitsVal_cons c0 [c1, c2, c3, c4]
    have l1 := digitsVal_lt [c1, c2, c3, c4] (fun c hc => hd c (List.mem_cons_of_mem _ hc))
    have l0 := digitVal_le (hd c0 (by simp))
    simp only [List.length_cons, List.length_nil] at e l1
    generalize digitsVal [c0, c1, c2, c3, c4] = v at *
    generalize digitsVal [c1, c2, c3, c4] = p at *
    generalize digitVal c0 = a at *
    by_cases ha : a > 6
    · rw [if_pos ha, if_neg (by omega)]
    · rw [if_neg ha]
      by_cases hv : v < 65536
      · rw [if_neg, if_pos (by omega)]
        rw [UInt16.le_iff_toNat_le]; simp; omega
      · rw [if_pos, if_neg (by omega)]
        rw [UInt16.le_iff_toNat_le]; simp; omega
  · rw [U16.long s (Or.inr hl), if_neg]
    have := natLit_big h 5 (by omega) hl; omega

theorem U32_spec {s : Bytes} (h : IsNatLit s) :
    U32 s = if digitsVal s < 2 ^ 32 then (UInt32.ofNat (digitsVal s), false) else (0, true) := by
  have hd := natLit_digits h
  rcases Nat.lt_trichotomy s.length 10 with hl | hl | hl
  · rw [U32.short_eval s hd (natLit_ne_nil h) hl, if_pos]
    have := natLit_small h 9 (by omega); omega
  · have hlo := natLit_lower h (by omega)
    rw [hl] at hlo
    obtain ⟨c0, c1, c2, c3, c4, c5, c6, c7, c8, c9, rfl⟩ : ∃ c0 c1 c2 c3 c4 c5 c6 c7 c8 c9,
        s = [c0, c1, c2, c3, c4, c5, c6, c7, c8, c9] := by
      match s, hl with
      | [a, b, c, d, e, f, g, h, i, j], _ => exact ⟨a, b, c, d, e, f, g, h, i, j, rfl⟩
    rw [U32.arm10 _ _ _ _ _ _ _ _ _ _ hd]
    have e := digitsVal_cons c0 [c1, c2, c3, c4, c5, c6, c7, c8, c9]
    have l1 := digitsVal_lt [c1, c2, c3, c4, c5, c6, c7, c8, c9]
      (fun c hc => hd c (List.mem_cons_of_mem _ hc))
    have l0 := digitVal_le (hd c0 (by simp))
    simp only [List.length_cons, List.length_nil] at e l1
    generalize digitsVal [c0, c1, c2, c3, c4, c5, c6, c7, c8, c9] = v at *
    generalize digitsVal [c1, c2, c3, c4, c5, c6, c7, c8, c9] = p at *
    generalize digitVal c0 = a at *
    by_cases ha : a > 4
    · rw [if_pos ha, if_neg (by omega)]
    · rw [if_neg ha]
      by_cases hv : v < 4294967296
      · rw [if_neg, if_pos (by omega)]
        rw [UInt32.le_iff_toNat_le]; simp; omega
      · rw [if_pos, if_neg (by omega)]
        rw [UInt32.le_iff_toNat_le]; simp; omega
  · rw [U32.long s (Or.inr hl), if_neg]
    have := natLit_big h 10 (by omega) hl; omega

theorem list20 {s : Bytes} (h : s.length = 20) : ∃ c0 c1 c2 c3 c4 c5 c6 c7 c8 c9 c10 c11 c12 c13 c14 c15
    c16 c17 c18 c19, s = [c0, c1, c2, c3, c4, c5, c6, c7, c8, c9, c10, c11, c12, c13, c14, c15, c16,
    c17, c18, c19] := by
  match s, h with
  | [c0, c1, c2, c3, c4, c5, c6, c7, c8, c9, c10, c11, c12, c13, c14, c15, c16, c17, c18, c19], _ =>
    exact ⟨c0, c1, c2, c3, c4, c5, c6, c7, c8, c9, c10, c11, c12, c13, c14, c15, c16, c17, c18, c19, rfl⟩

theorem U64_spec {s : Bytes} (h : IsNatLit s) :
    U64 s = if digitsVal s < 2 ^ 64 then (UInt64.ofNat (digitsVal s), false) else (0, true) := by
  have hd := natLit_digits h
  rcases Nat.lt_trichotomy s.length 20 with hl | hl | hl
  · rw [U64.short_eval s hd (natLit_ne_nil h) hl, if_pos]
    have := natLit_small h 19 (by omega); omega
  · have hlo := natLit_lower h (by omega)
    rw [hl] at hlo
    obtain ⟨c0, c1, c2, c3, c4, c5, c6, c7, c8, c9, c10, c11, c12, c13, c14, c15, c16, c17, c18, c19,
      rfl⟩ := list20 hl
    rw [U64.arm20 _ _ _ _ _ _ _ _ _ _ _ _ _ _ _ _ _ _ _ _ hd]
    have e := digitsVal_cons c0 [c1, c2, c3, c4, c5, c6, c7, c8, c9, c10, c11, c12, c13, c14, c15, c16,
      c17, c18, c19]
    have l1 := digitsVal_lt [c1, c2, c3, c4, c5, c6, c7, c8, c9, c10, c11, c12, c13, c14, c15, c16,
      c17, c18, c19] (fun c hc => hd c (List.mem_cons_of_mem _ hc))
    have d0 := hd c0 (by simp)
    have l0 := digitVal_le d0
    have hc0 : c0 = 49 ↔ digitVal c0 = 1 := by
      unfold digitVal; unfold IsDigit at d0
      rw [← UInt8.toNat_inj]; simp; omega
    simp only [List.length_cons, List.length_nil] at e l1
    generalize digitsVal [c0, c1, c2, c3, c4, c5, c6, c7, c8, c9, c10, c11, c12, c13, c14, c15, c16,
      c17, c18, c19] = v at *
    generalize digitsVal [c1, c2, c3, c4, c5, c6, c7, c8, c9, c10, c11, c12, c13, c14, c15, c16,
      c17, c18, c19] = p at *
    by_cases ha : c0 = 49
    · rw [if_neg (by simpa using ha)]
      have ha' := hc0.mp ha
      rw [ha'] at e
      have hp : (UInt64.ofNat p > 8446744073709551615) ↔ p > 8446744073709551615 := by
        rw [gt_iff_lt, UInt64.lt_iff_toNat_lt]; simp; omega
      by_cases hv : v < 2 ^ 64
      · rw [if_neg (by rw [hp]; omega), if_pos hv]
        refine congrArg (fun x => (x, false)) ?_
        rw [show (10000000000000000000 : UInt64) = UInt64.ofNat 10000000000000000000 from rfl,
          ← UInt64.ofNat_add]
        exact congrArg _ (by omega)
      · rw [if_pos (by rw [hp]; omega), if_neg hv]
    · rw [if_pos ha, if_neg]
      have : digitVal c0 ≠ 1 := fun h => ha (hc0.mpr h)
      have : digitVal c0 = 0 ∨ 2 ≤ digitVal c0 := by omega
      rcases this with h0 | h2
      · rw [h0] at e; omega
      · have : 2 * 10 ^ 19 ≤ digitVal c0 * 10 ^ 19 := Nat.mul_le_mul_right _ h2
        omega
  · rw [U64.long s (Or.inr hl), if_neg]
    have := natLit_big h 20 (by omega) hl; omega

/-! ## Signed: exact behaviour including wrap-around -/

/-- Number of digits of the widest literal the signed parser of that width looks at. -/
def sDigits : Nat → Nat
  | 8 => 3 | 16 => 5 | 32 => 10 | _ => 19

/-- What the signed parsers compute: the value wrapped into the type, rejected if the literal has too many
digits or if the wrapped value has the wrong sign. -/
def wrapRes (b : Nat) (v : Int) : Int × Bool :=
  if (10 : Int) ^ sDigits b ≤ v ∨ v ≤ -(10 : Int) ^ sDigits b then (0, true)
  else if 0 ≤ v ∧ v.bmod (2 ^ b) < 0 then (0, true)
  else if v ≤ 0 ∧ 0 < v.bmod (2 ^ b) then (0, true)
  else (v.bmod (2 ^ b), false)


theorem wrapRes_small (b : Nat) (hb : b = 8 ∨ b = 16 ∨ b = 32 ∨ b = 64) (v : Int)
    (h : -(10 : Int) ^ (sDigits b - 1) < v) (h' : v < (10 : Int) ^ (sDigits b - 1)) :
    wrapRes b v = (v.bmod (2 ^ b), false) := by
  unfold wrapRes
  rcases hb with rfl | rfl | rfl | rfl <;> simp only [sDigits] at * <;>
    (rw [Int.bmod_eq_of_le (by omega) (by omega)]
     rw [if_neg (by omega), if_neg (by omega), if_neg (by omega)])

theorem wrapRes_pos (b : Nat) (hb : b = 8 ∨ b = 16 ∨ b = 32 ∨ b = 64) {s : Bytes} (h : IsNatLit s) :
    wrapRes b (digitsVal s) =
      if sDigits b < s.length ∨ (s.length = sDigits b ∧ (digitsVal s : Int).bmod (2 ^ b) < 0) then (0, true)
      else ((digitsVal s : Int).bmod (2 ^ b), false) := by
  have hD : 1 ≤ sDigits b := by rcases hb with rfl | rfl | rfl | rfl <;> decide
  rcases Nat.lt_trichotomy s.length (sDigits b) with hl | hl | hl
  · have h1 := natLit_small h (sDigits b - 1) (by omega)
    rw [if_neg (by omega)]
    refine wrapRes_small b hb _ ?_ (by exact_mod_cast h1)
    have : (0 : Int) < 10 ^ (sDigits b - 1) := Int.pow_pos (by decide)
    omega
  · have h1 := natLit_small h (sDigits b) (by omega)
    have h2 : (digitsVal s : Int) < 10 ^ sDigits b := by exact_mod_cast h1
    unfold wrapRes
    rw [if_neg (c := (10 : Int) ^ sDigits b ≤ _ ∨ _) (by omega)]
    by_cases hv : (digitsVal s : Int).bmod (2 ^ b) < 0
    · rw [if_pos (c := 0 ≤ _ ∧ _) (by omega), if_pos (by omega)]
    · rw [if_neg (c := sDigits b < s.length ∨ _) (by omega), if_neg (by omega), if_neg]
      rintro ⟨ha, hb'⟩
      have : (digitsVal s : Int) = 0 := by omega
      rw [this] at hb'; simp at hb'
  · have h1 := natLit_big h (sDigits b) hD hl
    have h2 : (10 : Int) ^ sDigits b ≤ digitsVal s := by exact_mod_cast h1
    unfold wrapRes
    rw [if_pos (Or.inl h2), if_pos (Or.inl hl)]

theorem wrapRes_neg (b : Nat) (hb : b = 8 ∨ b = 16 ∨ b = 32 ∨ b = 64) {s : Bytes} (h : IsNatLit s) :
    wrapRes b (-(digitsVal s : Int)) =
      if sDigits b < s.length ∨ (s.length = sDigits b ∧ 0 < (-(digitsVal s : Int)).bmod (2 ^ b))
      then (0, true) else ((-(digitsVal s : Int)).bmod (2 ^ b), false) := by
  have hD : 1 ≤ sDigits b := by rcases hb with rfl | rfl | rfl | rfl <;> decide
  rcases Nat.lt_trichotomy s.length (sDigits b) with hl | hl | hl
  · have h1 := natLit_small h (sDigits b - 1) (by omega)
    rw [if_neg (by omega)]
    have h2 : (digitsVal s : Int) < 10 ^ (sDigits b - 1) := by exact_mod_cast h1
    exact wrapRes_small b hb _ (by omega) (by omega)
  · have h1 := natLit_small h (sDigits b) (by omega)
    have h2 : (digitsVal s : Int) < 10 ^ sDigits b := by exact_mod_cast h1
    unfold wrapRes
    rw [if_neg (c := (10 : Int) ^ sDigits b ≤ _ ∨ _) (by omega)]
    by_cases hv : 0 < (-(digitsVal s : Int)).bmod (2 ^ b)
    · rw [if_pos (c := sDigits b < s.length ∨ _) (by omega), if_neg (by omega), if_pos (by omega)]
    · rw [if_neg (c := sDigits b < s.length ∨ _) (by omega), if_neg, if_neg (by omega)]
      rintro ⟨ha, hb'⟩
      have : (digitsVal s : Int) = 0 := by omega
      rw [this] at hb'; simp at hb'
  · have h1 := natLit_big h (sDigits b) hD hl
    have h2 : (10 : Int) ^ sDigits b ≤ digitsVal s := by exact_mod_cast h1
    unfold wrapRes
    rw [if_pos (Or.inr (by omega)), if_pos (Or.inl hl)]

theorem I8_spec {s : Bytes} {v : Int} (h : IsIntLit s v) :
    (I8 s).map (fun r => (r.1.toInt, r.2)) = some (wrapRes 8 v) := by
  cases h with
  | @pos s h =>
    obtain ⟨c, cs, e⟩ := List.exists_cons_of_ne_nil (natLit_ne_nil h)
    have hm := natLit_head_ne_minus h c cs e
    have : I8 s = some (I8.pos s) := by rw [e]; simp [I8, hm]
    rw [this, I8.pos_eval s (natLit_digits h) (natLit_ne_nil h), Option.map_some,
      wrapRes_pos 8 (by decide) h]
    refine congrArg some ?_
    have hc : (Int8.ofInt (digitsVal s : Int) < 0) ↔ (digitsVal s : Int).bmod (2 ^ 8) < 0 := by
      rw [Int8.lt_iff_toInt_lt, Int8.toInt_ofInt]; exact Iff.rfl
    simp only [hc, show sDigits 8 = 3 from rfl]
    split
    · rfl
    · simp only [Int8.toInt_ofInt]
  | @neg s h =>
    have : I8 (45 :: s) = some (I8.neg s) := by simp [I8]
    rw [this, I8.neg_eval s (natLit_digits h) (natLit_ne_nil h), Option.map_some,
      wrapRes_neg 8 (by decide) h]
    refine congrArg some ?_
    have hc : (Int8.ofInt (-(digitsVal s : Int)) > 0) ↔ 0 < (-(digitsVal s : Int)).bmod (2 ^ 8) := by
      rw [gt_iff_lt, Int8.lt_iff_toInt_lt, Int8.toInt_ofInt]; exact Iff.rfl
    simp only [hc, show sDigits 8 = 3 from rfl]
    split
    · rfl
    · simp only [Int8.toInt_ofInt]

theorem I16_spec {s : Bytes} {v : Int} (h : IsIntLit s v) :
    (I16 s).map (fun r => (r.1.toInt, r.2)) = some (wrapRes 16 v) := by
  cases h with
  | @pos s h =>
    obtain ⟨c, cs, e⟩ := List.exists_cons_of_ne_nil (natLit_ne_nil h)
    have hm := natLit_head_ne_minus h c cs e
    have : I16 s = some (I16.pos s) := by rw [e]; simp [I16, hm]
    rw [this, I16.pos_eval s (natLit_digits h) (natLit_ne_nil h), Option.map_some,
      wrapRes_pos 16 (by decide) h]
    refine congrArg some ?_
    have hc : (Int16.ofInt (digitsVal s : Int) < 0) ↔ (digitsVal s : Int).bmod (2 ^ 16) < 0 := by
      rw [Int16.lt_iff_toInt_lt, Int16.toInt_ofInt]; exact Iff.rfl
    simp only [hc, show sDigits 16 = 5 from rfl]
    split
    · rfl
    · simp only [Int16.toInt_ofInt]
  | @neg s h =>
    have : I16 (45 :: s) = some (I16.neg s) := by simp [I16]
    rw [this, I16.neg_eval s (natLit_digits h) (natLit_ne_nil h), Option.map_some,
      wrapRes_neg 16 (by decide) h]
    refine congrArg some ?_
    have hc : (Int16.ofInt (-(digitsVal s : Int)) > 0) ↔ 0 < (-(digitsVal s : Int)).bmod (2 ^ 16) := by
      rw [gt_iff_lt, Int16.lt_iff_toInt_lt, Int16.toInt_ofInt]; exact Iff.rfl
    simp only [hc, show sDigits 16 = 5 from rfl]
    split
    · rfl
    · simp only [Int16.toInt_ofInt]

theorem I32_spec {s : Bytes} {v : Int} (h : IsIntLit s v) :
    (I32 s).map (fun r => (r.1.toInt, r.2)) = some (wrapRes 32 v) := by
  cases h with
  | @pos s h =>
    obtain ⟨c, cs, e⟩ := List.exists_cons_of_ne_nil (natLit_ne_nil h)
    have hm := natLit_head_ne_minus h c cs e
    have : I32 s = some (I32.pos s) := by rw [e]; simp [I32, hm]
    rw [this, I32.pos_eval s (natLit_digits h) (natLit_ne_nil h), Option.map_some,
      wrapRes_pos 32 (by decide) h]
    refine congrArg some ?_
    have hc : (Int32.ofInt (digitsVal s : Int) < 0) ↔ (digitsVal s : Int).bmod (2 ^ 32) < 0 := by
      rw [Int32.lt_iff_toInt_lt, Int32.toInt_ofInt]; exact Iff.rfl
    simp only [hc, show sDigits 32 = 10 from rfl]
    split
    · rfl
    · simp only [Int32.toInt_ofInt]
  | @neg s h =>
    have : I32 (45 :: s) = some (I32.neg s) := by simp [I32]
    rw [this, I32.neg_eval s (natLit_digits h) (natLit_ne_nil h), Option.map_some,
      wrapRes_neg 32 (by decide) h]
    refine congrArg some ?_
    have hc : (Int32.ofInt (-(digitsVal s : Int)) > 0) ↔ 0 < (-(digitsVal s : Int)).bmod (2 ^ 32) := by
      rw [gt_iff_lt, Int32.lt_iff_toInt_lt, Int32.toInt_ofInt]; exact Iff.rfl
    simp only [hc, show sDigits 32 = 10 from rfl]
    split
    · rfl
    · simp only [Int32.toInt_ofInt]

theorem I64_spec {s : Bytes} {v : Int} (h : IsIntLit s v) :
    (I64 s).map (fun r => (r.1.toInt, r.2)) = some (wrapRes 64 v) := by
  cases h with
  | @pos s h =>
    obtain ⟨c, cs, e⟩ := List.exists_cons_of_ne_nil (natLit_ne_nil h)
    have hm := natLit_head_ne_minus h c cs e
    have : I64 s = some (I64.pos s) := by rw [e]; simp [I64, hm]
    rw [this, I64.pos_eval s (natLit_digits h) (natLit_ne_nil h), Option.map_some,
      wrapRes_pos 64 (by decide) h]
    refine congrArg some ?_
    have hc : (Int64.ofInt (digitsVal s : Int) < 0) ↔ (digitsVal s : Int).bmod (2 ^ 64) < 0 := by
      rw [Int64.lt_iff_toInt_lt, Int64.toInt_ofInt]; exact Iff.rfl
    simp only [hc, show sDigits 64 = 19 from rfl]
    split
    · rfl
    · simp only [Int64.toInt_ofInt]
  | @neg s h =>
    have : I64 (45 :: s) = some (I64.neg s) := by simp [I64]
    rw [this, I64.neg_eval s (natLit_digits h) (natLit_ne_nil h), Option.map_some,
      wrapRes_neg 64 (by decide) h]
    refine congrArg some ?_
    have hc : (Int64.ofInt (-(digitsVal s : Int)) > 0) ↔ 0 < (-(digitsVal s : Int)).bmod (2 ^ 64) := by
      rw [gt_iff_lt, Int64.lt_iff_toInt_lt, Int64.toInt_ofInt]; exact Iff.rfl
    simp only [hc, show sDigits 64 = 19 from rfl]
    split
    · rfl
    · simp only [Int64.toInt_ofInt]

/-! ## The kind-indexed parser -/

/-- Signed kinds: the exact result of the parser, including wrap-around. -/
theorem parseInt_signed (is64 : Bool) (k : IKind) (hk : k.signed = true) {s : Bytes} {v : Int}
    (h : IsIntLit s v) : parseInt is64 k s = some (wrapRes (k.bits is64) v) := by
  cases k <;> first | (simp [IKind.signed] at hk; done) | skip
  all_goals simp only [parseInt, IKind.bits, I8_spec h, I16_spec h, I32_spec h, I64_spec h]
  cases is64 <;> rfl

/-- Unsigned kinds: the exact value or overflow. -/
theorem parseInt_unsigned (is64 : Bool) (k : IKind) (hk : k.signed = false) {s : Bytes}
    (h : IsNatLit s) : parseInt is64 k s =
      some (if digitsVal s < 2 ^ k.bits is64 then ((digitsVal s : Int), false) else (0, true)) := by
  have e8 : (((U8 s).1.toNat : Int), (U8 s).2) = if digitsVal s < 2 ^ 8 then ((digitsVal s : Int), false) else (0, true) := by
    rw [U8_spec h]; split
    · simp; omega
    · rfl
  have e16 : (((U16 s).1.toNat : Int), (U16 s).2) = if digitsVal s < 2 ^ 16 then ((digitsVal s : Int), false) else (0, true) := by
    rw [U16_spec h]; split
    · simp; omega
    · rfl
  have e32 : (((U32 s).1.toNat : Int), (U32 s).2) = if digitsVal s < 2 ^ 32 then ((digitsVal s : Int), false) else (0, true) := by
    rw [U32_spec h]; split
    · simp; omega
    · rfl
  have e64 : (((U64 s).1.toNat : Int), (U64 s).2) = if digitsVal s < 2 ^ 64 then ((digitsVal s : Int), false) else (0, true) := by
    rw [U64_spec h]; split
    · simp; omega
    · rfl
  cases k <;> first | (simp [IKind.signed] at hk; done) | skip
  all_goals simp only [parseInt, IKind.bits, e8, e16, e32, e64]
  all_goals first | rfl | (cases is64 <;> rfl)

theorem wrapRes_inRange (b : Nat) (hb : b = 8 ∨ b = 16 ∨ b = 32 ∨ b = 64) (v : Int)
    (h1 : -2 ^ (b - 1) ≤ v) (h2 : v < 2 ^ (b - 1)) : wrapRes b v = (v, false) := by
  have e : v.bmod (2 ^ b) = v := by
    rcases hb with rfl | rfl | rfl | rfl <;> simp at h1 h2 <;> exact Int.bmod_eq_of_le (by omega) (by omega)
  unfold wrapRes
  rw [e]
  clear e
  rcases hb with rfl | rfl | rfl | rfl <;> simp only [sDigits] <;> simp at h1 h2 <;>
    rw [if_neg (by omega), if_neg (by omega), if_neg (by omega)]

/-- 64-bit: never a wrapped value. -/
theorem wrapRes_64 (v : Int) :
    wrapRes 64 v = if -2 ^ 63 ≤ v ∧ v < 2 ^ 63 then (v, false) else (0, true) := by
  split
  · rename_i h; exact wrapRes_inRange 64 (by decide) v h.1 h.2
  · rename_i h
    unfold wrapRes
    simp only [sDigits]
    by_cases hbig : (10 : Int) ^ 19 ≤ v ∨ v ≤ -(10 : Int) ^ 19
    · rw [if_pos hbig]
    · rw [if_neg hbig]
      by_cases hs : 0 ≤ v
      · have e : v.bmod (2 ^ 64) = v - 2 ^ 64 := by
          rw [← Int.sub_bmod_right]; exact Int.bmod_eq_of_le (by omega) (by omega)
        rw [if_pos (by rw [e]; omega)]
      · have e : v.bmod (2 ^ 64) = v + 2 ^ 64 := by
          rw [← Int.add_bmod_right]; exact Int.bmod_eq_of_le (by omega) (by omega)
        rw [if_neg (by omega), if_pos (by rw [e]; omega)]

end Verif.Proof.Atoi

import Verif.Model.Atoi
import Verif.Spec.Decimal
/-!
# Evaluation of the atoi model arms (GENERATED by `tools/gen_atoi_proof.py`)

For digit strings, every arm of the model is the image of the positional value under the
wrap-around embedding of `Nat`/`Int` into the machine type.
-/
set_option linter.unusedSimpArgs false
set_option linter.unusedVariables false
namespace Verif.Proof.Atoi
open Verif Verif.Spec Verif.Model.Atoi

theorem ifc {α : Type} {p q : Prop} [Decidable p] [Decidable q] {a b c d : α} (h : p ↔ q) (h1 : a = b)
    (h2 : c = d) : (if p then a else c) = if q then b else d := by
  subst h1 h2; by_cases hp : p <;> simp [hp, h.symm]

theorem sub48 (c : UInt8) (h : IsDigit c) : c - 48 = UInt8.ofNat (digitVal c) := by
  unfold digitVal
  apply UInt8.toNat_inj.mp
  unfold IsDigit at h
  have : (c - 48).toNat = c.toNat - 48 := by
    rw [UInt8.toNat_sub_of_le]; rfl
    exact UInt8.le_iff_toNat_le.mpr (by simpa using h.1)
  rw [this]; simp; omega

theorem digitVal_le {c : UInt8} (h : IsDigit c) : digitVal c ≤ 9 := by
  unfold IsDigit at h; unfold digitVal; omega


theorem U8.d_eq (c : UInt8) (h : IsDigit c) : U8.d c = UInt8.ofNat (digitVal c) := by
  unfold U8.d; rw [sub48 c h]
  

theorem u8lit (n : Nat) : (OfNat.ofNat n : UInt8) = UInt8.ofNat n := rfl

theorem I8.d_eq (c : UInt8) (h : IsDigit c) : I8.d c = Int8.ofInt (digitVal c : Int) := by
  have h9 := digitVal_le h
  unfold I8.d; rw [sub48 c h]
  generalize digitVal c = n at *
  have h10 : n < 10 := by omega
  clear h9 h
  have key : ∀ m : Fin 10, (UInt8.ofNat m.val).toInt8 = Int8.ofInt (m.val : Int) := by decide
  exact key ⟨n, h10⟩

theorem i8lit (n : Nat) : (OfNat.ofNat n : Int8) = Int8.ofInt (n : Int) := by
  show Int8.ofNat n = _
  rw [Int8.ofInt_eq_ofNat]


theorem U16.d_eq (c : UInt8) (h : IsDigit c) : U16.d c = UInt16.ofNat (digitVal c) := by
  unfold U16.d; rw [sub48 c h]
  have := digitVal_le h
  apply UInt16.toNat_inj.mp
  simp; omega

theorem u16lit (n : Nat) : (OfNat.ofNat n : UInt16) = UInt16.ofNat n := rfl

theorem I16.d_eq (c : UInt8) (h : IsDigit c) : I16.d c = Int16.ofInt (digitVal c : Int) := by
  have h9 := digitVal_le h
  unfold I16.d; rw [sub48 c h]
  generalize digitVal c = n at *
  have h10 : n < 10 := by omega
  clear h9 h
  have key : ∀ m : Fin 10, (UInt8.ofNat m.val).toUInt16.toInt16 = Int16.ofInt (m.val : Int) := by decide
  exact key ⟨n, h10⟩

theorem i16lit (n : Nat) : (OfNat.ofNat n : Int16) = Int16.ofInt (n : Int) := by
  show Int16.ofNat n = _
  rw [Int16.ofInt_eq_ofNat]


theorem U32.d_eq (c : UInt8) (h : IsDigit c) : U32.d c = UInt32.ofNat (digitVal c) := by
  unfold U32.d; rw [sub48 c h]
  have := digitVal_le h
  apply UInt32.toNat_inj.mp
  simp; omega

theorem u32lit (n : Nat) : (OfNat.ofNat n : UInt32) = UInt32.ofNat n := rfl

theorem I32.d_eq (c : UInt8) (h : IsDigit c) : I32.d c = Int32.ofInt (digitVal c : Int) := by
  have h9 := digitVal_le h
  unfold I32.d; rw [sub48 c h]
  generalize digitVal c = n at *
  have h10 : n < 10 := by omega
  clear h9 h
  have key : ∀ m : Fin 10, (UInt8.ofNat m.val).toUInt32.toInt32 = Int32.ofInt (m.val : Int) := by decide
  exact key ⟨n, h10⟩

theorem i32lit (n : Nat) : (OfNat.ofNat n : Int32) = Int32.ofInt (n : Int) := by
  show Int32.ofNat n = _
  rw [Int32.ofInt_eq_ofNat]


theorem U64.d_eq (c : UInt8) (h : IsDigit c) : U64.d c = UInt64.ofNat (digitVal c) := by
  unfold U64.d; rw [sub48 c h]
  have := digitVal_le h
  apply UInt64.toNat_inj.mp
  simp; omega

theorem u64lit (n : Nat) : (OfNat.ofNat n : UInt64) = UInt64.ofNat n := rfl

theorem I64.d_eq (c : UInt8) (h : IsDigit c) : I64.d c = Int64.ofInt (digitVal c : Int) := by
  have h9 := digitVal_le h
  unfold I64.d; rw [sub48 c h]
  generalize digitVal c = n at *
  have h10 : n < 10 := by omega
  clear h9 h
  have key : ∀ m : Fin 10, (UInt8.ofNat m.val).toUInt64.toInt64 = Int64.ofInt (m.val : Int) := by decide
  exact key ⟨n, h10⟩

theorem i64lit (n : Nat) : (OfNat.ofNat n : Int64) = Int64.ofInt (n : Int) := by
  show Int64.ofNat n = _
  rw [Int64.ofInt_eq_ofNat]

theorem U8.arm1 (c0 : UInt8) (h : ∀ c ∈ [c0], IsDigit c) :
    U8 [c0] = (UInt8.ofNat (digitsVal [c0]), false) := by
  simp only [List.forall_mem_cons, List.not_mem_nil, false_imp_iff, implies_true, and_true] at h
  simp only [U8, digitsVal, List.foldl, U8.d_eq, h]
  congr 1
  try simp only [u8lit, ← UInt8.ofNat_add, ← UInt8.ofNat_mul]
  exact congrArg _ (by omega)

theorem U8.arm2 (c0 c1 : UInt8) (h : ∀ c ∈ [c0, c1], IsDigit c) :
    U8 [c0, c1] = (UInt8.ofNat (digitsVal [c0, c1]), false) := by
  simp only [List.forall_mem_cons, List.not_mem_nil, false_imp_iff, implies_true, and_true] at h
  simp only [U8, digitsVal, List.foldl, U8.d_eq, h]
  congr 1
  try simp only [u8lit, ← UInt8.ofNat_add, ← UInt8.ofNat_mul]
  exact congrArg _ (by omega)

theorem U8.arm3 (c0 c1 c2 : UInt8) (h : ∀ c ∈ [c0, c1, c2], IsDigit c) :
    U8 [c0, c1, c2] =
      if digitVal c0 > 2 then (0, true) else
      if UInt8.ofNat (digitsVal [c0, c1, c2]) ≤ UInt8.ofNat (digitsVal [c1, c2]) then (0, true) else
      (UInt8.ofNat (digitsVal [c0, c1, c2]), false) := by
  simp only [List.forall_mem_cons, List.not_mem_nil, false_imp_iff, implies_true, and_true] at h
  have e0 : (c0 - 48 > 2) ↔ digitVal c0 > 2 := by
    rw [sub48 c0 h.1, gt_iff_lt, gt_iff_lt, UInt8.lt_iff_toNat_lt]
    have := digitVal_le h.1
    simp; omega
  simp only [U8, digitsVal, List.foldl, U8.d_eq, h, e0]
  try simp only [u8lit, ← UInt8.ofNat_add, ← UInt8.ofNat_mul]
  refine ifc Iff.rfl rfl ?_
  refine ifc (iff_of_eq (congr (congrArg _ (congrArg _ (by omega))) (congrArg _ (by omega)))) rfl ?_
  congr 1
  exact congrArg _ (by omega)

theorem U8.long (s : Bytes) (h : s = [] ∨ s.length > 3) : U8 s = (0, true) := by
  unfold U8; split <;>
    first
    | rfl
    | (exfalso; rcases h with h | h
       · cases h
       · revert h; exact of_decide_eq_false rfl)

theorem I8.pos_arm1 (c0 : UInt8) (h : ∀ c ∈ [c0], IsDigit c) :
    I8.pos [c0] = (Int8.ofInt (digitsVal [c0] : Int), false) := by
  simp only [List.forall_mem_cons, List.not_mem_nil, false_imp_iff, implies_true, and_true] at h
  simp only [I8.pos, digitsVal, List.foldl, I8.d_eq, h]
  try simp only [i8lit, ← Int8.ofInt_add, ← Int8.ofInt_mul, ← Int8.ofInt_neg]
  exact congrArg (fun x => (Int8.ofInt x, false)) (by omega)

theorem I8.neg_arm1 (c0 : UInt8) (h : ∀ c ∈ [c0], IsDigit c) :
    I8.neg [c0] = (Int8.ofInt (-(digitsVal [c0] : Int)), false) := by
  simp only [List.forall_mem_cons, List.not_mem_nil, false_imp_iff, implies_true, and_true] at h
  simp only [I8.neg, digitsVal, List.foldl, I8.d_eq, h]
  try simp only [i8lit, ← Int8.ofInt_add, ← Int8.ofInt_mul, ← Int8.ofInt_neg]
  exact congrArg (fun x => (Int8.ofInt x, false)) (by omega)

theorem I8.pos_arm2 (c0 c1 : UInt8) (h : ∀ c ∈ [c0, c1], IsDigit c) :
    I8.pos [c0, c1] = (Int8.ofInt (digitsVal [c0, c1] : Int), false) := by
  simp only [List.forall_mem_cons, List.not_mem_nil, false_imp_iff, implies_true, and_true] at h
  simp only [I8.pos, digitsVal, List.foldl, I8.d_eq, h]
  try simp only [i8lit, ← Int8.ofInt_add, ← Int8.ofInt_mul, ← Int8.ofInt_neg]
  exact congrArg (fun x => (Int8.ofInt x, false)) (by omega)

theorem I8.neg_arm2 (c0 c1 : UInt8) (h : ∀ c ∈ [c0, c1], IsDigit c) :
    I8.neg [c0, c1] = (Int8.ofInt (-(digitsVal [c0, c1] : Int)), false) := by
  simp only [List.forall_mem_cons, List.not_mem_nil, false_imp_iff, implies_true, and_true] at h
  simp only [I8.neg, digitsVal, List.foldl, I8.d_eq, h]
  try simp only [i8lit, ← Int8.ofInt_add, ← Int8.ofInt_mul, ← Int8.ofInt_neg]
  exact congrArg (fun x => (Int8.ofInt x, false)) (by omega)

theorem I8.pos_arm3 (c0 c1 c2 : UInt8) (h : ∀ c ∈ [c0, c1, c2], IsDigit c) :
    I8.pos [c0, c1, c2] = if Int8.ofInt (digitsVal [c0, c1, c2] : Int) < 0 then (0, true) else
      (Int8.ofInt (digitsVal [c0, c1, c2] : Int), false) := by
  simp only [List.forall_mem_cons, List.not_mem_nil, false_imp_iff, implies_true, and_true] at h
  simp only [I8.pos, digitsVal, List.foldl, I8.d_eq, h]
  try simp only [i8lit, ← Int8.ofInt_add, ← Int8.ofInt_mul, ← Int8.ofInt_neg]
  exact congrArg (fun x => if Int8.ofInt x < Int8.ofInt 0 then (Int8.ofInt 0, true) else (Int8.ofInt x, false)) (by omega)

theorem I8.neg_arm3 (c0 c1 c2 : UInt8) (h : ∀ c ∈ [c0, c1, c2], IsDigit c) :
    I8.neg [c0, c1, c2] = if Int8.ofInt (-(digitsVal [c0, c1, c2] : Int)) > 0 then (0, true) else
      (Int8.ofInt (-(digitsVal [c0, c1, c2] : Int)), false) := by
  simp only [List.forall_mem_cons, List.not_mem_nil, false_imp_iff, implies_true, and_true] at h
  simp only [I8.neg, digitsVal, List.foldl, I8.d_eq, h]
  try simp only [i8lit, ← Int8.ofInt_add, ← Int8.ofInt_mul, ← Int8.ofInt_neg]
  exact congrArg (fun x => if Int8.ofInt x > Int8.ofInt 0 then (Int8.ofInt 0, true) else (Int8.ofInt x, false)) (by omega)

theorem I8.pos_long (s : Bytes) (h : s = [] ∨ s.length > 3) : I8.pos s = (0, true) := by
  unfold I8.pos; split <;>
    first
    | rfl
    | (exfalso; rcases h with h | h
       · cases h
       · revert h; exact of_decide_eq_false rfl)

theorem I8.neg_long (s : Bytes) (h : s = [] ∨ s.length > 3) : I8.neg s = (0, true) := by
  unfold I8.neg; dsimp only; split <;>
    first
    | rfl
    | (exfalso; rcases h with h | h
       · cases h
       · revert h; exact of_decide_eq_false rfl)

/-- Exact behaviour of `I8` on digit strings (pos). -/
theorem I8.pos_eval (s : Bytes) (h : ∀ c ∈ s, IsDigit c) (hne : s ≠ []) :
    I8.pos s = if 3 < s.length ∨ (s.length = 3 ∧ Int8.ofInt (digitsVal s : Int) < 0) then (0, true)
      else (Int8.ofInt (digitsVal s : Int), false) := by
  rcases s with _ | ⟨c0, _ | ⟨c1, _ | ⟨c2, _ | ⟨c3, rest⟩⟩⟩⟩
  · exact absurd rfl hne
  · rw [I8.pos_arm1 _ h, if_neg (by simp)]
  · rw [I8.pos_arm2 _ _ h, if_neg (by simp)]
  · rw [I8.pos_arm3 _ _ _ h]; simp
  · rw [I8.pos_long _ (by right; simp only [List.length_cons]; omega), if_pos (by left; simp only [List.length_cons]; omega)]

/-- Exact behaviour of `I8` on digit strings (neg). -/
theorem I8.neg_eval (s : Bytes) (h : ∀ c ∈ s, IsDigit c) (hne : s ≠ []) :
    I8.neg s = if 3 < s.length ∨ (s.length = 3 ∧ Int8.ofInt (-(digitsVal s : Int)) > 0) then (0, true)
      else (Int8.ofInt (-(digitsVal s : Int)), false) := by
  rcases s with _ | ⟨c0, _ | ⟨c1, _ | ⟨c2, _ | ⟨c3, rest⟩⟩⟩⟩
  · exact absurd rfl hne
  · rw [I8.neg_arm1 _ h, if_neg (by simp)]
  · rw [I8.neg_arm2 _ _ h, if_neg (by simp)]
  · rw [I8.neg_arm3 _ _ _ h]; simp
  · rw [I8.neg_long _ (by right; simp only [List.length_cons]; omega), if_pos (by left; simp only [List.length_cons]; omega)]

/-- `U8` on digit strings shorter than the widest literal. -/
theorem U8.short_eval (s : Bytes) (h : ∀ c ∈ s, IsDigit c) (hne : s ≠ []) (hl : s.length < 3) :
    U8 s = (UInt8.ofNat (digitsVal s), false) := by
  rcases s with _ | ⟨c0, _ | ⟨c1, _ | ⟨c2, rest⟩⟩⟩
  · exact absurd rfl hne
  · exact U8.arm1 _ h
  · exact U8.arm2 _ _ h
  · simp only [List.length_cons] at hl; omega

theorem U16.arm1 (c0 : UInt8) (h : ∀ c ∈ [c0], IsDigit c) :
    U16 [c0] = (UInt16.ofNat (digitsVal [c0]), false) := by
  simp only [List.forall_mem_cons, List.not_mem_nil, false_imp_iff, implies_true, and_true] at h
  simp only [U16, digitsVal, List.foldl, U16.d_eq, h]
  congr 1
  try simp only [u16lit, ← UInt16.ofNat_add, ← UInt16.ofNat_mul]
  exact congrArg _ (by omega)

theorem U16.arm2 (c0 c1 : UInt8) (h : ∀ c ∈ [c0, c1], IsDigit c) :
    U16 [c0, c1] = (UInt16.ofNat (digitsVal [c0, c1]), false) := by
  simp only [List.forall_mem_cons, List.not_mem_nil, false_imp_iff, implies_true, and_true] at h
  simp only [U16, digitsVal, List.foldl, U16.d_eq, h]
  congr 1
  try simp only [u16lit, ← UInt16.ofNat_add, ← UInt16.ofNat_mul]
  exact congrArg _ (by omega)

theorem U16.arm3 (c0 c1 c2 : UInt8) (h : ∀ c ∈ [c0, c1, c2], IsDigit c) :
    U16 [c0, c1, c2] = (UInt16.ofNat (digitsVal [c0, c1, c2]), false) := by
  simp only [List.forall_mem_cons, List.not_mem_nil, false_imp_iff, implies_true, and_true] at h
  simp only [U16, digitsVal, List.foldl, U16.d_eq, h]
  congr 1
  try simp only [u16lit, ← UInt16.ofNat_add, ← UInt16.ofNat_mul]
  exact congrArg _ (by omega)

theorem U16.arm4 (c0 c1 c2 c3 : UInt8) (h : ∀ c ∈ [c0, c1, c2, c3], IsDigit c) :
    U16 [c0, c1, c2, c3] = (UInt16.ofNat (digitsVal [c0, c1, c2, c3]), false) := by
  simp only [List.forall_mem_cons, List.not_mem_nil, false_imp_iff, implies_true, and_true] at h
  simp only [U16, digitsVal, List.foldl, U16.d_eq, h]
  congr 1
  try simp only [u16lit, ← UInt16.ofNat_add, ← UInt16.ofNat_mul]
  exact congrArg _ (by omega)

theorem U16.arm5 (c0 c1 c2 c3 c4 : UInt8) (h : ∀ c ∈ [c0, c1, c2, c3, c4], IsDigit c) :
    U16 [c0, c1, c2, c3, c4] =
      if digitVal c0 > 6 then (0, true) else
      if UInt16.ofNat (digitsVal [c0, c1, c2, c3, c4]) ≤ UInt16.ofNat (digitsVal [c1, c2, c3, c4]) then (0, true) else
      (UInt16.ofNat (digitsVal [c0, c1, c2, c3, c4]), false) := by
  simp only [List.forall_mem_cons, List.not_mem_nil, false_imp_iff, implies_true, and_true] at h
  have e0 : (c0 - 48 > 6) ↔ digitVal c0 > 6 := by
    rw [sub48 c0 h.1, gt_iff_lt, gt_iff_lt, UInt8.lt_iff_toNat_lt]
    have := digitVal_le h.1
    simp; omega
  simp only [U16, digitsVal, List.foldl, U16.d_eq, h, e0]
  try simp only [u16lit, ← UInt16.ofNat_add, ← UInt16.ofNat_mul]
  refine ifc Iff.rfl rfl ?_
  refine ifc (iff_of_eq (congr (congrArg _ (congrArg _ (by omega))) (congrArg _ (by omega)))) rfl ?_
  congr 1
  exact congrArg _ (by omega)

theorem U16.long (s : Bytes) (h : s = [] ∨ s.length > 5) : U16 s = (0, true) := by
  unfold U16; split <;>
    first
    | rfl
    | (exfalso; rcases h with h | h
       · cases h
       · revert h; exact of_decide_eq_false rfl)

theorem I16.pos_arm1 (c0 : UInt8) (h : ∀ c ∈ [c0], IsDigit c) :
    I16.pos [c0] = (Int16.ofInt (digitsVal [c0] : Int), false) := by
  simp only [List.forall_mem_cons, List.not_mem_nil, false_imp_iff, implies_true, and_true] at h
  simp only [I16.pos, digitsVal, List.foldl, I16.d_eq, h]
  try simp only [i16lit, ← Int16.ofInt_add, ← Int16.ofInt_mul, ← Int16.ofInt_neg]
  exact congrArg (fun x => (Int16.ofInt x, false)) (by omega)

theorem I16.neg_arm1 (c0 : UInt8) (h : ∀ c ∈ [c0], IsDigit c) :
    I16.neg [c0] = (Int16.ofInt (-(digitsVal [c0] : Int)), false) := by
  simp only [List.forall_mem_cons, List.not_mem_nil, false_imp_iff, implies_true, and_true] at h
  simp only [I16.neg, digitsVal, List.foldl, I16.d_eq, h]
  try simp only [i16lit, ← Int16.ofInt_add, ← Int16.ofInt_mul, ← Int16.ofInt_neg]
  exact congrArg (fun x => (Int16.ofInt x, false)) (by omega)

theorem I16.pos_arm2 (c0 c1 : UInt8) (h : ∀ c ∈ [c0, c1], IsDigit c) :
    I16.pos [c0, c1] = (Int16.ofInt (digitsVal [c0, c1] : Int), false) := by
  simp only [List.forall_mem_cons, List.not_mem_nil, false_imp_iff, implies_true, and_true] at h
  simp only [I16.pos, digitsVal, List.foldl, I16.d_eq, h]
  try simp only [i16lit, ← Int16.ofInt_add, ← Int16.ofInt_mul, ← Int16.ofInt_neg]
  exact congrArg (fun x => (Int16.ofInt x, false)) (by omega)

theorem I16.neg_arm2 (c0 c1 : UInt8) (h : ∀ c ∈ [c0, c1], IsDigit c) :
    I16.neg [c0, c1] = (Int16.ofInt (-(digitsVal [c0, c1] : Int)), false) := by
  simp only [List.forall_mem_cons, List.not_mem_nil, false_imp_iff, implies_true, and_true] at h
  simp only [I16.neg, digitsVal, List.foldl, I16.d_eq, h]
  try simp only [i16lit, ← Int16.ofInt_add, ← Int16.ofInt_mul, ← Int16.ofInt_neg]
  exact congrArg (fun x => (Int16.ofInt x, false)) (by omega)

theorem I16.pos_arm3 (c0 c1 c2 : UInt8) (h : ∀ c ∈ [c0, c1, c2], IsDigit c) :
    I16.pos [c0, c1, c2] = (Int16.ofInt (digitsVal [c0, c1, c2] : Int), false) := by
  simp only [List.forall_mem_cons, List.not_mem_nil, false_imp_iff, implies_true, and_true] at h
  simp only [I16.pos, digitsVal, List.foldl, I16.d_eq, h]
  try simp only [i16lit, ← Int16.ofInt_add, ← Int16.ofInt_mul, ← Int16.ofInt_neg]
  exact congrArg (fun x => (Int16.ofInt x, false)) (by omega)

theorem I16.neg_arm3 (c0 c1 c2 : UInt8) (h : ∀ c ∈ [c0, c1, c2], IsDigit c) :
    I16.neg [c0, c1, c2] = (Int16.ofInt (-(digitsVal [c0, c1, c2] : Int)), false) := by
  simp only [List.forall_mem_cons, List.not_mem_nil, false_imp_iff, implies_true, and_true] at h
  simp only [I16.neg, digitsVal, List.foldl, I16.d_eq, h]
  try simp only [i16lit, ← Int16.ofInt_add, ← Int16.ofInt_mul, ← Int16.ofInt_neg]
  exact congrArg (fun x => (Int16.ofInt x, false)) (by omega)

theorem I16.pos_arm4 (c0 c1 c2 c3 : UInt8) (h : ∀ c ∈ [c0, c1, c2, c3], IsDigit c) :
    I16.pos [c0, c1, c2, c3] = (Int16.ofInt (digitsVal [c0, c1, c2, c3] : Int), false) := by
  simp only [List.forall_mem_cons, List.not_mem_nil, false_imp_iff, implies_true, and_true] at h
  simp only [I16.pos, digitsVal, List.foldl, I16.d_eq, h]
  try simp only [i16lit, ← Int16.ofInt_add, ← Int16.ofInt_mul, ← Int16.ofInt_neg]
  exact congrArg (fun x => (Int16.ofInt x, false)) (by omega)

theorem I16.neg_arm4 (c0 c1 c2 c3 : UInt8) (h : ∀ c ∈ [c0, c1, c2, c3], IsDigit c) :
    I16.neg [c0, c1, c2, c3] = (Int16.ofInt (-(digitsVal [c0, c1, c2, c3] : Int)), false) := by
  simp only [List.forall_mem_cons, List.not_mem_nil, false_imp_iff, implies_true, and_true] at h
  simp only [I16.neg, digitsVal, List.foldl, I16.d_eq, h]
  try simp only [i16lit, ← Int16.ofInt_add, ← Int16.ofInt_mul, ← Int16.ofInt_neg]
  exact congrArg (fun x => (Int16.ofInt x, false)) (by omega)

theorem I16.pos_arm5 (c0 c1 c2 c3 c4 : UInt8) (h : ∀ c ∈ [c0, c1, c2, c3, c4], IsDigit c) :
    I16.pos [c0, c1, c2, c3, c4] = if Int16.ofInt (digitsVal [c0, c1, c2, c3, c4] : Int) < 0 then (0, true) else
      (Int16.ofInt (digitsVal [c0, c1, c2, c3, c4] : Int), false) := by
  simp only [List.forall_mem_cons, List.not_mem_nil, false_imp_iff, implies_true, and_true] at h
  simp only [I16.pos, digitsVal, List.foldl, I16.d_eq, h]
  try simp only [i16lit, ← Int16.ofInt_add, ← Int16.ofInt_mul, ← Int16.ofInt_neg]
  exact congrArg (fun x => if Int16.ofInt x < Int16.ofInt 0 then (Int16.ofInt 0, true) else (Int16.ofInt x, false)) (by omega)

theorem I16.neg_arm5 (c0 c1 c2 c3 c4 : UInt8) (h : ∀ c ∈ [c0, c1, c2, c3, c4], IsDigit c) :
    I16.neg [c0, c1, c2, c3, c4] = if Int16.ofInt (-(digitsVal [c0, c1, c2, c3, c4] : Int)) > 0 then (0, true) else
      (Int16.ofInt (-(digitsVal [c0, c1, c2, c3, c4] : Int)), false) := by
  simp only [List.forall_mem_cons, List.not_mem_nil, false_imp_iff, implies_true, and_true] at h
  simp only [I16.neg, digitsVal, List.foldl, I16.d_eq, h]
  try simp only [i16lit, ← Int16.ofInt_add, ← Int16.ofInt_mul, ← Int16.ofInt_neg]
  exact congrArg (fun x => if Int16.ofInt x > Int16.ofInt 0 then (Int16.ofInt 0, true) else (Int16.ofInt x, false)) (by omega)

theorem I16.pos_long (s : Bytes) (h : s = [] ∨ s.length > 5) : I16.pos s = (0, true) := by
  unfold I16.pos; split <;>
    first
    | rfl
    | (exfalso; rcases h with h | h
       · cases h
       · revert h; exact of_decide_eq_false rfl)

theorem I16.neg_long (s : Bytes) (h : s = [] ∨ s.length > 5) : I16.neg s = (0, true) := by
  unfold I16.neg; dsimp only; split <;>
    first
    | rfl
    | (exfalso; rcases h with h | h
       · cases h
       · revert h; exact of_decide_eq_false rfl)

/-- Exact behaviour of `I16` on digit strings (pos). -/
theorem I16.pos_eval (s : Bytes) (h : ∀ c ∈ s, IsDigit c) (hne : s ≠ []) :
    I16.pos s = if 5 < s.length ∨ (s.length = 5 ∧ Int16.ofInt (digitsVal s : Int) < 0) then (0, true)
      else (Int16.ofInt (digitsVal s : Int), false) := by
  rcases s with _ | ⟨c0, _ | ⟨c1, _ | ⟨c2, _ | ⟨c3, _ | ⟨c4, _ | ⟨c5, rest⟩⟩⟩⟩⟩⟩
  · exact absurd rfl hne
  · rw [I16.pos_arm1 _ h, if_neg (by simp)]
  · rw [I16.pos_arm2 _ _ h, if_neg (by simp)]
  · rw [I16.pos_arm3 _ _ _ h, if_neg (by simp)]
  · rw [I16.pos_arm4 _ _ _ _ h, if_neg (by simp)]
  · rw [I16.pos_arm5 _ _ _ _ _ h]; simp
  · rw [I16.pos_long _ (by right; simp only [List.length_cons]; omega), if_pos (by left; simp only [List.length_cons]; omega)]

/-- Exact behaviour of `I16` on digit strings (neg). -/
theorem I16.neg_eval (s : Bytes) (h : ∀ c ∈ s, IsDigit c) (hne : s ≠ []) :
    I16.neg s = if 5 < s.length ∨ (s.length = 5 ∧ Int16.ofInt (-(digitsVal s : Int)) > 0) then (0, true)
      else (Int16.ofInt (-(digitsVal s : Int)), false) := by
  rcases s with _ | ⟨c0, _ | ⟨c1, _ | ⟨c2, _ | ⟨c3, _ | ⟨c4, _ | ⟨c5, rest⟩⟩⟩⟩⟩⟩
  · exact absurd rfl hne
  · rw [I16.neg_arm1 _ h, if_neg (by simp)]
  · rw [I16.neg_arm2 _ _ h, if_neg (by simp)]
  · rw [I16.neg_arm3 _ _ _ h, if_neg (by simp)]
  · rw [I16.neg_arm4 _ _ _ _ h, if_neg (by simp)]
  · rw [I16.neg_arm5 _ _ _ _ _ h]; simp
  · rw [I16.neg_long _ (by right; simp only [List.length_cons]; omega), if_pos (by left; simp only [List.length_cons]; omega)]

/-- `U16` on digit strings shorter than the widest literal. -/
theorem U16.short_eval (s : Bytes) (h : ∀ c ∈ s, IsDigit c) (hne : s ≠ []) (hl : s.length < 5) :
    U16 s = (UInt16.ofNat (digitsVal s), false) := by
  rcases s with _ | ⟨c0, _ | ⟨c1, _ | ⟨c2, _ | ⟨c3, _ | ⟨c4, rest⟩⟩⟩⟩⟩
  · exact absurd rfl hne
  · exact U16.arm1 _ h
  · exact U16.arm2 _ _ h
  · exact U16.arm3 _ _ _ h
  · exact U16.arm4 _ _ _ _ h
  · simp only [List.length_cons] at hl; omega

theorem U32.arm1 (c0 : UInt8) (h : ∀ c ∈ [c0], IsDigit c) :
    U32 [c0] = (UInt32.ofNat (digitsVal [c0]), false) := by
  simp only [List.forall_mem_cons, List.not_mem_nil, false_imp_iff, implies_true, and_true] at h
  simp only [U32, digitsVal, List.foldl, U32.d_eq, h]
  congr 1
  try simp only [u32lit, ← UInt32.ofNat_add, ← UInt32.ofNat_mul]
  exact congrArg _ (by omega)

theorem U32.arm2 (c0 c1 : UInt8) (h : ∀ c ∈ [c0, c1], IsDigit c) :
    U32 [c0, c1] = (UInt32.ofNat (digitsVal [c0, c1]), false) := by
  simp only [List.forall_mem_cons, List.not_mem_nil, false_imp_iff, implies_true, and_true] at h
  simp only [U32, digitsVal, List.foldl, U32.d_eq, h]
  congr 1
  try simp only [u32lit, ← UInt32.ofNat_add, ← UInt32.ofNat_mul]
  exact congrArg _ (by omega)

theorem U32.arm3 (c0 c1 c2 : UInt8) (h : ∀ c ∈ [c0, c1, c2], IsDigit c) :
    U32 [c0, c1, c2] = (UInt32.ofNat (digitsVal [c0, c1, c2]), false) := by
  simp only [List.forall_mem_cons, List.not_mem_nil, false_imp_iff, implies_true, and_true] at h
  simp only [U32, digitsVal, List.foldl, U32.d_eq, h]
  congr 1
  try simp only [u32lit, ← UInt32.ofNat_add, ← UInt32.ofNat_mul]
  exact congrArg _ (by omega)

theorem U32.arm4 (c0 c1 c2 c3 : UInt8) (h : ∀ c ∈ [c0, c1, c2, c3], IsDigit c) :
    U32 [c0, c1, c2, c3] = (UInt32.ofNat (digitsVal [c0, c1, c2, c3]), false) := by
  simp only [List.forall_mem_cons, List.not_mem_nil, false_imp_iff, implies_true, and_true] at h
  simp only [U32, digitsVal, List.foldl, U32.d_eq, h]
  congr 1
  try simp only [u32lit, ← UInt32.ofNat_add, ← UInt32.ofNat_mul]
  exact congrArg _ (by omega)

theorem U32.arm5 (c0 c1 c2 c3 c4 : UInt8) (h : ∀ c ∈ [c0, c1, c2, c3, c4], IsDigit c) :
    U32 [c0, c1, c2, c3, c4] = (UInt32.ofNat (digitsVal [c0, c1, c2, c3, c4]), false) := by
  simp only [List.forall_mem_cons, List.not_mem_nil, false_imp_iff, implies_true, and_true] at h
  simp only [U32, digitsVal, List.foldl, U32.d_eq, h]
  congr 1
  try simp only [u32lit, ← UInt32.ofNat_add, ← UInt32.ofNat_mul]
  exact congrArg _ (by omega)

theorem U32.arm6 (c0 c1 c2 c3 c4 c5 : UInt8) (h : ∀ c ∈ [c0, c1, c2, c3, c4, c5], IsDigit c) :
    U32 [c0, c1, c2, c3, c4, c5] = (UInt32.ofNat (digitsVal [c0, c1, c2, c3, c4, c5]), false) := by
  simp only [List.forall_mem_cons, List.not_mem_nil, false_imp_iff, implies_true, and_true] at h
  simp only [U32, digitsVal, List.foldl, U32.d_eq, h]
  congr 1
  try simp only [u32lit, ← UInt32.ofNat_add, ← UInt32.ofNat_mul]
  exact congrArg _ (by omega)

theorem U32.arm7 (c0 c1 c2 c3 c4 c5 c6 : UInt8) (h : ∀ c ∈ [c0, c1, c2, c3, c4, c5, c6], IsDigit c) :
    U32 [c0, c1, c2, c3, c4, c5, c6] = (UInt32.ofNat (digitsVal [c0, c1, c2, c3, c4, c5, c6]), false) := by
  simp only [List.forall_mem_cons, List.not_mem_nil, false_imp_iff, implies_true, and_true] at h
  simp only [U32, digitsVal, List.foldl, U32.d_eq, h]
  congr 1
  try simp only [u32lit, ← UInt32.ofNat_add, ← UInt32.ofNat_mul]
  exact congrArg _ (by omega)

theorem U32.arm8 (c0 c1 c2 c3 c4 c5 c6 c7 : UInt8) (h : ∀ c ∈ [c0, c1, c2, c3, c4, c5, c6, c7], IsDigit c) :
    U32 [c0, c1, c2, c3, c4, c5, c6, c7] = (UInt32.ofNat (digitsVal [c0, c1, c2, c3, c4, c5, c6, c7]), false) := by
  simp only [List.forall_mem_cons, List.not_mem_nil, false_imp_iff, implies_true, and_true] at h
  simp only [U32, digitsVal, List.foldl, U32.d_eq, h]
  congr 1
  try simp only [u32lit, ← UInt32.ofNat_add, ← UInt32.ofNat_mul]
  exact congrArg _ (by omega)

theorem U32.arm9 (c0 c1 c2 c3 c4 c5 c6 c7 c8 : UInt8) (h : ∀ c ∈ [c0, c1, c2, c3, c4, c5, c6, c7, c8], IsDigit c) :
    U32 [c0, c1, c2, c3, c4, c5, c6, c7, c8] = (UInt32.ofNat (digitsVal [c0, c1, c2, c3, c4, c5, c6, c7, c8]), false) := by
  simp only [List.forall_mem_cons, List.not_mem_nil, false_imp_iff, implies_true, and_true] at h
  simp only [U32, digitsVal, List.foldl, U32.d_eq, h]
  congr 1
  try simp only [u32lit, ← UInt32.ofNat_add, ← UInt32.ofNat_mul]
  exact congrArg _ (by omega)

theorem U32.arm10 (c0 c1 c2 c3 c4 c5 c6 c7 c8 c9 : UInt8) (h : ∀ c ∈ [c0, c1, c2, c3, c4, c5, c6, c7, c8, c9], IsDigit c) :
    U32 [c0, c1, c2, c3, c4, c5, c6, c7, c8, c9] =
      if digitVal c0 > 4 then (0, true) else
      if UInt32.ofNat (digitsVal [c0, c1, c2, c3, c4, c5, c6, c7, c8, c9]) ≤ UInt32.ofNat (digitsVal [c1, c2, c3, c4, c5, c6, c7, c8, c9]) then (0, true) else
      (UInt32.ofNat (digitsVal [c0, c1, c2, c3, c4, c5, c6, c7, c8, c9]), false) := by
  simp only [List.forall_mem_cons, List.not_mem_nil, false_imp_iff, implies_true, and_true] at h
  have e0 : (c0 - 48 > 4) ↔ digitVal c0 > 4 := by
    rw [sub48 c0 h.1, gt_iff_lt, gt_iff_lt, UInt8.lt_iff_toNat_lt]
    have := digitVal_le h.1
    simp; omega
  simp only [U32, digitsVal, List.foldl, U32.d_eq, h, e0]
  try simp only [u32lit, ← UInt32.ofNat_add, ← UInt32.ofNat_mul]
  refine ifc Iff.rfl rfl ?_
  refine ifc (iff_of_eq (congr (congrArg _ (congrArg _ (by omega))) (congrArg _ (by omega)))) rfl ?_
  congr 1
  exact congrArg _ (by omega)

theorem U32.long (s : Bytes) (h : s = [] ∨ s.length > 10) : U32 s = (0, true) := by
  unfold U32; split <;>
    first
    | rfl
    | (exfalso; rcases h with h | h
       · cases h
       · revert h; exact of_decide_eq_false rfl)

theorem I32.pos_arm1 (c0 : UInt8) (h : ∀ c ∈ [c0], IsDigit c) :
    I32.pos [c0] = (Int32.ofInt (digitsVal [c0] : Int), false) := by
  simp only [List.forall_mem_cons, List.not_mem_nil, false_imp_iff, implies_true, and_true] at h
  simp only [I32.pos, digitsVal, List.foldl, I32.d_eq, h]
  try simp only [i32lit, ← Int32.ofInt_add, ← Int32.ofInt_mul, ← Int32.ofInt_neg]
  exact congrArg (fun x => (Int32.ofInt x, false)) (by omega)

theorem I32.neg_arm1 (c0 : UInt8) (h : ∀ c ∈ [c0], IsDigit c) :
    I32.neg [c0] = (Int32.ofInt (-(digitsVal [c0] : Int)), false) := by
  simp only [List.forall_mem_cons, List.not_mem_nil, false_imp_iff, implies_true, and_true] at h
  simp only [I32.neg, digitsVal, List.foldl, I32.d_eq, h]
  try simp only [i32lit, ← Int32.ofInt_add, ← Int32.ofInt_mul, ← Int32.ofInt_neg]
  exact congrArg (fun x => (Int32.ofInt x, false)) (by omega)

theorem I32.pos_arm2 (c0 c1 : UInt8) (h : ∀ c ∈ [c0, c1], IsDigit c) :
    I32.pos [c0, c1] = (Int32.ofInt (digitsVal [c0, c1] : Int), false) := by
  simp only [List.forall_mem_cons, List.not_mem_nil, false_imp_iff, implies_true, and_true] at h
  simp only [I32.pos, digitsVal, List.foldl, I32.d_eq, h]
  try simp only [i32lit, ← Int32.ofInt_add, ← Int32.ofInt_mul, ← Int32.ofInt_neg]
  exact congrArg (fun x => (Int32.ofInt x, false)) (by omega)

theorem I32.neg_arm2 (c0 c1 : UInt8) (h : ∀ c ∈ [c0, c1], IsDigit c) :
    I32.neg [c0, c1] = (Int32.ofInt (-(digitsVal [c0, c1] : Int)), false) := by
  simp only [List.forall_mem_cons, List.not_mem_nil, false_imp_iff, implies_true, and_true] at h
  simp only [I32.neg, digitsVal, List.foldl, I32.d_eq, h]
  try simp only [i32lit, ← Int32.ofInt_add, ← Int32.ofInt_mul, ← Int32.ofInt_neg]
  exact congrArg (fun x => (Int32.ofInt x, false)) (by omega)

theorem I32.pos_arm3 (c0 c1 c2 : UInt8) (h : ∀ c ∈ [c0, c1, c2], IsDigit c) :
    I32.pos [c0, c1, c2] = (Int32.ofInt (digitsVal [c0, c1, c2] : Int), false) := by
  simp only [List.forall_mem_cons, List.not_mem_nil, false_imp_iff, implies_true, and_true] at h
  simp only [I32.pos, digitsVal, List.foldl, I32.d_eq, h]
  try simp only [i32lit, ← Int32.ofInt_add, ← Int32.ofInt_mul, ← Int32.ofInt_neg]
  exact congrArg (fun x => (Int32.ofInt x, false)) (by omega)

theorem I32.neg_arm3 (c0 c1 c2 : UInt8) (h : ∀ c ∈ [c0, c1, c2], IsDigit c) :
    I32.neg [c0, c1, c2] = (Int32.ofInt (-(digitsVal [c0, c1, c2] : Int)), false) := by
  simp only [List.forall_mem_cons, List.not_mem_nil, false_imp_iff, implies_true, and_true] at h
  simp only [I32.neg, digitsVal, List.foldl, I32.d_eq, h]
  try simp only [i32lit, ← Int32.ofInt_add, ← Int32.ofInt_mul, ← Int32.ofInt_neg]
  exact congrArg (fun x => (Int32.ofInt x, false)) (by omega)

theorem I32.pos_arm4 (c0 c1 c2 c3 : UInt8) (h : ∀ c ∈ [c0, c1, c2, c3], IsDigit c) :
    I32.pos [c0, c1, c2, c3] = (Int32.ofInt (digitsVal [c0, c1, c2, c3] : Int), false) := by
  simp only [List.forall_mem_cons, List.not_mem_nil, false_imp_iff, implies_true, and_true] at h
  simp only [I32.pos, digitsVal, List.foldl, I32.d_eq, h]
  try simp only [i32lit, ← Int32.ofInt_add, ← Int32.ofInt_mul, ← Int32.ofInt_neg]
  exact congrArg (fun x => (Int32.ofInt x, false)) (by omega)

theorem I32.neg_arm4 (c0 c1 c2 c3 : UInt8) (h : ∀ c ∈ [c0, c1, c2, c3], IsDigit c) :
    I32.neg [c0, c1, c2, c3] = (Int32.ofInt (-(digitsVal [c0, c1, c2, c3] : Int)), false) := by
  simp only [List.forall_mem_cons, List.not_mem_nil, false_imp_iff, implies_true, and_true] at h
  simp only [I32.neg, digitsVal, List.foldl, I32.d_eq, h]
  try simp only [i32lit, ← Int32.ofInt_add, ← Int32.ofInt_mul, ← Int32.ofInt_neg]
  exact congrArg (fun x => (Int32.ofInt x, false)) (by omega)

theorem I32.pos_arm5 (c0 c1 c2 c3 c4 : UInt8) (h : ∀ c ∈ [c0, c1, c2, c3, c4], IsDigit c) :
    I32.pos [c0, c1, c2, c3, c4] = (Int32.ofInt (digitsVal [c0, c1, c2, c3, c4] : Int), false) := by
  simp only [List.forall_mem_cons, List.not_mem_nil, false_imp_iff, implies_true, and_true] at h
  simp only [I32.pos, digitsVal, List.foldl, I32.d_eq, h]
  try simp only [i32lit, ← Int32.ofInt_add, ← Int32.ofInt_mul, ← Int32.ofInt_neg]
  exact congrArg (fun x => (Int32.ofInt x, false)) (by omega)

theorem I32.neg_arm5 (c0 c1 c2 c3 c4 : UInt8) (h : ∀ c ∈ [c0, c1, c2, c3, c4], IsDigit c) :
    I32.neg [c0, c1, c2, c3, c4] = (Int32.ofInt (-(digitsVal [c0, c1, c2, c3, c4] : Int)), false) := by
  simp only [List.forall_mem_cons, List.not_mem_nil, false_imp_iff, implies_true, and_true] at h
  simp only [I32.neg, digitsVal, List.foldl, I32.d_eq, h]
  try simp only [i32lit, ← Int32.ofInt_add, ← Int32.ofInt_mul, ← Int32.ofInt_neg]
  exact congrArg (fun x => (Int32.ofInt x, false)) (by omega)

theorem I32.pos_arm6 (c0 c1 c2 c3 c4 c5 : UInt8) (h : ∀ c ∈ [c0, c1, c2, c3, c4, c5], IsDigit c) :
    I32.pos [c0, c1, c2, c3, c4, c5] = (Int32.ofInt (digitsVal [c0, c1, c2, c3, c4, c5] : Int), false) := by
  simp only [List.forall_mem_cons, List.not_mem_nil, false_imp_iff, implies_true, and_true] at h
  simp only [I32.pos, digitsVal, List.foldl, I32.d_eq, h]
  try simp only [i32lit, ← Int32.ofInt_add, ← Int32.ofInt_mul, ← Int32.ofInt_neg]
  exact congrArg (fun x => (Int32.ofInt x, false)) (by omega)

theorem I32.neg_arm6 (c0 c1 c2 c3 c4 c5 : UInt8) (h : ∀ c ∈ [c0, c1, c2, c3, c4, c5], IsDigit c) :
    I32.neg [c0, c1, c2, c3, c4, c5] = (Int32.ofInt (-(digitsVal [c0, c1, c2, c3, c4, c5] : Int)), false) := by
  simp only [List.forall_mem_cons, List.not_mem_nil, false_imp_iff, implies_true, and_true] at h
  simp only [I32.neg, digitsVal, List.foldl, I32.d_eq, h]
  try simp only [i32lit, ← Int32.ofInt_add, ← Int32.ofInt_mul, ← Int32.ofInt_neg]
  exact congrArg (fun x => (Int32.ofInt x, false)) (by omega)

theorem I32.pos_arm7 (c0 c1 c2 c3 c4 c5 c6 : UInt8) (h : ∀ c ∈ [c0, c1, c2, c3, c4, c5, c6], IsDigit c) :
    I32.pos [c0, c1, c2, c3, c4, c5, c6] = (Int32.ofInt (digitsVal [c0, c1, c2, c3, c4, c5, c6] : Int), false) := by
  simp only [List.forall_mem_cons, List.not_mem_nil, false_imp_iff, implies_true, and_true] at h
  simp only [I32.pos, digitsVal, List.foldl, I32.d_eq, h]
  try simp only [i32lit, ← Int32.ofInt_add, ← Int32.ofInt_mul, ← Int32.ofInt_neg]
  exact congrArg (fun x => (Int32.ofInt x, false)) (by omega)

theorem I32.neg_arm7 (c0 c1 c2 c3 c4 c5 c6 : UInt8) (h : ∀ c ∈ [c0, c1, c2, c3, c4, c5, c6], IsDigit c) :
    I32.neg [c0, c1, c2, c3, c4, c5, c6] = (Int32.ofInt (-(digitsVal [c0, c1, c2, c3, c4, c5, c6] : Int)), false) := by
  simp only [List.forall_mem_cons, List.not_mem_nil, false_imp_iff, implies_true, and_true] at h
  simp only [I32.neg, digitsVal, List.foldl, I32.d_eq, h]
  try simp only [i32lit, ← Int32.ofInt_add, ← Int32.ofInt_mul, ← Int32.ofInt_neg]
  exact congrArg (fun x => (Int32.ofInt x, false)) (by omega)

theorem I32.pos_arm8 (c0 c1 c2 c3 c4 c5 c6 c7 : UInt8) (h : ∀ c ∈ [c0, c1, c2, c3, c4, c5, c6, c7], IsDigit c) :
    I32.pos [c0, c1, c2, c3, c4, c5, c6, c7] = (Int32.ofInt (digitsVal [c0, c1, c2, c3, c4, c5, c6, c7] : Int), false) := by
  simp only [List.forall_mem_cons, List.not_mem_nil, false_imp_iff, implies_true, and_true] at h
  simp only [I32.pos, digitsVal, List.foldl, I32.d_eq, h]
  try simp only [i32lit, ← Int32.ofInt_add, ← Int32.ofInt_mul, ← Int32.ofInt_neg]
  exact congrArg (fun x => (Int32.ofInt x, false)) (by omega)

theorem I32.neg_arm8 (c0 c1 c2 c3 c4 c5 c6 c7 : UInt8) (h : ∀ c ∈ [c0, c1, c2, c3, c4, c5, c6, c7], IsDigit c) :
    I32.neg [c0, c1, c2, c3, c4, c5, c6, c7] = (Int32.ofInt (-(digitsVal [c0, c1, c2, c3, c4, c5, c6, c7] : Int)), false) := by
  simp only [List.forall_mem_cons, List.not_mem_nil, false_imp_iff, implies_true, and_true] at h
  simp only [I32.neg, digitsVal, List.foldl, I32.d_eq, h]
  try simp only [i32lit, ← Int32.ofInt_add, ← Int32.ofInt_mul, ← Int32.ofInt_neg]
  exact congrArg (fun x => (Int32.ofInt x, false)) (by omega)

theorem I32.pos_arm9 (c0 c1 c2 c3 c4 c5 c6 c7 c8 : UInt8) (h : ∀ c ∈ [c0, c1, c2, c3, c4, c5, c6, c7, c8], IsDigit c) :
    I32.pos [c0, c1, c2, c3, c4, c5, c6, c7, c8] = (Int32.ofInt (digitsVal [c0, c1, c2, c3, c4, c5, c6, c7, c8] : Int), false) := by
  simp only [List.forall_mem_cons, List.not_mem_nil, false_imp_iff, implies_true, and_true] at h
  simp only [I32.pos, digitsVal, List.foldl, I32.d_eq, h]
  try simp only [i32lit, ← Int32.ofInt_add, ← Int32.ofInt_mul, ← Int32.ofInt_neg]
  exact congrArg (fun x => (Int32.ofInt x, false)) (by omega)

theorem I32.neg_arm9 (c0 c1 c2 c3 c4 c5 c6 c7 c8 : UInt8) (h : ∀ c ∈ [c0, c1, c2, c3, c4, c5, c6, c7, c8], IsDigit c) :
    I32.neg [c0, c1, c2, c3, c4, c5, c6, c7, c8] = (Int32.ofInt (-(digitsVal [c0, c1, c2, c3, c4, c5, c6, c7, c8] : Int)), false) := by
  simp only [List.forall_mem_cons, List.not_mem_nil, false_imp_iff, implies_true, and_true] at h
  simp only [I32.neg, digitsVal, List.foldl, I32.d_eq, h]
  try simp only [i32lit, ← Int32.ofInt_add, ← Int32.ofInt_mul, ← Int32.ofInt_neg]
  exact congrArg (fun x => (Int32.ofInt x, false)) (by omega)

theorem I32.pos_arm10 (c0 c1 c2 c3 c4 c5 c6 c7 c8 c9 : UInt8) (h : ∀ c ∈ [c0, c1, c2, c3, c4, c5, c6, c7, c8, c9], IsDigit c) :
    I32.pos [c0, c1, c2, c3, c4, c5, c6, c7, c8, c9] = if Int32.ofInt (digitsVal [c0, c1, c2, c3, c4, c5, c6, c7, c8, c9] : Int) < 0 then (0, true) else
      (Int32.ofInt (digitsVal [c0, c1, c2, c3, c4, c5, c6, c7, c8, c9] : Int), false) := by
  simp only [List.forall_mem_cons, List.not_mem_nil, false_imp_iff, implies_true, and_true] at h
  simp only [I32.pos, digitsVal, List.foldl, I32.d_eq, h]
  try simp only [i32lit, ← Int32.ofInt_add, ← Int32.ofInt_mul, ← Int32.ofInt_neg]
  exact congrArg (fun x => if Int32.ofInt x < Int32.ofInt 0 then (Int32.ofInt 0, true) else (Int32.ofInt x, false)) (by omega)

theorem I32.neg_arm10 (c0 c1 c2 c3 c4 c5 c6 c7 c8 c9 : UInt8) (h : ∀ c ∈ [c0, c1, c2, c3, c4, c5, c6, c7, c8, c9], IsDigit c) :
    I32.neg [c0, c1, c2, c3, c4, c5, c6, c7, c8, c9] = if Int32.ofInt (-(digitsVal [c0, c1, c2, c3, c4, c5, c6, c7, c8, c9] : Int)) > 0 then (0, true) else
      (Int32.ofInt (-(digitsVal [c0, c1, c2, c3, c4, c5, c6, c7, c8, c9] : Int)), false) := by
  simp only [List.forall_mem_cons, List.not_mem_nil, false_imp_iff, implies_true, and_true] at h
  simp only [I32.neg, digitsVal, List.foldl, I32.d_eq, h]
  try simp only [i32lit, ← Int32.ofInt_add, ← Int32.ofInt_mul, ← Int32.ofInt_neg]
  exact congrArg (fun x => if Int32.ofInt x > Int32.ofInt 0 then (Int32.ofInt 0, true) else (Int32.ofInt x, false)) (by omega)

theorem I32.pos_long (s : Bytes) (h : s = [] ∨ s.length > 10) : I32.pos s = (0, true) := by
  unfold I32.pos; split <;>
    first
    | rfl
    | (exfalso; rcases h with h | h
       · cases h
       · revert h; exact of_decide_eq_false rfl)

theorem I32.neg_long (s : Bytes) (h : s = [] ∨ s.length > 10) : I32.neg s = (0, true) := by
  unfold I32.neg; dsimp only; split <;>
    first
    | rfl
    | (exfalso; rcases h with h | h
       · cases h
       · revert h; exact of_decide_eq_false rfl)

/-- Exact behaviour of `I32` on digit strings (pos). -/
theorem I32.pos_eval (s : Bytes) (h : ∀ c ∈ s, IsDigit c) (hne : s ≠ []) :
    I32.pos s = if 10 < s.length ∨ (s.length = 10 ∧ Int32.ofInt (digitsVal s : Int) < 0) then (0, true)
      else (Int32.ofInt (digitsVal s : Int), false) := by
  rcases s with _ | ⟨c0, _ | ⟨c1, _ | ⟨c2, _ | ⟨c3, _ | ⟨c4, _ | ⟨c5, _ | ⟨c6, _ | ⟨c7, _ | ⟨c8, _ | ⟨c9, _ | ⟨c10, rest⟩⟩⟩⟩⟩⟩⟩⟩⟩⟩⟩
  · exact absurd rfl hne
  · rw [I32.pos_arm1 _ h, if_neg (by simp)]
  · rw [I32.pos_arm2 _ _ h, if_neg (by simp)]
  · rw [I32.pos_arm3 _ _ _ h, if_neg (by simp)]
  · rw [I32.pos_arm4 _ _ _ _ h, if_neg (by simp)]
  · rw [I32.pos_arm5 _ _ _ _ _ h, if_neg (by simp)]
  · rw [I32.pos_arm6 _ _ _ _ _ _ h, if_neg (by simp)]
  · rw [I32.pos_arm7 _ _ _ _ _ _ _ h, if_neg (by simp)]
  · rw [I32.pos_arm8 _ _ _ _ _ _ _ _ h, if_neg (by simp)]
  · rw [I32.pos_arm9 _ _ _ _ _ _ _ _ _ h, if_neg (by simp)]
  · rw [I32.pos_arm10 _ _ _ _ _ _ _ _ _ _ h]; simp
  · rw [I32.pos_long _ (by right; simp only [List.length_cons]; omega), if_pos (by left; simp only [List.length_cons]; omega)]

/-- Exact behaviour of `I32` on digit strings (neg). -/
theorem I32.neg_eval (s : Bytes) (h : ∀ c ∈ s, IsDigit c) (hne : s ≠ []) :
    I32.neg s = if 10 < s.length ∨ (s.length = 10 ∧ Int32.ofInt (-(digitsVal s : Int)) > 0) then (0, true)
      else (Int32.ofInt (-(digitsVal s : Int)), false) := by
  rcases s with _ | ⟨c0, _ | ⟨c1, _ | ⟨c2, _ | ⟨c3, _ | ⟨c4, _ | ⟨c5, _ | ⟨c6, _ | ⟨c7, _ | ⟨c8, _ | ⟨c9, _ | ⟨c10, rest⟩⟩⟩⟩⟩⟩⟩⟩⟩⟩⟩
  · exact absurd rfl hne
  · rw [I32.neg_arm1 _ h, if_neg (by simp)]
  · rw [I32.neg_arm2 _ _ h, if_neg (by simp)]
  · rw [I32.neg_arm3 _ _ _ h, if_neg (by simp)]
  · rw [I32.neg_arm4 _ _ _ _ h, if_neg (by simp)]
  · rw [I32.neg_arm5 _ _ _ _ _ h, if_neg (by simp)]
  · rw [I32.neg_arm6 _ _ _ _ _ _ h, if_neg (by simp)]
  · rw [I32.neg_arm7 _ _ _ _ _ _ _ h, if_neg (by simp)]
  · rw [I32.neg_arm8 _ _ _ _ _ _ _ _ h, if_neg (by simp)]
  · rw [I32.neg_arm9 _ _ _ _ _ _ _ _ _ h, if_neg (by simp)]
  · rw [I32.neg_arm10 _ _ _ _ _ _ _ _ _ _ h]; simp
  · rw [I32.neg_long _ (by right; simp only [List.length_cons]; omega), if_pos (by left; simp only [List.length_cons]; omega)]

/-- `U32` on digit strings shorter than the widest literal. -/
theorem U32.short_eval (s : Bytes) (h : ∀ c ∈ s, IsDigit c) (hne : s ≠ []) (hl : s.length < 10) :
    U32 s = (UInt32.ofNat (digitsVal s), false) := by
  rcases s with _ | ⟨c0, _ | ⟨c1, _ | ⟨c2, _ | ⟨c3, _ | ⟨c4, _ | ⟨c5, _ | ⟨c6, _ | ⟨c7, _ | ⟨c8, _ | ⟨c9, rest⟩⟩⟩⟩⟩⟩⟩⟩⟩⟩
  · exact absurd rfl hne
  · exact U32.arm1 _ h
  · exact U32.arm2 _ _ h
  · exact U32.arm3 _ _ _ h
  · exact U32.arm4 _ _ _ _ h
  · exact U32.arm5 _ _ _ _ _ h
  · exact U32.arm6 _ _ _ _ _ _ h
  · exact U32.arm7 _ _ _ _ _ _ _ h
  · exact U32.arm8 _ _ _ _ _ _ _ _ h
  · exact U32.arm9 _ _ _ _ _ _ _ _ _ h
  · simp only [List.length_cons] at hl; omega

theorem U64.arm1 (c0 : UInt8) (h : ∀ c ∈ [c0], IsDigit c) :
    U64 [c0] = (UInt64.ofNat (digitsVal [c0]), false) := by
  simp only [List.forall_mem_cons, List.not_mem_nil, false_imp_iff, implies_true, and_true] at h
  simp only [U64, digitsVal, List.foldl, U64.d_eq, h]
  congr 1
  try simp only [u64lit, ← UInt64.ofNat_add, ← UInt64.ofNat_mul]
  exact congrArg _ (by omega)

theorem U64.arm2 (c0 c1 : UInt8) (h : ∀ c ∈ [c0, c1], IsDigit c) :
    U64 [c0, c1] = (UInt64.ofNat (digitsVal [c0, c1]), false) := by
  simp only [List.forall_mem_cons, List.not_mem_nil, false_imp_iff, implies_true, and_true] at h
  simp only [U64, digitsVal, List.foldl, U64.d_eq, h]
  congr 1
  try simp only [u64lit, ← UInt64.ofNat_add, ← UInt64.ofNat_mul]
  exact congrArg _ (by omega)

theorem U64.arm3 (c0 c1 c2 : UInt8) (h : ∀ c ∈ [c0, c1, c2], IsDigit c) :
    U64 [c0, c1, c2] = (UInt64.ofNat (digitsVal [c0, c1, c2]), false) := by
  simp only [List.forall_mem_cons, List.not_mem_nil, false_imp_iff, implies_true, and_true] at h
  simp only [U64, digitsVal, List.foldl, U64.d_eq, h]
  congr 1
  try simp only [u64lit, ← UInt64.ofNat_add, ← UInt64.ofNat_mul]
  exact congrArg _ (by omega)

theorem U64.arm4 (c0 c1 c2 c3 : UInt8) (h : ∀ c ∈ [c0, c1, c2, c3], IsDigit c) :
    U64 [c0, c1, c2, c3] = (UInt64.ofNat (digitsVal [c0, c1, c2, c3]), false) := by
  simp only [List.forall_mem_cons, List.not_mem_nil, false_imp_iff, implies_true, and_true] at h
  simp only [U64, digitsVal, List.foldl, U64.d_eq, h]
  congr 1
  try simp only [u64lit, ← UInt64.ofNat_add, ← UInt64.ofNat_mul]
  exact congrArg _ (by omega)

theorem U64.arm5 (c0 c1 c2 c3 c4 : UInt8) (h : ∀ c ∈ [c0, c1, c2, c3, c4], IsDigit c) :
    U64 [c0, c1, c2, c3, c4] = (UInt64.ofNat (digitsVal [c0, c1, c2, c3, c4]), false) := by
  simp only [List.forall_mem_cons, List.not_mem_nil, false_imp_iff, implies_true, and_true] at h
  simp only [U64, digitsVal, List.foldl, U64.d_eq, h]
  congr 1
  try simp only [u64lit, ← UInt64.ofNat_add, ← UInt64.ofNat_mul]
  exact congrArg _ (by omega)

theorem U64.arm6 (c0 c1 c2 c3 c4 c5 : UInt8) (h : ∀ c ∈ [c0, c1, c2, c3, c4, c5], IsDigit c) :
    U64 [c0, c1, c2, c3, c4, c5] = (UInt64.ofNat (digitsVal [c0, c1, c2, c3, c4, c5]), false) := by
  simp only [List.forall_mem_cons, List.not_mem_nil, false_imp_iff, implies_true, and_true] at h
  simp only [U64, digitsVal, List.foldl, U64.d_eq, h]
  congr 1
  try simp only [u64lit, ← UInt64.ofNat_add, ← UInt64.ofNat_mul]
  exact congrArg _ (by omega)

theorem U64.arm7 (c0 c1 c2 c3 c4 c5 c6 : UInt8) (h : ∀ c ∈ [c0, c1, c2, c3, c4, c5, c6], IsDigit c) :
    U64 [c0, c1, c2, c3, c4, c5, c6] = (UInt64.ofNat (digitsVal [c0, c1, c2, c3, c4, c5, c6]), false) := by
  simp only [List.forall_mem_cons, List.not_mem_nil, false_imp_iff, implies_true, and_true] at h
  simp only [U64, digitsVal, List.foldl, U64.d_eq, h]
  congr 1
  try simp only [u64lit, ← UInt64.ofNat_add, ← UInt64.ofNat_mul]
  exact congrArg _ (by omega)

theorem U64.arm8 (c0 c1 c2 c3 c4 c5 c6 c7 : UInt8) (h : ∀ c ∈ [c0, c1, c2, c3, c4, c5, c6, c7], IsDigit c) :
    U64 [c0, c1, c2, c3, c4, c5, c6, c7] = (UInt64.ofNat (digitsVal [c0, c1, c2, c3, c4, c5, c6, c7]), false) := by
  simp only [List.forall_mem_cons, List.not_mem_nil, false_imp_iff, implies_true, and_true] at h
  simp only [U64, digitsVal, List.foldl, U64.d_eq, h]
  congr 1
  try simp only [u64lit, ← UInt64.ofNat_add, ← UInt64.ofNat_mul]
  exact congrArg _ (by omega)

theorem U64.arm9 (c0 c1 c2 c3 c4 c5 c6 c7 c8 : UInt8) (h : ∀ c ∈ [c0, c1, c2, c3, c4, c5, c6, c7, c8], IsDigit c) :
    U64 [c0, c1, c2, c3, c4, c5, c6, c7, c8] = (UInt64.ofNat (digitsVal [c0, c1, c2, c3, c4, c5, c6, c7, c8]), false) := by
  simp only [List.forall_mem_cons, List.not_mem_nil, false_imp_iff, implies_true, and_true] at h
  simp only [U64, digitsVal, List.foldl, U64.d_eq, h]
  congr 1
  try simp only [u64lit, ← UInt64.ofNat_add, ← UInt64.ofNat_mul]
  exact congrArg _ (by omega)

theorem U64.arm10 (c0 c1 c2 c3 c4 c5 c6 c7 c8 c9 : UInt8) (h : ∀ c ∈ [c0, c1, c2, c3, c4, c5, c6, c7, c8, c9], IsDigit c) :
    U64 [c0, c1, c2, c3, c4, c5, c6, c7, c8, c9] = (UInt64.ofNat (digitsVal [c0, c1, c2, c3, c4, c5, c6, c7, c8, c9]), false) := by
  simp only [List.forall_mem_cons, List.not_mem_nil, false_imp_iff, implies_true, and_true] at h
  simp only [U64, digitsVal, List.foldl, U64.d_eq, h]
  congr 1
  try simp only [u64lit, ← UInt64.ofNat_add, ← UInt64.ofNat_mul]
  exact congrArg _ (by omega)

theorem U64.arm11 (c0 c1 c2 c3 c4 c5 c6 c7 c8 c9 c10 : UInt8) (h : ∀ c ∈ [c0, c1, c2, c3, c4, c5, c6, c7, c8, c9, c10], IsDigit c) :
    U64 [c0, c1, c2, c3, c4, c5, c6, c7, c8, c9, c10] = (UInt64.ofNat (digitsVal [c0, c1, c2, c3, c4, c5, c6, c7, c8, c9, c10]), false) := by
  simp only [List.forall_mem_cons, List.not_mem_nil, false_imp_iff, implies_true, and_true] at h
  simp only [U64, digitsVal, List.foldl, U64.d_eq, h]
  congr 1
  try simp only [u64lit, ← UInt64.ofNat_add, ← UInt64.ofNat_mul]
  exact congrArg _ (by omega)

theorem U64.arm12 (c0 c1 c2 c3 c4 c5 c6 c7 c8 c9 c10 c11 : UInt8) (h : ∀ c ∈ [c0, c1, c2, c3, c4, c5, c6, c7, c8, c9, c10, c11], IsDigit c) :
    U64 [c0, c1, c2, c3, c4, c5, c6, c7, c8, c9, c10, c11] = (UInt64.ofNat (digitsVal [c0, c1, c2, c3, c4, c5, c6, c7, c8, c9, c10, c11]), false) := by
  simp only [List.forall_mem_cons, List.not_mem_nil, false_imp_iff, implies_true, and_true] at h
  simp only [U64, digitsVal, List.foldl, U64.d_eq, h]
  congr 1
  try simp only [u64lit, ← UInt64.ofNat_add, ← UInt64.ofNat_mul]
  exact congrArg _ (by omega)

theorem U64.arm13 (c0 c1 c2 c3 c4 c5 c6 c7 c8 c9 c10 c11 c12 : UInt8) (h : ∀ c ∈ [c0, c1, c2, c3, c4, c5, c6, c7, c8, c9, c10, c11, c12], IsDigit c) :
    U64 [c0, c1, c2, c3, c4, c5, c6, c7, c8, c9, c10, c11, c12] = (UInt64.ofNat (digitsVal [c0, c1, c2, c3, c4, c5, c6, c7, c8, c9, c10, c11, c12]), false) := by
  simp only [List.forall_mem_cons, List.not_mem_nil, false_imp_iff, implies_true, and_true] at h
  simp only [U64, digitsVal, List.foldl, U64.d_eq, h]
  congr 1
  try simp only [u64lit, ← UInt64.ofNat_add, ← UInt64.ofNat_mul]
  exact congrArg _ (by omega)

theorem U64.arm14 (c0 c1 c2 c3 c4 c5 c6 c7 c8 c9 c10 c11 c12 c13 : UInt8) (h : ∀ c ∈ [c0, c1, c2, c3, c4, c5, c6, c7, c8, c9, c10, c11, c12, c13], IsDigit c) :
    U64 [c0, c1, c2, c3, c4, c5, c6, c7, c8, c9, c10, c11, c12, c13] = (UInt64.ofNat (digitsVal [c0, c1, c2, c3, c4, c5, c6, c7, c8, c9, c10, c11, c12, c13]), false) := by
  simp only [List.forall_mem_cons, List.not_mem_nil, false_imp_iff, implies_true, and_true] at h
  simp only [U64, digitsVal, List.foldl, U64.d_eq, h]
  congr 1
  try simp only [u64lit, ← UInt64.ofNat_add, ← UInt64.ofNat_mul]
  exact congrArg _ (by omega)

theorem U64.arm15 (c0 c1 c2 c3 c4 c5 c6 c7 c8 c9 c10 c11 c12 c13 c14 : UInt8) (h : ∀ c ∈ [c0, c1, c2, c3, c4, c5, c6, c7, c8, c9, c10, c11, c12, c13, c14], IsDigit c) :
    U64 [c0, c1, c2, c3, c4, c5, c6, c7, c8, c9, c10, c11, c12, c13, c14] = (UInt64.ofNat (digitsVal [c0, c1, c2, c3, c4, c5, c6, c7, c8, c9, c10, c11, c12, c13, c14]), false) := by
  simp only [List.forall_mem_cons, List.not_mem_nil, false_imp_iff, implies_true, and_true] at h
  simp only [U64, digitsVal, List.foldl, U64.d_eq, h]
  congr 1
  try simp only [u64lit, ← UInt64.ofNat_add, ← UInt64.ofNat_mul]
  exact congrArg _ (by omega)

theorem U64.arm16 (c0 c1 c2 c3 c4 c5 c6 c7 c8 c9 c10 c11 c12 c13 c14 c15 : UInt8) (h : ∀ c ∈ [c0, c1, c2, c3, c4, c5, c6, c7, c8, c9, c10, c11, c12, c13, c14, c15], IsDigit c) :
    U64 [c0, c1, c2, c3, c4, c5, c6, c7, c8, c9, c10, c11, c12, c13, c14, c15] = (UInt64.ofNat (digitsVal [c0, c1, c2, c3, c4, c5, c6, c7, c8, c9, c10, c11, c12, c13, c14, c15]), false) := by
  simp only [List.forall_mem_cons, List.not_mem_nil, false_imp_iff, implies_true, and_true] at h
  simp only [U64, digitsVal, List.foldl, U64.d_eq, h]
  congr 1
  try simp only [u64lit, ← UInt64.ofNat_add, ← UInt64.ofNat_mul]
  exact congrArg _ (by omega)

theorem U64.arm17 (c0 c1 c2 c3 c4 c5 c6 c7 c8 c9 c10 c11 c12 c13 c14 c15 c16 : UInt8) (h : ∀ c ∈ [c0, c1, c2, c3, c4, c5, c6, c7, c8, c9, c10, c11, c12, c13, c14, c15, c16], IsDigit c) :
    U64 [c0, c1, c2, c3, c4, c5, c6, c7, c8, c9, c10, c11, c12, c13, c14, c15, c16] = (UInt64.ofNat (digitsVal [c0, c1, c2, c3, c4, c5, c6, c7, c8, c9, c10, c11, c12, c13, c14, c15, c16]), false) := by
  simp only [List.forall_mem_cons, List.not_mem_nil, false_imp_iff, implies_true, and_true] at h
  simp only [U64, digitsVal, List.foldl, U64.d_eq, h]
  congr 1
  try simp only [u64lit, ← UInt64.ofNat_add, ← UInt64.ofNat_mul]
  exact congrArg _ (by omega)

theorem U64.arm18 (c0 c1 c2 c3 c4 c5 c6 c7 c8 c9 c10 c11 c12 c13 c14 c15 c16 c17 : UInt8) (h : ∀ c ∈ [c0, c1, c2, c3, c4, c5, c6, c7, c8, c9, c10, c11, c12, c13, c14, c15, c16, c17], IsDigit c) :
    U64 [c0, c1, c2, c3, c4, c5, c6, c7, c8, c9, c10, c11, c12, c13, c14, c15, c16, c17] = (UInt64.ofNat (digitsVal [c0, c1, c2, c3, c4, c5, c6, c7, c8, c9, c10, c11, c12, c13, c14, c15, c16, c17]), false) := by
  simp only [List.forall_mem_cons, List.not_mem_nil, false_imp_iff, implies_true, and_true] at h
  simp only [U64, digitsVal, List.foldl, U64.d_eq, h]
  congr 1
  try simp only [u64lit, ← UInt64.ofNat_add, ← UInt64.ofNat_mul]
  exact congrArg _ (by omega)

theorem U64.arm19 (c0 c1 c2 c3 c4 c5 c6 c7 c8 c9 c10 c11 c12 c13 c14 c15 c16 c17 c18 : UInt8) (h : ∀ c ∈ [c0, c1, c2, c3, c4, c5, c6, c7, c8, c9, c10, c11, c12, c13, c14, c15, c16, c17, c18], IsDigit c) :
    U64 [c0, c1, c2, c3, c4, c5, c6, c7, c8, c9, c10, c11, c12, c13, c14, c15, c16, c17, c18] = (UInt64.ofNat (digitsVal [c0, c1, c2, c3, c4, c5, c6, c7, c8, c9, c10, c11, c12, c13, c14, c15, c16, c17, c18]), false) := by
  simp only [List.forall_mem_cons, List.not_mem_nil, false_imp_iff, implies_true, and_true] at h
  simp only [U64, digitsVal, List.foldl, U64.d_eq, h]
  congr 1
  try simp only [u64lit, ← UInt64.ofNat_add, ← UInt64.ofNat_mul]
  exact congrArg _ (by omega)

theorem U64.arm20 (c0 c1 c2 c3 c4 c5 c6 c7 c8 c9 c10 c11 c12 c13 c14 c15 c16 c17 c18 c19 : UInt8) (h : ∀ c ∈ [c0, c1, c2, c3, c4, c5, c6, c7, c8, c9, c10, c11, c12, c13, c14, c15, c16, c17, c18, c19], IsDigit c) :
    U64 [c0, c1, c2, c3, c4, c5, c6, c7, c8, c9, c10, c11, c12, c13, c14, c15, c16, c17, c18, c19] =
      if c0 ≠ 49 then (0, true) else
      if UInt64.ofNat (digitsVal [c1, c2, c3, c4, c5, c6, c7, c8, c9, c10, c11, c12, c13, c14, c15, c16, c17, c18, c19]) > 8446744073709551615 then (0, true) else
      (10000000000000000000 + UInt64.ofNat (digitsVal [c1, c2, c3, c4, c5, c6, c7, c8, c9, c10, c11, c12, c13, c14, c15, c16, c17, c18, c19]), false) := by
  simp only [List.forall_mem_cons, List.not_mem_nil, false_imp_iff, implies_true, and_true] at h
  simp only [U64, digitsVal, List.foldl, U64.d_eq, h]
  refine ifc Iff.rfl rfl ?_
  simp only [u64lit, ← UInt64.ofNat_add, ← UInt64.ofNat_mul]
  refine ifc (iff_of_eq (congrArg (fun x => x > _) (congrArg _ (by omega)))) rfl ?_
  congr 1
  exact congrArg _ (by omega)

theorem U64.long (s : Bytes) (h : s = [] ∨ s.length > 20) : U64 s = (0, true) := by
  unfold U64; split <;>
    first
    | rfl
    | (exfalso; rcases h with h | h
       · cases h
       · revert h; exact of_decide_eq_false rfl)

theorem I64.pos_arm1 (c0 : UInt8) (h : ∀ c ∈ [c0], IsDigit c) :
    I64.pos [c0] = (Int64.ofInt (digitsVal [c0] : Int), false) := by
  simp only [List.forall_mem_cons, List.not_mem_nil, false_imp_iff, implies_true, and_true] at h
  simp only [I64.pos, digitsVal, List.foldl, I64.d_eq, h]
  try simp only [i64lit, ← Int64.ofInt_add, ← Int64.ofInt_mul, ← Int64.ofInt_neg]
  exact congrArg (fun x => (Int64.ofInt x, false)) (by omega)

theorem I64.neg_arm1 (c0 : UInt8) (h : ∀ c ∈ [c0], IsDigit c) :
    I64.neg [c0] = (Int64.ofInt (-(digitsVal [c0] : Int)), false) := by
  simp only [List.forall_mem_cons, List.not_mem_nil, false_imp_iff, implies_true, and_true] at h
  simp only [I64.neg, digitsVal, List.foldl, I64.d_eq, h]
  try simp only [i64lit, ← Int64.ofInt_add, ← Int64.ofInt_mul, ← Int64.ofInt_neg]
  exact congrArg (fun x => (Int64.ofInt x, false)) (by omega)

theorem I64.pos_arm2 (c0 c1 : UInt8) (h : ∀ c ∈ [c0, c1], IsDigit c) :
    I64.pos [c0, c1] = (Int64.ofInt (digitsVal [c0, c1] : Int), false) := by
  simp only [List.forall_mem_cons, List.not_mem_nil, false_imp_iff, implies_true, and_true] at h
  simp only [I64.pos, digitsVal, List.foldl, I64.d_eq, h]
  try simp only [i64lit, ← Int64.ofInt_add, ← Int64.ofInt_mul, ← Int64.ofInt_neg]
  exact congrArg (fun x => (Int64.ofInt x, false)) (by omega)

theorem I64.neg_arm2 (c0 c1 : UInt8) (h : ∀ c ∈ [c0, c1], IsDigit c) :
    I64.neg [c0, c1] = (Int64.ofInt (-(digitsVal [c0, c1] : Int)), false) := by
  simp only [List.forall_mem_cons, List.not_mem_nil, false_imp_iff, implies_true, and_true] at h
  simp only [I64.neg, digitsVal, List.foldl, I64.d_eq, h]
  try simp only [i64lit, ← Int64.ofInt_add, ← Int64.ofInt_mul, ← Int64.ofInt_neg]
  exact congrArg (fun x => (Int64.ofInt x, false)) (by omega)

theorem I64.pos_arm3 (c0 c1 c2 : UInt8) (h : ∀ c ∈ [c0, c1, c2], IsDigit c) :
    I64.pos [c0, c1, c2] = (Int64.ofInt (digitsVal [c0, c1, c2] : Int), false) := by
  simp only [List.forall_mem_cons, List.not_mem_nil, false_imp_iff, implies_true, and_true] at h
  simp only [I64.pos, digitsVal, List.foldl, I64.d_eq, h]
  try simp only [i64lit, ← Int64.ofInt_add, ← Int64.ofInt_mul, ← Int64.ofInt_neg]
  exact congrArg (fun x => (Int64.ofInt x, false)) (by omega)

theorem I64.neg_arm3 (c0 c1 c2 : UInt8) (h : ∀ c ∈ [c0, c1, c2], IsDigit c) :
    I64.neg [c0, c1, c2] = (Int64.ofInt (-(digitsVal [c0, c1, c2] : Int)), false) := by
  simp only [List.forall_mem_cons, List.not_mem_nil, false_imp_iff, implies_true, and_true] at h
  simp only [I64.neg, digitsVal, List.foldl, I64.d_eq, h]
  try simp only [i64lit, ← Int64.ofInt_add, ← Int64.ofInt_mul, ← Int64.ofInt_neg]
  exact congrArg (fun x => (Int64.ofInt x, false)) (by omega)

theorem I64.pos_arm4 (c0 c1 c2 c3 : UInt8) (h : ∀ c ∈ [c0, c1, c2, c3], IsDigit c) :
    I64.pos [c0, c1, c2, c3] = (Int64.ofInt (digitsVal [c0, c1, c2, c3] : Int), false) := by
  simp only [List.forall_mem_cons, List.not_mem_nil, false_imp_iff, implies_true, and_true] at h
  simp only [I64.pos, digitsVal, List.foldl, I64.d_eq, h]
  try simp only [i64lit, ← Int64.ofInt_add, ← Int64.ofInt_mul, ← Int64.ofInt_neg]
  exact congrArg (fun x => (Int64.ofInt x, false)) (by omega)

theorem I64.neg_arm4 (c0 c1 c2 c3 : UInt8) (h : ∀ c ∈ [c0, c1, c2, c3], IsDigit c) :
    I64.neg [c0, c1, c2, c3] = (Int64.ofInt (-(digitsVal [c0, c1, c2, c3] : Int)), false) := by
  simp only [List.forall_mem_cons, List.not_mem_nil, false_imp_iff, implies_true, and_true] at h
  simp only [I64.neg, digitsVal, List.foldl, I64.d_eq, h]
  try simp only [i64lit, ← Int64.ofInt_add, ← Int64.ofInt_mul, ← Int64.ofInt_neg]
  exact congrArg (fun x => (Int64.ofInt x, false)) (by omega)

theorem I64.pos_arm5 (c0 c1 c2 c3 c4 : UInt8) (h : ∀ c ∈ [c0, c1, c2, c3, c4], IsDigit c) :
    I64.pos [c0, c1, c2, c3, c4] = (Int64.ofInt (digitsVal [c0, c1, c2, c3, c4] : Int), false) := by
  simp only [List.forall_mem_cons, List.not_mem_nil, false_imp_iff, implies_true, and_true] at h
  simp only [I64.pos, digitsVal, List.foldl, I64.d_eq, h]
  try simp only [i64lit, ← Int64.ofInt_add, ← Int64.ofInt_mul, ← Int64.ofInt_neg]
  exact congrArg (fun x => (Int64.ofInt x, false)) (by omega)

theorem I64.neg_arm5 (c0 c1 c2 c3 c4 : UInt8) (h : ∀ c ∈ [c0, c1, c2, c3, c4], IsDigit c) :
    I64.neg [c0, c1, c2, c3, c4] = (Int64.ofInt (-(digitsVal [c0, c1, c2, c3, c4] : Int)), false) := by
  simp only [List.forall_mem_cons, List.not_mem_nil, false_imp_iff, implies_true, and_true] at h
  simp only [I64.neg, digitsVal, List.foldl, I64.d_eq, h]
  try simp only [i64lit, ← Int64.ofInt_add, ← Int64.ofInt_mul, ← Int64.ofInt_neg]
  exact congrArg (fun x => (Int64.ofInt x, false)) (by omega)

theorem I64.pos_arm6 (c0 c1 c2 c3 c4 c5 : UInt8) (h : ∀ c ∈ [c0, c1, c2, c3, c4, c5], IsDigit c) :
    I64.pos [c0, c1, c2, c3, c4, c5] = (Int64.ofInt (digitsVal [c0, c1, c2, c3, c4, c5] : Int), false) := by
  simp only [List.forall_mem_cons, List.not_mem_nil, false_imp_iff, implies_true, and_true] at h
  simp only [I64.pos, digitsVal, List.foldl, I64.d_eq, h]
  try simp only [i64lit, ← Int64.ofInt_add, ← Int64.ofInt_mul, ← Int64.ofInt_neg]
  exact congrArg (fun x => (Int64.ofInt x, false)) (by omega)

theorem I64.neg_arm6 (c0 c1 c2 c3 c4 c5 : UInt8) (h : ∀ c ∈ [c0, c1, c2, c3, c4, c5], IsDigit c) :
    I64.neg [c0, c1, c2, c3, c4, c5] = (Int64.ofInt (-(digitsVal [c0, c1, c2, c3, c4, c5] : Int)), false) := by
  simp only [List.forall_mem_cons, List.not_mem_nil, false_imp_iff, implies_true, and_true] at h
  simp only [I64.neg, digitsVal, List.foldl, I64.d_eq, h]
  try simp only [i64lit, ← Int64.ofInt_add, ← Int64.ofInt_mul, ← Int64.ofInt_neg]
  exact congrArg (fun x => (Int64.ofInt x, false)) (by omega)

theorem I64.pos_arm7 (c0 c1 c2 c3 c4 c5 c6 : UInt8) (h : ∀ c ∈ [c0, c1, c2, c3, c4, c5, c6], IsDigit c) :
    I64.pos [c0, c1, c2, c3, c4, c5, c6] = (Int64.ofInt (digitsVal [c0, c1, c2, c3, c4, c5, c6] : Int), false) := by
  simp only [List.forall_mem_cons, List.not_mem_nil, false_imp_iff, implies_true, and_true] at h
  simp only [I64.pos, digitsVal, List.foldl, I64.d_eq, h]
  try simp only [i64lit, ← Int64.ofInt_add, ← Int64.ofInt_mul, ← Int64.ofInt_neg]
  exact congrArg (fun x => (Int64.ofInt x, false)) (by omega)

theorem I64.neg_arm7 (c0 c1 c2 c3 c4 c5 c6 : UInt8) (h : ∀ c ∈ [c0, c1, c2, c3, c4, c5, c6], IsDigit c) :
    I64.neg [c0, c1, c2, c3, c4, c5, c6] = (Int64.ofInt (-(digitsVal [c0, c1, c2, c3, c4, c5, c6] : Int)), false) := by
  simp only [List.forall_mem_cons, List.not_mem_nil, false_imp_iff, implies_true, and_true] at h
  simp only [I64.neg, digitsVal, List.foldl, I64.d_eq, h]
  try simp only [i64lit, ← Int64.ofInt_add, ← Int64.ofInt_mul, ← Int64.ofInt_neg]
  exact congrArg (fun x => (Int64.ofInt x, false)) (by omega)

theorem I64.pos_arm8 (c0 c1 c2 c3 c4 c5 c6 c7 : UInt8) (h : ∀ c ∈ [c0, c1, c2, c3, c4, c5, c6, c7], IsDigit c) :
    I64.pos [c0, c1, c2, c3, c4, c5, c6, c7] = (Int64.ofInt (digitsVal [c0, c1, c2, c3, c4, c5, c6, c7] : Int), false) := by
  simp only [List.forall_mem_cons, List.not_mem_nil, false_imp_iff, implies_true, and_true] at h
  simp only [I64.pos, digitsVal, List.foldl, I64.d_eq, h]
  try simp only [i64lit, ← Int64.ofInt_add, ← Int64.ofInt_mul, ← Int64.ofInt_neg]
  exact congrArg (fun x => (Int64.ofInt x, false)) (by omega)

theorem I64.neg_arm8 (c0 c1 c2 c3 c4 c5 c6 c7 : UInt8) (h : ∀ c ∈ [c0, c1, c2, c3, c4, c5, c6, c7], IsDigit c) :
    I64.neg [c0, c1, c2, c3, c4, c5, c6, c7] = (Int64.ofInt (-(digitsVal [c0, c1, c2, c3, c4, c5, c6, c7] : Int)), false) := by
  simp only [List.forall_mem_cons, List.not_mem_nil, false_imp_iff, implies_true, and_true] at h
  simp only [I64.neg, digitsVal, List.foldl, I64.d_eq, h]
  try simp only [i64lit, ← Int64.ofInt_add, ← Int64.ofInt_mul, ← Int64.ofInt_neg]
  exact congrArg (fun x => (Int64.ofInt x, false)) (by omega)

theorem I64.pos_arm9 (c0 c1 c2 c3 c4 c5 c6 c7 c8 : UInt8) (h : ∀ c ∈ [c0, c1, c2, c3, c4, c5, c6, c7, c8], IsDigit c) :
    I64.pos [c0, c1, c2, c3, c4, c5, c6, c7, c8] = (Int64.ofInt (digitsVal [c0, c1, c2, c3, c4, c5, c6, c7, c8] : Int), false) := by
  simp only [List.forall_mem_cons, List.not_mem_nil, false_imp_iff, implies_true, and_true] at h
  simp only [I64.pos, digitsVal, List.foldl, I64.d_eq, h]
  try simp only [i64lit, ← Int64.ofInt_add, ← Int64.ofInt_mul, ← Int64.ofInt_neg]
  exact congrArg (fun x => (Int64.ofInt x, false)) (by omega)

theorem I64.neg_arm9 (c0 c1 c2 c3 c4 c5 c6 c7 c8 : UInt8) (h : ∀ c ∈ [c0, c1, c2, c3, c4, c5, c6, c7, c8], IsDigit c) :
    I64.neg [c0, c1, c2, c3, c4, c5, c6, c7, c8] = (Int64.ofInt (-(digitsVal [c0, c1, c2, c3, c4, c5, c6, c7, c8] : Int)), false) := by
  simp only [List.forall_mem_cons, List.not_mem_nil, false_imp_iff, implies_true, and_true] at h
  simp only [I64.neg, digitsVal, List.foldl, I64.d_eq, h]
  try simp only [i64lit, ← Int64.ofInt_add, ← Int64.ofInt_mul, ← Int64.ofInt_neg]
  exact congrArg (fun x => (Int64.ofInt x, false)) (by omega)

theorem I64.pos_arm10 (c0 c1 c2 c3 c4 c5 c6 c7 c8 c9 : UInt8) (h : ∀ c ∈ [c0, c1, c2, c3, c4, c5, c6, c7, c8, c9], IsDigit c) :
    I64.pos [c0, c1, c2, c3, c4, c5, c6, c7, c8, c9] = (Int64.ofInt (digitsVal [c0, c1, c2, c3, c4, c5, c6, c7, c8, c9] : Int), false) := by
  simp only [List.forall_mem_cons, List.not_mem_nil, false_imp_iff, implies_true, and_true] at h
  simp only [I64.pos, digitsVal, List.foldl, I64.d_eq, h]
  try simp only [i64lit, ← Int64.ofInt_add, ← Int64.ofInt_mul, ← Int64.ofInt_neg]
  exact congrArg (fun x => (Int64.ofInt x, false)) (by omega)

theorem I64.neg_arm10 (c0 c1 c2 c3 c4 c5 c6 c7 c8 c9 : UInt8) (h : ∀ c ∈ [c0, c1, c2, c3, c4, c5, c6, c7, c8, c9], IsDigit c) :
    I64.neg [c0, c1, c2, c3, c4, c5, c6, c7, c8, c9] = (Int64.ofInt (-(digitsVal [c0, c1, c2, c3, c4, c5, c6, c7, c8, c9] : Int)), false) := by
  simp only [List.forall_mem_cons, List.not_mem_nil, false_imp_iff, implies_true, and_true] at h
  simp only [I64.neg, digitsVal, List.foldl, I64.d_eq, h]
  try simp only [i64lit, ← Int64.ofInt_add, ← Int64.ofInt_mul, ← Int64.ofInt_neg]
  exact congrArg (fun x => (Int64.ofInt x, false)) (by omega)

theorem I64.pos_arm11 (c0 c1 c2 c3 c4 c5 c6 c7 c8 c9 c10 : UInt8) (h : ∀ c ∈ [c0, c1, c2, c3, c4, c5, c6, c7, c8, c9, c10], IsDigit c) :
    I64.pos [c0, c1, c2, c3, c4, c5, c6, c7, c8, c9, c10] = (Int64.ofInt (digitsVal [c0, c1, c2, c3, c4, c5, c6, c7, c8, c9, c10] : Int), false) := by
  simp only [List.forall_mem_cons, List.not_mem_nil, false_imp_iff, implies_true, and_true] at h
  simp only [I64.pos, digitsVal, List.foldl, I64.d_eq, h]
  try simp only [i64lit, ← Int64.ofInt_add, ← Int64.ofInt_mul, ← Int64.ofInt_neg]
  exact congrArg (fun x => (Int64.ofInt x, false)) (by omega)

theorem I64.neg_arm11 (c0 c1 c2 c3 c4 c5 c6 c7 c8 c9 c10 : UInt8) (h : ∀ c ∈ [c0, c1, c2, c3, c4, c5, c6, c7, c8, c9, c10], IsDigit c) :
    I64.neg [c0, c1, c2, c3, c4, c5, c6, c7, c8, c9, c10] = (Int64.ofInt (-(digitsVal [c0, c1, c2, c3, c4, c5, c6, c7, c8, c9, c10] : Int)), false) := by
  simp only [List.forall_mem_cons, List.not_mem_nil, false_imp_iff, implies_true, and_true] at h
  simp only [I64.neg, digitsVal, List.foldl, I64.d_eq, h]
  try simp only [i64lit, ← Int64.ofInt_add, ← Int64.ofInt_mul, ← Int64.ofInt_neg]
  exact congrArg (fun x => (Int64.ofInt x, false)) (by omega)

theorem I64.pos_arm12 (c0 c1 c2 c3 c4 c5 c6 c7 c8 c9 c10 c11 : UInt8) (h : ∀ c ∈ [c0, c1, c2, c3, c4, c5, c6, c7, c8, c9, c10, c11], IsDigit c) :
    I64.pos [c0, c1, c2, c3, c4, c5, c6, c7, c8, c9, c10, c11] = (Int64.ofInt (digitsVal [c0, c1, c2, c3, c4, c5, c6, c7, c8, c9, c10, c11] : Int), false) := by
  simp only [List.forall_mem_cons, List.not_mem_nil, false_imp_iff, implies_true, and_true] at h
  simp only [I64.pos, digitsVal, List.foldl, I64.d_eq, h]
  try simp only [i64lit, ← Int64.ofInt_add, ← Int64.ofInt_mul, ← Int64.ofInt_neg]
  exact congrArg (fun x => (Int64.ofInt x, false)) (by omega)

theorem I64.neg_arm12 (c0 c1 c2 c3 c4 c5 c6 c7 c8 c9 c10 c11 : UInt8) (h : ∀ c ∈ [c0, c1, c2, c3, c4, c5, c6, c7, c8, c9, c10, c11], IsDigit c) :
    I64.neg [c0, c1, c2, c3, c4, c5, c6, c7, c8, c9, c10, c11] = (Int64.ofInt (-(digitsVal [c0, c1, c2, c3, c4, c5, c6, c7, c8, c9, c10, c11] : Int)), false) := by
  simp only [List.forall_mem_cons, List.not_mem_nil, false_imp_iff, implies_true, and_true] at h
  simp only [I64.neg, digitsVal, List.foldl, I64.d_eq, h]
  try simp only [i64lit, ← Int64.ofInt_add, ← Int64.ofInt_mul, ← Int64.ofInt_neg]
  exact congrArg (fun x => (Int64.ofInt x, false)) (by omega)

theorem I64.pos_arm13 (c0 c1 c2 c3 c4 c5 c6 c7 c8 c9 c10 c11 c12 : UInt8) (h : ∀ c ∈ [c0, c1, c2, c3, c4, c5, c6, c7, c8, c9, c10, c11, c12], IsDigit c) :
    I64.pos [c0, c1, c2, c3, c4, c5, c6, c7, c8, c9, c10, c11, c12] = (Int64.ofInt (digitsVal [c0, c1, c2, c3, c4, c5, c6, c7, c8, c9, c10, c11, c12] : Int), false) := by
  simp only [List.forall_mem_cons, List.not_mem_nil, false_imp_iff, implies_true, and_true] at h
  simp only [I64.pos, digitsVal, List.foldl, I64.d_eq, h]
  try simp only [i64lit, ← Int64.ofInt_add, ← Int64.ofInt_mul, ← Int64.ofInt_neg]
  exact congrArg (fun x => (Int64.ofInt x, false)) (by omega)

theorem I64.neg_arm13 (c0 c1 c2 c3 c4 c5 c6 c7 c8 c9 c10 c11 c12 : UInt8) (h : ∀ c ∈ [c0, c1, c2, c3, c4, c5, c6, c7, c8, c9, c10, c11, c12], IsDigit c) :
    I64.neg [c0, c1, c2, c3, c4, c5, c6, c7, c8, c9, c10, c11, c12] = (Int64.ofInt (-(digitsVal [c0, c1, c2, c3, c4, c5, c6, c7, c8, c9, c10, c11, c12] : Int)), false) := by
  simp only [List.forall_mem_cons, List.not_mem_nil, false_imp_iff, implies_true, and_true] at h
  simp only [I64.neg, digitsVal, List.foldl, I64.d_eq, h]
  try simp only [i64lit, ← Int64.ofInt_add, ← Int64.ofInt_mul, ← Int64.ofInt_neg]
  exact congrArg (fun x => (Int64.ofInt x, false)) (by omega)

theorem I64.pos_arm14 (c0 c1 c2 c3 c4 c5 c6 c7 c8 c9 c10 c11 c12 c13 : UInt8) (h : ∀ c ∈ [c0, c1, c2, c3, c4, c5, c6, c7, c8, c9, c10, c11, c12, c13], IsDigit c) :
    I64.pos [c0, c1, c2, c3, c4, c5, c6, c7, c8, c9, c10, c11, c12, c13] = (Int64.ofInt (digitsVal [c0, c1, c2, c3, c4, c5, c6, c7, c8, c9, c10, c11, c12, c13] : Int), false) := by
  simp only [List.forall_mem_cons, List.not_mem_nil, false_imp_iff, implies_true, and_true] at h
  simp only [I64.pos, digitsVal, List.foldl, I64.d_eq, h]
  try simp only [i64lit, ← Int64.ofInt_add, ← Int64.ofInt_mul, ← Int64.ofInt_neg]
  exact congrArg (fun x => (Int64.ofInt x, false)) (by omega)

theorem I64.neg_arm14 (c0 c1 c2 c3 c4 c5 c6 c7 c8 c9 c10 c11 c12 c13 : UInt8) (h : ∀ c ∈ [c0, c1, c2, c3, c4, c5, c6, c7, c8, c9, c10, c11, c12, c13], IsDigit c) :
    I64.neg [c0, c1, c2, c3, c4, c5, c6, c7, c8, c9, c10, c11, c12, c13] = (Int64.ofInt (-(digitsVal [c0, c1, c2, c3, c4, c5, c6, c7, c8, c9, c10, c11, c12, c13] : Int)), false) := by
  simp only [List.forall_mem_cons, List.not_mem_nil, false_imp_iff, implies_true, and_true] at h
  simp only [I64.neg, digitsVal, List.foldl, I64.d_eq, h]
  try simp only [i64lit, ← Int64.ofInt_add, ← Int64.ofInt_mul, ← Int64.ofInt_neg]
  exact congrArg (fun x => (Int64.ofInt x, false)) (by omega)

theorem I64.pos_arm15 (c0 c1 c2 c3 c4 c5 c6 c7 c8 c9 c10 c11 c12 c13 c14 : UInt8) (h : ∀ c ∈ [c0, c1, c2, c3, c4, c5, c6, c7, c8, c9, c10, c11, c12, c13, c14], IsDigit c) :
    I64.pos [c0, c1, c2, c3, c4, c5, c6, c7, c8, c9, c10, c11, c12, c13, c14] = (Int64.ofInt (digitsVal [c0, c1, c2, c3, c4, c5, c6, c7, c8, c9, c10, c11, c12, c13, c14] : Int), false) := by
  simp only [List.forall_mem_cons, List.not_mem_nil, false_imp_iff, implies_true, and_true] at h
  simp only [I64.pos, digitsVal, List.foldl, I64.d_eq, h]
  try simp only [i64lit, ← Int64.ofInt_add, ← Int64.ofInt_mul, ← Int64.ofInt_neg]
  exact congrArg (fun x => (Int64.ofInt x, false)) (by omega)

theorem I64.neg_arm15 (c0 c1 c2 c3 c4 c5 c6 c7 c8 c9 c10 c11 c12 c13 c14 : UInt8) (h : ∀ c ∈ [c0, c1, c2, c3, c4, c5, c6, c7, c8, c9, c10, c11, c12, c13, c14], IsDigit c) :
    I64.neg [c0, c1, c2, c3, c4, c5, c6, c7, c8, c9, c10, c11, c12, c13, c14] = (Int64.ofInt (-(digitsVal [c0, c1, c2, c3, c4, c5, c6, c7, c8, c9, c10, c11, c12, c13, c14] : Int)), false) := by
  simp only [List.forall_mem_cons, List.not_mem_nil, false_imp_iff, implies_true, and_true] at h
  simp only [I64.neg, digitsVal, List.foldl, I64.d_eq, h]
  try simp only [i64lit, ← Int64.ofInt_add, ← Int64.ofInt_mul, ← Int64.ofInt_neg]
  exact congrArg (fun x => (Int64.ofInt x, false)) (by omega)

theorem I64.pos_arm16 (c0 c1 c2 c3 c4 c5 c6 c7 c8 c9 c10 c11 c12 c13 c14 c15 : UInt8) (h : ∀ c ∈ [c0, c1, c2, c3, c4, c5, c6, c7, c8, c9, c10, c11, c12, c13, c14, c15], IsDigit c) :
    I64.pos [c0, c1, c2, c3, c4, c5, c6, c7, c8, c9, c10, c11, c12, c13, c14, c15] = (Int64.ofInt (digitsVal [c0, c1, c2, c3, c4, c5, c6, c7, c8, c9, c10, c11, c12, c13, c14, c15] : Int), false) := by
  simp only [List.forall_mem_cons, List.not_mem_nil, false_imp_iff, implies_true, and_true] at h
  simp only [I64.pos, digitsVal, List.foldl, I64.d_eq, h]
  try simp only [i64lit, ← Int64.ofInt_add, ← Int64.ofInt_mul, ← Int64.ofInt_neg]
  exact congrArg (fun x => (Int64.ofInt x, false)) (by omega)

theorem I64.neg_arm16 (c0 c1 c2 c3 c4 c5 c6 c7 c8 c9 c10 c11 c12 c13 c14 c15 : UInt8) (h : ∀ c ∈ [c0, c1, c2, c3, c4, c5, c6, c7, c8, c9, c10, c11, c12, c13, c14, c15], IsDigit c) :
    I64.neg [c0, c1, c2, c3, c4, c5, c6, c7, c8, c9, c10, c11, c12, c13, c14, c15] = (Int64.ofInt (-(digitsVal [c0, c1, c2, c3, c4, c5, c6, c7, c8, c9, c10, c11, c12, c13, c14, c15] : Int)), false) := by
  simp only [List.forall_mem_cons, List.not_mem_nil, false_imp_iff, implies_true, and_true] at h
  simp only [I64.neg, digitsVal, List.foldl, I64.d_eq, h]
  try simp only [i64lit, ← Int64.ofInt_add, ← Int64.ofInt_mul, ← Int64.ofInt_neg]
  exact congrArg (fun x => (Int64.ofInt x, false)) (by omega)

theorem I64.pos_arm17 (c0 c1 c2 c3 c4 c5 c6 c7 c8 c9 c10 c11 c12 c13 c14 c15 c16 : UInt8) (h : ∀ c ∈ [c0, c1, c2, c3, c4, c5, c6, c7, c8, c9, c10, c11, c12, c13, c14, c15, c16], IsDigit c) :
    I64.pos [c0, c1, c2, c3, c4, c5, c6, c7, c8, c9, c10, c11, c12, c13, c14, c15, c16] = (Int64.ofInt (digitsVal [c0, c1, c2, c3, c4, c5, c6, c7, c8, c9, c10, c11, c12, c13, c14, c15, c16] : Int), false) := by
  simp only [List.forall_mem_cons, List.not_mem_nil, false_imp_iff, implies_true, and_true] at h
  simp only [I64.pos, digitsVal, List.foldl, I64.d_eq, h]
  try simp only [i64lit, ← Int64.ofInt_add, ← Int64.ofInt_mul, ← Int64.ofInt_neg]
  exact congrArg (fun x => (Int64.ofInt x, false)) (by omega)

theorem I64.neg_arm17 (c0 c1 c2 c3 c4 c5 c6 c7 c8 c9 c10 c11 c12 c13 c14 c15 c16 : UInt8) (h : ∀ c ∈ [c0, c1, c2, c3, c4, c5, c6, c7, c8, c9, c10, c11, c12, c13, c14, c15, c16], IsDigit c) :
    I64.neg [c0, c1, c2, c3, c4, c5, c6, c7, c8, c9, c10, c11, c12, c13, c14, c15, c16] = (Int64.ofInt (-(digitsVal [c0, c1, c2, c3, c4, c5, c6, c7, c8, c9, c10, c11, c12, c13, c14, c15, c16] : Int)), false) := by
  simp only [List.forall_mem_cons, List.not_mem_nil, false_imp_iff, implies_true, and_true] at h
  simp only [I64.neg, digitsVal, List.foldl, I64.d_eq, h]
  try simp only [i64lit, ← Int64.ofInt_add, ← Int64.ofInt_mul, ← Int64.ofInt_neg]
  exact congrArg (fun x => (Int64.ofInt x, false)) (by omega)

theorem I64.pos_arm18 (c0 c1 c2 c3 c4 c5 c6 c7 c8 c9 c10 c11 c12 c13 c14 c15 c16 c17 : UInt8) (h : ∀ c ∈ [c0, c1, c2, c3, c4, c5, c6, c7, c8, c9, c10, c11, c12, c13, c14, c15, c16, c17], IsDigit c) :
    I64.pos [c0, c1, c2, c3, c4, c5, c6, c7, c8, c9, c10, c11, c12, c13, c14, c15, c16, c17] = (Int64.ofInt (digitsVal [c0, c1, c2, c3, c4, c5, c6, c7, c8, c9, c10, c11, c12, c13, c14, c15, c16, c17] : Int), false) := by
  simp only [List.forall_mem_cons, List.not_mem_nil, false_imp_iff, implies_true, and_true] at h
  simp only [I64.pos, digitsVal, List.foldl, I64.d_eq, h]
  try simp only [i64lit, ← Int64.ofInt_add, ← Int64.ofInt_mul, ← Int64.ofInt_neg]
  exact congrArg (fun x => (Int64.ofInt x, false)) (by omega)

theorem I64.neg_arm18 (c0 c1 c2 c3 c4 c5 c6 c7 c8 c9 c10 c11 c12 c13 c14 c15 c16 c17 : UInt8) (h : ∀ c ∈ [c0, c1, c2, c3, c4, c5, c6, c7, c8, c9, c10, c11, c12, c13, c14, c15, c16, c17], IsDigit c) :
    I64.neg [c0, c1, c2, c3, c4, c5, c6, c7, c8, c9, c10, c11, c12, c13, c14, c15, c16, c17] = (Int64.ofInt (-(digitsVal [c0, c1, c2, c3, c4, c5, c6, c7, c8, c9, c10, c11, c12, c13, c14, c15, c16, c17] : Int)), false) := by
  simp only [List.forall_mem_cons, List.not_mem_nil, false_imp_iff, implies_true, and_true] at h
  simp only [I64.neg, digitsVal, List.foldl, I64.d_eq, h]
  try simp only [i64lit, ← Int64.ofInt_add, ← Int64.ofInt_mul, ← Int64.ofInt_neg]
  exact congrArg (fun x => (Int64.ofInt x, false)) (by omega)

theorem I64.pos_arm19 (c0 c1 c2 c3 c4 c5 c6 c7 c8 c9 c10 c11 c12 c13 c14 c15 c16 c17 c18 : UInt8) (h : ∀ c ∈ [c0, c1, c2, c3, c4, c5, c6, c7, c8, c9, c10, c11, c12, c13, c14, c15, c16, c17, c18], IsDigit c) :
    I64.pos [c0, c1, c2, c3, c4, c5, c6, c7, c8, c9, c10, c11, c12, c13, c14, c15, c16, c17, c18] = if Int64.ofInt (digitsVal [c0, c1, c2, c3, c4, c5, c6, c7, c8, c9, c10, c11, c12, c13, c14, c15, c16, c17, c18] : Int) < 0 then (0, true) else
      (Int64.ofInt (digitsVal [c0, c1, c2, c3, c4, c5, c6, c7, c8, c9, c10, c11, c12, c13, c14, c15, c16, c17, c18] : Int), false) := by
  simp only [List.forall_mem_cons, List.not_mem_nil, false_imp_iff, implies_true, and_true] at h
  simp only [I64.pos, digitsVal, List.foldl, I64.d_eq, h]
  try simp only [i64lit, ← Int64.ofInt_add, ← Int64.ofInt_mul, ← Int64.ofInt_neg]
  exact congrArg (fun x => if Int64.ofInt x < Int64.ofInt 0 then (Int64.ofInt 0, true) else (Int64.ofInt x, false)) (by omega)

theorem I64.neg_arm19 (c0 c1 c2 c3 c4 c5 c6 c7 c8 c9 c10 c11 c12 c13 c14 c15 c16 c17 c18 : UInt8) (h : ∀ c ∈ [c0, c1, c2, c3, c4, c5, c6, c7, c8, c9, c10, c11, c12, c13, c14, c15, c16, c17, c18], IsDigit c) :
    I64.neg [c0, c1, c2, c3, c4, c5, c6, c7, c8, c9, c10, c11, c12, c13, c14, c15, c16, c17, c18] = if Int64.ofInt (-(digitsVal [c0, c1, c2, c3, c4, c5, c6, c7, c8, c9, c10, c11, c12, c13, c14, c15, c16, c17, c18] : Int)) > 0 then (0, true) else
      (Int64.ofInt (-(digitsVal [c0, c1, c2, c3, c4, c5, c6, c7, c8, c9, c10, c11, c12, c13, c14, c15, c16, c17, c18] : Int)), false) := by
  simp only [List.forall_mem_cons, List.not_mem_nil, false_imp_iff, implies_true, and_true] at h
  simp only [I64.neg, digitsVal, List.foldl, I64.d_eq, h]
  try simp only [i64lit, ← Int64.ofInt_add, ← Int64.ofInt_mul, ← Int64.ofInt_neg]
  exact congrArg (fun x => if Int64.ofInt x > Int64.ofInt 0 then (Int64.ofInt 0, true) else (Int64.ofInt x, false)) (by omega)

theorem I64.pos_long (s : Bytes) (h : s = [] ∨ s.length > 19) : I64.pos s = (0, true) := by
  unfold I64.pos; split <;>
    first
    | rfl
    | (exfalso; rcases h with h | h
       · cases h
       · revert h; exact of_decide_eq_false rfl)

theorem I64.neg_long (s : Bytes) (h : s = [] ∨ s.length > 19) : I64.neg s = (0, true) := by
  unfold I64.neg; dsimp only; split <;>
    first
    | rfl
    | (exfalso; rcases h with h | h
       · cases h
       · revert h; exact of_decide_eq_false rfl)

/-- Exact behaviour of `I64` on digit strings (pos). -/
theorem I64.pos_eval (s : Bytes) (h : ∀ c ∈ s, IsDigit c) (hne : s ≠ []) :
    I64.pos s = if 19 < s.length ∨ (s.length = 19 ∧ Int64.ofInt (digitsVal s : Int) < 0) then (0, true)
      else (Int64.ofInt (digitsVal s : Int), false) := by
  rcases s with _ | ⟨c0, _ | ⟨c1, _ | ⟨c2, _ | ⟨c3, _ | ⟨c4, _ | ⟨c5, _ | ⟨c6, _ | ⟨c7, _ | ⟨c8, _ | ⟨c9, _ | ⟨c10, _ | ⟨c11, _ | ⟨c12, _ | ⟨c13, _ | ⟨c14, _ | ⟨c15, _ | ⟨c16, _ | ⟨c17, _ | ⟨c18, _ | ⟨c19, rest⟩⟩⟩⟩⟩⟩⟩⟩⟩⟩⟩⟩⟩⟩⟩⟩⟩⟩⟩⟩
  · exact absurd rfl hne
  · rw [I64.pos_arm1 _ h, if_neg (by simp)]
  · rw [I64.pos_arm2 _ _ h, if_neg (by simp)]
  · rw [I64.pos_arm3 _ _ _ h, if_neg (by simp)]
  · rw [I64.pos_arm4 _ _ _ _ h, if_neg (by simp)]
  · rw [I64.pos_arm5 _ _ _ _ _ h, if_neg (by simp)]
  · rw [I64.pos_arm6 _ _ _ _ _ _ h, if_neg (by simp)]
  · rw [I64.pos_arm7 _ _ _ _ _ _ _ h, if_neg (by simp)]
  · rw [I64.pos_arm8 _ _ _ _ _ _ _ _ h, if_neg (by simp)]
  · rw [I64.pos_arm9 _ _ _ _ _ _ _ _ _ h, if_neg (by simp)]
  · rw [I64.pos_arm10 _ _ _ _ _ _ _ _ _ _ h, if_neg (by simp)]
  · rw [I64.pos_arm11 _ _ _ _ _ _ _ _ _ _ _ h, if_neg (by simp)]
  · rw [I64.pos_arm12 _ _ _ _ _ _ _ _ _ _ _ _ h, if_neg (by simp)]
  · rw [I64.pos_arm13 _ _ _ _ _ _ _ _ _ _ _ _ _ h, if_neg (by simp)]
  · rw [I64.pos_arm14 _ _ _ _ _ _ _ _ _ _ _ _ _ _ h, if_neg (by simp)]
  · rw [I64.pos_arm15 _ _ _ _ _ _ _ _ _ _ _ _ _ _ _ h, if_neg (by simp)]
  · rw [I64.pos_arm16 _ _ _ _ _ _ _ _ _ _ _ _ _ _ _ _ h, if_neg (by simp)]
  · rw [I64.pos_arm17 _ _ _ _ _ _ _ _ _ _ _ _ _ _ _ _ _ h, if_neg (by simp)]
  · rw [I64.pos_arm18 _ _ _ _ _ _ _ _ _ _ _ _ _ _ _ _ _ _ h, if_neg (by simp)]
  · rw [I64.pos_arm19 _ _ _ _ _ _ _ _ _ _ _ _ _ _ _ _ _ _ _ h]; simp
  · rw [I64.pos_long _ (by right; simp only [List.length_cons]; omega), if_pos (by left; simp only [List.length_cons]; omega)]

/-- Exact behaviour of `I64` on digit strings (neg). -/
theorem I64.neg_eval (s : Bytes) (h : ∀ c ∈ s, IsDigit c) (hne : s ≠ []) :
    I64.neg s = if 19 < s.length ∨ (s.length = 19 ∧ Int64.ofInt (-(digitsVal s : Int)) > 0) then (0, true)
      else (Int64.ofInt (-(digitsVal s : Int)), false) := by
  rcases s with _ | ⟨c0, _ | ⟨c1, _ | ⟨c2, _ | ⟨c3, _ | ⟨c4, _ | ⟨c5, _ | ⟨c6, _ | ⟨c7, _ | ⟨c8, _ | ⟨c9, _ | ⟨c10, _ | ⟨c11, _ | ⟨c12, _ | ⟨c13, _ | ⟨c14, _ | ⟨c15, _ | ⟨c16, _ | ⟨c17, _ | ⟨c18, _ | ⟨c19, rest⟩⟩⟩⟩⟩⟩⟩⟩⟩⟩⟩⟩⟩⟩⟩⟩⟩⟩⟩⟩
  · exact absurd rfl hne
  · rw [I64.neg_arm1 _ h, if_neg (by simp)]
  · rw [I64.neg_arm2 _ _ h, if_neg (by simp)]
  · rw [I64.neg_arm3 _ _ _ h, if_neg (by simp)]
  · rw [I64.neg_arm4 _ _ _ _ h, if_neg (by simp)]
  · rw [I64.neg_arm5 _ _ _ _ _ h, if_neg (by simp)]
  · rw [I64.neg_arm6 _ _ _ _ _ _ h, if_neg (by simp)]
  · rw [I64.neg_arm7 _ _ _ _ _ _ _ h, if_neg (by simp)]
  · rw [I64.neg_arm8 _ _ _ _ _ _ _ _ h, if_neg (by simp)]
  · rw [I64.neg_arm9 _ _ _ _ _ _ _ _ _ h, if_neg (by simp)]
  · rw [I64.neg_arm10 _ _ _ _ _ _ _ _ _ _ h, if_neg (by simp)]
  · rw [I64.neg_arm11 _ _ _ _ _ _ _ _ _ _ _ h, if_neg (by simp)]
  · rw [I64.neg_arm12 _ _ _ _ _ _ _ _ _ _ _ _ h, if_neg (by simp)]
  · rw [I64.neg_arm13 _ _ _ _ _ _ _ _ _ _ _ _ _ h, if_neg (by simp)]
  · rw [I64.neg_arm14 _ _ _ _ _ _ _ _ _ _ _ _ _ _ h, if_neg (by simp)]
  · rw [I64.neg_arm15 _ _ _ _ _ _ _ _ _ _ _ _ _ _ _ h, if_neg (by simp)]
  · rw [I64.neg_arm16 _ _ _ _ _ _ _ _ _ _ _ _ _ _ _ _ h, if_neg (by simp)]
  · rw [I64.neg_arm17 _ _ _ _ _ _ _ _ _ _ _ _ _ _ _ _ _ h, if_neg (by simp)]
  · rw [I64.neg_arm18 _ _ _ _ _ _ _ _ _ _ _ _ _ _ _ _ _ _ h, if_neg (by simp)]
  · rw [I64.neg_arm19 _ _ _ _ _ _ _ _ _ _ _ _ _ _ _ _ _ _ _ h]; simp
  · rw [I64.neg_long _ (by right; simp only [List.length_cons]; omega), if_pos (by left; simp only [List.length_cons]; omega)]

/-- `U64` on digit strings shorter than the widest literal. -/
theorem U64.short_eval (s : Bytes) (h : ∀ c ∈ s, IsDigit c) (hne : s ≠ []) (hl : s.length < 20) :
    U64 s = (UInt64.ofNat (digitsVal s), false) := by
  rcases s with _ | ⟨c0, _ | ⟨c1, _ | ⟨c2, _ | ⟨c3, _ | ⟨c4, _ | ⟨c5, _ | ⟨c6, _ | ⟨c7, _ | ⟨c8, _ | ⟨c9, _ | ⟨c10, _ | ⟨c11, _ | ⟨c12, _ | ⟨c13, _ | ⟨c14, _ | ⟨c15, _ | ⟨c16, _ | ⟨c17, _ | ⟨c18, _ | ⟨c19, rest⟩⟩⟩⟩⟩⟩⟩⟩⟩⟩⟩⟩⟩⟩⟩⟩⟩⟩⟩⟩
  · exact absurd rfl hne
  · exact U64.arm1 _ h
  · exact U64.arm2 _ _ h
  · exact U64.arm3 _ _ _ h
  · exact U64.arm4 _ _ _ _ h
  · exact U64.arm5 _ _ _ _ _ h
  · exact U64.arm6 _ _ _ _ _ _ h
  · exact U64.arm7 _ _ _ _ _ _ _ h
  · exact U64.arm8 _ _ _ _ _ _ _ _ h
  · exact U64.arm9 _ _ _ _ _ _ _ _ _ h
  · exact U64.arm10 _ _ _ _ _ _ _ _ _ _ h
  · exact U64.arm11 _ _ _ _ _ _ _ _ _ _ _ h
  · exact U64.arm12 _ _ _ _ _ _ _ _ _ _ _ _ h
  · exact U64.arm13 _ _ _ _ _ _ _ _ _ _ _ _ _ h
  · exact U64.arm14 _ _ _ _ _ _ _ _ _ _ _ _ _ _ h
  · exact U64.arm15 _ _ _ _ _ _ _ _ _ _ _ _ _ _ _ h
  · exact U64.arm16 _ _ _ _ _ _ _ _ _ _ _ _ _ _ _ _ h
  · exact U64.arm17 _ _ _ _ _ _ _ _ _ _ _ _ _ _ _ _ _ h
  · exact U64.arm18 _ _ _ _ _ _ _ _ _ _ _ _ _ _ _ _ _ _ h
  · exact U64.arm19 _ _ _ _ _ _ _ _ _ _ _ _ _ _ _ _ _ _ _ h
  · simp only [List.length_cons] at hl; omega

end Verif.Proof.Atoi

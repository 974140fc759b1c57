import Verif.Basic
/-!
# Specification: decimal integer literals and their mathematical value

Independent of the model: the value of a digit string is the usual positional value.
-/
namespace Verif.Spec

/-- ASCII digit. -/
def IsDigit (c : UInt8) : Prop := 48 ≤ c.toNat ∧ c.toNat ≤ 57

instance (c : UInt8) : Decidable (IsDigit c) := by unfold IsDigit; infer_instance

/-- Numeric value of an ASCII digit. -/
def digitVal (c : UInt8) : Nat := c.toNat - 48

/-- Positional value of a string of digits. -/
def digitsVal (s : Bytes) : Nat := s.foldl (fun a c => 10 * a + digitVal c) 0

/-- The digits of a JSON integer: `0`, or a non-zero digit followed by digits (RFC 8259 `int`). -/
inductive IsNatLit : Bytes → Prop
  | zero : IsNatLit [48]
  | cons {c : UInt8} {cs : Bytes} : IsDigit c → c ≠ 48 → (∀ x ∈ cs, IsDigit x) → IsNatLit (c :: cs)

/-- `IsIntLit s v`: `s` is a JSON integer literal (optional minus sign, no leading zero) denoting `v`. -/
inductive IsIntLit : Bytes → Int → Prop
  | pos {s : Bytes} : IsNatLit s → IsIntLit s (digitsVal s)
  | neg {s : Bytes} : IsNatLit s → IsIntLit (45 :: s) (-(digitsVal s : Int))

end Verif.Spec

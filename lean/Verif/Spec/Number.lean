import Verif.Spec.Decimal
/-!
# Specification: the JSON number grammar (RFC 8259, section 6)
-/
namespace Verif.Spec

/-- A non-empty string of digits. -/
def IsDigits (s : Bytes) : Prop := s ≠ [] ∧ ∀ c ∈ s, IsDigit c

/-- Optional minus sign. -/
def IsSign (s : Bytes) : Prop := s = [] ∨ s = [45]

/-- Optional fraction: `.` and digits. -/
def IsFrac (s : Bytes) : Prop := s = [] ∨ ∃ ds, s = 46 :: ds ∧ IsDigits ds

/-- Optional exponent: `e` or `E`, optional sign, digits. -/
def IsExp (s : Bytes) : Prop :=
  s = [] ∨ ∃ e sg ds, s = e :: (sg ++ ds) ∧ (e = 101 ∨ e = 69) ∧
    (sg = [] ∨ sg = [45] ∨ sg = [43]) ∧ IsDigits ds

/-- A JSON number: `number = [ minus ] int [ frac ] [ exp ]`. -/
def IsNumber (s : Bytes) : Prop :=
  ∃ sg i f e, s = sg ++ i ++ f ++ e ∧ IsSign sg ∧ IsNatLit i ∧ IsFrac f ∧ IsExp e

/-- A JSON number without fraction and exponent. -/
def IsInteger (s : Bytes) : Prop := ∃ sg i, s = sg ++ i ∧ IsSign sg ∧ IsNatLit i

/-- `p` can be completed to a JSON number. -/
def Viable (p : Bytes) : Prop := ∃ t, IsNumber (p ++ t)

/-- `q` is the longest prefix of `s` that can be completed to a JSON number. -/
def LongestViable (q s : Bytes) : Prop :=
  q <+: s ∧ Viable q ∧ ∀ q', q' <+: s → Viable q' → q'.length ≤ q.length

end Verif.Spec

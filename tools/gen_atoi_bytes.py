#!/usr/bin/env python3
"""Generates Verif/Proof/AtoiBytes.lean: per-length evaluation lemmas for the atoi model on arbitrary bytes."""
out=[]; w=out.append
w('''import Verif.Model.Atoi
import Verif.Spec.Quoted
/-!
# Evaluation of the atoi model arms on arbitrary bytes (GENERATED by `tools/gen_atoi_bytes.py`)

Whatever the bytes are, every arm of the model is the image of the sum of the bytes (minus `0`, modulo 256) times powers of ten
under the wrap-around embedding of `Nat`/`Int` into the machine type.
-/
set_option linter.unusedSimpArgs false
set_option linter.unusedVariables false
namespace Verif.Proof.AtoiBytes
open Verif Verif.Spec Verif.Model.Atoi

theorem ifc {α : Type} {p q : Prop} [Decidable p] [Decidable q] {a b c d : α} (h : p ↔ q) (h1 : a = b)
    (h2 : c = d) : (if p then a else c) = if q then b else d := by
  subst h1 h2; by_cases hp : p <;> simp [hp, h.symm]

theorem byteVal_lt (c : UInt8) : byteVal c < 256 := by unfold byteVal; omega

theorem sub48 (c : UInt8) : c - 48 = UInt8.ofNat (byteVal c) := by
  apply UInt8.toNat_inj.mp
  rw [UInt8.toNat_sub]
  simp [byteVal]
  omega
''')
for b in (8,16,32,64):
    U=f'UInt{b}'; I=f'Int{b}'
    w(f'''
theorem U{b}.d_eq (c : UInt8) : U{b}.d c = {U}.ofNat (byteVal c) := by
  unfold U{b}.d; rw [sub48 c]
  {'' if b==8 else f"""have := byteVal_lt c
  apply {U}.toNat_inj.mp
  simp; omega"""}

theorem u{b}lit (n : Nat) : (OfNat.ofNat n : {U}) = {U}.ofNat n := rfl

theorem I{b}.d_eq (c : UInt8) : I{b}.d c = {I}.ofInt (byteVal c : Int) := by
  have h9 := byteVal_lt c
  unfold I{b}.d; rw [sub48 c]
  generalize byteVal c = n at *
  have key : ∀ m : Fin 256, (UInt8.ofNat m.val){'' if b==8 else f'.toUInt{b}'}.toInt{b} = {I}.ofInt (m.val : Int) := by decide +kernel
  exact key ⟨n, h9⟩

theorem i{b}lit (n : Nat) : (OfNat.ofNat n : {I}) = {I}.ofInt (n : Int) := by
  show {I}.ofNat n = _
  rw [{I}.ofInt_eq_ofNat]
''')
def arm(fn, T, b, names, rhs, unf, neg=None):
    pass
maxu={8:3,16:5,32:10,64:20}
maxi={8:3,16:5,32:10,64:19}
prep='''  simp only [List.forall_mem_cons, List.not_mem_nil, false_imp_iff, implies_true, and_true] at h'''
for b in (8,16,32,64):
    U=f'UInt{b}'; I=f'Int{b}'
    for n in range(1,maxu[b]):
        l='['+', '.join(f'c{i}' for i in range(n))+']'; vs=' '.join(f'c{i}' for i in range(n))
        w(f'''theorem U{b}.arm{n} ({vs} : UInt8) :
    U{b} {l} = ({U}.ofNat (bytesVal {l}), false) := by
  simp only [U{b}, bytesVal, List.foldl, U{b}.d_eq]
  congr 1
  try simp only [u{b}lit, ← {U}.ofNat_add, ← {U}.ofNat_mul]
  exact congrArg _ (by omega)
''')
    n=maxu[b]
    l='['+', '.join(f'c{i}' for i in range(n))+']'; vs=' '.join(f'c{i}' for i in range(n)); vs1=' '.join(f'c{i}' for i in range(1,n))
    l1='['+', '.join(f'c{i}' for i in range(1,n))+']'
    if b!=64:
        w(f'''theorem U{b}.arm{n} ({vs} : UInt8) :
    U{b} {l} =
      if byteVal c0 > {int(str(2**b)[0])} then (0, true) else
      if {U}.ofNat (bytesVal {l}) ≤ {U}.ofNat (bytesVal {l1}) then (0, true) else
      ({U}.ofNat (bytesVal {l}), false) := by
  have e0 : (c0 - 48 > {int(str(2**b)[0])}) ↔ byteVal c0 > {int(str(2**b)[0])} := by
    rw [sub48 c0, gt_iff_lt, gt_iff_lt, UInt8.lt_iff_toNat_lt]
    have := byteVal_lt c0
    simp; omega
  simp only [U{b}, bytesVal, List.foldl, U{b}.d_eq, e0]
  try simp only [u{b}lit, ← {U}.ofNat_add, ← {U}.ofNat_mul]
  refine ifc Iff.rfl rfl ?_
  refine ifc (iff_of_eq (congr (congrArg _ (congrArg _ (by omega))) (congrArg _ (by omega)))) rfl ?_
  congr 1
  exact congrArg _ (by omega)
''')
    else:
        w(f'''theorem U64.arm20 ({vs} : UInt8) :
    U64 {l} =
      if c0 ≠ 49 then (0, true) else
      if UInt64.ofNat (bytesVal {l1}) > 8446744073709551615 then (0, true) else
      (10000000000000000000 + UInt64.ofNat (bytesVal {l1}), false) := by
  simp only [U64, bytesVal, List.foldl, U64.d_eq]
  refine ifc Iff.rfl rfl ?_
  simp only [u64lit, ← UInt64.ofNat_add, ← UInt64.ofNat_mul]
  refine ifc (iff_of_eq (congrArg (fun x => x > _) (congrArg _ (by omega)))) rfl ?_
  congr 1
  exact congrArg _ (by omega)
''')
    w(f'''theorem U{b}.long (s : Bytes) (h : s = [] ∨ s.length > {n}) : U{b} s = (0, true) := by
  unfold U{b}; split <;>
    first
    | rfl
    | (exfalso; rcases h with h | h
       · cases h
       · revert h; exact of_decide_eq_false rfl)
''')
    hom=f'try simp only [i{b}lit, ← {I}.ofInt_add, ← {I}.ofInt_mul, ← {I}.ofInt_neg]'
    for n in range(1,maxi[b]+1):
        l='['+', '.join(f'c{i}' for i in range(n))+']'; vs=' '.join(f'c{i}' for i in range(n))
        if n<maxi[b]:
            w(f'''theorem I{b}.pos_arm{n} ({vs} : UInt8) :
    I{b}.pos {l} = ({I}.ofInt (bytesVal {l} : Int), false) := by
  simp only [I{b}.pos, bytesVal, List.foldl, I{b}.d_eq]
  {hom}
  exact congrArg (fun x => ({I}.ofInt x, false)) (by omega)

theorem I{b}.neg_arm{n} ({vs} : UInt8) :
    I{b}.neg {l} = ({I}.ofInt (-(bytesVal {l} : Int)), false) := by
  simp only [I{b}.neg, bytesVal, List.foldl, I{b}.d_eq]
  {hom}
  exact congrArg (fun x => ({I}.ofInt x, false)) (by omega)
''')
        else:
            w(f'''theorem I{b}.pos_arm{n} ({vs} : UInt8) :
    I{b}.pos {l} = if {I}.ofInt (bytesVal {l} : Int) < 0 then (0, true) else
      ({I}.ofInt (bytesVal {l} : Int), false) := by
  simp only [I{b}.pos, bytesVal, List.foldl, I{b}.d_eq]
  {hom}
  exact congrArg (fun x => if {I}.ofInt x < {I}.ofInt 0 then ({I}.ofInt 0, true) else ({I}.ofInt x, false)) (by omega)

theorem I{b}.neg_arm{n} ({vs} : UInt8) :
    I{b}.neg {l} = if {I}.ofInt (-(bytesVal {l} : Int)) > 0 then (0, true) else
      ({I}.ofInt (-(bytesVal {l} : Int)), false) := by
  simp only [I{b}.neg, bytesVal, List.foldl, I{b}.d_eq]
  {hom}
  exact congrArg (fun x => if {I}.ofInt x > {I}.ofInt 0 then ({I}.ofInt 0, true) else ({I}.ofInt x, false)) (by omega)
''')
    n=maxi[b]
    w(f'''theorem I{b}.pos_long (s : Bytes) (h : s = [] ∨ s.length > {n}) : I{b}.pos s = (0, true) := by
  unfold I{b}.pos; split <;>
    first
    | rfl
    | (exfalso; rcases h with h | h
       · cases h
       · revert h; exact of_decide_eq_false rfl)

theorem I{b}.neg_long (s : Bytes) (h : s = [] ∨ s.length > {n}) : I{b}.neg s = (0, true) := by
  unfold I{b}.neg; dsimp only; split <;>
    first
    | rfl
    | (exfalso; rcases h with h | h
       · cases h
       · revert h; exact of_decide_eq_false rfl)
''')
    # combined
    def pat(n):
        p='_'
        s='l'
        r='c%d, %s'
        res='rest'
        for i in reversed(range(n)):
            res=f'_ | ⟨c{i}, {res}⟩'
        return res
    n=maxi[b]
    for sgn,bad in (('pos','< 0'),('neg','> 0')):
        e = '(bytesVal s : Int)' if sgn=='pos' else '(-(bytesVal s : Int))'
        w(f'''/-- Exact behaviour of `I{b}` on non-empty texts ({sgn}). -/
theorem I{b}.{sgn}_eval (s : Bytes) (hne : s ≠ []) :
    I{b}.{sgn} s = if {n} < s.length ∨ (s.length = {n} ∧ {I}.ofInt {e} {bad}) then (0, true)
      else ({I}.ofInt {e}, false) := by
  rcases s with {pat(n+1)}
  · exact absurd rfl hne''')
        for k in range(1,n):
            w(f'''  · rw [I{b}.{sgn}_arm{k} _ {'_ '*(k-1)}, if_neg (by simp)]''')
        w(f'''  · rw [I{b}.{sgn}_arm{n} _ {'_ '*(n-1)}]; simp''')
        w(f'''  · rw [I{b}.{sgn}_long _ (by right; simp only [List.length_cons]; omega), if_pos (by left; simp only [List.length_cons]; omega)]
''')
    n=maxu[b]
    w(f'''/-- `U{b}` on non-empty texts shorter than the widest literal. -/
theorem U{b}.short_eval (s : Bytes) (hne : s ≠ []) (hl : s.length < {n}) :
    U{b} s = ({U}.ofNat (bytesVal s), false) := by
  rcases s with {pat(n)}
  · exact absurd rfl hne''')
    for k in range(1,n):
        w(f'''  · exact U{b}.arm{k} _ {'_ '*(k-1)}''')
    w('''  · simp only [List.length_cons] at hl; omega
''')
w('end Verif.Proof.AtoiBytes')
open('/verif/lean/Verif/Proof/AtoiBytes.lean','w').write('\n'.join(out)+'\n')

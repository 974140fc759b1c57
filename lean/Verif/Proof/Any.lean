import Verif.Big.Any
/-!
# `decodeAny` on the tokens of a tree
-/
namespace Verif.Proof.Any
open Verif.Model Verif.Big

mutual
theorem flatten_pos (ti : Nat) : ∀ v : JVal, 0 < (flatten ti v).length
  | .null _ _ | .bool _ _ _ | .num _ _ _ | .str _ _ | .arr _ _ _ | .obj _ _ _ => by simp [flatten]
end

mutual
theorem flatten_len (ti tj : Nat) : ∀ v : JVal, (flatten ti v).length = (flatten tj v).length
  | .null _ _ | .bool _ _ _ | .num _ _ _ | .str _ _ => by simp [flatten]
  | .arr i es k => by simp [flatten, flattenL_len (ti + 1) (tj + 1) es]
  | .obj i ms k => by simp [flatten, flattenM_len (ti + 1) (tj + 1) ms]
theorem flattenL_len (ti tj : Nat) : ∀ vs : List JVal, (flattenL ti vs).length = (flattenL tj vs).length
  | [] => rfl
  | v :: vs => by
    simp only [flattenL, List.length_append]
    rw [flatten_len ti tj v, flattenL_len _ (tj + (flatten tj v).length) vs]
theorem flattenM_len (ti tj : Nat) : ∀ ms : List ((Nat × Nat) × JVal), (flattenM ti ms).length = (flattenM tj ms).length
  | [] => rfl
  | ((i, e), v) :: ms => by
    simp only [flattenM, List.length_append, List.length_cons]
    rw [flatten_len (ti + 1) (tj + 1) v, flattenM_len _ (tj + 1 + (flatten (tj + 1) v).length) ms]
end

/-- Result of `decodeAny` in terms of the big-step function. -/
def outA (tail : List Token) : Option (Except Nat AnyVal) → AnyRes
  | none => .crash
  | some (.error e) => .err e
  | some (.ok v) => .ok v tail

theorem head_type_arr (ti : Nat) (v : JVal) : ∃ t ts, flatten ti v = t :: ts ∧ t.type ≠ .arrayEnd ∧ t.type ≠ .objectEnd ∧ t.type ≠ .key := by
  cases v with
  | null i e => exact ⟨_, [], rfl, by simp, by simp, by simp⟩
  | bool b i e => exact ⟨_, [], rfl, by cases b <;> simp, by cases b <;> simp, by cases b <;> simp⟩
  | num b i e => exact ⟨_, [], rfl, by cases b <;> simp, by cases b <;> simp, by cases b <;> simp⟩
  | str i e => exact ⟨_, [], rfl, by simp, by simp, by simp⟩
  | arr i es k => exact ⟨_, _, rfl, by simp, by simp, by simp⟩
  | obj i es k => exact ⟨_, _, rfl, by simp, by simp, by simp⟩

mutual
theorem decodeAny_flatten (x : Ext) (src : Bytes) : ∀ (v : JVal) (fuel ti : Nat) (tail : List Token), (flatten ti v).length ≤ fuel →
    decodeAny x src fuel (flatten ti v ++ tail) = outA tail (anyOf x src v)
  | .null i e, fuel, ti, tail, h => by
    cases fuel with
    | zero => simp [flatten] at h
    | succ fuel => rfl
  | .bool b i e, fuel, ti, tail, h => by
    cases fuel with
    | zero => simp [flatten] at h
    | succ fuel => cases b <;> rfl
  | .num b i e, fuel, ti, tail, h => by
    cases fuel with
    | zero => simp [flatten] at h
    | succ fuel =>
      cases b <;> simp only [flatten, List.cons_append, List.nil_append, decodeAny, anyOf] <;>
      · simp
        cases slice src i e with
        | none => rfl
        | some tv =>
          cases ht : x.tokFloat64 tv <;> simp [outA, ht, Except.map]
  | .str i e, fuel, ti, tail, h => by
    cases fuel with
    | zero => simp [flatten] at h
    | succ fuel =>
      simp only [flatten, List.cons_append, List.nil_append, decodeAny, anyOf]
      cases (slice src (i + 1) (e - 1)).bind x.unescStr <;> rfl
  | .arr i es k, fuel, ti, tail, h => by
    cases fuel with
    | zero => simp [flatten] at h
    | succ fuel =>
      simp only [flatten, List.cons_append, List.append_assoc, decodeAny, anyOf]
      simp only [flatten, List.length_cons, List.length_append, List.length_nil] at h
      rw [List.nil_append, decodeElems_flatten x src es fuel (ti + 1) [] _ tail (by simp) (by omega)]
      cases anyOfL x src es with
      | none => rfl
      | some r => cases r <;> rfl
  | .obj i ms k, fuel, ti, tail, h => by
    cases fuel with
    | zero => simp [flatten] at h
    | succ fuel =>
      simp only [flatten, List.cons_append, List.append_assoc, decodeAny, anyOf]
      simp only [flatten, List.length_cons, List.length_append, List.length_nil] at h
      by_cases hm : ms.length = 0
      · have : ms = [] := by simpa using hm
        subst this
        simp [flattenM, anyOfM, outA, Except.map]
      · rw [if_neg hm, List.nil_append, decodeMembers_flatten x src ms fuel (ti + 1) [] _ tail (by simp) (by omega)]
theorem decodeElems_flatten (x : Ext) (src : Bytes) : ∀ (vs : List JVal) (fuel ti : Nat) (l : List AnyVal) (te : Token) (tail : List Token),
    te.type = .arrayEnd → (flattenL ti vs).length + 1 ≤ fuel →
    decodeAnyElems x src fuel l (flattenL ti vs ++ te :: tail) =
      outA tail ((anyOfL x src vs).map fun r => r.map fun as => .arr (l ++ as))
  | [], fuel, ti, l, te, tail, hte, h => by
    cases fuel with
    | zero => simp at h
    | succ fuel => simp [flattenL, decodeAnyElems, hte, anyOfL, outA, Except.map]
  | v :: vs, fuel, ti, l, te, tail, hte, h => by
    cases fuel with
    | zero => simp at h
    | succ fuel =>
      obtain ⟨t, ts, hv, hn, -, -⟩ := head_type_arr ti v
      have hp := flatten_pos ti v
      simp only [flattenL, List.length_append] at h
      simp only [flattenL, List.append_assoc, anyOfL]
      have hd := decodeAny_flatten x src v fuel ti (flattenL (ti + (flatten ti v).length) vs ++ te :: tail) (by omega)
      rw [hv] at hd ⊢
      simp only [List.cons_append] at hd ⊢
      rw [decodeAnyElems, if_neg hn, hd, ← hv]
      cases anyOf x src v with
      | none => rfl
      | some r =>
        cases r with
        | error e => rfl
        | ok a =>
          simp only [outA]
          rw [decodeElems_flatten x src vs fuel _ _ te tail hte (by omega)]
          cases anyOfL x src vs with
          | none => rfl
          | some r => cases r <;> simp [Except.map, outA]
theorem decodeMembers_flatten (x : Ext) (src : Bytes) : ∀ (ms : List ((Nat × Nat) × JVal)) (fuel ti : Nat) (m : List (Str × AnyVal)) (te : Token) (tail : List Token),
    te.type = .objectEnd → (flattenM ti ms).length + 1 ≤ fuel →
    decodeAnyMembers x src fuel m (flattenM ti ms ++ te :: tail) =
      outA tail ((anyOfM x src m ms).map fun r => r.map .obj)
  | [], fuel, ti, m, te, tail, hte, h => by
    cases fuel with
    | zero => simp at h
    | succ fuel => simp [flattenM, decodeAnyMembers, hte, anyOfM, outA, Except.map]
  | ((i, e), v) :: ms, fuel, ti, m, te, tail, hte, h => by
    cases fuel with
    | zero => simp at h
    | succ fuel =>
      simp only [flattenM, List.length_append, List.length_cons] at h
      simp only [flattenM, List.append_assoc, List.cons_append, anyOfM, decodeAnyMembers]
      rw [if_neg (by simp)]
      cases slice src (i + 1) (e - 1) with
      | none => rfl
      | some key =>
        simp only []
        rw [decodeAny_flatten x src v fuel (ti + 1) _ (by omega)]
        cases anyOf x src v with
        | none => rfl
        | some r =>
          cases r with
          | error e => rfl
          | ok a =>
            simp only [outA]
            cases x.unescStr key with
            | none => rfl
            | some k =>
              simp only []
              rw [decodeMembers_flatten x src ms fuel _ _ te tail hte (by omega)]
              rfl
end

end Verif.Proof.Any

import Verif.Model.Names
/-!
# C64: the names of the kinds of frames
-/
namespace Verif.Props
open Verif.Model

theorem expectTypes_all (a : EType) : a ∈ expectTypes := by
  cases a with
  | sliceOf k => cases k with
    | int k => cases k <;> decide
    | flt k => cases k <;> decide
    | _ => decide
  | scalar k => cases k with
    | int k => cases k <;> decide
    | flt k => cases k <;> decide
    | _ => decide
  | quoted k => cases k with
    | int k => cases k <;> decide
    | flt k => cases k <;> decide
    | _ => decide
  | _ => decide

theorem names_nodup : (expectTypes.map fun a => expectString a.code).Nodup := by decide +kernel

theorem inj_of_nodup {α β : Type} {f : α → β} : ∀ {l : List α}, (l.map f).Nodup → ∀ {a b : α}, a ∈ l → b ∈ l → f a = f b → a = b
  | [], _, a, b, h, _, _ => by cases h
  | c :: l, hn, a, b, ha, hb, e => by
    rw [List.map_cons, List.nodup_cons] at hn
    rcases List.mem_cons.1 ha with rfl | ha' <;> rcases List.mem_cons.1 hb with rfl | hb'
    · rfl
    · exact absurd (List.mem_map.2 ⟨b, hb', e.symm⟩) hn.1
    · exact absurd (List.mem_map.2 ⟨a, ha', e⟩) hn.1
    · exact inj_of_nodup hn.2 ha' hb' e

/-- **C64 (distinct).** `String` gives different kinds of frames different names, none of them empty. -/
theorem C64_names (a b : EType) : (expectString a.code = expectString b.code ↔ a = b) ∧ expectString a.code ≠ "" := by
  refine ⟨⟨inj_of_nodup names_nodup (expectTypes_all a) (expectTypes_all b), fun h => by rw [h]⟩, ?_⟩
  have : ∀ a ∈ expectTypes, expectString a.code ≠ "" := by decide +kernel
  exact this a (expectTypes_all a)

/-- **C64 (the constants).** The constants are the numbers 1 to 59, so they fit into an `int8`, and no two are equal. -/
theorem C64_codes (n : Int) : (1 ≤ n ∧ n ≤ 59) ↔ ∃ a : EType, a.code = n ∧ ∀ b : EType, b.code = n → b = a := by
  have hnd : (expectTypes.map EType.code).Nodup := by decide +kernel
  constructor
  · rintro ⟨h1, h2⟩
    have : ∀ i < 59, ∃ a ∈ expectTypes, a.code = ((i + 1 : Nat) : Int) := by decide +kernel
    obtain ⟨a, ha, e⟩ := this (n - 1).toNat (by omega)
    have e' : a.code = n := by omega
    exact ⟨a, e', fun b hb => inj_of_nodup hnd (expectTypes_all b) ha (hb.trans e'.symm)⟩
  · rintro ⟨a, rfl, -⟩
    have : ∀ a ∈ expectTypes, 1 ≤ a.code ∧ a.code ≤ 59 := by decide +kernel
    exact this a (expectTypes_all a)

/-- **C64 (other values).** Every other value has the empty name. -/
theorem C64_other (n : Int) (h : n < 1 ∨ 59 < n) : expectString n = "" := by
  unfold expectString
  split <;> first | rfl | omega

/-- **C64 (the option `string`).** The name of a field with the option `string` is the name of its kind in `string(…)`. -/
theorem C64_quoted (k : SKind) : expectString (EType.quoted k).code = "string(" ++ expectString (EType.scalar k).code ++ ")" := by
  cases k with
  | int k => cases k <;> decide
  | flt k => cases k <;> decide
  | _ => decide

example : expectString (EType.quoted (.int .u8)).code = "string(uint8)" ∧ expectString (EType.sliceOf .bool).code = "[]bool" ∧ expectString (EType.scalar .bool).code = "boolean" ∧ expectString 60 = "" := by decide

end Verif.Props

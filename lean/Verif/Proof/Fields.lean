import Verif.Model.Fields
/-!
# Lemmas about field lookup
-/
namespace Verif.Proof.Fields
open Verif.Model

theorem searchTail_eq (eq : Bytes → Bool) (fs : List (Bytes × Nat)) :
    searchBy4.searchTail eq fs = (fs.find? fun f => eq f.1).map Prod.snd := by
  induction fs with
  | nil => rfl
  | cons f fs ih =>
    unfold searchBy4.searchTail
    rw [List.find?_cons]
    by_cases h : eq f.1 = true
    · rw [if_pos h, h]; rfl
    · rw [if_neg h, ih]; simp at h; rw [h]

/-- The unrolled search is a linear search. -/
theorem searchBy4_eq (eq : Bytes → Bool) (fs : List (Bytes × Nat)) :
    searchBy4 eq fs = (fs.find? fun f => eq f.1).map Prod.snd := by
  fun_induction searchBy4 eq fs with
  | case1 f0 f1 f2 f3 rest h => simp [h]
  | case2 f0 f1 f2 f3 rest h0 h1 => simp [h0, h1]
  | case3 f0 f1 f2 f3 rest h0 h1 h2 => simp [h0, h1, h2]
  | case4 f0 f1 f2 f3 rest h0 h1 h2 h3 => simp [h0, h1, h2, h3]
  | case5 f0 f1 f2 f3 rest h0 h1 h2 h3 ih => simp [h0, h1, h2, h3, ih]
  | case6 fs => exact searchTail_eq eq _

theorem exactSearch_eq (fs : List (Bytes × Nat)) (name : Bytes) :
    exactSearch fs name = (fs.find? fun f => f.1 == name).map Prod.snd := searchBy4_eq _ _

theorem byName_eq (x : Ext) (fs : List (Bytes × Nat)) (name : Bytes) :
    fieldFrameIndexByName x fs name =
      ((fs.find? fun f => f.1 == name).map Prod.snd).or
        ((fs.find? fun f => f.1.length == name.length && x.equalFold f.1 name).map Prod.snd) := by
  unfold fieldFrameIndexByName
  rw [exactSearch_eq, searchBy4_eq]
  cases (fs.find? fun f => f.1 == name) <;> rfl

end Verif.Proof.Fields

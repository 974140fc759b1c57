import Verif.Spec.Recursive
import Verif.Proof.Fragment
/-!
# Recursive struct types: on documents in `TameR` the reading is defined
-/
namespace Verif.Proof.Fragment
open Verif.Model Verif.Big Verif.Spec

theorem ptrB_ne {x : Ext} {src : Bytes} {f : JVal → Block → Nat → Res} {size : Nat} {v : JVal} {b : Block} {off : Nat} (h : ∀ i ms k, v = .obj i ms k → ∀ b off, f v b off ≠ .unsup) :
    ptrB x src f size v b off ≠ .unsup := by
  have hleaf := leafB_ne (x := x) (src := src) (et := .ptrRecur) (by simp) (by simp) (rt := none) (size := 0) (impl := false) (b := b) (off := off) (idx := v.index) v
  cases v <;> first | exact hleaf | skip
  simp only [ptrB]
  split
  · exact bindB_ne (h _ _ _ rfl _ _)
  · split
    · simp
    · exact bindB_ne (h _ _ _ rfl _ _)
  · simp

theorem fieldB_ne {x : Ext} {src : Bytes} {o : Option Options} {size : Nat} {sub : Bool → Bool → JVal → Prop} {g : JVal → Block → Nat → Res} (hg : ∀ here top v, sub here top v → ∀ b off, g v b off ≠ .unsup)
    {here top : Bool} : ∀ (rf : RField) (v : JVal) (b : Block) (off : Nat), TameField x src o sub here top rf v → fieldB x src o size g rf v b off ≠ .unsup
  | .plain t, v, b, off, h => dec_ne t v b off h
  | .ptr, v, b, off, h => ptrB_ne fun i ms k hv => hg _ _ _ (h i ms k hv)
  | .slice, v, b, off, h => by
    have hleaf := leafB_ne (x := x) (src := src) (et := .slice) (by simp) (by simp) (rt := none) (size := 0) (impl := false) (b := b) (off := off) (idx := v.index) v
    cases v <;> first | exact hleaf | skip
    simp only [fieldB]
    refine sliceB_ne fun w hw => ?_
    obtain ⟨j, hj⟩ := List.getElem?_of_mem hw
    exact hg _ _ _ (h _ _ _ rfl j w hj).2
  | .map k, v, b, off, h => by
    have hleaf := leafB_ne (x := x) (src := src) (et := .map) (by simp) (by simp) (rt := none) (size := 0) (impl := false) (b := b) (off := off) (idx := v.index) v
    cases v <;> first | exact hleaf | skip
    simp only [fieldB]
    split
    · simp
    · exact mapB_ne _ _ _ fun m hm => hg _ _ _ ((h _ _ _ rfl).2.2.2.2 m hm).2

theorem decR_ne {x : Ext} {src : Bytes} {o : Option Options} {size : Nat} {fs : RFields} : ∀ (n : Nat) (here top : Bool) (v : JVal), TameR x src o fs n here top v →
    ∀ (b : Block) (off : Nat), decR x src o size fs n v b off ≠ .unsup
  | 0, _, _, _, h, _, _ => h.elim
  | n + 1, here, top, v, h, b, off => by
    have hleaf := leafB_ne (x := x) (src := src) (et := .struct) (by simp) (by simp) (rt := none) (size := 0) (impl := false) (b := b) (off := off) (idx := v.index) v
    cases v <;> first | exact hleaf | skip
    rename_i i ms k
    simp only [decR]
    split
    · simp
    · cases o with
      | none => simp
      | some o' =>
        refine structB_ne ms b off fun m hm raw name h1 h2 => ?_
        obtain ⟨a, ha⟩ := List.getElem?_of_mem hm
        have := h i ms k rfl a m ha o' rfl raw name h1 h2
        have hn : (decRF x src (some o') size (decR x src (some o') size fs n) fs).map (·.1) = fs.map (·.1) := by simp [decRF, Function.comp_def]
        rw [hn]
        split
        · rename_i j hj
          rw [hj] at this
          intro f hf b off
          simp only [decRF, List.getElem?_map] at hf
          cases hfj : fs[j]? with
          | none => rw [hfj] at hf; cases hf
          | some g =>
            rw [hfj] at hf; cases hf
            exact fieldB_ne (fun here top v => decR_ne n here top v) g.2.2 m.2 b off (this g hfj).1
        · rename_i hj
          rw [hj] at this
          exact this

end Verif.Proof.Fragment

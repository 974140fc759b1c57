import Verif.Proof.Typed
import Verif.Proof.ValRight
/-!
# Well-typed values stay well-typed, with pointers at the right end
-/
namespace Verif.Proof.Typed
open Verif.Model Verif.Big Verif.Spec Verif.Proof Verif.Proof.Safe

theorem structPV_keeps {x : Ext} {src : Bytes} {o : Options} {oo : Option Options} {fs : List (Bytes × Nat × Ty)} :
    ∀ (ms : List ((Nat × Nat) × JVal)) (Ws : List Val), 
      (∀ m ∈ ms, ∀ (j : Nat) f, fs[j]? = some f → ∀ W, HasTy f.2.2 W → Keeps (HasTy f.2.2) (decPV x src oo f.2.2 m.2 W)) → HasTyF fs Ws →
      Keeps (HasTyF fs) (structV x src o (decPVF x src oo fs) ms Ws)
  | [], Ws, _, h => h
  | ((i, e), v) :: ms, Ws, hf, h => by
    simp only [structV, Val.decPVF_names]
    split
    · trivial
    · rename_i n _
      cases hj : findField x o ((fs.map (·.1)).zipIdx) n with
      | none =>
        simp only []
        split
        · exact h
        · split
          · trivial
          · exact structPV_keeps ms Ws (fun m hm => hf m (List.mem_cons_of_mem _ hm)) h
      | some j =>
        have hlt := Sim.findField_lt hj
        simp only [List.length_map] at hlt
        have hfj : fs[j]? = some fs[j] := List.getElem?_eq_getElem hlt
        obtain ⟨W, hW, hT⟩ := hasTyF_get h hfj
        have h1 := hf _ (List.mem_cons_self ..) j _ hfj W hT
        simp only [Val.decPVF_get, hfj, Option.map_some, hW]
        simp only [] at h1
        split <;> rename_i hr <;> rw [hr] at h1
        · exact structPV_keeps ms _ (fun m hm => hf m (List.mem_cons_of_mem _ hm)) (hasTyF_set h hfj h1)
        · exact hasTyF_set h hfj h1
        · trivial
        · trivial

mutual
/-- Whatever the reading leaves is well-typed. -/
theorem decPV_keeps {x : Ext} {src : Bytes} {o : Option Options} : ∀ (ty : Ty) {v : JVal} {V : Val}, HasTy ty V → Keeps (HasTy ty) (decPV x src o ty v V)
  | .array n e, v, V, hV => by
    have hl := leafV_keeps (x := x) (src := src) (v := v) (ty := .array n e) (by simp) hV
    obtain ⟨es, rfl, hn, he⟩ := hV
    cases v with
    | arr i vs k =>
      simp only [decPV]
      refine (elemsV_keeps vs es (fun v hv W hW => decPV_keeps e hW) he).map ?_
      rintro Ws ⟨h1, h2⟩
      exact ⟨Ws, rfl, h1.trans hn, h2⟩
    | _ => simp only [decPV]; exact hl
  | .slice e, v, V, hV => by
    have hl := leafV_keeps (x := x) (src := src) (v := v) (ty := .slice e) (by simp) hV
    cases v with
    | arr i vs k =>
      simp only [decPV]
      exact sliceV_keeps (P := HasTy e) (fun v hv W hW => decPV_keeps e hW) hV (zero_typed e)
    | _ => simp only [decPV]; exact hl
  | .map k e, v, V, hV => by
    have hl := leafV_keeps (x := x) (src := src) (v := v) (ty := .map k e) (by simp) hV
    cases v with
    | obj i ms kk =>
      simp only [decPV]
      split
      · trivial
      · have hm : ∀ a ∈ mapParts V, HasTy e a.2 := by
          rcases hV with rfl | ⟨es, rfl, h⟩
          · intro a ha; cases ha
          · exact h
        exact (mapV_keeps (P := HasTy e) (zero_typed e) ms _ (fun a ha W hW => decPV_keeps e hW) hm).map fun m h => .inr ⟨m, rfl, h⟩
    | _ => simp only [decPV]; exact hl
  | .struct n fs, v, V, hV => by
    have hl := leafV_keeps (x := x) (src := src) (v := v) (ty := .struct n fs) (by simp) hV
    obtain ⟨Ws, rfl, hW⟩ := hV
    cases v with
    | obj i ms k =>
      simp only [decPV]
      split
      · exact ⟨Ws, rfl, hW⟩
      · split
        · trivial
        · exact (structPV_keeps ms Ws (fun m hm j f hf W hT => decPVF_keeps fs hf hT) hW).map fun Ws' h => ⟨Ws', rfl, h⟩
    | _ => simp only [decPV]; exact hl
  | .emptyStruct, v, V, hV => by
    have hl := leafV_keeps (x := x) (src := src) (v := v) (ty := .emptyStruct) (by simp) hV
    cases v <;> simp only [decPV] <;> first | assumption | exact hV
  | .ptr e, v, V, hV => by
    have hp := (decPV_keeps (x := x) (src := src) (o := o) (v := v) e (zero_typed (x := x) e)).map (Q := HasTy (.ptr e)) fun W h => .inr ⟨W, rfl, h⟩
    cases v <;> first | exact .inl rfl | exact hp
  | .jsonU rt n impl, v, V, hV => by simp only [decPV]; exact decV_keeps _ hV
  | .textU rt n impl, v, V, hV => by simp only [decPV]; exact decV_keeps _ hV
  | .any, v, V, hV => by simp only [decPV]; exact decV_keeps _ hV
  | .array0, v, V, hV => by simp only [decPV]; exact decV_keeps _ hV
  | .sliceOf k, v, V, hV => by simp only [decPV]; exact decV_keeps _ hV
  | .sliceES, v, V, hV => by simp only [decPV]; exact decV_keeps _ hV
  | .mapSS, v, V, hV => by simp only [decPV]; exact decV_keeps _ hV
  | .number, v, V, hV => by simp only [decPV]; exact decV_keeps _ hV
  | .scalar k, v, V, hV => by simp only [decPV]; exact decV_keeps _ hV
  | .quoted k, v, V, hV => by simp only [decPV]; exact decV_keeps _ hV
theorem decPVF_keeps {x : Ext} {src : Bytes} {o : Option Options} : ∀ (fs : List (Bytes × Nat × Ty)) {j : Nat} {f : Bytes × Nat × Ty}, fs[j]? = some f → ∀ {v : JVal} {V : Val}, HasTy f.2.2 V →
    Keeps (HasTy f.2.2) (decPV x src o f.2.2 v V)
  | [], j, f, hf, v, V, hV => by simp at hf
  | (_, _, t) :: fs, 0, f, hf, v, V, hV => by
    simp only [List.getElem?_cons_zero, Option.some.injEq] at hf
    subst hf
    exact decPV_keeps t hV
  | _ :: fs, j + 1, f, hf, v, V, hV => by
    simp only [List.getElem?_cons_succ] at hf
    exact decPVF_keeps fs hf hV
end

end Verif.Proof.Typed

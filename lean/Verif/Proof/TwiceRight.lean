import Verif.Proof.Twice
import Verif.Proof.ValRight
/-!
# Decoding twice, with pointers at the right end
-/
namespace Verif.Proof.Twice
open Verif.Model Verif.Big Verif.Spec Verif.Proof Verif.Proof.Outcome Verif.Proof.Comp Verif.Proof.Safe Verif.Proof.Typed

mutual
theorem decP_twice {x : Ext} (hx : MethodsTwice x) {src : Bytes} {o : Options} : ∀ (ty : Ty) {v : JVal} {V V' : Val}, Wf src v → Once x src o ty v → Keyed x src o ty v → HasTy ty V →
    decPV x src (some o) ty v V = .ok V' → decPV x src (some o) ty v V' = .ok V'
  | .array n e, v, V, V', hw, h1, h2, hV, h => by
    obtain ⟨es, rfl, hn, he⟩ := hV
    cases v with
    | arr i vs k =>
      simp only [decPV, map_ok_iff] at h
      obtain ⟨es', g, rfl⟩ := h
      obtain ⟨-, g2⟩ := elems_twice (T := HasTy e) vs es es' (fun v hv W W' hW hr => by
        rw [hn] at hv
        exact decP_twice hx e (wfL_mem hw.2.2.2.2 v (List.mem_of_mem_take hv)) (h1 _ _ _ rfl v hv) (h2 _ _ _ rfl v hv) hW hr) he g
      simp only [decPV, g2, R.map]
    | null i k => simp only [decPV] at h; cases h; rfl
    | _ => exact absurd h (leafV_arr (by simp) (by simp))
  | .slice e, v, V, V', hw, h1, h2, hV, h => by
    cases v with
    | arr i vs k =>
      exact slice_twice (T := HasTy e) hV (zero_typed e) (fun v hv W W' hW hr => decP_twice hx e (wfL_mem hw.2.2.2.2 v hv) (h1 _ _ _ rfl v hv) (h2 _ _ _ rfl v hv) hW hr) h
    | _ => exact leafV_twice h
  | .map k e, v, V, V', hw, h1, h2, hV, h => by
    cases v with
    | obj i ms kk =>
      simp only [decPV] at h ⊢
      split at h
      · cases h
      · rename_i hne
        simp only [hne, if_false]
        simp only [map_ok_iff] at h ⊢
        obtain ⟨m', g, rfl⟩ := h
        have hm : ∀ a ∈ mapParts V, HasTy e a.2 := by
          rcases hV with rfl | ⟨es, rfl, h⟩
          · intro a ha; cases ha
          · exact h
        obtain ⟨h1a, h1b⟩ := h1 _ _ _ rfl
        have h2 := h2 _ _ _ rfl
        obtain ⟨k1, k2⟩ := keys_apart hw.2.2.2.2 (fun m hm => (h2 m hm).1) h1b
        exact ⟨m', map_twice (T := HasTy e) g k1 k2 (zero_typed e) hm fun mm hmm W W' hW hr =>
          decP_twice hx e (wfM_mem hw.2.2.2.2 mm hmm).2 (h1a mm hmm) (h2 mm hmm).2 hW hr, rfl⟩
    | _ => exact leafV_twice h
  | .struct n fs, v, V, V', hw, h1, h2, hV, h => by
    obtain ⟨Ws, rfl, hW⟩ := hV
    cases v with
    | obj i ms k =>
      simp only [decPV] at h
      split at h
      · rename_i hn
        cases h
        simp only [decPV, hn, if_true]
      · rename_i hn
        simp only [map_ok_iff] at h
        obtain ⟨Ws', g, rfl⟩ := h
        obtain ⟨h1a, h1b⟩ := h1 _ _ _ rfl
        have h2 := h2 _ _ _ rfl
        have := struct_twice (fs := decPVF x src (some o) fs) hw.2.2.2.2 g (by rw [Val.decPVF_names]; exact h1b) (by
          intro m hm j f hs hf W W' hWj hr
          rw [Val.decPVF_names] at hs
          rw [Val.decPVF_get] at hf
          cases hfj : fs[j]? with
          | none => rw [hfj] at hf; cases hf
          | some q =>
            rw [hfj] at hf
            cases hf
            obtain ⟨W0, e1, e2⟩ := hasTyF_get hW hfj
            rw [hWj] at e1; cases e1
            exact decPF_twice hx fs hfj (wfM_mem hw.2.2.2.2 m hm).2 (h1a m hm j _ hs (by rw [onceF_get, hfj]; rfl)) (h2 m hm j _ hs (by rw [keyedF_get, hfj]; rfl)) e2 hr)
        simp only [decPV, hn, if_false, this, R.map]
    | null i k => simp only [decPV] at h; cases h; rfl
    | _ => exact absurd h (leafV_arr (by simp) (by simp))
  | .emptyStruct, v, V, V', hw, h1, h2, hV, h => by
    cases v with
    | obj i ms k => rfl
    | _ => exact leafV_twice h
  | .ptr e, v, V, V', hw, h1, h2, hV, h => by
    cases v <;> exact h
  | .jsonU rt n impl, v, V, V', hw, h1, h2, hV, h => by
    simp only [decPV] at h ⊢
    exact dec_twice hx _ hw h1 h2 hV h
  | .textU rt n impl, v, V, V', hw, h1, h2, hV, h => by
    simp only [decPV] at h ⊢
    exact dec_twice hx _ hw h1 h2 hV h
  | .any, v, V, V', hw, h1, h2, hV, h => by
    simp only [decPV] at h ⊢
    exact dec_twice hx _ hw h1 h2 hV h
  | .array0, v, V, V', hw, h1, h2, hV, h => by
    simp only [decPV] at h ⊢
    exact dec_twice hx _ hw h1 h2 hV h
  | .sliceOf k, v, V, V', hw, h1, h2, hV, h => by
    simp only [decPV] at h ⊢
    exact dec_twice hx _ hw h1 h2 hV h
  | .sliceES, v, V, V', hw, h1, h2, hV, h => by
    simp only [decPV] at h ⊢
    exact dec_twice hx _ hw h1 h2 hV h
  | .mapSS, v, V, V', hw, h1, h2, hV, h => by
    simp only [decPV] at h ⊢
    exact dec_twice hx _ hw h1 h2 hV h
  | .number, v, V, V', hw, h1, h2, hV, h => by
    simp only [decPV] at h ⊢
    exact dec_twice hx _ hw h1 h2 hV h
  | .scalar k, v, V, V', hw, h1, h2, hV, h => by
    simp only [decPV] at h ⊢
    exact dec_twice hx _ hw h1 h2 hV h
  | .quoted k, v, V, V', hw, h1, h2, hV, h => by
    simp only [decPV] at h ⊢
    exact dec_twice hx _ hw h1 h2 hV h
theorem decPF_twice {x : Ext} (hx : MethodsTwice x) {src : Bytes} {o : Options} : ∀ (fs : List (Bytes × Nat × Ty)) {j : Nat} {f : Bytes × Nat × Ty}, fs[j]? = some f → ∀ {v : JVal} {V V' : Val}, Wf src v →
    Once x src o f.2.2 v → Keyed x src o f.2.2 v → HasTy f.2.2 V → decPV x src (some o) f.2.2 v V = .ok V' → decPV x src (some o) f.2.2 v V' = .ok V'
  | [], j, f, hf, _, _, _, _, _, _, _, _ => by simp at hf
  | (_, _, t) :: fs, 0, f, hf, v, V, V', hw, h1, h2, hV, h => by
    simp only [List.getElem?_cons_zero, Option.some.injEq] at hf
    subst hf
    exact decP_twice hx t hw h1 h2 hV h
  | _ :: fs, j + 1, f, hf, v, V, V', hw, h1, h2, hV, h => by
    simp only [List.getElem?_cons_succ] at hf
    exact decPF_twice hx fs hf hw h1 h2 hV h
end

end Verif.Proof.Twice

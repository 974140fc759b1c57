import Verif.Proof.Reorder
import Verif.Proof.DropRight
/-!
# The order of members, with pointers at the right end
-/
namespace Verif.Proof.Reorder
open Verif.Model Verif.Big Verif.Spec Verif.Proof Verif.Proof.Outcome Verif.Proof.Comp Verif.Proof.Safe Verif.Proof.Typed Verif.Proof.Twice

mutual
theorem decP_re {x : Ext} {src src' : Bytes} {o : Options} : ∀ (ty : Ty) {v v' : JVal} {V W : Val}, (∀ rt, JsonIn rt ty → Unordered x src src' rt) → Wf src v → Wf src' v' → Reordered src src' v v' → NoRepeats src v →
    Once x src o ty v → Keyed x src o ty v → HasTy ty V → decPV x src (some o) ty v V = .ok W → ∃ W', decPV x src' (some o) ty v' V = .ok W' ∧ GoEq W W'
  | .array n e, v, v', V, W, hx, hw, hw', hr, hn, h1, h2, hV, h => by
    obtain ⟨es, rfl, hl, he⟩ := hV
    cases v with
    | arr i vs k =>
      obtain ⟨_, vs', _, rfl, hr⟩ := hr
      simp only [decPV, map_ok_iff] at h ⊢
      obtain ⟨es', g, rfl⟩ := h
      obtain ⟨es1, g1, g2⟩ := elems_re (T := HasTy e) (f' := decPV x src' (some o) e) vs vs' es es' hr hw.2.2.2.2 hw'.2.2.2.2 he (fun v hv v' hwv hwv' hrv W W1 hW hd => by
        rw [hl] at hv
        exact decP_re e hx hwv hwv' hrv (noRepL_mem hn v (List.mem_of_mem_take hv)) (h1 _ _ _ rfl v hv) (h2 _ _ _ rfl v hv) hW hd) g
      exact ⟨_, ⟨es1, g1, rfl⟩, .arr g2.1 g2.2⟩
    | null => obtain ⟨_, _, rfl⟩ := id hr; exact leaf_re hw hw' hr h
    | bool => obtain ⟨_, _, rfl⟩ := id hr; exact leaf_re hw hw' hr h
    | num => obtain ⟨_, _, rfl, -⟩ := id hr; exact leaf_re hw hw' hr h
    | str => obtain ⟨_, _, rfl, -⟩ := id hr; exact leaf_re hw hw' hr h
    | obj => obtain ⟨_, _, _, rfl, -⟩ := id hr; exact leaf_re hw hw' hr h
  | .slice e, v, v', V, W, hx, hw, hw', hr, hn, h1, h2, hV, h => by
    cases v with
    | arr i vs k =>
      obtain ⟨_, vs', _, rfl, hr⟩ := hr
      exact slice_re (T := HasTy e) (f' := decPV x src' (some o) e) hV (zero_typed e) hr hw.2.2.2.2 hw'.2.2.2.2 (fun v hv v' hwv hwv' hrv W W1 hW hd =>
        decP_re e hx hwv hwv' hrv (noRepL_mem hn v hv) (h1 _ _ _ rfl v hv) (h2 _ _ _ rfl v hv) hW hd) h
    | null => obtain ⟨_, _, rfl⟩ := id hr; exact leaf_re hw hw' hr h
    | bool => obtain ⟨_, _, rfl⟩ := id hr; exact leaf_re hw hw' hr h
    | num => obtain ⟨_, _, rfl, -⟩ := id hr; exact leaf_re hw hw' hr h
    | str => obtain ⟨_, _, rfl, -⟩ := id hr; exact leaf_re hw hw' hr h
    | obj => obtain ⟨_, _, _, rfl, -⟩ := id hr; exact leaf_re hw hw' hr h
  | .map k e, v, v', V, W, hx, hw, hw', hr, hn, h1, h2, hV, h => by
    cases v with
    | obj i ms kk =>
      obtain ⟨_, ms', _, rfl, hr⟩ := hr
      simp only [decPV] at h ⊢
      split at h
      · cases h
      · rename_i hne
        have hne' : ¬ (k = .other ∧ ms' ≠ []) := fun hc => hne ⟨hc.1, fun he => hc.2 ((reM_nil hr).1 he)⟩
        rw [if_neg hne']
        simp only [map_ok_iff] at h ⊢
        obtain ⟨m1, g, rfl⟩ := h
        have hm : ∀ a ∈ mapParts V, HasTy e a.2 := by
          rcases hV with rfl | ⟨es, rfl, h⟩
          · intro a ha; cases ha
          · exact h
        obtain ⟨h1a, h1b⟩ := h1 _ _ _ rfl
        have h2 := h2 _ _ _ rfl
        obtain ⟨k1, k2⟩ := keys_apart hw.2.2.2.2 (fun m hm => (h2 m hm).1) h1b
        obtain ⟨m2, g1, g2⟩ := map_re (T := HasTy e) (f' := decPV x src' (some o) e) (zero_typed e) ms ms' _ m1 hr hw.2.2.2.2 hw'.2.2.2.2 k2 (fun K W hW => by
            have := lookupV_P (k := K) (P := HasTy e) (zero_typed (x := x) e) hm
            rw [hW] at this; exact this)
          (fun m hmm v' hwv hwv' hrv W W1 hW hd => ⟨by have := decPV_keeps (x := x) (src := src) (o := some o) e (v := m.2) hW; rw [hd] at this; exact this,
            decP_re e hx hwv hwv' hrv (noRepM_mem hn.2 m hmm) (h1a m hmm) (h2 m hmm).2 hW hd⟩) g
        exact ⟨_, ⟨m2, g1, rfl⟩, .map g2.1 g2.2⟩
    | null => obtain ⟨_, _, rfl⟩ := id hr; exact leaf_re hw hw' hr h
    | bool => obtain ⟨_, _, rfl⟩ := id hr; exact leaf_re hw hw' hr h
    | num => obtain ⟨_, _, rfl, -⟩ := id hr; exact leaf_re hw hw' hr h
    | str => obtain ⟨_, _, rfl, -⟩ := id hr; exact leaf_re hw hw' hr h
    | arr => obtain ⟨_, _, _, rfl, -⟩ := id hr; exact leaf_re hw hw' hr h
  | .struct n fs, v, v', V, W, hx, hw, hw', hr, hn, h1, h2, hV, h => by
    obtain ⟨Ws, rfl, hW⟩ := hV
    cases v with
    | obj i ms k =>
      obtain ⟨_, ms', _, rfl, hr⟩ := hr
      simp only [decPV] at h ⊢
      split at h
      · rename_i hnil
        rw [if_pos ((reM_nil hr).1 hnil)]
        exact ⟨W, h, go_refl W⟩
      · rename_i hnil
        rw [if_neg fun hc => hnil ((reM_nil hr).2 hc)]
        simp only [map_ok_iff] at h ⊢
        obtain ⟨Ws1, g, rfl⟩ := h
        obtain ⟨h1a, h1b⟩ := h1 _ _ _ rfl
        have h2 := h2 _ _ _ rfl
        obtain ⟨Ws2, g1, g2⟩ := struct_re (fs := decPVF x src (some o) fs) (fs' := decPVF x src' (some o) fs) (T := fun j W => ∀ f, fs[j]? = some f → HasTy f.2.2 W) (by rw [Val.decPVF_names, Val.decPVF_names])
          ms ms' Ws Ws1 hr hw.2.2.2.2 hw'.2.2.2.2 (by rw [Val.decPVF_names]; exact h1b) (by
            intro j W0 hW0 f hf
            obtain ⟨W', e1, e2⟩ := hasTyF_get hW hf
            rw [hW0] at e1; cases e1; exact e2) (by
            intro m hm j f f' v' hs hf hf' hwv hwv' hrv W0 W1 hW0 hd
            rw [Val.decPVF_names] at hs
            rw [Val.decPVF_get] at hf hf'
            cases hfj : fs[j]? with
            | none => rw [hfj] at hf; cases hf
            | some q =>
              rw [hfj] at hf hf'
              cases hf; cases hf'
              have ht := hW0 q hfj
              refine ⟨fun f hf => ?_, decPF_re fs hfj hx hwv hwv' hrv (noRepM_mem hn.2 m hm) (h1a m hm j _ hs (by rw [onceF_get, hfj]; rfl)) (h2 m hm j _ hs (by rw [keyedF_get, hfj]; rfl)) ht hd⟩
              cases hf
              have := decPV_keeps (x := x) (src := src) (o := some o) q.2.2 (v := m.2) ht
              simp only at hd
              rw [hd] at this; exact this) g
        exact ⟨_, ⟨Ws2, g1, rfl⟩, .struct g2.1 g2.2⟩
    | null => obtain ⟨_, _, rfl⟩ := id hr; exact leaf_re hw hw' hr h
    | bool => obtain ⟨_, _, rfl⟩ := id hr; exact leaf_re hw hw' hr h
    | num => obtain ⟨_, _, rfl, -⟩ := id hr; exact leaf_re hw hw' hr h
    | str => obtain ⟨_, _, rfl, -⟩ := id hr; exact leaf_re hw hw' hr h
    | arr => obtain ⟨_, _, _, rfl, -⟩ := id hr; exact leaf_re hw hw' hr h
  | .emptyStruct, v, v', V, W, hx, hw, hw', hr, hn, h1, h2, hV, h => by
    cases v with
    | obj i ms k => obtain ⟨_, _, _, rfl, -⟩ := hr; cases h; exact ⟨V, rfl, go_refl V⟩
    | null => obtain ⟨_, _, rfl⟩ := id hr; exact leaf_re hw hw' hr h
    | bool => obtain ⟨_, _, rfl⟩ := id hr; exact leaf_re hw hw' hr h
    | num => obtain ⟨_, _, rfl, -⟩ := id hr; exact leaf_re hw hw' hr h
    | str => obtain ⟨_, _, rfl, -⟩ := id hr; exact leaf_re hw hw' hr h
    | arr => obtain ⟨_, _, _, rfl, -⟩ := id hr; exact leaf_re hw hw' hr h
  | .ptr e, v, v', V, W, hx, hw, hw', hr, hn, h1, h2, hV, h => by
    by_cases hnull : ∃ i k, v = .null i k
    · obtain ⟨i, k, rfl⟩ := hnull
      obtain ⟨_, _, rfl⟩ := hr; exact ⟨W, h, go_refl W⟩
    · rw [Drop.decPV_ptr fun i k hc => hnull ⟨i, k, hc⟩] at h
      rw [Drop.decPV_ptr fun i k hc => hnull (re_null hr ⟨i, k, hc⟩)]
      simp only [map_ok_iff] at h ⊢
      obtain ⟨W1, g1, rfl⟩ := h
      obtain ⟨W2, g2, g3⟩ := decP_re e hx hw hw' hr hn h1 h2 (zero_typed e) g1
      exact ⟨_, ⟨W2, g2, rfl⟩, .ptr g3⟩
  | .jsonU rt n impl, v, v', V, W, hx, hw, hw', hr, hn, h1, h2, hV, h => by
    simp only [decPV] at h ⊢
    exact dec_re _ hx hw hw' hr hn h1 h2 hV h
  | .textU rt n impl, v, v', V, W, hx, hw, hw', hr, hn, h1, h2, hV, h => by
    simp only [decPV] at h ⊢
    exact dec_re _ hx hw hw' hr hn h1 h2 hV h
  | .any, v, v', V, W, hx, hw, hw', hr, hn, h1, h2, hV, h => by
    simp only [decPV] at h ⊢
    exact dec_re _ hx hw hw' hr hn h1 h2 hV h
  | .array0, v, v', V, W, hx, hw, hw', hr, hn, h1, h2, hV, h => by
    simp only [decPV] at h ⊢
    exact dec_re _ hx hw hw' hr hn h1 h2 hV h
  | .sliceOf k, v, v', V, W, hx, hw, hw', hr, hn, h1, h2, hV, h => by
    simp only [decPV] at h ⊢
    exact dec_re _ hx hw hw' hr hn h1 h2 hV h
  | .sliceES, v, v', V, W, hx, hw, hw', hr, hn, h1, h2, hV, h => by
    simp only [decPV] at h ⊢
    exact dec_re _ hx hw hw' hr hn h1 h2 hV h
  | .mapSS, v, v', V, W, hx, hw, hw', hr, hn, h1, h2, hV, h => by
    simp only [decPV] at h ⊢
    exact dec_re _ hx hw hw' hr hn h1 h2 hV h
  | .number, v, v', V, W, hx, hw, hw', hr, hn, h1, h2, hV, h => by
    simp only [decPV] at h ⊢
    exact dec_re _ hx hw hw' hr hn h1 h2 hV h
  | .scalar k, v, v', V, W, hx, hw, hw', hr, hn, h1, h2, hV, h => by
    simp only [decPV] at h ⊢
    exact dec_re _ hx hw hw' hr hn h1 h2 hV h
  | .quoted k, v, v', V, W, hx, hw, hw', hr, hn, h1, h2, hV, h => by
    simp only [decPV] at h ⊢
    exact dec_re _ hx hw hw' hr hn h1 h2 hV h
theorem decPF_re {x : Ext} {src src' : Bytes} {o : Options} : ∀ (fs : List (Bytes × Nat × Ty)) {j : Nat} {f : Bytes × Nat × Ty}, fs[j]? = some f → ∀ {v v' : JVal} {V W : Val},
    (∀ rt, JsonInF rt fs → Unordered x src src' rt) → Wf src v → Wf src' v' → Reordered src src' v v' → NoRepeats src v → Once x src o f.2.2 v → Keyed x src o f.2.2 v → HasTy f.2.2 V → decPV x src (some o) f.2.2 v V = .ok W →
    ∃ W', decPV x src' (some o) f.2.2 v' V = .ok W' ∧ GoEq W W'
  | [], j, f, hf, _, _, _, _, _, _, _, _, _, _, _, _, _ => by simp at hf
  | (_, _, t) :: fs, 0, f, hf, v, v', V, W, hx, hw, hw', hr, hn, h1, h2, hV, h => by
    simp only [List.getElem?_cons_zero, Option.some.injEq] at hf
    subst hf
    exact decP_re t (fun rt h => hx rt (.inl h)) hw hw' hr hn h1 h2 hV h
  | _ :: fs, j + 1, f, hf, v, v', V, W, hx, hw, hw', hr, hn, h1, h2, hV, h => by
    simp only [List.getElem?_cons_succ] at hf
    exact decPF_re fs hf (fun rt h => hx rt (.inr h)) hw hw' hr hn h1 h2 hV h
end

end Verif.Proof.Reorder

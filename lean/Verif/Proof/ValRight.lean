import Verif.Proof.SimRight
import Verif.Proof.ValAll
import Verif.Proof.Fragment
/-!
# The reading with pointers on memory blocks agrees with that on values
-/
namespace Verif.Proof.Val
open Verif.Model Verif.Big Verif.Spec Verif.Proof.Mem

theorem decPVF_get {x : Ext} {src : Bytes} {o : Option Options} : ∀ (fs : List (Bytes × Nat × Ty)) (j : Nat), (decPVF x src o fs)[j]? = (fs[j]?).map fun f => (f.1, decPV x src o f.2.2)
  | [], _ => by simp [decPVF]
  | (_, _, t) :: fs, 0 => by simp [decPVF]
  | (_, _, t) :: fs, j + 1 => by simp [decPVF, decPVF_get fs j]

theorem decPVF_names {x : Ext} {src : Bytes} {o : Option Options} : ∀ (fs : List (Bytes × Nat × Ty)), (decPVF x src o fs).map (·.1) = fs.map (·.1)
  | [] => rfl
  | _ :: fs => by simp [decPVF, decPVF_names fs]

mutual
/-- The two readings correspond for every type. -/
theorem decP_rel {x : Ext} {src : Bytes} {o : Option Options} : ∀ (ty : Ty), OK x ty → Corr (ty.size x) (Holds x ty) (decP x src o ty) (decPV x src o ty)
  | .array n e, hok => fun v b off V h => by
    simp only [decP, decPV, Ty.size]
    have hleaf := leaf_rel (src := src) (v := v) hok h (.inr (.inr (.inr (.inl ⟨n, e, rfl⟩)))) (by simp)
    cases v with
    | arr i vs k =>
      simp only [Holds] at h
      obtain ⟨hl, es, hV, hes, hh⟩ := h
      subst hV
      simp only []
      rw [← hes]
      rw [← hes] at hl
      have hE := elems_rel (loc_holds (x := x) (ty := e) (by simpa only [OK] using hok)) (f := decP x src o e) (g := decPV x src o e) (vs.take es.length) es b off
        (by rw [List.length_take]; omega) (fun v _ => decP_rel e (by simpa only [OK] using hok) v) hh hl
      rw [elemsV_take] at hE
      refine hE.mapR (fun b' a ⟨q1, q2⟩ hf => ?_)
      simp only [Holds]
      exact ⟨by rw [hf.1]; omega, a, rfl, by omega, q1⟩
    | null i e => exact hleaf
    | bool c i e => exact hleaf
    | num c i e => exact hleaf
    | str i e => exact hleaf
    | obj i ms e => exact hleaf
  | .slice e, hok => fun v b off V h => by
    have hW := Sim.W_pos x
    simp only [decP, decPV, Ty.size]
    have hleaf := leaf_rel (src := src) (v := v) hok h (.inl (by simp only [Ty.size]; omega)) (by simp)
    have hoe : OK x e := by simpa only [OK] using hok
    cases v <;> first | exact hleaf | skip
    simp only [Holds] at h
    have := slice_rel (x := x) (loc_holds hoe) (hz_holds hoe) (decP_rel (src := src) (o := o) e hoe) (cp := e.etype.isElemComposite) (vs := ‹_›) h
    simpa only [Holds] using this
  | .map k e, hok => fun v b off V h => by
    have hW := Sim.W_pos x
    simp only [decP, decPV, Ty.size]
    have hleaf := leaf_rel (src := src) (v := v) hok h (.inl (by simp only [Ty.size]; omega)) (by simp)
    have hoe : OK x e := by simpa only [OK] using hok
    cases v <;> first | exact hleaf | skip
    rename_i ii ms kk
    simp only [Holds] at h ⊢
    obtain ⟨b1, es, h1, h2, h3, h4⟩ := ensure_rel h.1 h.2
    rw [h1]
    simp only []
    by_cases hk : k = .other ∧ ms ≠ []
    · rw [if_pos hk, if_pos hk]; trivial
    · rw [if_neg hk, if_neg hk]
      have hl1 : off + x.W ≤ b1.length := by have := h4.1; have := h.1; omega
      have hM := map_rel (x := x) (src := src) (loc_holds hoe) (hz_holds hoe) (decP_rel (src := src) (o := o) e hoe) (k := k) (fresh := e.etype == .struct) ms b1 off es _ hl1 h2 h3
      generalize mapB x src (decP x src o e) k (e.size x) (e.etype == .struct) ms b1 off = rb at hM ⊢
      generalize mapV x src (decPV x src o e) k (zeroV x e) (e.etype == .struct) ms (mapParts V) = rv at hM ⊢
      cases rb <;> cases rv <;> simp only [Rel, R.map] at hM ⊢
      · obtain ⟨⟨q1, es', q2, q3⟩, q4⟩ := hM
        exact ⟨⟨q1, .inr ⟨es', _, q2, rfl, q3⟩⟩, h4.trans q4⟩
      · obtain ⟨r1, r2, ⟨q1, es', q2, q3⟩, q4⟩ := hM
        exact ⟨r1, r2, ⟨q1, .inr ⟨es', _, q2, rfl, q3⟩⟩, h4.trans q4⟩
  | .struct size fields, hok => fun v b off V h => by
    simp only [decP, decPV, Ty.size]
    have hleaf := leaf_rel (src := src) (v := v) hok h (.inr (.inr (.inr (.inr ⟨size, fields, rfl⟩)))) (by simp)
    have hof : OKF x size fields := by simpa only [OK] using hok
    have h' := h
    simp only [Holds] at h
    obtain ⟨hl, Ws, hV, hh⟩ := h
    subst hV
    cases v with
    | obj i ms e =>
      simp only []
      by_cases hms : ms = []
      · rw [if_pos hms, if_pos hms]; exact ⟨h', Frm.refl _ _ _⟩
      · rw [if_neg hms, if_neg hms]
        cases o with
        | none => trivial
        | some o' =>
          have := struct_relG (x := x) (src := src) (o' := o') hof (Sim.decPF_names x src (some o') fields) (decPVF_names (x := x) (src := src) (o := some o') fields)
            (fun j f hf => ⟨_, _, by rw [Sim.decPF_get, hf]; rfl, by rw [decPVF_get, hf]; rfl, decP_relF (src := src) (o := some o') fields hof j f hf⟩) ms b off Ws hl hh
          refine this.mapR (fun b' a hp _ => ?_)
          simp only [Holds]
          exact ⟨hp.1, a, rfl, hp.2⟩
    | null i e => exact hleaf
    | bool c i e => exact hleaf
    | num c i e => exact hleaf
    | str i e => exact hleaf
    | arr i ms e => exact hleaf
  | .ptr e, hok => fun v b off V h => by
    have hW := Sim.W_pos x
    have hoe : OK x e := by simpa only [OK] using hok
    have hnull := dec_rel (src := src) (o := o) (.ptr e) hok v b off V h
    have hl := holds_len h
    simp only [Ty.size] at hl
    have hmain : Rel (fun b' W' => Holds x (.ptr e) b' off W') b off x.W
        (match blit b off (seg x.W (.ptr (zeros (e.size x)))) with
          | none => .crash
          | some b => (decP x src o e v (zeros (e.size x)) 0).bindB (putIn b off .deref))
        ((decPV x src o e v (zeroV x e)).map .ptr) := by
      obtain ⟨b1, hb1⟩ := (blit_isSome (b := b) (off := off) (s := seg x.W (.ptr (zeros (e.size x))))).2 (by rw [seg_length]; exact hl)
      have hfb := frm_blit hb1
      rw [seg_length] at hfb
      rw [hb1]
      have hc := Sim.blit_seg_get hW hb1
      have ih := decP_rel (src := src) (o := o) e hoe v (zeros (e.size x)) 0 _ (holds_zeros e hoe (by omega))
      refine ih.bind (fun a w hp hf => ⟨b1.set off (.ptr a), by simp [putIn, putBlock, hc, ownedBlock, setOwned], ?_, hfb.trans (frm_set hW)⟩)
      simp only [Holds]
      have := hfb.1
      exact ⟨by simp; omega, .inr ⟨a, w, set_get_self (by omega), rfl, by rw [hf.1, zeros_length], hp⟩⟩
    cases v <;> first | exact hmain | exact hnull
  | .emptyStruct, hok => fun v b off V h => by
    have hd := dec_rel (src := src) (o := o) .emptyStruct hok v b off V h
    cases v <;> first | exact ⟨h, Frm.refl _ _ _⟩ | exact hd
  | .jsonU _ _ _, hok => dec_rel (o := o) _ hok
  | .textU _ _ _, hok => dec_rel (o := o) _ hok
  | .any, hok => dec_rel (o := o) _ hok
  | .number, hok => dec_rel (o := o) _ hok
  | .scalar _, hok => dec_rel (o := o) _ hok
  | .quoted _, hok => dec_rel (o := o) _ hok
  | .array0, hok => dec_rel (o := o) _ hok
  | .sliceOf _, hok => dec_rel (o := o) _ hok
  | .sliceES, hok => dec_rel (o := o) _ hok
  | .mapSS, hok => dec_rel (o := o) _ hok
theorem decP_relF {x : Ext} {src : Bytes} {o : Option Options} : ∀ (fs : List (Bytes × Nat × Ty)) {size : Nat}, OKF x size fs →
    ∀ (j : Nat) (f : Bytes × Nat × Ty), fs[j]? = some f → Corr (f.2.2.size x) (Holds x f.2.2) (decP x src o f.2.2) (decPV x src o f.2.2)
  | [], _, _, j, f, h => by simp at h
  | (n, fo, t) :: fs, size, hok, j, f, h => by
    simp only [OKF] at hok
    cases j with
    | zero => simp at h; subst h; exact decP_rel t hok.2.1
    | succ j => exact decP_relF fs hok.2.2.2 j f (by simpa using h)
end

end Verif.Proof.Val

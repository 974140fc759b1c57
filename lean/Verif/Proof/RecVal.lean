import Verif.Spec.Recursive
import Verif.Proof.ValAll
/-!
# Recursive struct types: the reading on memory blocks agrees with the reading on values
-/
namespace Verif.Proof.Val
open Verif.Model Verif.Big Verif.Spec Verif.Proof.Mem

theorem ptr_rel {x : Ext} {src : Bytes} {e : Ty} (hoe : OK x e) {f : JVal → Block → Nat → Res} {g : JVal → Val → R Val} (hfg : Corr (e.size x) (Holds x e) f g) :
    Corr x.W (Holds x (.ptr e)) (ptrB x src f (e.size x)) (ptrV x src g (zeroV x e)) := by
  intro v b off V h
  have hW := Sim.W_pos x
  have hl := holds_len h
  simp only [Ty.size] at hl
  have hleaf : Rel (fun b' W => Holds x (.ptr e) b' off W) b off x.W (execB x none 0 false b off v.index (leaf x src .ptrRecur v)) (actV v.index .nil none V (leaf x src .ptrRecur v)) := by
    have hf : (∃ n, leaf x src .ptrRecur v = .clear n ∧ n = x.W) ∨ (∃ er, leaf x src .ptrRecur v = .err er) ∨ leaf x src .ptrRecur v = .crash := by
      cases v with
      | null i e => exact .inl ⟨_, rfl, rfl⟩
      | bool c i e => exact .inr (.inl ⟨_, rfl⟩)
      | num c i e =>
        cases c <;> simp only [leaf] <;> split <;> first | exact .inr (.inr rfl) | exact .inr (.inl ⟨_, rfl⟩)
      | str i e => simp only [leaf]; split <;> first | exact .inr (.inr rfl) | exact .inr (.inl ⟨_, rfl⟩)
      | arr i vs k => exact .inr (.inl ⟨_, rfl⟩)
      | obj i vs k => exact .inr (.inl ⟨_, rfl⟩)
    have := exec_rel (x := x) (ty := .ptr e) (idx := v.index) (a := leaf x src .ptrRecur v) h
      (by rcases hf with ⟨n, h1, h2⟩ | ⟨er, h1⟩ | h1 <;> rw [h1] <;> first | exact ⟨h2, hoe⟩ | trivial) (.inl (by simp only [Ty.size]; omega))
      (by rcases hf with ⟨n, h1, h2⟩ | ⟨er, h1⟩ | h1 <;> rw [h1] <;> intro t ht <;> cases ht) none 0 false none
    exact this
  cases v <;> first | exact hleaf | skip
  rename_i i ms k
  simp only [ptrB, ptrV]
  simp only [Holds] at h
  rcases h.2 with ⟨hc, rfl⟩ | ⟨pb, W, hc, rfl, hpl, hp⟩
  · rw [hc]
    simp only []
    obtain ⟨b1, hb1⟩ := (blit_isSome (b := b) (off := off) (s := seg x.W (.ptr (zeros (e.size x))))).2 (by rw [seg_length]; exact hl)
    have hfb := frm_blit hb1
    rw [seg_length] at hfb
    rw [hb1]
    have hc := Sim.blit_seg_get hW hb1
    refine (hfg (.obj i ms k) (zeros (e.size x)) 0 _ (holds_zeros e hoe (by omega))).bind
      (fun a w hp hf => ⟨b1.set off (.ptr a), by simp [putIn, putBlock, hc, ownedBlock, setOwned], ?_, hfb.trans (frm_set hW)⟩)
    simp only [Holds]
    have := hfb.1
    exact ⟨by simp; omega, .inr ⟨a, w, set_get_self (by omega), rfl, by rw [hf.1, zeros_length], hp⟩⟩
  · rw [hc]
    simp only []
    refine (hfg (.obj i ms k) pb 0 _ hp).bind
      (fun a w hp hf => ⟨b.set off (.ptr a), by simp [putIn, putBlock, hc, ownedBlock, setOwned], ?_, frm_set hW⟩)
    simp only [Holds]
    exact ⟨by simp; omega, .inr ⟨a, w, set_get_self (by omega), rfl, by rw [hf.1, hpl], hp⟩⟩

theorem field_rel {x : Ext} {src : Bytes} {o : Option Options} {e : Ty} (hoe : OK x e) {g : JVal → Block → Nat → Res} {h : JVal → Val → R Val} (hgh : Corr (e.size x) (Holds x e) g h) :
    ∀ (rf : RField), OK x (rf.ty e) → Corr ((rf.ty e).size x) (Holds x (rf.ty e)) (fieldB x src o (e.size x) g rf) (fieldV x src o h (zeroV x e) rf)
  | .plain t, hok => dec_rel t hok
  | .ptr, _ => ptr_rel hoe hgh
  | .slice, hok => fun v b off V hh => by
    have hW := Sim.W_pos x
    simp only [fieldB, fieldV, RField.ty, Ty.size] at hh ⊢
    have hleaf := leaf_rel (ty := .slice e) (src := src) (v := v) hok hh (.inl (by simp only [Ty.size]; omega)) (by simp)
    cases v <;> first | exact hleaf | skip
    simp only [Holds] at hh
    have := slice_rel (x := x) (loc_holds hoe) (hz_holds hoe) hgh (cp := true) (vs := ‹_›) hh
    simpa only [Holds] using this
  | .map k, hok => fun v b off V hh => by
    have hW := Sim.W_pos x
    simp only [fieldB, fieldV, RField.ty, Ty.size] at hh ⊢
    have hleaf := leaf_rel (ty := .map k e) (src := src) (v := v) hok hh (.inl (by simp only [Ty.size]; omega)) (by simp)
    cases v <;> first | exact hleaf | skip
    rename_i ii ms kk
    simp only [Holds] at hh ⊢
    obtain ⟨b1, es, h1, h2, h3, h4⟩ := ensure_rel hh.1 hh.2
    rw [h1]
    simp only []
    have hl1 : off + x.W ≤ b1.length := by have := h4.1; have := hh.1; omega
    have hM := map_rel (x := x) (src := src) (loc_holds hoe) (hz_holds hoe) hgh (k := k) (fresh := true) ms b1 off es _ hl1 h2 h3
    generalize mapB x src g k (e.size x) true ms b1 off = rb at hM ⊢
    generalize mapV x src h k (zeroV x e) true ms (mapParts V) = rv at hM ⊢
    cases rb <;> cases rv <;> simp only [Rel, R.map] at hM ⊢
    · obtain ⟨⟨q1, es', q2, q3⟩, q4⟩ := hM
      exact ⟨⟨q1, .inr ⟨es', _, q2, rfl, q3⟩⟩, h4.trans q4⟩
    · obtain ⟨r1, r2, ⟨q1, es', q2, q3⟩, q4⟩ := hM
      exact ⟨r1, r2, ⟨q1, .inr ⟨es', _, q2, rfl, q3⟩⟩, h4.trans q4⟩

theorem tyF_get (e : Ty) (fs : RFields) (j : Nat) : (tyF e fs)[j]? = (fs[j]?).map fun f => (f.1, f.2.1, f.2.2.ty e) := by simp [tyF]

theorem tyF_names (e : Ty) (fs : RFields) : (tyF e fs).map (·.1) = fs.map (·.1) := by simp [tyF, Function.comp_def]

theorem unroll_ok {x : Ext} {size : Nat} {fs : RFields} (hok : ∀ e, OK x e → OKF x size (tyF e fs)) : ∀ n, OK x (unroll size fs n)
  | 0 => trivial
  | n + 1 => hok _ (unroll_ok hok n)

/-- The two readings correspond for a recursive struct type. -/
theorem decR_rel {x : Ext} {src : Bytes} {o : Option Options} {size : Nat} {fs : RFields} (hok : ∀ e, OK x e → OKF x size (tyF e fs)) :
    ∀ n, Corr size (Holds x (unroll size fs (n + 1))) (decR x src o size fs n) (decRV x src o size fs n)
  | 0 => fun _ _ _ _ _ => trivial
  | n + 1 => fun v b off V h => by
    have hof := hok _ (unroll_ok hok (n + 1))
    have ih := decR_rel (src := src) (o := o) hok n
    have hleaf := leaf_rel (src := src) (v := v) (ty := unroll size fs (n + 2)) (unroll_ok hok (n + 2)) h (.inr (.inr (.inr (.inr ⟨size, _, rfl⟩)))) (by simp [unroll])
    have hleaf' : Rel (fun b' W => Holds x (unroll size fs (n + 2)) b' off W) b off size (execB x none 0 false b off v.index (leaf x src .struct v)) (leafV x src (.struct size []) v V) := by
      have hz : ∀ z z', actV v.index z none V (leaf x src .struct v) = actV v.index z' none V (leaf x src .struct v) := by
        intro z z'
        cases hl : leaf x src .struct v with
        | clear m =>
          cases v with
          | num c i e => cases c <;> simp only [leaf] at hl <;> split at hl <;> simp [onInteger, onNumber] at hl
          | str i e => simp only [leaf] at hl; split at hl <;> simp [onString] at hl
          | _ => simp [leaf, onNull, onBool] at hl
        | _ => rfl
      have e : leafV x src (.struct size []) v V = leafV x src (unroll size fs (n + 2)) v V := hz _ _
      rw [e]; exact hleaf
    have h' := h
    simp only [unroll, Holds] at h
    obtain ⟨hl, Ws, hV, hh⟩ := h
    subst hV
    simp only [decR, decRV]
    cases v with
    | obj i ms k =>
      simp only []
      by_cases hms : ms = []
      · rw [if_pos hms, if_pos hms]; exact ⟨h', Frm.refl _ _ _⟩
      · rw [if_neg hms, if_neg hms]
        cases o with
        | none => trivial
        | some o' =>
          have := struct_relG (x := x) (src := src) (o' := o') hof (F := decRF x src (some o') size (decR x src (some o') size fs n) fs)
            (G := fs.map fun f => (f.1, fieldV x src (some o') (decRV x src (some o') size fs n) (zeroV x (unroll size fs (n + 1))) f.2.2))
            (by simp [decRF, tyF, Function.comp_def]) (by simp [tyF, Function.comp_def]) (fun j f hf => by
              rw [tyF_get] at hf
              cases hfj : fs[j]? with
              | none => rw [hfj] at hf; cases hf
              | some g =>
                rw [hfj] at hf; cases hf
                refine ⟨_, _, by simp only [decRF, List.getElem?_map, hfj]; rfl, by simp only [List.getElem?_map, hfj]; rfl, ?_⟩
                have hokg := (okF_get hof (j := j) (f := (g.1, g.2.1, g.2.2.ty (unroll size fs (n + 1)))) (by rw [tyF_get, hfj]; rfl)).2
                exact field_rel (unroll_ok hok (n + 1)) ih g.2.2 hokg) ms b off Ws hl hh
          refine this.mapR (fun b' a hp _ => ?_)
          simp only [unroll, Holds]
          exact ⟨hp.1, a, rfl, hp.2⟩
    | null i e => exact hleaf'
    | bool c i e => exact hleaf'
    | num c i e => exact hleaf'
    | str i e => exact hleaf'
    | arr i ms e => exact hleaf'

end Verif.Proof.Val

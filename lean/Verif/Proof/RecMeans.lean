import Verif.Spec.Recursive
import Verif.Proof.MeansConv
import Verif.Proof.RecVal
/-!
# Recursive struct types: a document is decoded to what it means
-/
namespace Verif.Proof.Means
open Verif.Model Verif.Big Verif.Spec Verif.Props Verif.Proof.Comp Verif.Proof.Val

theorem recField_good {x : Ext} (hx : FloatContract x) (ht : x.tokFloat64 = x.parseFloat64) {src : Bytes} {o : Options} {e : Ty} {es : Nat} {efs : List (Bytes × Nat × Ty)} (he : e = .struct es efs)
    {sub : Bool → Bool → JVal → Prop} {g : JVal → Val → R Val}
    (hg : ∀ here top v V, Wf src v → noNegZero src v → sub here top v → Means x src o e v V → ∃ V', g v (zeroV x e) = .ok V' ∧ Means x src o e v V') {here top : Bool} :
    ∀ (rf : RField) (v : JVal) (V : Val), Wf src v → noNegZero src v → TameField x src (some o) sub here top rf v → Means x src o (rf.ty e) v V →
      ∃ V', fieldV x src (some o) g (zeroV x e) rf v (zeroV x (rf.ty e)) = .ok V' ∧ Means x src o (rf.ty e) v V'
  | .plain t, v, V, hw, hz, htm, h => good hx ht t v V hw hz htm h
  | .ptr, v, V, hw, hz, htm, h => by
    rcases h with ⟨⟨i, e, rfl⟩, rfl⟩ | ⟨hn, W, rfl, h⟩
    · exact ⟨_, rfl, .inl ⟨⟨i, e, rfl⟩, rfl⟩⟩
    · have hobj : ∃ i ms k, v = .obj i ms k := by
        subst he
        rcases h with ⟨h, -⟩ | ⟨i, ms, k, _, h, -⟩
        · exact absurd h hn
        · exact ⟨i, ms, k, h⟩
      obtain ⟨i, ms, k, rfl⟩ := hobj
      obtain ⟨W', g1, g2⟩ := hg _ _ _ _ hw hz (htm i ms k rfl) h
      refine ⟨.ptr W', ?_, .inr ⟨hn, W', rfl, g2⟩⟩
      simp only [fieldV, ptrV, RField.ty, zeroV, pointee, g1, R.map]
  | .slice, v, V, hw, hz, htm, h => by
    rcases h with ⟨⟨i, e, rfl⟩, rfl⟩ | ⟨i, vs, k, rfl, Ws, rfl, hl, h⟩
    · exact ⟨_, rfl, .inl ⟨⟨i, e, rfl⟩, rfl⟩⟩
    · obtain ⟨V', g1, g2⟩ := slice_dec (f := g) (P := Means x src o e) (z := zeroV x e) (vs := vs) true fun w hw' => by
        obtain ⟨j, hj⟩ := List.getElem?_of_mem hw'
        have hlt := (List.getElem?_eq_some_iff.1 hj).1
        exact hg _ _ w _ (Safe.wfL_mem hw.2.2.2.2 _ hw') (nzL_mem hz _ hw') (htm i vs k rfl j w hj).2 (h j w (Ws[j]'(by omega)) hj (by simp))
      exact ⟨V', g1, .inr ⟨i, vs, k, rfl, g2⟩⟩
  | .map kt, v, V, hw, hz, htm, h => by
    rcases h with ⟨⟨i, e, rfl⟩, rfl⟩ | ⟨i, ms, k, rfl, h⟩
    · exact ⟨_, rfl, .inl ⟨⟨i, e, rfl⟩, rfl⟩⟩
    · obtain ⟨es, g1, g2⟩ := entries_dec (f := g) (z := zeroV x e) (fresh := true) hw.2.2.2.2 h
        fun m hm W hW => hg _ _ m.2 W (Safe.wfM_mem hw.2.2.2.2 _ hm).2 (nzM_mem hz _ hm) ((htm i ms k rfl).2.2.2.2 m hm).2 hW
      refine ⟨.map es, ?_, .inr ⟨i, ms, k, rfl, g2⟩⟩
      simp only [fieldV, RField.ty, zeroV, mapParts, g1, R.map]

/-- A document with a meaning is decoded to it. -/
theorem rec_good {x : Ext} (hx : FloatContract x) (ht : x.tokFloat64 = x.parseFloat64) {src : Bytes} {o : Options} {size : Nat} {fs : RFields} :
    ∀ (n : Nat) (here top : Bool) (v : JVal) (V : Val), Wf src v → noNegZero src v → TameR x src (some o) fs n here top v → Means x src o (unroll size fs (n + 1)) v V →
      ∃ V', decRV x src (some o) size fs n v (zeroV x (unroll size fs (n + 1))) = .ok V' ∧ Means x src o (unroll size fs (n + 1)) v V'
  | 0, _, _, _, _, _, _, h, _ => h.elim
  | n + 1, here, top, v, V, hw, hz, htm, h => by
    have h' := h
    rcases h with ⟨⟨i, e, rfl⟩, rfl⟩ | ⟨i, ms, k, Ws, rfl, rfl, -⟩
    · exact ⟨_, rfl, .inl ⟨⟨i, e, rfl⟩, rfl⟩⟩
    · have hwm := hw.2.2.2.2
      have hnm := tyF_names (unroll size fs (n + 1)) fs
      obtain ⟨Ws', g, hm⟩ := struct_good (n := size) (fs := tyF (unroll size fs (n + 1)) fs)
        (D := fs.map fun f => (f.1, fieldV x src (some o) (decRV x src (some o) size fs n) (zeroV x (unroll size fs (n + 1))) f.2.2)) hw (by simp [tyF, Function.comp_def]) (fun m hm j hj f hf W hW => by
        obtain ⟨name, k1, k2, -⟩ := key_fun x o ((tyF (unroll size fs (n + 1)) fs).map (·.1)) (k := m.1) (Safe.wfM_mem hwm _ hm).1
        have hff := (k2 j).1 hj
        rw [hnm] at hff
        obtain ⟨a, ha⟩ := List.getElem?_of_mem hm
        have hm' := htm i ms k rfl a m ha o rfl
        rw [Doc.slice_inner (Safe.wfM_mem hwm _ hm).1] at hm' k1
        have hm' := hm' _ name rfl k1
        rw [hff] at hm'
        rw [tyF_get] at hf
        cases hfj : fs[j]? with
        | none => rw [hfj] at hf; cases hf
        | some q =>
          rw [hfj] at hf; cases hf
          obtain ⟨W', g1, g2⟩ := recField_good hx ht (e := unroll size fs (n + 1)) rfl (rec_good hx ht (size := size) n) q.2.2 m.2 W
            (Safe.wfM_mem hwm _ hm).2 (nzM_mem hz _ hm) (hm' q hfj).1 hW
          exact ⟨_, W', by simp only [List.getElem?_map, hfj]; rfl, g1, g2⟩) (fun m hm hun h0 => by
        obtain ⟨name, k1, -, k2⟩ := key_fun x o ((tyF (unroll size fs (n + 1)) fs).map (·.1)) (k := m.1) (Safe.wfM_mem hwm _ hm).1
        obtain ⟨a, ha⟩ := List.getElem?_of_mem hm
        have hm' := htm i ms k rfl a m ha o rfl
        rw [Doc.slice_inner (Safe.wfM_mem hwm _ hm).1] at hm' k1
        have hm' := hm' _ name rfl k1
        have k2 := k2.1 hun
        rw [hnm] at k2
        rw [k2] at hm'
        rcases hm' with hm' | hm'
        · rw [h0] at hm'; cases hm'
        · exact hm') h'
      refine ⟨.struct Ws', ?_, hm⟩
      simp only [decRV, unroll, zeroV]
      split
      · rename_i hms; subst hms
        simp only [structV, R.ok.injEq] at g
        exact congrArg (fun w => R.ok (Val.struct w)) g
      · simp only [unroll, zeroV] at g
        rw [g]; rfl

theorem recField_sound {x : Ext} (hx : FloatContract x) (ht : x.tokFloat64 = x.parseFloat64) {src : Bytes} {o : Options} {e : Ty} {es : Nat} {efs : List (Bytes × Nat × Ty)} (he : e = .struct es efs)
    {g : JVal → Val → R Val} (hg : ∀ v V, Wf src v → noNegZero src v → Exact x e → Once x src o e v → g v (zeroV x e) = .ok V → Means x src o e v V) :
    ∀ (rf : RField) (v : JVal) (V : Val), Wf src v → noNegZero src v → Exact x (rf.ty e) → Once x src o (rf.ty e) v → fieldV x src (some o) g (zeroV x e) rf v (zeroV x (rf.ty e)) = .ok V →
      Means x src o (rf.ty e) v V
  | .plain t, v, V, hw, hz, hex, ho, h => sound hx ht t v V hw hz hex ho h
  | .ptr, v, V, hw, hz, hex, ho, h => by
    cases v with
    | obj i ms k =>
      simp only [fieldV, ptrV, RField.ty, zeroV, pointee] at h
      obtain ⟨W, g1, rfl⟩ := map_ok_iff.1 h
      exact .inr ⟨(fun ⟨_, _, h⟩ => by cases h), W, rfl, hg _ _ hw hz hex ho g1⟩
    | null i e => cases h; exact .inl ⟨⟨i, e, rfl⟩, rfl⟩
    | bool b i e => cases h
    | arr i vs k => cases h
    | num b i e => cases b <;> simp [fieldV, ptrV, leaf, Doc.slice_text hw.1 hw.2.1, onInteger, onNumber, actV] at h
    | str i e => simp [fieldV, ptrV, leaf, Doc.slice_inner hw, onString, actV] at h
  | .slice, v, V, hw, hz, hex, ho, h => by
    cases v with
    | arr i vs k =>
      exact .inr ⟨i, vs, k, rfl, slice_inv (fun w hm W hW => hg w W (Safe.wfL_mem hw.2.2.2.2 _ hm) (nzL_mem hz _ hm) hex (ho i vs k rfl w hm) hW) h⟩
    | _ =>
      have hn := leaf_wrong (ty := .slice .emptyStruct) hw trivial h
      obtain ⟨i, e, hn⟩ := hn
      rw [hn] at h ⊢
      cases h
      exact .inl ⟨⟨i, e, rfl⟩, rfl⟩
  | .map kt, v, V, hw, hz, hex, ho, h => by
    cases v with
    | obj i ms k =>
      simp only [fieldV, RField.ty, zeroV, mapParts] at h
      obtain ⟨es, g1, rfl⟩ := map_ok_iff.1 h
      exact .inr ⟨i, ms, k, rfl, entries_inv hex.1 hw.2.2.2.2
        (fun m hm W hW => hg m.2 W (Safe.wfM_mem hw.2.2.2.2 _ hm).2 (nzM_mem hz _ hm) hex.2 ((ho i ms k rfl).1 m hm) hW) (ho i ms k rfl).2 g1⟩
    | _ =>
      have hn := leaf_wrong (ty := .map kt .emptyStruct) hw trivial h
      obtain ⟨i, e, hn⟩ := hn
      rw [hn] at h ⊢
      cases h
      exact .inl ⟨⟨i, e, rfl⟩, rfl⟩

/-- What is decoded is what the document means. -/
theorem rec_sound {x : Ext} (hx : FloatContract x) (ht : x.tokFloat64 = x.parseFloat64) {src : Bytes} {o : Options} {size : Nat} {fs : RFields} :
    ∀ (n : Nat) (v : JVal) (V : Val), Wf src v → noNegZero src v → Exact x (unroll size fs (n + 1)) → Once x src o (unroll size fs (n + 1)) v →
      decRV x src (some o) size fs n v (zeroV x (unroll size fs (n + 1))) = .ok V → Means x src o (unroll size fs (n + 1)) v V
  | 0, _, _, _, _, _, _, h => by cases h
  | n + 1, v, V, hw, hz, hex, ho, h => by
    cases v with
    | obj i ms k =>
      have hwm := hw.2.2.2.2
      have hex' : ExactF x (tyF (unroll size fs (n + 1)) fs) := hex
      have ho' : Once x src o (.struct size (tyF (unroll size fs (n + 1)) fs)) (.obj i ms k) := ho
      have hg : ∃ Ws', structV x src o (fs.map fun f => (f.1, fieldV x src (some o) (decRV x src (some o) size fs n) (zeroV x (unroll size fs (n + 1))) f.2.2)) ms
          (zeroF x (tyF (unroll size fs (n + 1)) fs)) = .ok Ws' ∧ V = .struct Ws' := by
        change (if ms = [] then R.ok (Val.struct (zeroF x (tyF (unroll size fs (n + 1)) fs))) else
          (structV x src o (fs.map fun f => (f.1, fieldV x src (some o) (decRV x src (some o) size fs n) (zeroV x (unroll size fs (n + 1))) f.2.2)) ms
          (zeroF x (tyF (unroll size fs (n + 1)) fs))).map .struct) = _ at h
        split at h
        · rename_i hms; subst hms
          cases h; exact ⟨_, rfl, rfl⟩
        · obtain ⟨Ws, g1, rfl⟩ := map_ok_iff.1 h
          exact ⟨Ws, g1, rfl⟩
      obtain ⟨Ws', g, rfl⟩ := hg
      refine struct_sound (n := size) (fs := tyF (unroll size fs (n + 1)) fs) hw (by simp [tyF, Function.comp_def]) (fun m hm j hs f hf => ?_) (ho' i ms k rfl).2 g
      have hf' := hf
      rw [tyF_get] at hf
      cases hfj : fs[j]? with
      | none => rw [hfj] at hf; cases hf
      | some q =>
        rw [hfj] at hf; cases hf
        refine ⟨_, by simp only [List.getElem?_map, hfj]; rfl, fun W e2 => ?_⟩
        refine recField_sound hx ht (e := unroll size fs (n + 1)) rfl (rec_sound hx ht (size := size) n) q.2.2 m.2 W (Safe.wfM_mem hwm _ hm).2 (nzM_mem hz _ hm) ?_ ?_ e2
        · exact exactF_mem hex' _ (List.mem_of_getElem? hf')
        · exact (ho' i ms k rfl).1 m hm j _ hs (by rw [onceF_get, hf']; rfl)
    | _ =>
      have hn := leaf_wrong (ty := .struct size []) hw trivial h
      obtain ⟨i, e, hn⟩ := hn
      rw [hn] at h ⊢
      cases h
      exact .inl ⟨⟨i, e, rfl⟩, rfl⟩

end Verif.Proof.Means

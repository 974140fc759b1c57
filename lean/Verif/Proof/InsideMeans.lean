import Verif.Proof.InsideReads
import Verif.Proof.RecMeans
import Verif.Proof.RecOutcome
/-!
# Recursive struct types inside other types: a document with a meaning is decoded to it
-/
namespace Verif.Proof.Inside
open Verif.Props Verif.Model Verif.Spec Verif.Big Verif.Proof.Val Verif.Proof.Means Verif.Proof.Reads Verif.Proof.RecIdeal Verif.Proof Verif.Proof.Comp

mutual
theorem goodX {x : Ext} (hx : FloatContract x) (ht : x.tokFloat64 = x.parseFloat64) {src : Bytes} {o : Options} {n : Nat} : ∀ (ty : RTy) (z : Bool) (v : JVal) (V : Val), Wf src v → noNegZero src v →
    TameX x src (some o) n ty z v → Means x src o (ty.ty n) v V → ∃ V', decV x src (some o) (ty.ty n) v (zeroV x (ty.ty n)) = .ok V' ∧ Means x src o (ty.ty n) v V'
  | .plain t, z, v, V, hw, hz, htm, h => good hx ht t v V hw hz htm h
  | .self size fs, z, v, V, hw, hz, htm, h => by
    obtain ⟨V', h1, h2⟩ := rec_good hx ht n z z v V hw hz htm h
    have hl := rec_like (size := size) n z z v htm (zeroV x (unroll size fs (n + 1)))
    rw [h1] at hl
    exact ⟨V', hl, h2⟩
  | .array m e, z, v, V, hw, hz, htm, h => by
    rcases h with ⟨⟨i, e, rfl⟩, rfl⟩ | ⟨i, vs, k, Ws, rfl, rfl, hl, h⟩
    · exact ⟨_, rfl, .inl ⟨⟨i, e, rfl⟩, rfl⟩⟩
    · obtain ⟨Ws', g1, g2, g3⟩ := elems_exist (f := decV x src (some o) (e.ty n)) (P := Means x src o (e.ty n)) (z := zeroV x (e.ty n)) m vs fun w hw' => by
        obtain ⟨j, hj⟩ := List.getElem?_of_mem hw'
        rw [List.getElem?_take] at hj
        split at hj
        · rename_i hjn
          rcases h j (Ws[j]'(by omega)) (by simp) with ⟨w', a, b⟩ | ⟨a, -⟩
          · rw [hj] at a; cases a
            exact goodX hx ht e false w _ (Safe.wfL_mem hw.2.2.2.2 _ (List.mem_of_mem_take hw')) (nzL_mem hz _ (List.mem_of_mem_take hw')) (htm.2 _ hw') b
          · have := (List.getElem?_eq_some_iff.1 hj).1; omega
        · cases hj
      refine ⟨.arr Ws', ?_, .inr ⟨i, vs, k, Ws', rfl, rfl, g2, g3⟩⟩
      simp only [RTy.ty, decV, zeroV, g1, R.map]
  | .slice e, z, v, V, hw, hz, htm, h => by
    rcases h with ⟨⟨i, e, rfl⟩, rfl⟩ | ⟨i, vs, k, rfl, Ws, rfl, hl, h⟩
    · exact ⟨_, rfl, .inl ⟨⟨i, e, rfl⟩, rfl⟩⟩
    · obtain ⟨V', g1, g2⟩ := slice_dec (f := decV x src (some o) (e.ty n)) (P := Means x src o (e.ty n)) (z := zeroV x (e.ty n)) (vs := vs) (e.ty n).etype.isElemComposite fun w hw' => by
        obtain ⟨j, hj⟩ := List.getElem?_of_mem hw'
        have hlt := (List.getElem?_eq_some_iff.1 hj).1
        exact goodX hx ht e false w _ (Safe.wfL_mem hw.2.2.2.2 _ hw') (nzL_mem hz _ hw') (htm.2 _ hw') (h j w (Ws[j]'(by omega)) hj (by simp))
      exact ⟨V', g1, .inr ⟨i, vs, k, rfl, g2⟩⟩
  | .map kt e, z, v, V, hw, hz, htm, h => by
    rcases h with ⟨⟨i, e, rfl⟩, rfl⟩ | ⟨i, ms, k, rfl, h⟩
    · exact ⟨_, rfl, .inl ⟨⟨i, e, rfl⟩, rfl⟩⟩
    · obtain ⟨es, g1, g2⟩ := entries_dec (f := decV x src (some o) (e.ty n)) (z := zeroV x (e.ty n)) (fresh := (e.ty n).etype == .struct) hw.2.2.2.2 h
        fun m hm W hW => goodX hx ht e true m.2 W (Safe.wfM_mem hw.2.2.2.2 _ hm).2 (nzM_mem hz _ hm) (htm.2 _ hm) hW
      refine ⟨.map es, ?_, .inr ⟨i, ms, k, rfl, g2⟩⟩
      have : ¬ (kt = .other ∧ ms ≠ []) := fun hc => hc.2 (htm.1 hc.1)
      simp only [RTy.ty, decV, if_neg this, zeroV, mapParts, g1, R.map]
  | .struct size fs, z, v, V, hw, hz, htm, h => by
    rcases h with ⟨⟨i, e, rfl⟩, rfl⟩ | ⟨i, ms, k, Ws, rfl, rfl, hl, hu, hd, h⟩
    · exact ⟨_, rfl, .inl ⟨⟨i, e, rfl⟩, rfl⟩⟩
    · have hwm := hw.2.2.2.2
      have hnm := tysX_names n fs
      obtain ⟨Ws', g, hm⟩ := struct_good (n := size) (D := decVF x src (some o) (tysX n fs)) hw (Val.decVF_names ..) (fun m hm j hj f hf W hW => by
        obtain ⟨name, k1, k2, -⟩ := key_fun x o ((tysX n fs).map (·.1)) (k := m.1) (Safe.wfM_mem hwm _ hm).1
        have hff := (k2 j).1 hj
        rw [hnm] at hff
        have hm' := htm m hm o rfl
        rw [Doc.slice_inner (Safe.wfM_mem hwm _ hm).1] at hm' k1
        have hm' := hm' _ name rfl k1
        rw [hff] at hm'
        have hfx := hf
        rw [tysX_get] at hf
        cases hfj : fs[j]? with
        | none => rw [hfj] at hf; cases hf
        | some q =>
          rw [hfj] at hf; cases hf
          have hm' := hm' _ (by rw [tameXF_get, hfj]; rfl)
          obtain ⟨W', g1, g2⟩ := goodFX hx ht (src := src) (o := o) (n := n) fs _ (List.mem_of_getElem? hfj) (q.2.1 == 0) m.2 _ (Safe.wfM_mem hwm _ hm).2 (nzM_mem hz _ hm) hm' hW
          exact ⟨_, W', by rw [Val.decVF_get, hfx]; rfl, g1, g2⟩) (fun m hm hun h0 => by
        obtain ⟨name, k1, -, k2⟩ := key_fun x o ((tysX n fs).map (·.1)) (k := m.1) (Safe.wfM_mem hwm _ hm).1
        have hm' := htm m hm o rfl
        rw [Doc.slice_inner (Safe.wfM_mem hwm _ hm).1] at hm' k1
        have hm' := hm' _ name rfl k1
        have k2 := k2.1 hun
        rw [hnm] at k2
        rw [k2] at hm'
        rcases hm' with hm' | hm'
        · rw [h0] at hm'; cases hm'
        · exact hm') (.inr ⟨i, ms, k, Ws, rfl, rfl, hl, hu, hd, h⟩)
      exact ⟨.struct Ws', by simp only [RTy.ty, zeroV]; rw [struct_reads, g]; rfl, hm⟩
theorem goodFX {x : Ext} (hx : FloatContract x) (ht : x.tokFloat64 = x.parseFloat64) {src : Bytes} {o : Options} {n : Nat} : ∀ (fs : List (Bytes × Nat × RTy)), ∀ f ∈ fs, ∀ (z : Bool) (v : JVal) (V : Val),
    Wf src v → noNegZero src v → TameX x src (some o) n f.2.2 z v → Means x src o (f.2.2.ty n) v V →
    ∃ V', decV x src (some o) (f.2.2.ty n) v (zeroV x (f.2.2.ty n)) = .ok V' ∧ Means x src o (f.2.2.ty n) v V'
  | (_, _, t) :: fs, f, hf => by
    rcases List.mem_cons.1 hf with rfl | hf
    · exact goodX hx ht t
    · exact goodFX hx ht fs f hf
end

/-- A document with a meaning is decoded to it. -/
theorem doc_good {x : Ext} (hx : FloatContract x) (ht : x.tokFloat64 = x.parseFloat64) {src : Bytes} {o : Options} {n : Nat} {ty : RTy} {v : JVal} {V : Val} (hw : Wf src v) (hz : noNegZero src v)
    (htm : TameDocX x src (some o) n ty v) (h : Means x src o (ty.ty n) v V) : ∃ V', decV x src (some o) (ty.ty n) v (zeroV x (ty.ty n)) = .ok V' ∧ Means x src o (ty.ty n) v V' := by
  rcases tameDoc_cases htm with htm | ⟨size, fs, i, vs, k, rfl, rfl, htm⟩
  · exact goodX hx ht ty true v V hw hz htm h
  · rcases h with ⟨⟨i, e, hc⟩, -⟩ | ⟨i', vs', k', hv, Ws, rfl, hl, h⟩
    · cases hc
    cases hv
    obtain ⟨V', g1, g2⟩ := slice_dec (f := decV x src (some o) (unroll size fs (n + 1))) (P := Means x src o (unroll size fs (n + 1))) (z := zeroV x (unroll size fs (n + 1))) (vs := vs)
        (unroll size fs (n + 1)).etype.isElemComposite fun w hw' => by
      obtain ⟨j, hj⟩ := List.getElem?_of_mem hw'
      have hlt := (List.getElem?_eq_some_iff.1 hj).1
      exact goodX hx ht (.self size fs) (j == 0) w _ (Safe.wfL_mem hw.2.2.2.2 _ hw') (nzL_mem hz _ hw') (htm j w hj) (h j w (Ws[j]'(by omega)) hj (by simp))
    exact ⟨V', g1, .inr ⟨i, vs, k, rfl, g2⟩⟩

theorem ok_inv {x : Ext} {ty : RTy} {d : Decoder} (hd : InsideDecoder x ty d) {src : Bytes} {v : JVal} {mem : Block} {V : Val} {n : Nat}
    (hm : Dest x (ty.ty n) mem V) {o : Option Options} (ht : TameDocX x src o n ty v) {r : DecodeRes} (hr : decode x d src (.ok v) (some mem) o = some r) (he : r.err = none) :
    ∃ V' mem', decV x src o (ty.ty n) v V = .ok V' ∧ r.errIndex = -1 ∧ r.mem = some mem' ∧ Dest x (ty.ty n) mem' V' := by
  have h := outcome hd hm ht
  cases hc : decV x src o (ty.ty n) v V with
  | ok V' =>
    rw [hc] at h
    obtain ⟨r', m, h1, h2, h3, h4, h5⟩ := h
    rw [hr] at h1; cases h1
    exact ⟨V', m, rfl, h2, h4, h5⟩
  | err i e W =>
    rw [hc] at h
    obtain ⟨V', r', m, h1, h2, h3, h4, h5⟩ := h
    rw [hr] at h1; cases h1
    rw [he] at h3; cases h3
  | crash => rw [hc] at h; rw [h] at hr; cases hr
  | unsup => rw [hc] at h; exact h.elim

theorem returns_ok {x : Ext} {ty : RTy} {d : Decoder} (hd : InsideDecoder x ty d) {src : Bytes} {v : JVal} {mem : Block} {V V' : Val} {n : Nat}
    (hm : Dest x (ty.ty n) mem V) {o : Option Options} (ht : TameDocX x src o n ty v) (h : decV x src o (ty.ty n) v V = .ok V') :
    Returns x (ty.ty n) (decode x d src (.ok v) (some mem) o) (-1) none V' := by
  have := outcome hd hm ht
  rwa [h] at this

theorem returns_inv {x : Ext} {ty : RTy} {d : Decoder} (hd : InsideDecoder x ty d) {src : Bytes} {v : JVal} {mem : Block} {V V' : Val} {n : Nat}
    (hm : Dest x (ty.ty n) mem V) {o : Option Options} (ht : TameDocX x src o n ty v)
    (h : Returns x (ty.ty n) (decode x d src (.ok v) (some mem) o) (-1) none V') : decV x src o (ty.ty n) v V = .ok V' := by
  obtain ⟨r, m, h1, h2, h3, h4, h5⟩ := h
  obtain ⟨W, m', g1, g2, g3, g4⟩ := ok_inv hd hm ht h1 h3
  rw [h4] at g3; cases g3
  rw [g1, Unique.holds_unique _ h5.2 g4.2]

end Verif.Proof.Inside

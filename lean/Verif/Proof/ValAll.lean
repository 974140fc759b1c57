import Verif.Proof.ValMap
/-!
# The reading on memory blocks agrees with the reading on values: all types
-/
namespace Verif.Proof.Val
open Verif.Model Verif.Big Verif.Spec Verif.Proof.Mem

theorem call_rel {x : Ext} {ty : Ty} {n : Nat} (hH : ∀ b off V, Holds x ty b off V ↔ off + n ≤ b.length ∧ V = .user ((b.drop off).take n))
    {b : Block} {off idx : Nat} (hl : off + n ≤ b.length) (r : Block × Option Nat) :
    Rel (fun b' W => Holds x ty b' off W) b off n (callB b off n idx r)
      (match r with | (new, none) => .ok (.user (fit n new)) | (new, some e) => .err idx (.user e) (.user (fit n new))) := by
  have hfl : (fit n r.1).length = n := by simp [fit, zeros_length]
  obtain ⟨b', hb⟩ := (blit_isSome (b := b) (off := off) (s := fit n r.1)).2 (by omega)
  have hfr := frm_blit hb
  rw [hfl] at hfr
  have hval : (b'.drop off).take n = fit n r.1 := by
    apply List.ext_getElem?
    intro j
    simp only [List.getElem?_take, List.getElem?_drop]
    split
    · rw [blit_get_in hb (by omega) (by omega)]; congr 1; omega
    · rw [List.getElem?_eq_none]; omega
  have hh : Holds x ty b' off (.user (fit n r.1)) := (hH _ _ _).2 ⟨by have := hfr.1; omega, by rw [hval]⟩
  unfold callB
  rw [hb]
  obtain ⟨r1, r2⟩ := r
  cases r2 with
  | none => exact ⟨hh, hfr⟩
  | some e => exact ⟨rfl, rfl, hh, hfr⟩

/-- Elements of slices of scalars. -/
theorem elem_corr (x : Ext) (src : Bytes) (k : SKind) :
    Corr (k.bytes x) (fun b off V => off + k.bytes x ≤ b.length ∧ HoldsS k b[off]? V) (elemB x src k)
      (fun v W => actV v.index (zeroS k) none W (elemAct x src k v)) := by
  intro v b off W h
  have hfit : Fits x (.scalar k) (elemAct x src k v) := by
    cases v with
    | null i e => exact ⟨rfl, trivial⟩
    | bool c i e => cases k <;> simp only [elemAct] <;> first | trivial | exact ⟨rfl, fun b off hl hc => ⟨hl, .inr ⟨_, hc, rfl⟩⟩⟩
    | num c i e =>
      cases k with
      | int k =>
        simp only [elemAct]
        split
        · split
          · trivial
          · exact fits_integer x (.scalar (.int k)) _
        · trivial
      | flt k =>
        simp only [elemAct]
        split
        · trivial
        · exact fits_storeFlt (.inl rfl)
      | bool => trivial
      | str => trivial
    | str i e =>
      cases k with
      | str =>
        simp only [elemAct]
        split
        · trivial
        · exact ⟨rfl, fun b off hl hc => ⟨hl, .inr ⟨_, hc, rfl⟩⟩⟩
      | _ => trivial
    | arr i es j => trivial
    | obj i es j => trivial
  have := exec_rel (x := x) (ty := .scalar k) (V := W) (b := b) (off := off) (idx := v.index) (by simpa only [Holds] using h) hfit (.inl (bytes_pos x k))
    (fun t ht => by rw [ht] at hfit; obtain ⟨_, _, _, q⟩ := hfit; cases q) none 0 false none
  simpa only [Holds, Ty.size, zeroV, elemB] using this

theorem hz_holds {x : Ext} {ty : Ty} (h : OK x ty) : ∀ n off, off + ty.size x ≤ n → Holds x ty (zeros n) off (zeroV x ty) := fun _ _ hl => holds_zeros ty h hl

theorem hz_scalar (x : Ext) (k : SKind) : ∀ n off, off + k.bytes x ≤ n → (off + k.bytes x ≤ (zeros n).length ∧ HoldsS k (zeros n)[off]? (zeroS k)) := by
  intro n off h
  have := holds_zeros (x := x) (.scalar k) (n := n) (off := off) trivial h
  simpa only [Holds, zeroV] using this

theorem any_rel {x : Ext} {src : Bytes} {v : JVal} {b : Block} {off : Nat} {V : Val} (h : Holds x .any b off V) :
    Rel (fun b' W => Holds x .any b' off W) b off (2 * x.W) (anyB x src v b off) (anyV x src v V) := by
  have hW := Sim.W_pos x
  unfold anyB anyV
  cases anyOf x src v with
  | none => trivial
  | some r =>
    cases r with
    | error e => exact ⟨rfl, rfl, h, Frm.refl _ _ _⟩
    | ok a =>
      simp only []
      refine store_rel (seg_length _ _) h.1 (fun b' hb => ⟨by have := blit_length hb; have := h.1; omega, .inr ⟨a, ?_, rfl⟩⟩) (fun _ => rfl)
      exact Sim.blit_seg_get (by omega) hb

theorem ensure_rel {x : Ext} {vsz : Nat} {P : Block → Nat → Val → Prop} {b : Block} {off : Nat} {V : Val} (hl : off + x.W ≤ b.length) (h : HoldsMap vsz P b[off]? V) :
    ∃ b1 es, ensureMap x.W b (.at ⟨[], off⟩) = some b1 ∧ b1[off]? = some (.map es) ∧ HoldsEntries vsz P es (mapParts V) ∧ Frm b b1 off x.W := by
  have hW := Sim.W_pos x
  unfold ensureMap
  rcases h with ⟨h1, h2⟩ | ⟨es, Vs, h1, h2, h3⟩
  · subst h2
    obtain ⟨b1, hb1⟩ := (blit_isSome (b := b) (off := off) (s := seg x.W (.map []))).2 (by rw [seg_length]; exact hl)
    have hfb := frm_blit hb1
    rw [seg_length] at hfb
    exact ⟨b1, [], by simp [readCell, getBlock, h1, mapHdr, writeSeg, hb1, putBlock], Sim.blit_seg_get hW hb1, trivial, hfb⟩
  · subst h2
    exact ⟨b, es, by simp [readCell, getBlock, h1, mapHdr], h1, h3, Frm.refl _ _ _⟩

theorem elemsV_take (f : JVal → Val → R Val) : ∀ (vs : List JVal) (es : List Val), elemsV f (vs.take es.length) es = elemsV f vs es
  | [], es => by simp
  | v :: vs, [] => by simp [elemsV]
  | v :: vs, W :: Ws => by
    simp only [List.length_cons, List.take_succ_cons, elemsV, elemsV_take f vs Ws]

mutual
/-- The two readings correspond for every type. -/
theorem dec_rel {x : Ext} {src : Bytes} {o : Option Options} : ∀ (ty : Ty), OK x ty → Corr (ty.size x) (Holds x ty) (dec x src o ty) (decV x src o ty)
  | .jsonU rt n impl, _ => fun v b off V h => by
    obtain ⟨hl, hV⟩ := h
    subst hV
    simp only [dec, decV, jsonB, jsonV, Ty.size]
    cases Model.slice src v.index v.stop with
    | none => trivial
    | some raw =>
      cases innerOK src v with
      | false => trivial
      | true =>
        cases impl with
        | false => trivial
        | true =>
          simp only [if_pos hl]
          exact call_rel (ty := .jsonU rt n true) (n := n) (fun b off V => by simp only [Holds]) hl _
  | .textU rt n impl, _ => fun v b off V h => by
    have h' := h
    obtain ⟨hl, hV⟩ := h
    subst hV
    simp only [dec, decV, Ty.size]
    have hf := fits_leaf x src (.textU rt n impl) v trivial
    simp only [Ty.etype] at hf
    have hns : ∀ n c, leaf x src .textUnmarshaler v ≠ .store n c := by
      intro n c hc
      cases v <;> simp only [leaf] at hc
      all_goals first | (cases hc; done) | (simp only [onNull, onBool] at hc; cases hc; done) | skip
      · rename_i cc _ _
        cases cc <;> simp only [leaf] at hc <;> (split at hc <;> simp [onInteger, onNumber] at hc)
      · split at hc
        · cases hc
        · simp only [onString] at hc; split at hc <;> cases hc
    by_cases ht : ∃ t, leaf x src .textUnmarshaler v = .text t
    · obtain ⟨t, ht⟩ := ht
      rw [ht]
      simp only [execB, actV]
      cases impl with
      | false => trivial
      | true =>
        simp only [textCall, if_pos hl]
        have := call_rel (x := x) (ty := .textU rt n true) (n := n) (fun b off V => by simp only [Holds]) (idx := v.index) hl (x.unmarshalText rt ((b.drop off).take n) t)
        generalize x.unmarshalText rt ((b.drop off).take n) t = r at this ⊢
        obtain ⟨r1, r2⟩ := r
        cases r2 <;> exact this
    · exact exec_rel (ty := .textU rt n impl) h' hf (.inr hns) (fun t hc => ht ⟨t, hc⟩) (some rt) n impl (textCall x rt n impl)
  | .any, hok => fun v b off V h => by
    have hW := Sim.W_pos x
    simp only [dec, decV, Ty.size]
    have hleaf := leaf_rel (src := src) (v := v) hok h (.inl (by simp only [Ty.size]; omega)) (by simp)
    cases v <;> first | exact hleaf | exact any_rel h
  | .number, hok => fun v b off V h => by
    have hW := Sim.W_pos x
    simp only [dec, decV, Ty.size]
    exact leaf_rel (src := src) (v := v) hok h (.inl (by simp only [Ty.size]; omega)) (by simp)
  | .scalar k, hok => fun v b off V h => by
    simp only [dec, decV, Ty.size]
    exact leaf_rel (src := src) (v := v) hok h (.inl (bytes_pos x k)) (by simp)
  | .quoted k, hok => fun v b off V h => by
    simp only [dec, decV, Ty.size]
    exact leaf_rel (src := src) (v := v) hok h (.inl (bytes_pos x k)) (by simp)
  | .array0, hok => fun v b off V h => by
    simp only [dec, decV, Ty.size]
    have hleaf := leaf_rel (src := src) (v := v) hok h (.inr (.inl rfl)) (by simp)
    cases v <;> first | exact hleaf | exact ⟨h, Frm.refl _ _ _⟩
  | .emptyStruct, hok => fun v b off V h => by
    simp only [dec, decV, Ty.size]
    have hleaf := leaf_rel (src := src) (v := v) hok h (.inr (.inr (.inl rfl))) (by simp)
    cases v <;> first | exact hleaf | trivial
  | .array n e, hok => fun v b off V h => by
    simp only [dec, decV, Ty.size]
    have hleaf := leaf_rel (src := src) (v := v) hok h (.inr (.inr (.inr (.inl ⟨n, e, rfl⟩)))) (by simp)
    cases v with
    | arr i vs k =>
      simp only [Holds] at h
      obtain ⟨hl, es, hV, hes, hh⟩ := h
      subst hV
      simp only []
      rw [← hes]
      rw [← hes] at hl
      have hE := elems_rel (loc_holds (x := x) (ty := e) (by simpa only [OK] using hok)) (f := dec x src o e) (g := decV x src o e) (vs.take es.length) es b off
        (by rw [List.length_take]; omega) (fun v _ => dec_rel e (by simpa only [OK] using hok) v) hh hl
      rw [elemsV_take] at hE
      refine hE.mapR (fun b' a ⟨q1, q2⟩ hf => ?_)
      simp only [Holds]
      exact ⟨by rw [hf.1]; omega, a, rfl, by omega, q1⟩
    | null i e => exact hleaf
    | bool c i e => exact hleaf
    | num c i e => exact hleaf
    | str i e => exact hleaf
    | obj i ms e => exact hleaf
  | .slice e, hok => fun v b off V h => by
    have hW := Sim.W_pos x
    simp only [dec, decV, Ty.size]
    have hleaf := leaf_rel (src := src) (v := v) hok h (.inl (by simp only [Ty.size]; omega)) (by simp)
    have hoe : OK x e := by simpa only [OK] using hok
    cases v <;> first | exact hleaf | skip
    simp only [Holds] at h
    have := slice_rel (x := x) (loc_holds hoe) (hz_holds hoe) (dec_rel (src := src) (o := o) e hoe) (cp := e.etype.isElemComposite) (vs := ‹_›) h
    simpa only [Holds] using this
  | .sliceOf k, hok => fun v b off V h => by
    have hW := Sim.W_pos x
    simp only [dec, decV, Ty.size]
    have hleaf := leaf_rel (src := src) (v := v) hok h (.inl (by simp only [Ty.size]; omega)) (by simp)
    cases v <;> first | exact hleaf | skip
    simp only [Holds] at h
    have := sliceOf_rel (x := x) (src := src) (k := k) (loc_scalar x k) (hz_scalar x k) (elem_corr x src k) (vs := ‹_›) h
    simpa only [Holds] using this
  | .sliceES, hok => fun v b off V h => by
    have hW := Sim.W_pos x
    simp only [dec, decV, Ty.size]
    have hleaf := leaf_rel (src := src) (v := v) hok h (.inl (by simp only [Ty.size]; omega)) (by simp)
    cases v <;> first | exact hleaf | skip
    simp only [Holds] at h ⊢
    refine store_rel (seg_length _ _) h.1 (fun b' hb => ⟨by have := blit_length hb; have := h.1; omega, .inr ⟨[], _, _, ?_, rfl, by simp, ?_⟩⟩) (fun _ => rfl)
    · rw [Sim.blit_seg_get (by omega) hb]; simp
    · intro i W hi
      rw [List.append_nil] at hi
      have := List.mem_of_getElem? hi
      exact List.eq_of_mem_replicate this
  | .mapSS, hok => fun v b off V h => by
    have hW := Sim.W_pos x
    simp only [dec, decV, Ty.size]
    have hleaf := leaf_rel (src := src) (v := v) hok h (.inl (by simp only [Ty.size]; omega)) (by simp)
    cases v <;> first | exact hleaf | skip
    rename_i ii ms kk
    simp only []
    rcases mapSS_rel (x := x) (src := src) ms [] [] trivial with ⟨h1, h2⟩ | ⟨i, e, h1, h2⟩ | ⟨es, Vs, h1, h2, h3⟩
    · rw [h1, h2]; trivial
    · rw [h1, h2]; exact ⟨rfl, rfl, h, Frm.refl _ _ _⟩
    · rw [h1, h2]
      simp only [Holds] at h ⊢
      refine store_rel (seg_length _ _) h.1 (fun b' hb => ⟨by have := blit_length hb; have := h.1; omega, .inr ⟨es, Vs, ?_, rfl, h3⟩⟩) (fun _ => rfl)
      exact Sim.blit_seg_get (by omega) hb
  | .map k e, hok => fun v b off V h => by
    have hW := Sim.W_pos x
    simp only [dec, decV, Ty.size]
    have hleaf := leaf_rel (src := src) (v := v) hok h (.inl (by simp only [Ty.size]; omega)) (by simp)
    have hoe : OK x e := by simpa only [OK] using hok
    cases v <;> first | exact hleaf | skip
    rename_i ii ms kk
    simp only [Holds] at h ⊢
    obtain ⟨b1, es, h1, h2, h3, h4⟩ := ensure_rel h.1 h.2
    rw [h1]
    simp only []
    by_cases hk : k = .other ∧ ms ≠ []
    · rw [if_pos hk, if_pos hk]; trivial
    · rw [if_neg hk, if_neg hk]
      have hl1 : off + x.W ≤ b1.length := by have := h4.1; have := h.1; omega
      have hM := map_rel (x := x) (src := src) (loc_holds hoe) (hz_holds hoe) (dec_rel (src := src) (o := o) e hoe) (k := k) (fresh := e.etype == .struct) ms b1 off es _ hl1 h2 h3
      generalize mapB x src (dec x src o e) k (e.size x) (e.etype == .struct) ms b1 off = rb at hM ⊢
      generalize mapV x src (decV x src o e) k (zeroV x e) (e.etype == .struct) ms (mapParts V) = rv at hM ⊢
      cases rb <;> cases rv <;> simp only [Rel, R.map] at hM ⊢
      · obtain ⟨⟨q1, es', q2, q3⟩, q4⟩ := hM
        exact ⟨⟨q1, .inr ⟨es', _, q2, rfl, q3⟩⟩, h4.trans q4⟩
      · obtain ⟨r1, r2, ⟨q1, es', q2, q3⟩, q4⟩ := hM
        exact ⟨r1, r2, ⟨q1, .inr ⟨es', _, q2, rfl, q3⟩⟩, h4.trans q4⟩
  | .struct size fields, hok => fun v b off V h => by
    simp only [dec, decV, Ty.size]
    have hleaf := leaf_rel (src := src) (v := v) hok h (.inr (.inr (.inr (.inr ⟨size, fields, rfl⟩)))) (by simp)
    have hof : OKF x size fields := by simpa only [OK] using hok
    have h' := h
    simp only [Holds] at h
    obtain ⟨hl, Ws, hV, hh⟩ := h
    subst hV
    cases v with
    | obj i ms e =>
      simp only []
      by_cases hms : ms = []
      · rw [if_pos hms, if_pos hms]; exact ⟨h', Frm.refl _ _ _⟩
      · rw [if_neg hms, if_neg hms]
        cases o with
        | none => trivial
        | some o' =>
          have := struct_rel (x := x) (src := src) (o := some o') (o' := o') hof (dec_relF fields hof) ms b off Ws hl hh
          refine this.mapR (fun b' a hp _ => ?_)
          simp only [Holds]
          exact ⟨hp.1, a, rfl, hp.2⟩
    | null i e => exact hleaf
    | bool c i e => exact hleaf
    | num c i e => exact hleaf
    | str i e => exact hleaf
    | arr i ms e => exact hleaf
  | .ptr e, hok => fun v b off V h => by
    have hW := Sim.W_pos x
    simp only [dec, decV, Ty.size]
    have hleaf := leaf_rel (src := src) (v := v) hok h (.inl (by simp only [Ty.size]; omega)) (by simp)
    cases v <;> first | exact hleaf | trivial
theorem dec_relF {x : Ext} {src : Bytes} {o : Option Options} : ∀ (fs : List (Bytes × Nat × Ty)) {size : Nat}, OKF x size fs →
    ∀ (j : Nat) (f : Bytes × Nat × Ty), fs[j]? = some f → Corr (f.2.2.size x) (Holds x f.2.2) (dec x src o f.2.2) (decV x src o f.2.2)
  | [], _, _, j, f, h => by simp at h
  | (n, fo, t) :: fs, size, hok, j, f, h => by
    simp only [OKF] at hok
    cases j with
    | zero => simp at h; subst h; exact dec_rel t hok.2.1
    | succ j => exact dec_relF fs hok.2.2.2 j f (by simpa using h)
end

/-- The two readings of a whole document correspond. -/
theorem decTop_rel {x : Ext} {src : Bytes} {o : Option Options} : ∀ (ty : Ty), OK x ty → Corr (ty.size x) (Holds x ty) (decTop x src o ty) (decTopV x src o ty)
  | .ptr e, hok => fun v b off V h => by
    have hW := Sim.W_pos x
    have hoe : OK x e := by simpa only [OK] using hok
    have hnull := dec_rel (src := src) (o := o) (.ptr e) hok v b off V h
    have hl := holds_len h
    simp only [Ty.size] at hl
    have hmain : Rel (fun b' W' => Holds x (.ptr e) b' off W') b off x.W
        (if tokOK src v = false then .crash else if e.size x = 0 then .unsup else match blit b off (seg x.W (.ptr (zeros (e.size x)))) with
          | none => .crash
          | some b => (decTop x src o e v (zeros (e.size x)) 0).bindB (putIn b off .deref))
        (if tokOK src v = false then .crash else if e.size x = 0 then .unsup else (decTopV x src o e v (zeroV x e)).map .ptr) := by
      by_cases h1 : tokOK src v = false
      · rw [if_pos h1, if_pos h1]; trivial
      rw [if_neg h1, if_neg h1]
      by_cases h2 : e.size x = 0
      · rw [if_pos h2, if_pos h2]; trivial
      rw [if_neg h2, if_neg h2]
      obtain ⟨b1, hb1⟩ := (blit_isSome (b := b) (off := off) (s := seg x.W (.ptr (zeros (e.size x))))).2 (by rw [seg_length]; exact hl)
      have hfb := frm_blit hb1
      rw [seg_length] at hfb
      rw [hb1]
      have hc := Sim.blit_seg_get hW hb1
      have ih := decTop_rel (src := src) (o := o) e hoe v (zeros (e.size x)) 0 _ (holds_zeros e hoe (by omega))
      refine ih.bind (fun a w hp hf => ⟨b1.set off (.ptr a), by simp [putIn, putBlock, hc, ownedBlock, setOwned], ?_, hfb.trans (frm_set hW)⟩)
      simp only [Holds]
      have := hfb.1
      exact ⟨by simp; omega, .inr ⟨a, w, set_get_self (by omega), rfl, by rw [hf.1, zeros_length], hp⟩⟩
    cases v <;> first | exact hmain | exact hnull
  | .emptyStruct, hok => fun v b off V h => by
    have hd := dec_rel (src := src) (o := o) .emptyStruct hok v b off V h
    cases v <;> first | exact hd | exact ⟨h, Frm.refl _ _ _⟩
  | .jsonU _ _ _, hok => dec_rel (o := o) _ hok
  | .textU _ _ _, hok => dec_rel (o := o) _ hok
  | .any, hok => dec_rel (o := o) _ hok
  | .number, hok => dec_rel (o := o) _ hok
  | .scalar _, hok => dec_rel (o := o) _ hok
  | .quoted _, hok => dec_rel (o := o) _ hok
  | .array0, hok => dec_rel (o := o) _ hok
  | .array _ _, hok => dec_rel (o := o) _ hok
  | .slice _, hok => dec_rel (o := o) _ hok
  | .sliceOf _, hok => dec_rel (o := o) _ hok
  | .sliceES, hok => dec_rel (o := o) _ hok
  | .mapSS, hok => dec_rel (o := o) _ hok
  | .map _ _, hok => dec_rel (o := o) _ hok
  | .struct _ _, hok => dec_rel (o := o) _ hok

end Verif.Proof.Val

import Verif.Proof.Right
import Verif.Proof.MeansConv
/-!
# Documents with pointers at the right end: no panics, meanings, and the fragment contains `TameDoc`
-/
namespace Verif.Proof.Right
open Verif.Model Verif.Big Verif.Spec Verif.Proof Verif.Proof.Outcome Verif.Proof.Comp Verif.Props Verif.Proof.Means

/-! ## `TameDoc` is contained -/

theorem butLast_all {α : Type} {P Q : α → Prop} : ∀ {l : List α}, (∀ a ∈ l, P a ∧ Q a) → ButLast P Q l
  | [], _ => trivial
  | [_], h => (h _ List.mem_cons_self).2
  | _ :: _ :: _, h => ⟨(h _ List.mem_cons_self).1, butLast_all fun a ha => h a (List.mem_cons_of_mem _ ha)⟩

mutual
theorem tame_right {x : Ext} {src : Bytes} {o : Option Options} : ∀ (ty : Ty) (p : Place) (v : JVal), Tame x src o ty v → Right x src o ty p v
  | .array n e, p, v, h => by
    cases v <;> simp only [Tame, Right] at h ⊢
    split
    · rename_i hn
      rw [List.take_of_length_le hn] at h
      exact butLast_all fun w hw => ⟨tame_right e _ w (h w hw), tame_right e _ w (h w hw)⟩
    · exact fun w hw => tame_right e _ w (h w hw)
  | .slice e, p, v, h => by
    cases v <;> simp only [Tame, Right] at h ⊢
    exact butLast_all fun w hw => ⟨tame_right e _ w (h w hw), tame_right e _ w (h w hw)⟩
  | .map k e, p, v, h => by
    cases v <;> simp only [Tame, Right] at h ⊢
    exact ⟨h.1, butLast_all fun m hm => ⟨tame_right e _ m.2 (h.2 m hm), tame_right e _ m.2 (h.2 m hm)⟩⟩
  | .struct n fs, p, v, h => by
    cases v <;> simp only [Tame, Right] at h ⊢
    intro o' ho
    refine butLast_all fun m hm => ?_
    have hq : ∀ q, RightM x src o' (fs.map (·.1)) (RightF x src o fs) q m := by
      intro q raw name hr hn
      have := h m hm o' ho raw name hr hn
      cases hf : findField x o' ((fs.map (·.1)).zipIdx) name with
      | none => simpa [hf] using this
      | some j =>
        simp only [hf] at this ⊢
        exact fun R hR => tameF_right fs j q m.2 R hR this
    exact ⟨hq _, hq _⟩
  | .emptyStruct, p, v, h => by
    cases v <;> simp only [Tame, Right] at h ⊢
  | .ptr e, p, v, h => by
    cases v <;> simp only [Tame, Right] at h ⊢
  | .jsonU .., p, v, h => by simp [Right]
  | .textU .., p, v, h => by simp [Right]
  | .any, p, v, h => by simp [Right]
  | .array0, p, v, h => by simp [Right]
  | .sliceOf _, p, v, h => by simp [Right]
  | .sliceES, p, v, h => by simp [Right]
  | .mapSS, p, v, h => by simp [Right]
  | .number, p, v, h => by simp [Right]
  | .scalar _, p, v, h => by simp [Right]
  | .quoted _, p, v, h => by simp [Right]
theorem tameF_right {x : Ext} {src : Bytes} {o : Option Options} : ∀ (fs : List (Bytes × Nat × Ty)) (j : Nat) (p : Place) (v : JVal) (R : Place → JVal → Prop), (RightF x src o fs)[j]? = some R →
    (∀ T, (TameF x src o fs)[j]? = some T → T v) → R p v
  | [], j, p, v, R, hR, h => by simp [RightF] at hR
  | (_, _, t) :: fs, 0, p, v, R, hR, h => by
    simp only [RightF, List.getElem?_cons_zero, Option.some.injEq] at hR
    subst hR
    exact tame_right t p v (h _ (by simp [TameF]))
  | (_, _, t) :: fs, j + 1, p, v, R, hR, h => by
    simp only [RightF, List.getElem?_cons_succ] at hR
    exact tameF_right fs j p v R hR fun T hT => h T (by simpa [TameF] using hT)
end

theorem tameDoc_right {x : Ext} {src : Bytes} {o : Option Options} : ∀ (ty : Ty) (v : JVal), TameDoc x src o ty v → RightDoc x src o ty v
  | .ptr e, v, h => by
    cases v <;> simp only [TameDoc, RightDoc, Right] at h ⊢ <;> exact ⟨h.1, tameDoc_right e _ h.2⟩
  | .emptyStruct, v, _ => by cases v <;> simp [RightDoc, Right]
  | .any, v, h | .number, v, h | .scalar _, v, h | .quoted _, v, h | .jsonU .., v, h | .textU .., v, h | .array0, v, h | .array .., v, h | .slice _, v, h | .sliceOf _, v, h | .sliceES, v, h
  | .mapSS, v, h | .map .., v, h | .struct .., v, h => tame_right _ _ v h

/-! ## No panics -/

theorem structV_safeG {x : Ext} {src : Bytes} {o : Options} {fs : List (Bytes × Nat × Ty)} {D : List (Bytes × (JVal → Val → R Val))} (hD : D.map (·.1) = fs.map (·.1)) :
    ∀ (ms : List ((Nat × Nat) × JVal)) (Ws : List Val), WfM src ms →
      (∀ m ∈ ms, ∀ (j : Nat) f, fs[j]? = some f → ∃ g, D[j]? = some (f.1, g) ∧ ∀ W, Safe.HasTy f.2.2 W → Safe.Safe (Safe.HasTy f.2.2) (g m.2 W)) → Safe.HasTyF fs Ws →
      Safe.Safe (Safe.HasTyF fs) (structV x src o D ms Ws)
  | [], Ws, _, _, h => h
  | ((i, e), v) :: ms, Ws, hw, hf, h => by
    obtain ⟨n, hn⟩ := Safe.keyName_some (o := o) hw.1
    have hn' : (Model.slice src (i + 1) (e - 1)).bind (keyName o) = some n := hn
    simp only [structV, hn', hD]
    cases hj : findField x o ((fs.map (·.1)).zipIdx) n with
    | none =>
      simp only []
      split
      · exact h
      · split
        · trivial
        · exact structV_safeG hD ms Ws hw.2.2 (fun m hm => hf m (List.mem_cons_of_mem _ hm)) h
    | some j =>
      have hlt := Sim.findField_lt hj
      simp only [List.length_map] at hlt
      have hfj : fs[j]? = some fs[j] := List.getElem?_eq_getElem hlt
      obtain ⟨W, hW, hT⟩ := Safe.hasTyF_get h hfj
      obtain ⟨g, hg, h1⟩ := hf _ (List.mem_cons_self ..) j _ hfj
      have h1 := h1 W hT
      simp only [hg, hW]
      simp only [] at h1
      split <;> rename_i hr <;> rw [hr] at h1
      · exact structV_safeG hD ms _ hw.2.2 (fun m hm => hf m (List.mem_cons_of_mem _ hm)) (Safe.hasTyF_set h hfj h1)
      · exact Safe.hasTyF_set h hfj h1
      · exact h1
      · trivial

mutual
theorem decPV_safe {x : Ext} {src : Bytes} {o : Options} : ∀ (ty : Ty) {v : JVal} {V : Val}, Safe.HasTy ty V → Wf src v → ty.callable = true → (ty.noQuotedNum = true ∨ noEmptyStr v = true) →
    Safe.Safe (Safe.HasTy ty) (decPV x src (some o) ty v V)
  | .array n e, v, V, hV, hw, hc, hq => by
    have hl := Safe.leafV_safe (x := x) (ty := .array n e) (by simp) hw hq hV
    obtain ⟨es, rfl, hn, he⟩ := hV
    cases v with
    | arr i vs k =>
      simp only [decPV]
      refine (Safe.elemsV_safe vs es (fun v hv W hW => decPV_safe e hW (Safe.wfL_mem hw.2.2.2.2 v hv) hc (hq.imp (fun h => h) fun h => Safe.noEmptyL_mem h v hv)) he).map ?_
      rintro Ws ⟨h1, h2⟩
      exact ⟨Ws, rfl, h1.trans hn, h2⟩
    | _ => simp only [decPV]; exact hl
  | .slice e, v, V, hV, hw, hc, hq => by
    have hl := Safe.leafV_safe (x := x) (ty := .slice e) (by simp) hw hq hV
    cases v with
    | arr i vs k =>
      simp only [decPV]
      exact Safe.sliceV_safe (P := Safe.HasTy e) (fun v hv W hW => decPV_safe e hW (Safe.wfL_mem hw.2.2.2.2 v hv) hc (hq.imp (fun h => h) fun h => Safe.noEmptyL_mem h v hv)) hV (Safe.zero_typed e)
    | _ => simp only [decPV]; exact hl
  | .map k e, v, V, hV, hw, hc, hq => by
    have hl := Safe.leafV_safe (x := x) (ty := .map k e) (by simp) hw hq hV
    simp only [Ty.callable, Bool.and_eq_true] at hc
    cases v with
    | obj i ms kk =>
      simp only [decPV]
      split
      · trivial
      · rename_i hk
        have hm : ∀ a ∈ mapParts V, Safe.HasTy e a.2 := by
          rcases hV with rfl | ⟨es, rfl, h⟩
          · intro a ha; cases ha
          · exact h
        refine (Safe.mapV_safe (P := Safe.HasTy e) (Safe.zero_typed e) ms _ (fun a ha W hW => decPV_safe e hW (Safe.wfM_mem hw.2.2.2.2 a ha).2 hc.2 ?_) (fun a ha => Safe.key_some (Safe.wfM_mem hw.2.2.2.2 a ha).1 ?_ ?_ ?_) hm).map ?_
        · refine hq.imp (fun h => ?_) (fun h => (Safe.noEmptyM_mem h a ha).2)
          simp only [Ty.noQuotedNum, Bool.and_eq_true] at h; exact h.2
        · rintro rt rfl; simp at hc
        · rintro rfl; exact hk ⟨rfl, List.ne_nil_of_mem ha⟩
        · refine hq.imp (fun h j hj => ?_) (fun h => (Safe.noEmptyM_mem h a ha).1)
          subst hj; simp [Ty.noQuotedNum] at h
        · exact fun m h => .inr ⟨m, rfl, h⟩
    | _ => simp only [decPV]; exact hl
  | .struct n fs, v, V, hV, hw, hc, hq => by
    have hl := Safe.leafV_safe (x := x) (ty := .struct n fs) (by simp) hw hq hV
    obtain ⟨Ws, rfl, hW⟩ := hV
    cases v with
    | obj i ms k =>
      simp only [decPV]
      split
      · exact ⟨Ws, rfl, hW⟩
      · refine (structV_safeG (Val.decPVF_names fs) ms Ws hw.2.2.2.2 (fun m hm j f hf => ⟨decPV x src (some o) f.2.2, by rw [Val.decPVF_get, hf]; rfl, fun W hT => ?_⟩) hW).map fun Ws' h => ⟨Ws', rfl, h⟩
        exact decPVF_safe fs hf hT (Safe.wfM_mem hw.2.2.2.2 m hm).2 (Safe.callableF_get hc hf) (hq.imp (fun h => Safe.noQuotedF_get h hf) fun h => (Safe.noEmptyM_mem h m hm).2)
    | _ => simp only [decPV]; exact hl
  | .emptyStruct, v, V, hV, hw, hc, hq => by
    have hl := Safe.leafV_safe (x := x) (ty := .emptyStruct) (by simp) hw hq hV
    cases v <;> simp only [decPV] <;> first | assumption | exact hV
  | .ptr e, v, V, hV, hw, hc, hq => by
    have hp := (decPV_safe (x := x) (o := o) e (Safe.zero_typed (x := x) e) hw hc hq).map (Q := Safe.HasTy (.ptr e)) fun W h => .inr ⟨W, rfl, h⟩
    cases v <;> first | exact .inl rfl | exact hp
  | .jsonU _ _ _, v, V, hV, hw, hc, hq => Safe.decV_safe (o := o) _ hV hw hc hq
  | .textU _ _ _, v, V, hV, hw, hc, hq => Safe.decV_safe (o := o) _ hV hw hc hq
  | .any, v, V, hV, hw, hc, hq => Safe.decV_safe (o := o) _ hV hw hc hq
  | .array0, v, V, hV, hw, hc, hq => Safe.decV_safe (o := o) _ hV hw hc hq
  | .sliceOf _, v, V, hV, hw, hc, hq => Safe.decV_safe (o := o) _ hV hw hc hq
  | .sliceES, v, V, hV, hw, hc, hq => Safe.decV_safe (o := o) _ hV hw hc hq
  | .mapSS, v, V, hV, hw, hc, hq => Safe.decV_safe (o := o) _ hV hw hc hq
  | .number, v, V, hV, hw, hc, hq => Safe.decV_safe (o := o) _ hV hw hc hq
  | .scalar k, v, V, hV, hw, hc, hq => Safe.decV_safe (o := o) _ hV hw hc hq
  | .quoted k, v, V, hV, hw, hc, hq => Safe.decV_safe (o := o) _ hV hw hc hq
theorem decPVF_safe {x : Ext} {src : Bytes} {o : Options} : ∀ (fs : List (Bytes × Nat × Ty)) {j : Nat} {f : Bytes × Nat × Ty}, fs[j]? = some f → ∀ {v : JVal} {V : Val}, Safe.HasTy f.2.2 V → Wf src v →
    f.2.2.callable = true → (f.2.2.noQuotedNum = true ∨ noEmptyStr v = true) → Safe.Safe (Safe.HasTy f.2.2) (decPV x src (some o) f.2.2 v V)
  | [], j, f, hf, v, V, hV, hw, hc, hq => by simp at hf
  | (_, _, t) :: fs, 0, f, hf, v, V, hV, hw, hc, hq => by
    simp only [List.getElem?_cons_zero, Option.some.injEq] at hf
    subst hf
    exact decPV_safe t hV hw hc hq
  | _ :: fs, j + 1, f, hf, v, V, hV, hw, hc, hq => by
    simp only [List.getElem?_cons_succ] at hf
    exact decPVF_safe fs hf hV hw hc hq
end

/-! ## Meanings -/

/-- A value with a meaning is decoded to it. -/
def GoodP (x : Ext) (src : Bytes) (o : Options) (ty : Ty) : Prop :=
  ∀ p v V, Wf src v → noNegZero src v → Right x src (some o) ty p v → Means x src o ty v V → ∃ V', decPV x src (some o) ty v (zeroV x ty) = .ok V' ∧ Means x src o ty v V'

theorem goodP_flat {x : Ext} (hx : FloatContract x) (ht : x.tokFloat64 = x.parseFloat64) {src : Bytes} {o : Options} {ty : Ty} (hT : ∀ v, Tame x src (some o) ty v)
    (hd : decPV x src (some o) ty = decV x src (some o) ty) : GoodP x src o ty := by
  intro p v V hw hz _ h
  rw [hd]
  exact good hx ht ty v V hw hz (hT v) h

theorem structP_reads {x : Ext} {src : Bytes} {o : Options} {n i k : Nat} {fs : List (Bytes × Nat × Ty)} {ms : List ((Nat × Nat) × JVal)} {Ws : List Val} :
    decPV x src (some o) (.struct n fs) (.obj i ms k) (.struct Ws) = (structV x src o (decPVF x src (some o) fs) ms Ws).map .struct := by
  simp only [decPV]
  split
  · rename_i h; subst h; rfl
  · rfl

mutual
theorem goodP {x : Ext} (hx : FloatContract x) (ht : x.tokFloat64 = x.parseFloat64) {src : Bytes} {o : Options} : ∀ ty, GoodP x src o ty
  | .array n e => fun p v V hw hz hR h => by
    rcases h with ⟨⟨i, e, rfl⟩, rfl⟩ | ⟨i, vs, k, Ws, rfl, rfl, hl, h⟩
    · exact ⟨_, rfl, .inl ⟨⟨i, e, rfl⟩, rfl⟩⟩
    · simp only [Right] at hR
      obtain ⟨Ws', g1, g2, g3⟩ := elems_exist (f := decPV x src (some o) e) (P := Means x src o e) (z := zeroV x e) n vs fun w hw' => by
        obtain ⟨q, hq⟩ : ∃ q, Right x src (some o) e q w := by
          split at hR
          · exact Sim.ButLast.mem (R := fun w => ∃ q, Right x src (some o) e q w) (fun _ h => ⟨_, h⟩) (fun _ h => ⟨_, h⟩) hR w (List.mem_of_mem_take hw')
          · exact ⟨_, hR w hw'⟩
        obtain ⟨j, hj⟩ := List.getElem?_of_mem hw'
        rw [List.getElem?_take] at hj
        split at hj
        · rename_i hjn
          rcases h j (Ws[j]'(by omega)) (by simp) with ⟨w', a, b⟩ | ⟨a, -⟩
          · rw [hj] at a; cases a
            exact goodP hx ht e q w _ (Safe.wfL_mem hw.2.2.2.2 _ (List.mem_of_mem_take hw')) (nzL_mem hz _ (List.mem_of_mem_take hw')) hq b
          · have := (List.getElem?_eq_some_iff.1 hj).1; omega
        · cases hj
      refine ⟨.arr Ws', ?_, .inr ⟨i, vs, k, Ws', rfl, rfl, g2, g3⟩⟩
      simp only [decPV, zeroV, g1, R.map]
  | .slice e => fun p v V hw hz hR h => by
    rcases h with ⟨⟨i, e, rfl⟩, rfl⟩ | ⟨i, vs, k, rfl, Ws, rfl, hl, h⟩
    · exact ⟨_, rfl, .inl ⟨⟨i, e, rfl⟩, rfl⟩⟩
    · simp only [Right] at hR
      obtain ⟨V', g1, g2⟩ := slice_dec (f := decPV x src (some o) e) (P := Means x src o e) (z := zeroV x e) (vs := vs) e.etype.isElemComposite fun w hw' => by
        obtain ⟨q, hq⟩ := Sim.ButLast.mem (R := fun w => ∃ q, Right x src (some o) e q w) (fun _ h => ⟨_, h⟩) (fun _ h => ⟨_, h⟩) hR w hw'
        obtain ⟨j, hj⟩ := List.getElem?_of_mem hw'
        have hlt := (List.getElem?_eq_some_iff.1 hj).1
        exact goodP hx ht e q w _ (Safe.wfL_mem hw.2.2.2.2 _ hw') (nzL_mem hz _ hw') hq (h j w (Ws[j]'(by omega)) hj (by simp))
      exact ⟨V', g1, .inr ⟨i, vs, k, rfl, g2⟩⟩
  | .map kt e => fun p v V hw hz hR h => by
    rcases h with ⟨⟨i, e, rfl⟩, rfl⟩ | ⟨i, ms, k, rfl, h⟩
    · exact ⟨_, rfl, .inl ⟨⟨i, e, rfl⟩, rfl⟩⟩
    · simp only [Right] at hR
      obtain ⟨es, g1, g2⟩ := entries_dec (f := decPV x src (some o) e) (z := zeroV x e) (fresh := e.etype == .struct) hw.2.2.2.2 h
        fun m hm W hW => by
          obtain ⟨q, hq⟩ := Sim.ButLast.mem (R := fun m : (Nat × Nat) × JVal => ∃ q, Right x src (some o) e q m.2) (fun _ h => ⟨_, h⟩) (fun _ h => ⟨_, h⟩) hR.2 m hm
          exact goodP hx ht e q m.2 W (Safe.wfM_mem hw.2.2.2.2 _ hm).2 (nzM_mem hz _ hm) hq hW
      refine ⟨.map es, ?_, .inr ⟨i, ms, k, rfl, g2⟩⟩
      have : ¬ (kt = .other ∧ ms ≠ []) := fun hc => hc.2 (hR.1 hc.1)
      simp only [decPV, if_neg this, zeroV, mapParts, g1, R.map]
  | .struct n fs => fun p v V hw hz hR h => by
    rcases h with ⟨⟨i, e, rfl⟩, rfl⟩ | ⟨i, ms, k, Ws, rfl, rfl, hl, hu, hd, h⟩
    · exact ⟨_, rfl, .inl ⟨⟨i, e, rfl⟩, rfl⟩⟩
    · have hwm := hw.2.2.2.2
      simp only [Right] at hR
      have hR' : ∀ m ∈ ms, ∃ q, RightM x src o (fs.map (·.1)) (RightF x src (some o) fs) q m :=
        Sim.ButLast.mem (R := fun m => ∃ q, RightM x src o (fs.map (·.1)) (RightF x src (some o) fs) q m) (fun _ h => ⟨_, h⟩) (fun _ h => ⟨_, h⟩) (hR o rfl)
      obtain ⟨Ws', g, hm⟩ := struct_good (n := n) (D := decPVF x src (some o) fs) hw (Val.decPVF_names ..) (fun m hm j hj f hf W hW => by
        obtain ⟨name, k1, k2, -⟩ := key_fun x o (fs.map (·.1)) (k := m.1) (Safe.wfM_mem hwm _ hm).1
        have hff := (k2 j).1 hj
        obtain ⟨q, hm'⟩ := hR' m hm
        rw [Doc.slice_inner (Safe.wfM_mem hwm _ hm).1] at k1
        have hm' := hm' _ name (Doc.slice_inner (Safe.wfM_mem hwm _ hm).1) k1
        rw [hff] at hm'
        have hm' := hm' _ (Sim.rightF_get _ _ _ _ _ _ _ _ hf)
        obtain ⟨W', g1, g2⟩ := goodPF hx ht (src := src) (o := o) fs _ (List.mem_of_getElem? hf) q m.2 _ (Safe.wfM_mem hwm _ hm).2 (nzM_mem hz _ hm) hm' hW
        exact ⟨_, W', by rw [Val.decPVF_get, hf]; rfl, g1, g2⟩) (fun m hm hun h0 => by
        obtain ⟨name, k1, -, k2⟩ := key_fun x o (fs.map (·.1)) (k := m.1) (Safe.wfM_mem hwm _ hm).1
        obtain ⟨q, hm'⟩ := hR' m hm
        rw [Doc.slice_inner (Safe.wfM_mem hwm _ hm).1] at k1
        have hm' := hm' _ name (Doc.slice_inner (Safe.wfM_mem hwm _ hm).1) k1
        rw [k2.1 hun] at hm'
        rcases hm' with hm' | hm'
        · rw [h0] at hm'; cases hm'
        · exact hm') (.inr ⟨i, ms, k, Ws, rfl, rfl, hl, hu, hd, h⟩)
      exact ⟨.struct Ws', by simp only [zeroV]; rw [structP_reads, g]; rfl, hm⟩
  | .emptyStruct => fun p v V _ _ _ h => by
    obtain ⟨⟨i, e, rfl⟩ | ⟨i, vs, k, rfl⟩, rfl⟩ := h
    · exact ⟨_, rfl, .inl ⟨i, e, rfl⟩, rfl⟩
    · exact ⟨_, rfl, .inr ⟨i, vs, k, rfl⟩, rfl⟩
  | .ptr e => fun p v V hw hz hR h => by
    rcases h with ⟨⟨i, e, rfl⟩, rfl⟩ | ⟨hn, W, rfl, h⟩
    · exact ⟨_, rfl, .inl ⟨⟨i, e, rfl⟩, rfl⟩⟩
    · have hq : ∃ q, Right x src (some o) e q v := by
        cases v with
        | null i e => exact absurd ⟨i, e, rfl⟩ hn
        | _ => simp only [Right] at hR; cases p <;> first | exact hR.2.elim | exact ⟨_, hR.2⟩
      obtain ⟨q, hq⟩ := hq
      obtain ⟨W', g1, g2⟩ := goodP hx ht e q v W hw hz hq h
      refine ⟨.ptr W', ?_, .inr ⟨hn, W', rfl, g2⟩⟩
      cases v with
      | null i e => exact absurd ⟨i, e, rfl⟩ hn
      | _ => simp only [decPV, g1, R.map]
  | .jsonU _ _ _ => goodP_flat hx ht (fun _ => by simp [Tame]) rfl
  | .textU _ _ _ => goodP_flat hx ht (fun _ => by simp [Tame]) rfl
  | .any => goodP_flat hx ht (fun _ => by simp [Tame]) rfl
  | .array0 => goodP_flat hx ht (fun _ => by simp [Tame]) rfl
  | .sliceOf _ => goodP_flat hx ht (fun _ => by simp [Tame]) rfl
  | .sliceES => goodP_flat hx ht (fun _ => by simp [Tame]) rfl
  | .mapSS => goodP_flat hx ht (fun _ => by simp [Tame]) rfl
  | .number => goodP_flat hx ht (fun _ => by simp [Tame]) rfl
  | .scalar _ => goodP_flat hx ht (fun _ => by simp [Tame]) rfl
  | .quoted _ => goodP_flat hx ht (fun _ => by simp [Tame]) rfl
theorem goodPF {x : Ext} (hx : FloatContract x) (ht : x.tokFloat64 = x.parseFloat64) {src : Bytes} {o : Options} : ∀ (fs : List (Bytes × Nat × Ty)), ∀ f ∈ fs, GoodP x src o f.2.2
  | (_, _, t) :: fs, f, hf => by
    rcases List.mem_cons.1 hf with rfl | hf
    · exact goodP hx ht t
    · exact goodPF hx ht fs f hf
end

/-- What is accepted has a meaning. -/
def SoundP (x : Ext) (src : Bytes) (o : Options) (ty : Ty) : Prop :=
  ∀ v V, Wf src v → noNegZero src v → Exact x ty → Once x src o ty v → decPV x src (some o) ty v (zeroV x ty) = .ok V → Means x src o ty v V

mutual
theorem soundP {x : Ext} (hx : FloatContract x) (ht : x.tokFloat64 = x.parseFloat64) {src : Bytes} {o : Options} : ∀ ty, SoundP x src o ty
  | .emptyStruct => fun v V hw _ _ _ h => by
    cases v with
    | obj i vs k => cases h; exact ⟨.inr ⟨i, vs, k, rfl⟩, rfl⟩
    | _ =>
      have hn := leaf_wrong hw trivial h
      obtain ⟨i, e, hn⟩ := hn
      rw [hn] at h ⊢
      cases h
      exact ⟨.inl ⟨i, e, rfl⟩, rfl⟩
  | .array n e => fun v V hw hz he ho h => by
    cases v with
    | arr i vs k =>
      simp only [decPV, zeroV] at h
      obtain ⟨Ws, g1, rfl⟩ := map_ok_iff.1 h
      obtain ⟨g2, g3⟩ := elemsV_inv (P := Means x src o e) (fun w hm W hW =>
        soundP hx ht e w W (Safe.wfL_mem hw.2.2.2.2 _ (List.mem_of_mem_take hm)) (nzL_mem hz _ (List.mem_of_mem_take hm)) he (ho i vs k rfl w hm) hW) g1
      exact .inr ⟨i, vs, k, Ws, rfl, rfl, g2, g3⟩
    | _ =>
      have hn := leaf_wrong hw trivial h
      obtain ⟨i, e, hn⟩ := hn
      rw [hn] at h ⊢
      cases h
      exact .inl ⟨⟨i, e, rfl⟩, rfl⟩
  | .slice e => fun v V hw hz he ho h => by
    cases v with
    | arr i vs k =>
      exact .inr ⟨i, vs, k, rfl, slice_inv (fun w hm W hW => soundP hx ht e w W (Safe.wfL_mem hw.2.2.2.2 _ hm) (nzL_mem hz _ hm) he (ho i vs k rfl w hm) hW) h⟩
    | _ =>
      have hn := leaf_wrong hw trivial h
      obtain ⟨i, e, hn⟩ := hn
      rw [hn] at h ⊢
      cases h
      exact .inl ⟨⟨i, e, rfl⟩, rfl⟩
  | .map kt e => fun v V hw hz he ho h => by
    cases v with
    | obj i ms k =>
      simp only [decPV] at h
      split at h
      · cases h
      · obtain ⟨es, g1, rfl⟩ := map_ok_iff.1 h
        exact .inr ⟨i, ms, k, rfl, entries_inv he.1 hw.2.2.2.2
          (fun m hm W hW => soundP hx ht e m.2 W (Safe.wfM_mem hw.2.2.2.2 _ hm).2 (nzM_mem hz _ hm) he.2 ((ho i ms k rfl).1 m hm) hW) (ho i ms k rfl).2 g1⟩
    | _ =>
      have hn := leaf_wrong hw trivial h
      obtain ⟨i, e, hn⟩ := hn
      rw [hn] at h ⊢
      cases h
      exact .inl ⟨⟨i, e, rfl⟩, rfl⟩
  | .struct n fs => fun v V hw hz he ho h => by
    cases v with
    | obj i ms k =>
      have hwm := hw.2.2.2.2
      simp only [zeroV] at h
      rw [structP_reads] at h
      obtain ⟨Ws', g, rfl⟩ := map_ok_iff.1 h
      refine struct_sound hw (Val.decPVF_names fs) (fun m hm j hs f hf => ⟨decPV x src (some o) f.2.2, by rw [Val.decPVF_get, hf]; rfl, fun W e2 => ?_⟩) (ho i ms k rfl).2 g
      refine soundPF hx ht fs f (List.mem_of_getElem? hf) m.2 W (Safe.wfM_mem hwm _ hm).2 (nzM_mem hz _ hm) (exactF_mem he f (List.mem_of_getElem? hf)) ?_ e2
      exact (ho i ms k rfl).1 m hm j _ hs (by rw [onceF_get, hf]; rfl)
    | _ =>
      have hn := leaf_wrong hw trivial h
      obtain ⟨i, e, hn⟩ := hn
      rw [hn] at h ⊢
      cases h
      exact .inl ⟨⟨i, e, rfl⟩, rfl⟩
  | .ptr e => fun v V hw hz he ho h => by
    by_cases hnull : ∃ i k, v = .null i k
    · obtain ⟨i, k, rfl⟩ := hnull; cases h; exact .inl ⟨⟨i, k, rfl⟩, rfl⟩
    · have h' : (decPV x src (some o) e v (zeroV x e)).map Val.ptr = .ok V := by
        cases v with
        | null i e => exact absurd ⟨i, e, rfl⟩ hnull
        | _ => exact h
      obtain ⟨W1, g1, rfl⟩ := map_ok_iff.1 h'
      exact .inr ⟨hnull, W1, rfl, soundP hx ht e v W1 hw hz he ho g1⟩
  | .jsonU rt n i => fun v V hw hz he ho h => sound hx ht (.jsonU rt n i) v V hw hz he ho h
  | .textU rt n i => fun v V hw hz he ho h => sound hx ht (.textU rt n i) v V hw hz he ho h
  | .any => fun v V hw hz he ho h => sound hx ht .any v V hw hz he ho h
  | .array0 => fun v V hw hz he ho h => sound hx ht .array0 v V hw hz he ho h
  | .sliceOf k => fun v V hw hz he ho h => sound hx ht (.sliceOf k) v V hw hz he ho h
  | .sliceES => fun v V hw hz he ho h => sound hx ht .sliceES v V hw hz he ho h
  | .mapSS => fun v V hw hz he ho h => sound hx ht .mapSS v V hw hz he ho h
  | .number => fun v V hw hz he ho h => sound hx ht .number v V hw hz he ho h
  | .scalar k => fun v V hw hz he ho h => sound hx ht (.scalar k) v V hw hz he ho h
  | .quoted k => fun v V hw hz he ho h => sound hx ht (.quoted k) v V hw hz he ho h
theorem soundPF {x : Ext} (hx : FloatContract x) (ht : x.tokFloat64 = x.parseFloat64) {src : Bytes} {o : Options} : ∀ (fs : List (Bytes × Nat × Ty)), ∀ f ∈ fs, SoundP x src o f.2.2
  | (_, _, t) :: fs, f, hf => by
    rcases List.mem_cons.1 hf with rfl | hf
    · exact soundP hx ht t
    · exact soundPF hx ht fs f hf
end

end Verif.Proof.Right

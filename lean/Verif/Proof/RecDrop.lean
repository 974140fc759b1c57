import Verif.Proof.Drop
import Verif.Proof.RecVal
/-!
# Removing unknown members changes nothing: pointers inside values and recursive struct types
-/
namespace Verif.Proof.Drop
open Verif.Model Verif.Big Verif.Spec Verif.Proof Verif.Proof.Outcome Verif.Proof.Safe Verif.Proof.Typed

/-- The outcomes agree, or the first one is outside the fragment. -/
def Un {α : Type} (r s : R α) : Prop := r = .unsup ∨ r = s

theorem un_refl {α : Type} (r : R α) : Un r r := .inr rfl

theorem un_map {α β : Type} {r s : R α} (f : α → β) (h : Un r s) : Un (r.map f) (s.map f) := by
  rcases h with rfl | rfl
  · exact .inl rfl
  · exact .inr rfl

theorem elems_un {f : JVal → Val → R Val} {P : JVal → JVal → Prop} {T : Val → Prop} : ∀ (vs ws : List JVal) (Ws : List Val), Pairs P vs ws → (∀ v ∈ vs, ∀ w, P v w → ∀ W, T W → Un (f v W) (f w W)) →
    (∀ W ∈ Ws, T W) → Un (elemsV f vs Ws) (elemsV f ws Ws)
  | [], _, Ws, h, _, _ => by cases (h : _ = _); exact un_refl _
  | v :: vs, _, [], ⟨w, ws, rfl, h1, h2⟩, h, _ => un_refl _
  | v :: vs, _, W :: Ws, ⟨w, ws, rfl, h1, h2⟩, h, hT => by
    have ih := elems_un vs ws Ws h2 (fun v hv => h v (List.mem_cons_of_mem _ hv)) fun W hW => hT W (List.mem_cons_of_mem _ hW)
    simp only [elemsV]
    rcases h v List.mem_cons_self w h1 W (hT W List.mem_cons_self) with hv | hv
    · rw [hv]; exact .inl rfl
    · rw [hv]
      cases f w W with
      | ok a => exact un_map _ ih
      | _ => exact un_refl _

theorem slice_un {f : JVal → Val → R Val} {P : JVal → JVal → Prop} {T : Val → Prop} {z : Val} {c : Bool} {vs ws : List JVal} {V : Val} (h : Pairs P vs ws)
    (hf : ∀ v ∈ vs, ∀ w, P v w → ∀ W, T W → Un (f v W) (f w W)) (hV : SliceP T V) (hz : T z) : Un (sliceV f z c vs V) (sliceV f z c ws V) := by
  unfold sliceV
  by_cases hn : vs = []
  · have := (pairs_nil h).1 hn; subst hn; subst this; exact un_refl _
  · have hn' : ws ≠ [] := fun h' => hn ((pairs_nil h).2 h')
    have hT := prepSlice_P (c := c) (n := vs.length) hV hz
    simp only [hn, hn', if_false, ← pairs_len h]
    exact un_map _ (elems_un (T := T) vs ws _ h hf fun W hW => hT W (List.mem_append_left _ hW))

theorem map_un {x : Ext} {src : Bytes} {f : JVal → Val → R Val} {P : JVal → JVal → Prop} {T : Val → Prop} {k : KeyTy} {z : Val} {fresh : Bool} (hz : T z) :
    ∀ (ms ms' : List ((Nat × Nat) × JVal)) (m : List (Key × Val)), Pairs (fun a b => a.1 = b.1 ∧ P a.2 b.2) ms ms' → (∀ m ∈ ms, ∀ w, P m.2 w → ∀ W, T W → Un (f m.2 W) (f w W)) →
      (∀ m ∈ ms, ∀ W, T W → Keeps T (f m.2 W)) → (∀ e ∈ m, T e.2) → Un (mapV x src f k z fresh ms m) (mapV x src f k z fresh ms' m)
  | [], _, m, h, _, _, _ => by cases (h : _ = _); exact un_refl _
  | ((i, e), v) :: ms, _, m, ⟨((i', e'), w), ms', rfl, ⟨h1, h1'⟩, h2⟩, h, hk, hm => by
    cases h1
    have hf := h _ List.mem_cons_self w h1'
    have hk' := hk _ List.mem_cons_self
    simp only [] at hf hk'
    simp only [mapV]
    cases hkey : (Model.slice src (i + 1) (e - 1)).bind fun key => k.key x key with
    | none => exact un_refl _
    | some r =>
      cases r with
      | error er => exact un_refl _
      | ok k' =>
        have ho : T (if fresh = true then z else (lookupV k' m).getD z) := by
          cases fresh
          · exact lookupV_P hz hm
          · exact hz
        have hkeep := hk' _ ho
        simp only
        rcases hf _ ho with hv | hv
        · rw [hv]; exact .inl rfl
        · rw [← hv]
          cases hr : f v (if fresh = true then z else (lookupV k' m).getD z) with
          | ok W =>
            rw [hr] at hkeep
            exact map_un hz ms ms' _ h2 (fun m hm => h m (List.mem_cons_of_mem _ hm)) (fun m hm => hk m (List.mem_cons_of_mem _ hm)) (assignV_P hkeep hm)
          | _ => exact un_refl _

theorem struct_un {x : Ext} {src : Bytes} {o : Options} (ho : o.disallowUnknownFields = false) {fs : List (Bytes × Nat × Ty)} :
    ∀ (ms ms' : List ((Nat × Nat) × JVal)) (Ws : List Val), WfM src ms → HasTyF fs Ws → DropMembers x src o (fs.map (·.1)) (WithoutF x src o fs) ms ms' →
      (∀ m ∈ ms, ∀ (j : Nat) f, fs[j]? = some f → ∀ w, Without x src o f.2.2 m.2 w →
        ∀ W, HasTy f.2.2 W → Un (decV x src (some o) f.2.2 m.2 W) (decV x src (some o) f.2.2 w W)) →
      Un (structV x src o (decVF x src (some o) fs) ms Ws) (structV x src o (decVF x src (some o) fs) ms' Ws)
  | [], _, Ws, _, _, h, _ => by cases (h : _ = _); exact un_refl _
  | ((i, e), v) :: ms, ms', Ws, hw, hT, h, hf => by
    have ih := fun ms'' Ws' hT h => struct_un ho ms ms'' Ws' hw.2.2 hT h (fun m hm => hf m (List.mem_cons_of_mem _ hm))
    rcases h with ⟨hk, h⟩ | ⟨w, ms'', rfl, hv, h⟩
    · obtain ⟨name, g1, g2⟩ := key_unknown (o := o) (k := (i, e)) hw.1 hk
      simp only [] at g1
      have hl : structV x src o (decVF x src (some o) fs) (((i, e), v) :: ms) Ws = if hasObj v = true then .unsup else structV x src o (decVF x src (some o) fs) ms Ws := by
        simp only [structV, g1, Val.decVF_names, g2, ho, Bool.false_eq_true, if_false]
      rw [hl]
      cases hasObj v
      · exact ih _ _ hT h
      · exact .inl rfl
    · have hc := key_cases (x := x) (o := o) (names := fs.map (·.1)) (k := (i, e)) hw.1
      rcases hc.symm with hk | ⟨j, hs⟩
      · have hvw : v = w := by
          rcases hv with hv | ⟨j, Q, hs, -⟩
          · exact hv
          · obtain ⟨n1, a1, a2⟩ := hk
            obtain ⟨n2, b1, b2⟩ := hs
            cases keyIs_unique a1 b1
            exact absurd b2 (a2 j)
        subst hvw
        obtain ⟨name, g1, g2⟩ := key_unknown (o := o) (k := (i, e)) hw.1 hk
        simp only [] at g1
        have hl : ∀ ms, structV x src o (decVF x src (some o) fs) (((i, e), v) :: ms) Ws = if hasObj v = true then .unsup else structV x src o (decVF x src (some o) fs) ms Ws := by
          intro ms
          simp only [structV, g1, Val.decVF_names, g2, ho, Bool.false_eq_true, if_false]
        rw [hl, hl]
        cases hasObj v
        · exact ih _ _ hT h
        · exact .inl rfl
      · obtain ⟨name, g1, g2⟩ := key_selects (o := o) (k := (i, e)) hw.1 hs
        simp only [] at g1
        simp only [structV, g1, Val.decVF_names, g2, Val.decVF_get]
        cases hfj : fs[j]? with
        | none => exact un_refl _
        | some f =>
          obtain ⟨W, hW, hWT⟩ := hasTyF_get hT hfj
          have hd : Un (decV x src (some o) f.2.2 v W) (decV x src (some o) f.2.2 w W) := by
            rcases hv with hv | ⟨j', Q, hs', hQ, hq⟩
            · simp only [] at hv; rw [hv]; exact un_refl _
            · obtain ⟨name', g1', g2'⟩ := key_selects (o := o) (k := (i, e)) hw.1 hs'
              simp only [g1, Option.some.injEq] at g1'
              subst g1'
              rw [g2] at g2'
              cases g2'
              rw [withoutF_get, hfj] at hQ
              simp only [Option.map_some, Option.some.injEq] at hQ
              subst hQ
              exact hf _ List.mem_cons_self j f hfj w hq W hWT
          have hkeep := decV_keeps (x := x) (src := src) (o := some o) f.2.2 (v := v) hWT
          simp only [Option.map_some, hW]
          rcases hd with hd | hd
          · rw [hd]; exact .inl rfl
          · rw [← hd]
            cases hr : decV x src (some o) f.2.2 v W with
            | ok W' =>
              rw [hr] at hkeep
              exact ih _ _ (hasTyF_set hT hfj hkeep) h
            | _ => exact un_refl _

mutual
theorem dec_un {x : Ext} {src : Bytes} {o : Options} (ho : o.disallowUnknownFields = false) : ∀ (ty : Ty) {v w : JVal}, Wf src v → Without x src o ty v w →
    ∀ V, HasTy ty V → Un (decV x src (some o) ty v V) (decV x src (some o) ty w V)
  | .array n e, v, w, hw, h, V, hV => by
    rcases h with rfl | ⟨i, vs, ws, k, rfl, rfl, h⟩
    · exact un_refl _
    · obtain ⟨es, rfl, hn, he⟩ := hV
      simp only [decV]
      exact un_map _ (elems_un (T := HasTy e) vs ws es h (fun v hv w hvw W hW => dec_un ho e (wfL_mem hw.2.2.2.2 v hv) hvw W hW) he)
  | .slice e, v, w, hw, h, V, hV => by
    rcases h with rfl | ⟨i, vs, ws, k, rfl, rfl, h⟩
    · exact un_refl _
    · simp only [decV]
      exact slice_un (T := HasTy e) h (fun v hv w hvw W hW => dec_un ho e (wfL_mem hw.2.2.2.2 v hv) hvw W hW) hV (zero_typed e)
  | .map kt e, v, w, hw, h, V, hV => by
    rcases h with rfl | ⟨i, ms, ms', k, rfl, rfl, h⟩
    · exact un_refl _
    · have hm : ∀ a ∈ mapParts V, HasTy e a.2 := by
        rcases hV with rfl | ⟨es, rfl, h⟩
        · intro a ha; cases ha
        · exact h
      simp only [decV, ne_eq, pairs_nil h]
      by_cases hc : kt = .other ∧ ¬ ms' = []
      · exact .inl (if_pos hc)
      · rw [if_neg hc, if_neg hc]
        exact un_map _ (map_un (T := HasTy e) (zero_typed e) ms ms' _ h (fun m hm w hvw W hW => dec_un ho e (wfM_mem hw.2.2.2.2 m hm).2 hvw W hW) (fun m _ W hW => decV_keeps e hW) hm)
  | .struct n fs, v, w, hw, h, V, hV => by
    rcases h with rfl | ⟨i, ms, ms', k, rfl, rfl, h⟩
    · exact un_refl _
    · obtain ⟨Ws, rfl, hW⟩ := hV
      have := struct_un ho ms ms' Ws hw.2.2.2.2 hW h fun m hm j f hf w hvw W hW => decF_un ho fs hf (wfM_mem hw.2.2.2.2 m hm).2 hvw W hW
      have hm : ∀ ms : List ((Nat × Nat) × JVal), decV x src (some o) (.struct n fs) (.obj i ms k) (.struct Ws) = (structV x src o (decVF x src (some o) fs) ms Ws).map .struct := by
        intro ms
        cases ms <;> rfl
      rw [hm, hm]
      exact un_map _ this
  | .ptr e, v, w, hw, h, V, hV => by
    by_cases hn : ∃ i j, v = .null i j
    · obtain ⟨i, j, rfl⟩ := hn
      rw [without_null e h]; exact un_refl _
    · have hn' : ∀ i j, v ≠ .null i j := fun i j hv => hn ⟨i, j, hv⟩
      have hn2 : ∀ i j, w ≠ .null i j := fun i j hv => hn' i j ((without_kind e h).1 i j hv)
      rw [dec_ptr hn', dec_ptr hn2]
      exact un_map _ (dec_un ho e hw h _ (pointee_typed hV))
  | .any, v, w, hw, h, V, hV => by cases (h : _ = _); exact un_refl _
  | .number, v, w, hw, h, V, hV => by cases (h : _ = _); exact un_refl _
  | .scalar k, v, w, hw, h, V, hV => by cases (h : _ = _); exact un_refl _
  | .quoted k, v, w, hw, h, V, hV => by cases (h : _ = _); exact un_refl _
  | .jsonU a b c, v, w, hw, h, V, hV => by cases (h : _ = _); exact un_refl _
  | .textU a b c, v, w, hw, h, V, hV => by cases (h : _ = _); exact un_refl _
  | .array0, v, w, hw, h, V, hV => by cases (h : _ = _); exact un_refl _
  | .sliceOf k, v, w, hw, h, V, hV => by cases (h : _ = _); exact un_refl _
  | .sliceES, v, w, hw, h, V, hV => by cases (h : _ = _); exact un_refl _
  | .mapSS, v, w, hw, h, V, hV => by cases (h : _ = _); exact un_refl _
  | .emptyStruct, v, w, hw, h, V, hV => by cases (h : _ = _); exact un_refl _
theorem decF_un {x : Ext} {src : Bytes} {o : Options} (ho : o.disallowUnknownFields = false) : ∀ (fs : List (Bytes × Nat × Ty)) {j : Nat} {f : Bytes × Nat × Ty}, fs[j]? = some f → ∀ {v w : JVal}, Wf src v →
    Without x src o f.2.2 v w → ∀ V, HasTy f.2.2 V → Un (decV x src (some o) f.2.2 v V) (decV x src (some o) f.2.2 w V)
  | [], j, f, hf, _, _, _, _, _, _ => by simp at hf
  | (_, _, t) :: fs, 0, f, hf, v, w, hw, h, V, hV => by
    simp only [List.getElem?_cons_zero, Option.some.injEq] at hf
    subst hf
    exact dec_un ho t hw h V hV
  | _ :: fs, j + 1, f, hf, v, w, hw, h, V, hV => by
    simp only [List.getElem?_cons_succ] at hf
    exact decF_un ho fs hf hw h V hV
end

/-! ## What is left is within the fragment for recursive types -/

/-- Members that are left stem from members; the last one from the last one, if that is the last of a known key. -/
theorem drop_at {x : Ext} {src : Bytes} {o : Options} {fs : List (Bytes × Nat × Ty)} : ∀ {ms ms' : List ((Nat × Nat) × JVal)}, DropMembers x src o (fs.map (·.1)) (WithoutF x src o fs) ms ms' →
    ∀ (a' : Nat) m', ms'[a']? = some m' → ∃ (a : Nat) (m : (Nat × Nat) × JVal), ms[a]? = some m ∧ m.1 = m'.1 ∧ (a + 1 = ms.length → a' + 1 = ms'.length) ∧
      (m.2 = m'.2 ∨ ∃ (j : Nat) (f : Bytes × Nat × Ty), KeySelects x src o (fs.map (·.1)) m.1 j ∧ fs[j]? = some f ∧ Without x src o f.2.2 m.2 m'.2)
  | [], _, h, a', m', hm' => by cases (h : _ = _); simp at hm'
  | m :: ms, ms', h, a', m', hm' => by
    rcases h with ⟨-, h⟩ | ⟨w, ms'', rfl, hv, h⟩
    · obtain ⟨a, m1, h1, h2, h3, h4⟩ := drop_at h a' m' hm'
      exact ⟨a + 1, m1, h1, h2, fun hl => h3 (by simp only [List.length_cons] at hl; omega), h4⟩
    · cases a' with
      | zero =>
        simp only [List.getElem?_cons_zero, Option.some.injEq] at hm'
        subst hm'
        refine ⟨0, m, rfl, rfl, fun hl => ?_, ?_⟩
        · have : ms = [] := List.eq_nil_of_length_eq_zero (by simp only [List.length_cons] at hl; omega)
          subst this
          cases (h : _ = _); rfl
        rcases hv with hv | ⟨j, Q, hs, hQ, hq⟩
        · exact .inl hv
        · rw [withoutF_get] at hQ
          cases hfj : fs[j]? with
          | none => rw [hfj] at hQ; cases hQ
          | some f =>
            rw [hfj] at hQ
            simp only [Option.map_some, Option.some.injEq] at hQ
            subst hQ
            exact .inr ⟨j, f, hs, hfj, hq⟩
      | succ a' =>
        simp only [List.getElem?_cons_succ] at hm'
        obtain ⟨a, m1, h1, h2, h3, h4⟩ := drop_at h a' m' hm'
        exact ⟨a + 1, m1, h1, h2, (fun hl => by simp only [List.length_cons] at hl ⊢; have := h3 (by omega); omega), h4⟩

theorem pairs_at {α : Type} {P : α → α → Prop} : ∀ {as bs : List α}, Pairs P as bs → ∀ (j : Nat) b, bs[j]? = some b → ∃ a, as[j]? = some a ∧ P a b
  | [], _, h, j, b, hb => by cases (h : _ = _); simp at hb
  | a :: as, _, ⟨b', bs', rfl, h1, h⟩, 0, b, hb => by
    simp only [List.getElem?_cons_zero, Option.some.injEq] at hb
    subst hb; exact ⟨a, rfl, h1⟩
  | a :: as, _, ⟨b', bs', rfl, h1, h⟩, j + 1, b, hb => pairs_at h j b hb

theorem field_without {x : Ext} {src : Bytes} {o : Options} {sub : Bool → Bool → JVal → Prop} {e : Ty} (hsub : ∀ a b v w, Wf src v → sub a b v → Without x src o e v w → sub a b w)
    (hobj : ∀ v i ms k, Without x src o e v (.obj i ms k) → ∃ i ms k, v = .obj i ms k) {here top : Bool} : ∀ (rf : RField) {v w : JVal}, Wf src v →
    TameField x src (some o) sub here top rf v → Without x src o (rf.ty e) v w → TameField x src (some o) sub here top rf w ∧ (enters rf w → enters rf v)
  | .plain t, v, w, hw, ht, h => ⟨without_tame t hw ht h, fun h' => by cases w <;> exact h'.elim⟩
  | .ptr, v, w, hw, ht, h => by
    constructor
    · rintro i ms k rfl
      obtain ⟨i', ms', k', rfl⟩ := hobj v _ _ _ h
      exact hsub _ _ _ _ hw (ht _ _ _ rfl) h
    · intro he
      cases w <;> first | exact he.elim | skip
      obtain ⟨i', ms', k', rfl⟩ := hobj v _ _ _ h
      trivial
  | .slice, v, w, hw, ht, h => by
    rcases h with rfl | ⟨i, vs, ws, k, rfl, rfl, h⟩
    · exact ⟨ht, id⟩
    refine ⟨?_, fun he hn => he ((pairs_nil h).1 hn)⟩
    rintro _ _ _ ⟨⟩ j w' hj
    obtain ⟨v', h1, h2⟩ := pairs_at h j w' hj
    obtain ⟨h3, h4⟩ := ht _ _ _ rfl j v' h1
    refine ⟨?_, hsub _ _ _ _ (wfL_mem hw.2.2.2.2 v' (List.mem_of_getElem? h1)) h4 h2⟩
    rintro ⟨a, b, rfl⟩
    exact h3 ⟨a, b, (without_kind e h2).1 a b rfl⟩
  | .map k, v, w, hw, ht, h => by
    rcases h with rfl | ⟨i, ms, ms', z, rfl, rfl, h⟩
    · exact ⟨ht, id⟩
    refine ⟨?_, fun _ => trivial⟩
    rintro _ _ _ ⟨⟩
    obtain ⟨t1, t2, t3, t4, t5⟩ := ht _ _ _ rfl
    refine ⟨t1, t2, t3, fun hn => t4 ((pairs_nil h).2 hn), fun m' hm' => ?_⟩
    obtain ⟨m, h1, -, h2⟩ := pairs_mem h m' hm'
    obtain ⟨h3, h4⟩ := t5 m h1
    refine ⟨?_, hsub _ _ _ _ (wfM_mem hw.2.2.2.2 m h1).2 h4 h2⟩
    rintro ⟨a, b, hab⟩
    exact h3 ⟨a, b, (without_kind e h2).1 a b hab⟩

theorem unroll_obj {x : Ext} {src : Bytes} {o : Options} {size : Nat} {fs : RFields} : ∀ n {v i ms k}, Without x src o (unroll size fs n) v (.obj i ms k) → ∃ i ms k, v = .obj i ms k
  | 0, v, _, _, _, h => ⟨_, _, _, h⟩
  | n + 1, v, i, ms, k, h => by
    rcases h with rfl | ⟨_, _, _, _, rfl, -, -⟩ <;> exact ⟨_, _, _, rfl⟩

theorem without_tameR {x : Ext} {src : Bytes} {o : Options} {size : Nat} {fs : RFields} : ∀ (n : Nat) (here top : Bool) (v w : JVal), Wf src v → TameR x src (some o) fs n here top v →
    Without x src o (unroll size fs (n + 1)) v w → TameR x src (some o) fs n here top w
  | 0, _, _, _, _, _, ht, _ => ht.elim
  | n + 1, here, top, v, w, hw, ht, h => by
    rcases h with rfl | ⟨i, ms, ms', k, rfl, rfl, h⟩
    · exact ht
    rintro _ _ _ ⟨⟩ a' m' ha' o' ho' raw name hraw hname
    cases ho'
    obtain ⟨a, m, h1, h2, h3, h4⟩ := drop_at h a' m' ha'
    have hm := ht i ms k rfl a m h1 o rfl raw name (h2 ▸ hraw) hname
    rcases h4 with h4 | ⟨j, f, hs, hf, h4⟩
    · rw [← h4]
      split
      · rename_i j hj
        rw [hj] at hm
        intro f hf
        exact ⟨(hm f hf).1, fun p q => h3 ((hm f hf).2 p q)⟩
      · rename_i hj
        rw [hj] at hm
        exact hm
    · have hmem := List.mem_of_getElem? h1
      obtain ⟨name', g1, g2⟩ := key_selects (wfM_mem hw.2.2.2.2 m hmem).1 hs
      rw [h2, hraw, Option.bind_some, hname] at g1
      cases g1
      rw [Val.tyF_names] at g2
      rw [g2] at hm ⊢
      intro f' hf'
      rw [Val.tyF_get, hf'] at hf
      simp only [Option.map_some, Option.some.injEq] at hf
      subst hf
      obtain ⟨p1, p2⟩ := hm f' hf'
      obtain ⟨q1, q2⟩ := field_without (e := unroll size fs (n + 1)) (fun a b v w => without_tameR n a b v w) (fun v i ms k => unroll_obj (n + 1)) f'.2.2 (wfM_mem hw.2.2.2.2 m hmem).2 p1 h4
      exact ⟨q1, fun p q => h3 (p2 p (q2 q))⟩

end Verif.Proof.Drop

import Verif.Spec.Drop
import Verif.Proof.Unknown
/-!
# Removing unknown members changes nothing
-/
namespace Verif.Proof.Drop
open Verif.Model Verif.Big Verif.Spec Verif.Proof Verif.Proof.Outcome Verif.Proof.Safe Verif.Proof.Typed

theorem withoutF_get {x : Ext} {src : Bytes} {o : Options} : ∀ (fs : List (Bytes × Nat × Ty)) (j : Nat), (WithoutF x src o fs)[j]? = fs[j]?.map fun f => Without x src o f.2.2
  | [], j => by simp [WithoutF]
  | (a, b, t) :: fs, 0 => by simp [WithoutF]
  | (a, b, t) :: fs, j + 1 => by simp only [WithoutF, List.getElem?_cons_succ]; exact withoutF_get fs j

theorem without_refl {x : Ext} {src : Bytes} {o : Options} {v : JVal} : ∀ (ty : Ty), Without x src o ty v v
  | .array _ _ => .inl rfl
  | .slice _ => .inl rfl
  | .map _ _ => .inl rfl
  | .struct _ _ => .inl rfl
  | .ptr e => without_refl e
  | .any => rfl
  | .number => rfl
  | .scalar _ => rfl
  | .quoted _ => rfl
  | .jsonU _ _ _ => rfl
  | .textU _ _ _ => rfl
  | .array0 => rfl
  | .sliceOf _ => rfl
  | .sliceES => rfl
  | .mapSS => rfl
  | .emptyStruct => rfl

theorem pairs_len {α : Type} {P : α → α → Prop} : ∀ {as bs : List α}, Pairs P as bs → as.length = bs.length
  | [], _, h => by cases (h : _ = _); rfl
  | a :: as, _, ⟨b, bs', rfl, _, h⟩ => by simp [pairs_len h]

theorem pairs_nil {α : Type} {P : α → α → Prop} {as bs : List α} (h : Pairs P as bs) : as = [] ↔ bs = [] := by
  have := pairs_len h
  constructor
  · rintro rfl; exact List.eq_nil_of_length_eq_zero this.symm
  · rintro rfl; exact List.eq_nil_of_length_eq_zero this

theorem pairs_take {α : Type} {P : α → α → Prop} : ∀ {as bs : List α} (n : Nat), Pairs P as bs → Pairs P (as.take n) (bs.take n)
  | [], _, n, h => by cases (h : _ = _); simp [Pairs]
  | a :: as, _, 0, ⟨b, bs', rfl, h1, h⟩ => by simp [Pairs]
  | a :: as, _, n + 1, ⟨b, bs', rfl, h1, h⟩ => ⟨b, bs'.take n, by simp, h1, pairs_take n h⟩

theorem pairs_mem {α : Type} {P : α → α → Prop} : ∀ {as bs : List α}, Pairs P as bs → ∀ b ∈ bs, ∃ a ∈ as, P a b
  | [], _, h, b, hb => by cases (h : _ = _); cases hb
  | a :: as, _, ⟨b', bs', rfl, h1, h⟩, b, hb => by
    rcases List.mem_cons.1 hb with rfl | hb
    · exact ⟨a, List.mem_cons_self, h1⟩
    · obtain ⟨a', h2, h3⟩ := pairs_mem h b hb
      exact ⟨a', List.mem_cons_of_mem _ h2, h3⟩

theorem elems_eq {f : JVal → Val → R Val} {P : JVal → JVal → Prop} {T : Val → Prop} : ∀ (vs ws : List JVal) (Ws : List Val), Pairs P vs ws → (∀ v ∈ vs.take Ws.length, ∀ w, P v w → ∀ W, T W → f v W = f w W) →
    (∀ W ∈ Ws, T W) → elemsV f vs Ws = elemsV f ws Ws
  | [], _, Ws, h, _, _ => by cases (h : _ = _); rfl
  | v :: vs, _, [], ⟨w, ws, rfl, h1, h2⟩, h, _ => rfl
  | v :: vs, _, W :: Ws, ⟨w, ws, rfl, h1, h2⟩, h, hT => by
    simp only [List.length_cons, List.take_succ_cons] at h
    simp only [elemsV, h v List.mem_cons_self w h1 W (hT W List.mem_cons_self)]
    rw [elems_eq vs ws Ws h2 (fun v hv => h v (List.mem_cons_of_mem _ hv)) fun W hW => hT W (List.mem_cons_of_mem _ hW)]

theorem slice_eq {f : JVal → Val → R Val} {P : JVal → JVal → Prop} {T : Val → Prop} {z : Val} {c : Bool} {vs ws : List JVal} {V : Val} (h : Pairs P vs ws)
    (hf : ∀ v ∈ vs, ∀ w, P v w → ∀ W, T W → f v W = f w W) (hV : SliceP T V) (hz : T z) : sliceV f z c vs V = sliceV f z c ws V := by
  unfold sliceV
  by_cases hn : vs = []
  · have := (pairs_nil h).1 hn; subst hn; subst this; rfl
  · have hn' : ws ≠ [] := fun h' => hn ((pairs_nil h).2 h')
    have hT := prepSlice_P (c := c) (n := vs.length) hV hz
    simp only [hn, hn', if_false, ← pairs_len h]
    rw [elems_eq (T := T) vs ws _ h (fun v hv => hf v (List.mem_of_mem_take hv)) fun W hW => hT W (List.mem_append_left _ hW)]

theorem map_eq {x : Ext} {src : Bytes} {f : JVal → Val → R Val} {P : JVal → JVal → Prop} {T : Val → Prop} {k : KeyTy} {z : Val} {fresh : Bool} (hz : T z) :
    ∀ (ms ms' : List ((Nat × Nat) × JVal)) (m : List (Key × Val)), Pairs (fun a b => a.1 = b.1 ∧ P a.2 b.2) ms ms' → (∀ m ∈ ms, ∀ w, P m.2 w → ∀ W, T W → f m.2 W = f w W) →
      (∀ m ∈ ms, ∀ W, T W → Keeps T (f m.2 W)) → (∀ e ∈ m, T e.2) → mapV x src f k z fresh ms m = mapV x src f k z fresh ms' m
  | [], _, m, h, _, _, _ => by cases (h : _ = _); rfl
  | ((i, e), v) :: ms, _, m, ⟨((i', e'), w), ms', rfl, ⟨h1, h1'⟩, h2⟩, h, hk, hm => by
    cases h1
    have hf := h _ List.mem_cons_self w h1'
    have hk' := hk _ List.mem_cons_self
    simp only [] at hf hk'
    simp only [mapV]
    cases hkey : (Model.slice src (i + 1) (e - 1)).bind fun key => k.key x key with
    | none => rfl
    | some r =>
      cases r with
      | error er => rfl
      | ok k' =>
        have ho : T (if fresh = true then z else (lookupV k' m).getD z) := by
          cases fresh
          · exact lookupV_P hz hm
          · exact hz
        have hkeep := hk' _ ho
        simp only
        rw [← hf _ ho]
        cases hr : f v (if fresh = true then z else (lookupV k' m).getD z) with
        | ok W =>
          rw [hr] at hkeep
          exact map_eq hz ms ms' _ h2 (fun m hm => h m (List.mem_cons_of_mem _ hm)) (fun m hm => hk m (List.mem_cons_of_mem _ hm)) (assignV_P hkeep hm)
        | _ => rfl

theorem struct_eq {x : Ext} {src : Bytes} {o : Options} (ho : o.disallowUnknownFields = false) {fs : List (Bytes × Nat × Ty)} :
    ∀ (ms ms' : List ((Nat × Nat) × JVal)) (Ws : List Val), WfM src ms → HasTyF fs Ws → DropMembers x src o (fs.map (·.1)) (WithoutF x src o fs) ms ms' →
      (∀ m ∈ ms, KeyUnknown x src o (fs.map (·.1)) m.1 → hasObj m.2 = false) →
      (∀ m ∈ ms, ∀ (j : Nat) f, KeySelects x src o (fs.map (·.1)) m.1 j → fs[j]? = some f → ∀ w, Without x src o f.2.2 m.2 w →
        ∀ W, HasTy f.2.2 W → decV x src (some o) f.2.2 m.2 W = decV x src (some o) f.2.2 w W) →
      structV x src o (decVF x src (some o) fs) ms Ws = structV x src o (decVF x src (some o) fs) ms' Ws
  | [], _, Ws, _, _, h, _, _ => by cases (h : _ = _); rfl
  | ((i, e), v) :: ms, ms', Ws, hw, hT, h, hu, hf => by
    have ih := fun ms'' Ws' hT h => struct_eq ho ms ms'' Ws' hw.2.2 hT h (fun m hm => hu m (List.mem_cons_of_mem _ hm)) (fun m hm => hf m (List.mem_cons_of_mem _ hm))
    rcases h with ⟨hk, h⟩ | ⟨w, ms'', rfl, hv, h⟩
    · obtain ⟨name, g1, g2⟩ := key_unknown (o := o) (k := (i, e)) hw.1 hk
      have hob := hu _ List.mem_cons_self hk
      simp only [] at g1 hob
      rw [← ih _ _ hT h]
      simp only [structV, g1, Val.decVF_names, g2, ho, hob, Bool.false_eq_true, if_false]
    · have hc := key_cases (x := x) (o := o) (names := fs.map (·.1)) (k := (i, e)) hw.1
      rcases hc.symm with hk | ⟨j, hs⟩
      · have hvw : v = w := by
          rcases hv with hv | ⟨j, Q, hs, -⟩
          · exact hv
          · obtain ⟨n1, a1, a2⟩ := hk
            obtain ⟨n2, b1, b2⟩ := hs
            cases keyIs_unique a1 b1
            exact absurd b2 (a2 j)
        subst hvw
        obtain ⟨name, g1, g2⟩ := key_unknown (o := o) (k := (i, e)) hw.1 hk
        have hob := hu _ List.mem_cons_self hk
        simp only [] at g1 hob
        simp only [structV, g1, Val.decVF_names, g2, ho, hob, Bool.false_eq_true, if_false]
        exact ih _ _ hT h
      · obtain ⟨name, g1, g2⟩ := key_selects (o := o) (k := (i, e)) hw.1 hs
        simp only [] at g1
        simp only [structV, g1, Val.decVF_names, g2, Val.decVF_get]
        cases hfj : fs[j]? with
        | none => rfl
        | some f =>
          obtain ⟨W, hW, hWT⟩ := hasTyF_get hT hfj
          have hd : decV x src (some o) f.2.2 v W = decV x src (some o) f.2.2 w W := by
            rcases hv with hv | ⟨j', Q, hs', hQ, hq⟩
            · simp only [] at hv; rw [hv]
            · obtain ⟨name', g1', g2'⟩ := key_selects (o := o) (k := (i, e)) hw.1 hs'
              simp only [g1, Option.some.injEq] at g1'
              subst g1'
              rw [g2] at g2'
              cases g2'
              rw [withoutF_get, hfj] at hQ
              simp only [Option.map_some, Option.some.injEq] at hQ
              subst hQ
              exact hf _ List.mem_cons_self j f hs hfj w hq W hWT
          have hkeep := decV_keeps (x := x) (src := src) (o := some o) f.2.2 (v := v) hWT
          simp only [Option.map_some, hW, ← hd]
          cases hr : decV x src (some o) f.2.2 v W with
          | ok W' =>
            rw [hr] at hkeep
            exact ih _ _ (hasTyF_set hT hfj hkeep) h
          | _ => rfl

/-- A tame struct value: values of unknown keys contain no objects, those of known keys are tame. -/
theorem tame_members {x : Ext} {src : Bytes} {o : Options} (ho : o.disallowUnknownFields = false) {n : Nat} {fs : List (Bytes × Nat × Ty)} {i k : Nat} {ms : List ((Nat × Nat) × JVal)} (hw : WfM src ms)
    (h : Tame x src (some o) (.struct n fs) (.obj i ms k)) : (∀ m ∈ ms, KeyUnknown x src o (fs.map (·.1)) m.1 → hasObj m.2 = false) ∧
      ∀ m ∈ ms, ∀ (j : Nat) f, KeySelects x src o (fs.map (·.1)) m.1 j → fs[j]? = some f → Tame x src (some o) f.2.2 m.2 := by
  simp only [Tame] at h
  constructor
  · intro m hm hk
    obtain ⟨name, g1, g2⟩ := key_unknown (wfM_mem hw m hm).1 hk
    obtain ⟨raw, g3, g4⟩ := Option.bind_eq_some_iff.1 g1
    have := h m hm o rfl raw name g3 g4
    rw [g2] at this
    simpa [ho] using this
  · intro m hm j f hk hf
    obtain ⟨name, g1, g2⟩ := key_selects (wfM_mem hw m hm).1 hk
    obtain ⟨raw, g3, g4⟩ := Option.bind_eq_some_iff.1 g1
    have := h m hm o rfl raw name g3 g4
    rw [g2] at this
    exact this _ (by rw [Unknown.tameF_get, hf]; rfl)

theorem without_null {x : Ext} {src : Bytes} {o : Options} {i j : Nat} {w : JVal} : ∀ (ty : Ty), Without x src o ty (.null i j) w → w = .null i j
  | .array _ _, h | .slice _, h | .map _ _, h | .struct _ _, h => by
    rcases h with rfl | ⟨_, _, _, _, h, _⟩
    · rfl
    · cases h
  | .ptr e, h => without_null e h
  | .any, h | .number, h | .scalar _, h | .quoted _, h | .jsonU _ _ _, h | .textU _ _ _, h | .array0, h | .sliceOf _, h | .sliceES, h | .mapSS, h | .emptyStruct, h => by
    cases (h : _ = _); rfl

mutual
theorem dec_eq {x : Ext} {src : Bytes} {o : Options} (ho : o.disallowUnknownFields = false) : ∀ (ty : Ty) {v w : JVal}, Wf src v → Tame x src (some o) ty v → Without x src o ty v w →
    ∀ V, HasTy ty V → decV x src (some o) ty v V = decV x src (some o) ty w V
  | .array n e, v, w, hw, ht, h, V, hV => by
    rcases h with rfl | ⟨i, vs, ws, k, rfl, rfl, h⟩
    · rfl
    · obtain ⟨es, rfl, hn, he⟩ := hV
      simp only [decV]
      rw [elems_eq (T := HasTy e) vs ws es h (fun v hv w hvw W hW => dec_eq ho e (wfL_mem hw.2.2.2.2 v (List.mem_of_mem_take hv)) (ht v (hn ▸ hv)) hvw W hW) he]
  | .slice e, v, w, hw, ht, h, V, hV => by
    rcases h with rfl | ⟨i, vs, ws, k, rfl, rfl, h⟩
    · rfl
    · simp only [decV]
      exact slice_eq (T := HasTy e) h (fun v hv w hvw W hW => dec_eq ho e (wfL_mem hw.2.2.2.2 v hv) (ht v hv) hvw W hW) hV (zero_typed e)
  | .map kt e, v, w, hw, ht, h, V, hV => by
    rcases h with rfl | ⟨i, ms, ms', k, rfl, rfl, h⟩
    · rfl
    · have hm : ∀ a ∈ mapParts V, HasTy e a.2 := by
        rcases hV with rfl | ⟨es, rfl, h⟩
        · intro a ha; cases ha
        · exact h
      simp only [decV, ne_eq, pairs_nil h]
      rw [map_eq (T := HasTy e) (zero_typed e) ms ms' _ h (fun m hm w hvw W hW => dec_eq ho e (wfM_mem hw.2.2.2.2 m hm).2 (ht.2 m hm) hvw W hW) (fun m _ W hW => decV_keeps e hW) hm]
  | .struct n fs, v, w, hw, ht, h, V, hV => by
    rcases h with rfl | ⟨i, ms, ms', k, rfl, rfl, h⟩
    · rfl
    · obtain ⟨Ws, rfl, hW⟩ := hV
      obtain ⟨hu, hk⟩ := tame_members ho hw.2.2.2.2 ht
      have := struct_eq ho ms ms' Ws hw.2.2.2.2 hW h hu fun m hm j f hs hf w hvw W hW => decF_eq ho fs hf (wfM_mem hw.2.2.2.2 m hm).2 (hk m hm j f hs hf) hvw W hW
      have hm : ∀ ms : List ((Nat × Nat) × JVal), decV x src (some o) (.struct n fs) (.obj i ms k) (.struct Ws) = (structV x src o (decVF x src (some o) fs) ms Ws).map .struct := by
        intro ms
        cases ms <;> rfl
      rw [hm, hm, this]
  | .ptr e, v, w, hw, ht, h, V, hV => by
    cases v with
    | null i j => rw [without_null e h]
    | _ => exact ht.elim
  | .any, v, w, hw, ht, h, V, hV => by cases (h : _ = _); rfl
  | .number, v, w, hw, ht, h, V, hV => by cases (h : _ = _); rfl
  | .scalar k, v, w, hw, ht, h, V, hV => by cases (h : _ = _); rfl
  | .quoted k, v, w, hw, ht, h, V, hV => by cases (h : _ = _); rfl
  | .jsonU a b c, v, w, hw, ht, h, V, hV => by cases (h : _ = _); rfl
  | .textU a b c, v, w, hw, ht, h, V, hV => by cases (h : _ = _); rfl
  | .array0, v, w, hw, ht, h, V, hV => by cases (h : _ = _); rfl
  | .sliceOf k, v, w, hw, ht, h, V, hV => by cases (h : _ = _); rfl
  | .sliceES, v, w, hw, ht, h, V, hV => by cases (h : _ = _); rfl
  | .mapSS, v, w, hw, ht, h, V, hV => by cases (h : _ = _); rfl
  | .emptyStruct, v, w, hw, ht, h, V, hV => by cases (h : _ = _); rfl
theorem decF_eq {x : Ext} {src : Bytes} {o : Options} (ho : o.disallowUnknownFields = false) : ∀ (fs : List (Bytes × Nat × Ty)) {j : Nat} {f : Bytes × Nat × Ty}, fs[j]? = some f → ∀ {v w : JVal}, Wf src v →
    Tame x src (some o) f.2.2 v → Without x src o f.2.2 v w → ∀ V, HasTy f.2.2 V → decV x src (some o) f.2.2 v V = decV x src (some o) f.2.2 w V
  | [], j, f, hf, _, _, _, _, _, _, _ => by simp at hf
  | (_, _, t) :: fs, 0, f, hf, v, w, hw, ht, h, V, hV => by
    simp only [List.getElem?_cons_zero, Option.some.injEq] at hf
    subst hf
    exact dec_eq ho t hw ht h V hV
  | _ :: fs, j + 1, f, hf, v, w, hw, ht, h, V, hV => by
    simp only [List.getElem?_cons_succ] at hf
    exact decF_eq ho fs hf hw ht h V hV
end

/-! ## What is left is a document, and tame -/

theorem pairs_wfL {src : Bytes} {P : JVal → JVal → Prop} : ∀ {vs ws : List JVal}, Pairs P vs ws → (∀ v ∈ vs, ∀ w, P v w → Wf src w) → WfL src ws
  | [], _, h, _ => by cases (h : _ = _); trivial
  | v :: vs, _, ⟨w, ws, rfl, h1, h2⟩, h => ⟨h v List.mem_cons_self w h1, pairs_wfL h2 fun v hv => h v (List.mem_cons_of_mem _ hv)⟩

theorem pairs_wfM {src : Bytes} {P : JVal → JVal → Prop} : ∀ {ms ms' : List ((Nat × Nat) × JVal)}, WfM src ms → Pairs (fun a b => a.1 = b.1 ∧ P a.2 b.2) ms ms' → (∀ m ∈ ms, ∀ w, P m.2 w → Wf src w) → WfM src ms'
  | [], _, _, h, _ => by cases (h : _ = _); trivial
  | m :: ms, _, hw, ⟨m', ms', rfl, ⟨h1, h1'⟩, h2⟩, h => ⟨h1 ▸ hw.1, h m List.mem_cons_self _ h1', pairs_wfM hw.2.2 h2 fun v hv => h v (List.mem_cons_of_mem _ hv)⟩

theorem drop_wfM {x : Ext} {src : Bytes} {o : Options} {fs : List (Bytes × Nat × Ty)} : ∀ {ms ms' : List ((Nat × Nat) × JVal)}, WfM src ms → DropMembers x src o (fs.map (·.1)) (WithoutF x src o fs) ms ms' →
    (∀ m ∈ ms, ∀ (j : Nat) f, fs[j]? = some f → ∀ w, Without x src o f.2.2 m.2 w → Wf src w) → WfM src ms'
  | [], _, _, h, _ => by cases (h : _ = _); trivial
  | m :: ms, ms', hw, h, hf => by
    rcases h with ⟨-, h⟩ | ⟨w, ms'', rfl, hv, h⟩
    · exact drop_wfM hw.2.2 h fun m hm => hf m (List.mem_cons_of_mem _ hm)
    · refine ⟨hw.1, ?_, drop_wfM hw.2.2 h fun m hm => hf m (List.mem_cons_of_mem _ hm)⟩
      rcases hv with hv | ⟨j, Q, -, hQ, hq⟩
      · exact hv ▸ hw.2.1
      · rw [withoutF_get] at hQ
        cases hfj : fs[j]? with
        | none => rw [hfj] at hQ; cases hQ
        | some f =>
          rw [hfj] at hQ
          simp only [Option.map_some, Option.some.injEq] at hQ
          subst hQ
          exact hf m List.mem_cons_self j f hfj w hq

mutual
theorem without_wf {x : Ext} {src : Bytes} {o : Options} : ∀ (ty : Ty) {v w : JVal}, Wf src v → Without x src o ty v w → Wf src w
  | .array n e, v, w, hw, h | .slice e, v, w, hw, h => by
    rcases h with rfl | ⟨i, vs, ws, k, rfl, rfl, h⟩
    · exact hw
    · exact ⟨hw.1, hw.2.1, hw.2.2.1, hw.2.2.2.1, pairs_wfL h fun v hv w hvw => without_wf e (wfL_mem hw.2.2.2.2 v hv) hvw⟩
  | .map kt e, v, w, hw, h => by
    rcases h with rfl | ⟨i, ms, ms', k, rfl, rfl, h⟩
    · exact hw
    · exact ⟨hw.1, hw.2.1, hw.2.2.1, hw.2.2.2.1, pairs_wfM hw.2.2.2.2 h fun m hm w hvw => without_wf e (wfM_mem hw.2.2.2.2 m hm).2 hvw⟩
  | .struct n fs, v, w, hw, h => by
    rcases h with rfl | ⟨i, ms, ms', k, rfl, rfl, h⟩
    · exact hw
    · exact ⟨hw.1, hw.2.1, hw.2.2.1, hw.2.2.2.1, drop_wfM hw.2.2.2.2 h fun m hm j f hf w hvw => without_wfF fs hf (wfM_mem hw.2.2.2.2 m hm).2 hvw⟩
  | .ptr e, v, w, hw, h => without_wf e hw h
  | .any, v, w, hw, h => by cases (h : _ = _); exact hw
  | .number, v, w, hw, h => by cases (h : _ = _); exact hw
  | .scalar k, v, w, hw, h => by cases (h : _ = _); exact hw
  | .quoted k, v, w, hw, h => by cases (h : _ = _); exact hw
  | .jsonU a b c, v, w, hw, h => by cases (h : _ = _); exact hw
  | .textU a b c, v, w, hw, h => by cases (h : _ = _); exact hw
  | .array0, v, w, hw, h => by cases (h : _ = _); exact hw
  | .sliceOf k, v, w, hw, h => by cases (h : _ = _); exact hw
  | .sliceES, v, w, hw, h => by cases (h : _ = _); exact hw
  | .mapSS, v, w, hw, h => by cases (h : _ = _); exact hw
  | .emptyStruct, v, w, hw, h => by cases (h : _ = _); exact hw
theorem without_wfF {x : Ext} {src : Bytes} {o : Options} : ∀ (fs : List (Bytes × Nat × Ty)) {j : Nat} {f : Bytes × Nat × Ty}, fs[j]? = some f → ∀ {v w : JVal}, Wf src v → Without x src o f.2.2 v w → Wf src w
  | [], j, f, hf, _, _, _, _ => by simp at hf
  | (_, _, t) :: fs, 0, f, hf, v, w, hw, h => by
    simp only [List.getElem?_cons_zero, Option.some.injEq] at hf
    subst hf
    exact without_wf t hw h
  | _ :: fs, j + 1, f, hf, v, w, hw, h => by
    simp only [List.getElem?_cons_succ] at hf
    exact without_wfF fs hf hw h
end

/-- Members that are left stem from members. -/
theorem drop_mem {x : Ext} {src : Bytes} {o : Options} {fs : List (Bytes × Nat × Ty)} : ∀ {ms ms' : List ((Nat × Nat) × JVal)}, DropMembers x src o (fs.map (·.1)) (WithoutF x src o fs) ms ms' →
    ∀ m' ∈ ms', ∃ m ∈ ms, m.1 = m'.1 ∧ (m.2 = m'.2 ∨ ∃ (j : Nat) (f : Bytes × Nat × Ty), KeySelects x src o (fs.map (·.1)) m.1 j ∧ fs[j]? = some f ∧ Without x src o f.2.2 m.2 m'.2)
  | [], _, h, m', hm' => by cases (h : _ = _); cases hm'
  | m :: ms, ms', h, m', hm' => by
    have lift : (∃ a ∈ ms, a.1 = m'.1 ∧ (a.2 = m'.2 ∨ ∃ (j : Nat) (f : Bytes × Nat × Ty), KeySelects x src o (fs.map (·.1)) a.1 j ∧ fs[j]? = some f ∧ Without x src o f.2.2 a.2 m'.2)) →
        ∃ a ∈ m :: ms, a.1 = m'.1 ∧ (a.2 = m'.2 ∨ ∃ (j : Nat) (f : Bytes × Nat × Ty), KeySelects x src o (fs.map (·.1)) a.1 j ∧ fs[j]? = some f ∧ Without x src o f.2.2 a.2 m'.2) :=
      fun ⟨a, h1, h2⟩ => ⟨a, List.mem_cons_of_mem _ h1, h2⟩
    rcases h with ⟨-, h⟩ | ⟨w, ms'', rfl, hv, h⟩
    · exact lift (drop_mem h m' hm')
    · rcases List.mem_cons.1 hm' with rfl | hm'
      · refine ⟨m, List.mem_cons_self, rfl, ?_⟩
        rcases hv with hv | ⟨j, Q, hs, hQ, hq⟩
        · exact .inl hv
        · rw [withoutF_get] at hQ
          cases hfj : fs[j]? with
          | none => rw [hfj] at hQ; cases hQ
          | some f =>
            rw [hfj] at hQ
            simp only [Option.map_some, Option.some.injEq] at hQ
            subst hQ
            exact .inr ⟨j, f, hs, hfj, hq⟩
      · exact lift (drop_mem h m' hm')

mutual
theorem without_tame {x : Ext} {src : Bytes} {o : Options} : ∀ (ty : Ty) {v w : JVal}, Wf src v → Tame x src (some o) ty v → Without x src o ty v w → Tame x src (some o) ty w
  | .array n e, v, w, hw, ht, h => by
    rcases h with rfl | ⟨i, vs, ws, k, rfl, rfl, h⟩
    · exact ht
    · intro w hwm
      obtain ⟨v, h1, h2⟩ := pairs_mem (pairs_take n h) w hwm
      exact without_tame e (wfL_mem hw.2.2.2.2 v (List.mem_of_mem_take h1)) (ht v h1) h2
  | .slice e, v, w, hw, ht, h => by
    rcases h with rfl | ⟨i, vs, ws, k, rfl, rfl, h⟩
    · exact ht
    · intro w hwm
      obtain ⟨v, h1, h2⟩ := pairs_mem h w hwm
      exact without_tame e (wfL_mem hw.2.2.2.2 v h1) (ht v h1) h2
  | .map kt e, v, w, hw, ht, h => by
    rcases h with rfl | ⟨i, ms, ms', k, rfl, rfl, h⟩
    · exact ht
    · refine ⟨fun hk => (pairs_nil h).1 (ht.1 hk), fun m' hm' => ?_⟩
      obtain ⟨m, h1, -, h2⟩ := pairs_mem h m' hm'
      exact without_tame e (wfM_mem hw.2.2.2.2 m h1).2 (ht.2 m h1) h2
  | .struct n fs, v, w, hw, ht, h => by
    rcases h with rfl | ⟨i, ms, ms', k, rfl, rfl, h⟩
    · exact ht
    · simp only [Tame] at ht ⊢
      intro m' hm' o' ho' raw name hraw hname
      cases ho'
      obtain ⟨m, h1, h2, h3⟩ := drop_mem h m' hm'
      have hm := ht m h1 o rfl raw name (h2 ▸ hraw) hname
      rcases h3 with h3 | ⟨j, f, hs, hf, h3⟩
      · rw [← h3]; exact hm
      · obtain ⟨name', g1, g2⟩ := key_selects (wfM_mem hw.2.2.2.2 m h1).1 hs
        rw [h2, hraw, Option.bind_some, hname] at g1
        cases g1
        rw [g2] at hm ⊢
        intro T hT
        rw [Unknown.tameF_get, hf] at hT
        simp only [Option.map_some, Option.some.injEq] at hT
        subst hT
        exact without_tameF fs hf (wfM_mem hw.2.2.2.2 m h1).2 (hm _ (by rw [Unknown.tameF_get, hf]; rfl)) h3
  | .ptr e, v, w, hw, ht, h => by
    cases v with
    | null i j => rw [without_null e h]; trivial
    | _ => exact ht.elim
  | .any, v, w, hw, ht, h => by cases (h : _ = _); exact ht
  | .number, v, w, hw, ht, h => by cases (h : _ = _); exact ht
  | .scalar k, v, w, hw, ht, h => by cases (h : _ = _); exact ht
  | .quoted k, v, w, hw, ht, h => by cases (h : _ = _); exact ht
  | .jsonU a b c, v, w, hw, ht, h => by cases (h : _ = _); exact ht
  | .textU a b c, v, w, hw, ht, h => by cases (h : _ = _); exact ht
  | .array0, v, w, hw, ht, h => by cases (h : _ = _); exact ht
  | .sliceOf k, v, w, hw, ht, h => by cases (h : _ = _); exact ht
  | .sliceES, v, w, hw, ht, h => by cases (h : _ = _); exact ht
  | .mapSS, v, w, hw, ht, h => by cases (h : _ = _); exact ht
  | .emptyStruct, v, w, hw, ht, h => by cases (h : _ = _); exact ht
theorem without_tameF {x : Ext} {src : Bytes} {o : Options} : ∀ (fs : List (Bytes × Nat × Ty)) {j : Nat} {f : Bytes × Nat × Ty}, fs[j]? = some f → ∀ {v w : JVal}, Wf src v → Tame x src (some o) f.2.2 v →
    Without x src o f.2.2 v w → Tame x src (some o) f.2.2 w
  | [], j, f, hf, _, _, _, _, _ => by simp at hf
  | (_, _, t) :: fs, 0, f, hf, v, w, hw, ht, h => by
    simp only [List.getElem?_cons_zero, Option.some.injEq] at hf
    subst hf
    exact without_tame t hw ht h
  | _ :: fs, j + 1, f, hf, v, w, hw, ht, h => by
    simp only [List.getElem?_cons_succ] at hf
    exact without_tameF fs hf hw ht h
end

theorem without_kind {x : Ext} {src : Bytes} {o : Options} : ∀ (ty : Ty) {v w : JVal}, Without x src o ty v w → (∀ i j, w = .null i j → v = .null i j) ∧ v.index = w.index
  | .array _ _, v, w, h | .slice _, v, w, h | .map _ _, v, w, h | .struct _ _, v, w, h => by
    rcases h with rfl | ⟨_, _, _, _, rfl, rfl, _⟩
    · exact ⟨fun _ _ h => h, rfl⟩
    · exact ⟨(fun _ _ h => by cases h), rfl⟩
  | .ptr e, v, w, h => without_kind e h
  | .any, v, w, h | .number, v, w, h | .scalar _, v, w, h | .quoted _, v, w, h | .jsonU _ _ _, v, w, h | .textU _ _ _, v, w, h | .array0, v, w, h | .sliceOf _, v, w, h | .sliceES, v, w, h
  | .mapSS, v, w, h | .emptyStruct, v, w, h => by cases (h : _ = _); exact ⟨fun _ _ h => h, rfl⟩

theorem top_ptr {x : Ext} {src : Bytes} {o : Option Options} {e : Ty} {v : JVal} (hn : ∀ i j, v ≠ .null i j) (V : Val) :
    decTopV x src o (.ptr e) v V = if tokOK src v = false then .crash else if e.size x = 0 then .unsup else (decTopV x src o e v (zeroV x e)).map .ptr := by
  cases v <;> first | rfl | exact absurd rfl (hn _ _)

theorem tameDoc_ptr {x : Ext} {src : Bytes} {o : Option Options} {e : Ty} {v : JVal} (hn : ∀ i j, v ≠ .null i j) : TameDoc x src o (.ptr e) v = (e.size x ≠ 0 ∧ TameDoc x src o e v) := by
  cases v <;> first | rfl | exact absurd rfl (hn _ _)

/-- Whole documents. -/
theorem top_drop {x : Ext} {src : Bytes} {o : Options} (ho : o.disallowUnknownFields = false) : ∀ (ty : Ty) {v w : JVal}, Wf src v → TameDoc x src (some o) ty v → Without x src o ty v w →
    TameDoc x src (some o) ty w ∧ ∀ V, HasTy ty V → decTopV x src (some o) ty v V = decTopV x src (some o) ty w V
  | .ptr e, v, w, hw, ht, h => by
    by_cases hn : ∃ i j, v = .null i j
    · obtain ⟨i, j, rfl⟩ := hn
      have h' : Without x src o e (.null i j) w := h
      cases without_null e h'
      exact ⟨ht, fun _ _ => rfl⟩
    · have hn1 : ∀ i j, v ≠ .null i j := fun i j h => hn ⟨i, j, h⟩
      have hn2 : ∀ i j, w ≠ .null i j := fun i j h' => hn1 i j ((without_kind e h).1 i j h')
      rw [tameDoc_ptr hn1] at ht
      obtain ⟨h1, h2⟩ := top_drop ho e hw ht.2 h
      refine ⟨by rw [tameDoc_ptr hn2]; exact ⟨ht.1, h1⟩, fun V hV => ?_⟩
      rw [top_ptr hn1, top_ptr hn2, tokOK_wf hw, tokOK_wf (without_wf e hw h), h2 _ (zero_typed e)]
  | .emptyStruct, v, w, hw, ht, h => by cases (h : _ = _); exact ⟨ht, fun _ _ => rfl⟩
  | .any, v, w, hw, ht, h => ⟨without_tame (.any) hw ht h, fun V hV => dec_eq ho (.any) hw ht h V hV⟩
  | .number, v, w, hw, ht, h => ⟨without_tame (.number) hw ht h, fun V hV => dec_eq ho (.number) hw ht h V hV⟩
  | .scalar k, v, w, hw, ht, h => ⟨without_tame (.scalar k) hw ht h, fun V hV => dec_eq ho (.scalar k) hw ht h V hV⟩
  | .quoted k, v, w, hw, ht, h => ⟨without_tame (.quoted k) hw ht h, fun V hV => dec_eq ho (.quoted k) hw ht h V hV⟩
  | .jsonU a b c, v, w, hw, ht, h => ⟨without_tame (.jsonU a b c) hw ht h, fun V hV => dec_eq ho (.jsonU a b c) hw ht h V hV⟩
  | .textU a b c, v, w, hw, ht, h => ⟨without_tame (.textU a b c) hw ht h, fun V hV => dec_eq ho (.textU a b c) hw ht h V hV⟩
  | .array0, v, w, hw, ht, h => ⟨without_tame (.array0) hw ht h, fun V hV => dec_eq ho (.array0) hw ht h V hV⟩
  | .sliceOf k, v, w, hw, ht, h => ⟨without_tame (.sliceOf k) hw ht h, fun V hV => dec_eq ho (.sliceOf k) hw ht h V hV⟩
  | .sliceES, v, w, hw, ht, h => ⟨without_tame (.sliceES) hw ht h, fun V hV => dec_eq ho (.sliceES) hw ht h V hV⟩
  | .mapSS, v, w, hw, ht, h => ⟨without_tame (.mapSS) hw ht h, fun V hV => dec_eq ho (.mapSS) hw ht h V hV⟩
  | .array n e, v, w, hw, ht, h => ⟨without_tame (.array n e) hw ht h, fun V hV => dec_eq ho (.array n e) hw ht h V hV⟩
  | .slice e, v, w, hw, ht, h => ⟨without_tame (.slice e) hw ht h, fun V hV => dec_eq ho (.slice e) hw ht h V hV⟩
  | .map k e, v, w, hw, ht, h => ⟨without_tame (.map k e) hw ht h, fun V hV => dec_eq ho (.map k e) hw ht h V hV⟩
  | .struct n fs, v, w, hw, ht, h => ⟨without_tame (.struct n fs) hw ht h, fun V hV => dec_eq ho (.struct n fs) hw ht h V hV⟩

end Verif.Proof.Drop

import Verif.Proof.Drop
import Verif.Proof.TypedRight
import Verif.Proof.RightMono
/-!
# Removing unknown members changes nothing, with pointers at the right end
-/
namespace Verif.Proof.Drop
open Verif.Model Verif.Big Verif.Spec Verif.Proof Verif.Proof.Outcome Verif.Proof.Safe Verif.Proof.Typed

theorem decPV_ptr {x : Ext} {src : Bytes} {o : Option Options} {e : Ty} {v : JVal} (hn : ∀ i j, v ≠ .null i j) (V : Val) : decPV x src o (.ptr e) v V = (decPV x src o e v (zeroV x e)).map .ptr := by
  cases v <;> first | rfl | exact absurd rfl (hn _ _)

theorem right_ptr_iff {x : Ext} {src : Bytes} {o : Option Options} {e : Ty} {p : Place} {v : JVal} (hn : ∀ i j, v ≠ .null i j) :
    Right x src o (.ptr e) p v ↔ e.size x ≠ 0 ∧ match p with | .inside => False | .last => Right x src o e .inside v | .final => Right x src o e .final v := by
  cases v <;> first | exact Iff.rfl | exact absurd rfl (hn _ _)

/-- The value for a pointer. -/
theorem right_ptr {x : Ext} {src : Bytes} {o : Option Options} {e : Ty} {p : Place} {v : JVal} (hn : ∀ i j, v ≠ .null i j) (h : Right x src o (.ptr e) p v) :
    e.size x ≠ 0 ∧ p ≠ .inside ∧ ∃ q, Right x src o e q v := by
  obtain ⟨h1, h2⟩ := (right_ptr_iff hn).1 h
  cases p with
  | inside => exact h2.elim
  | last => exact ⟨h1, by simp, _, h2⟩
  | final => exact ⟨h1, by simp, _, h2⟩

/-- The elements of an array that have a place. -/
theorem right_take {x : Ext} {src : Bytes} {o : Option Options} {e : Ty} {n i k : Nat} {vs : List JVal} (h : ∃ p, Right x src o (.array n e) p (.arr i vs k)) : ∀ v ∈ vs.take n, ∃ p, Right x src o e p v := by
  obtain ⟨p, h⟩ := h
  simp only [Right] at h
  split at h
  · exact fun v hv => Sim.ButLast.mem (R := fun v => ∃ p, Right x src o e p v) (fun _ h => ⟨_, h⟩) (fun _ h => ⟨_, h⟩) h v (List.mem_of_mem_take hv)
  · exact fun v hv => ⟨_, h v hv⟩

theorem right_elem {x : Ext} {src : Bytes} {o : Option Options} {e : Ty} {i k : Nat} {vs : List JVal} (h : ∃ p, Right x src o (.slice e) p (.arr i vs k)) : ∀ v ∈ vs, ∃ p, Right x src o e p v := by
  obtain ⟨p, h⟩ := h
  exact Sim.ButLast.mem (R := fun v => ∃ p, Right x src o e p v) (fun _ h => ⟨_, h⟩) (fun _ h => ⟨_, h⟩) h

theorem right_entry {x : Ext} {src : Bytes} {o : Option Options} {kt : KeyTy} {e : Ty} {i k : Nat} {ms : List ((Nat × Nat) × JVal)} (h : ∃ p, Right x src o (.map kt e) p (.obj i ms k)) :
    ∀ m ∈ ms, ∃ p, Right x src o e p m.2 := by
  obtain ⟨p, h⟩ := h
  exact Sim.ButLast.mem (R := fun m : (Nat × Nat) × JVal => ∃ p, Right x src o e p m.2) (fun _ h => ⟨_, h⟩) (fun _ h => ⟨_, h⟩) h.2

/-- Values of unknown keys contain no objects, those of known keys have a place. -/
theorem right_members {x : Ext} {src : Bytes} {o : Options} (ho : o.disallowUnknownFields = false) {n : Nat} {fs : List (Bytes × Nat × Ty)} {i k : Nat} {ms : List ((Nat × Nat) × JVal)} (hw : WfM src ms)
    (h : ∃ p, Right x src (some o) (.struct n fs) p (.obj i ms k)) : (∀ m ∈ ms, KeyUnknown x src o (fs.map (·.1)) m.1 → hasObj m.2 = false) ∧
      ∀ m ∈ ms, ∀ (j : Nat) f, KeySelects x src o (fs.map (·.1)) m.1 j → fs[j]? = some f → ∃ p, Right x src (some o) f.2.2 p m.2 := by
  obtain ⟨p, h⟩ := h
  simp only [Right] at h
  have h := Sim.ButLast.mem (R := fun m => ∃ p, RightM x src o (fs.map (·.1)) (RightF x src (some o) fs) p m) (fun _ h => ⟨_, h⟩) (fun _ h => ⟨_, h⟩) (h o rfl)
  constructor
  · intro m hm hk
    obtain ⟨name, g1, g2⟩ := key_unknown (wfM_mem hw m hm).1 hk
    obtain ⟨raw, g3, g4⟩ := Option.bind_eq_some_iff.1 g1
    obtain ⟨q, hq⟩ := h m hm
    have := hq raw name g3 g4
    rw [g2] at this
    simpa [ho] using this
  · intro m hm j f hk hf
    obtain ⟨name, g1, g2⟩ := key_selects (wfM_mem hw m hm).1 hk
    obtain ⟨raw, g3, g4⟩ := Option.bind_eq_some_iff.1 g1
    obtain ⟨q, hq⟩ := h m hm
    have := hq raw name g3 g4
    rw [g2] at this
    exact ⟨q, this _ (Sim.rightF_get x src (some o) fs j f.1 f.2.1 f.2.2 hf)⟩

theorem pairs_butLast {α : Type} {P : α → α → Prop} {A B A' B' : α → Prop} : ∀ {as bs : List α}, Pairs P as bs → ButLast A B as → (∀ a ∈ as, ∀ b, P a b → A a → A' b) → (∀ a ∈ as, ∀ b, P a b → B a → B' b) →
    ButLast A' B' bs
  | [], _, h, _, _, _ => by cases (h : _ = _); trivial
  | [a], _, ⟨b, _, rfl, h1, h2⟩, hl, _, hB => by cases (h2 : _ = _); exact hB a List.mem_cons_self b h1 hl
  | a :: a' :: as, _, ⟨b, _, rfl, h1, b', bs, rfl, h2, h3⟩, hl, hA, hB =>
    ⟨hA a List.mem_cons_self b h1 hl.1, pairs_butLast (as := a' :: as) ⟨b', bs, rfl, h2, h3⟩ hl.2 (fun a ha => hA a (List.mem_cons_of_mem _ ha)) fun a ha => hB a (List.mem_cons_of_mem _ ha)⟩

/-- The members that are left. -/
theorem drop_butLast {x : Ext} {src : Bytes} {o : Options} {fs : List (Bytes × Nat × Ty)} {P : List (JVal → JVal → Prop)} {p : Place} : ∀ (ms ms' : List ((Nat × Nat) × JVal)),
    DropMembers x src o (fs.map (·.1)) P ms ms' → ButLast (RightM x src o (fs.map (·.1)) (RightF x src (some o) fs) .inside) (RightM x src o (fs.map (·.1)) (RightF x src (some o) fs) p) ms →
    (∀ m ∈ ms, ∀ w p, (m.2 = w ∨ ∃ j Q, KeySelects x src o (fs.map (·.1)) m.1 j ∧ P[j]? = some Q ∧ Q m.2 w) → RightM x src o (fs.map (·.1)) (RightF x src (some o) fs) p m →
      RightM x src o (fs.map (·.1)) (RightF x src (some o) fs) p (m.1, w)) →
    ButLast (RightM x src o (fs.map (·.1)) (RightF x src (some o) fs) .inside) (RightM x src o (fs.map (·.1)) (RightF x src (some o) fs) p) ms'
  | [], _, h, _, _ => by cases (h : _ = _); trivial
  | m :: ms, ms', h, hl, hf => by
    have ih := fun ms'' h => drop_butLast ms ms'' h (Sim.ButLast.tail hl) fun m hm => hf m (List.mem_cons_of_mem _ hm)
    rcases h with ⟨-, h⟩ | ⟨w, ms'', rfl, hv, h⟩
    · exact ih ms' h
    · have hi := ih ms'' h
      have ha := Sim.ButLast.at (F := RightM x src o (fs.map (·.1)) (RightF x src (some o) fs)) hl
      have hb := hf m List.mem_cons_self w _ hv ha
      cases ms'' with
      | nil =>
        show RightM _ _ _ _ _ _ _
        split at hb
        · exact hb
        · exact Right.rightM_mono hb
      | cons m' ms'' =>
        refine ⟨?_, hi⟩
        rw [if_neg ?_] at hb
        · exact hb
        · rintro rfl; cases (h : _ = _)

theorem structP_eq {x : Ext} {src : Bytes} {o : Options} (ho : o.disallowUnknownFields = false) {fs : List (Bytes × Nat × Ty)} :
    ∀ (ms ms' : List ((Nat × Nat) × JVal)) (Ws : List Val), WfM src ms → HasTyF fs Ws → DropMembers x src o (fs.map (·.1)) (WithoutF x src o fs) ms ms' →
      (∀ m ∈ ms, KeyUnknown x src o (fs.map (·.1)) m.1 → hasObj m.2 = false) →
      (∀ m ∈ ms, ∀ (j : Nat) f, KeySelects x src o (fs.map (·.1)) m.1 j → fs[j]? = some f → ∀ w, Without x src o f.2.2 m.2 w →
        ∀ W, HasTy f.2.2 W → decPV x src (some o) f.2.2 m.2 W = decPV x src (some o) f.2.2 w W) →
      structV x src o (decPVF x src (some o) fs) ms Ws = structV x src o (decPVF x src (some o) fs) ms' Ws
  | [], _, Ws, _, _, h, _, _ => by cases (h : _ = _); rfl
  | ((i, e), v) :: ms, ms', Ws, hw, hT, h, hu, hf => by
    have ih := fun ms'' Ws' hT h => structP_eq ho ms ms'' Ws' hw.2.2 hT h (fun m hm => hu m (List.mem_cons_of_mem _ hm)) (fun m hm => hf m (List.mem_cons_of_mem _ hm))
    rcases h with ⟨hk, h⟩ | ⟨w, ms'', rfl, hv, h⟩
    · obtain ⟨name, g1, g2⟩ := key_unknown (o := o) (k := (i, e)) hw.1 hk
      have hob := hu _ List.mem_cons_self hk
      simp only [] at g1 hob
      rw [← ih _ _ hT h]
      simp only [structV, g1, Val.decPVF_names, g2, ho, hob, Bool.false_eq_true, if_false]
    · have hc := key_cases (x := x) (o := o) (names := fs.map (·.1)) (k := (i, e)) hw.1
      rcases hc.symm with hk | ⟨j, hs⟩
      · have hvw : v = w := by
          rcases hv with hv | ⟨j, Q, hs, -⟩
          · exact hv
          · obtain ⟨n1, a1, a2⟩ := hk
            obtain ⟨n2, b1, b2⟩ := hs
            cases keyIs_unique a1 b1
            exact absurd b2 (a2 j)
        subst hvw
        obtain ⟨name, g1, g2⟩ := key_unknown (o := o) (k := (i, e)) hw.1 hk
        have hob := hu _ List.mem_cons_self hk
        simp only [] at g1 hob
        simp only [structV, g1, Val.decPVF_names, g2, ho, hob, Bool.false_eq_true, if_false]
        exact ih _ _ hT h
      · obtain ⟨name, g1, g2⟩ := key_selects (o := o) (k := (i, e)) hw.1 hs
        simp only [] at g1
        simp only [structV, g1, Val.decPVF_names, g2, Val.decPVF_get]
        cases hfj : fs[j]? with
        | none => rfl
        | some f =>
          obtain ⟨W, hW, hWT⟩ := hasTyF_get hT hfj
          have hd : decPV x src (some o) f.2.2 v W = decPV x src (some o) f.2.2 w W := by
            rcases hv with hv | ⟨j', Q, hs', hQ, hq⟩
            · simp only [] at hv; rw [hv]
            · obtain ⟨name', g1', g2'⟩ := key_selects (o := o) (k := (i, e)) hw.1 hs'
              simp only [g1, Option.some.injEq] at g1'
              subst g1'
              rw [g2] at g2'
              cases g2'
              rw [withoutF_get, hfj] at hQ
              simp only [Option.map_some, Option.some.injEq] at hQ
              subst hQ
              exact hf _ List.mem_cons_self j f hs hfj w hq W hWT
          have hkeep := decPV_keeps (x := x) (src := src) (o := some o) f.2.2 (v := v) hWT
          simp only [Option.map_some, hW, ← hd]
          cases hr : decPV x src (some o) f.2.2 v W with
          | ok W' =>
            rw [hr] at hkeep
            exact ih _ _ (hasTyF_set hT hfj hkeep) h
          | _ => rfl

mutual
theorem decP_eq {x : Ext} {src : Bytes} {o : Options} (ho : o.disallowUnknownFields = false) : ∀ (ty : Ty) {v w : JVal}, Wf src v → (∃ p, Right x src (some o) ty p v) → Without x src o ty v w →
    ∀ V, HasTy ty V → decPV x src (some o) ty v V = decPV x src (some o) ty w V
  | .array n e, v, w, hw, ht, h, V, hV => by
    rcases h with rfl | ⟨i, vs, ws, k, rfl, rfl, h⟩
    · rfl
    · obtain ⟨es, rfl, hn, he⟩ := hV
      simp only [decPV]
      rw [elems_eq (T := HasTy e) vs ws es h (fun v hv w hvw W hW => decP_eq ho e (wfL_mem hw.2.2.2.2 v (List.mem_of_mem_take hv)) (right_take ht v (hn ▸ hv)) hvw W hW) he]
  | .slice e, v, w, hw, ht, h, V, hV => by
    rcases h with rfl | ⟨i, vs, ws, k, rfl, rfl, h⟩
    · rfl
    · simp only [decPV]
      exact slice_eq (T := HasTy e) h (fun v hv w hvw W hW => decP_eq ho e (wfL_mem hw.2.2.2.2 v hv) (right_elem ht v hv) hvw W hW) hV (zero_typed e)
  | .map kt e, v, w, hw, ht, h, V, hV => by
    rcases h with rfl | ⟨i, ms, ms', k, rfl, rfl, h⟩
    · rfl
    · have hm : ∀ a ∈ mapParts V, HasTy e a.2 := by
        rcases hV with rfl | ⟨es, rfl, h⟩
        · intro a ha; cases ha
        · exact h
      simp only [decPV, ne_eq, pairs_nil h]
      rw [map_eq (T := HasTy e) (zero_typed e) ms ms' _ h (fun m hm w hvw W hW => decP_eq ho e (wfM_mem hw.2.2.2.2 m hm).2 (right_entry ht m hm) hvw W hW) (fun m _ W hW => decPV_keeps e hW) hm]
  | .struct n fs, v, w, hw, ht, h, V, hV => by
    rcases h with rfl | ⟨i, ms, ms', k, rfl, rfl, h⟩
    · rfl
    · obtain ⟨Ws, rfl, hW⟩ := hV
      obtain ⟨hu, hk⟩ := right_members ho hw.2.2.2.2 ht
      have := structP_eq ho ms ms' Ws hw.2.2.2.2 hW h hu fun m hm j f hs hf w hvw W hW => decPF_eq ho fs hf (wfM_mem hw.2.2.2.2 m hm).2 (hk m hm j f hs hf) hvw W hW
      have hm : ∀ ms : List ((Nat × Nat) × JVal), decPV x src (some o) (.struct n fs) (.obj i ms k) (.struct Ws) = (structV x src o (decPVF x src (some o) fs) ms Ws).map .struct := by
        intro ms
        cases ms <;> rfl
      rw [hm, hm, this]
  | .ptr e, v, w, hw, ht, h, V, hV => by
    obtain ⟨p, ht⟩ := ht
    by_cases hn : ∃ i j, v = .null i j
    · obtain ⟨i, j, rfl⟩ := hn
      rw [without_null e h]
    · have hn1 : ∀ i j, v ≠ .null i j := fun i j h => hn ⟨i, j, h⟩
      have hn2 : ∀ i j, w ≠ .null i j := fun i j h' => hn1 i j ((without_kind e h).1 i j h')
      rw [decPV_ptr hn1, decPV_ptr hn2, decP_eq ho e hw (right_ptr hn1 ht).2.2 h _ (zero_typed e)]
  | .any, v, w, hw, ht, h, V, hV => by cases (h : _ = _); rfl
  | .number, v, w, hw, ht, h, V, hV => by cases (h : _ = _); rfl
  | .scalar k, v, w, hw, ht, h, V, hV => by cases (h : _ = _); rfl
  | .quoted k, v, w, hw, ht, h, V, hV => by cases (h : _ = _); rfl
  | .jsonU a b c, v, w, hw, ht, h, V, hV => by cases (h : _ = _); rfl
  | .textU a b c, v, w, hw, ht, h, V, hV => by cases (h : _ = _); rfl
  | .array0, v, w, hw, ht, h, V, hV => by cases (h : _ = _); rfl
  | .sliceOf k, v, w, hw, ht, h, V, hV => by cases (h : _ = _); rfl
  | .sliceES, v, w, hw, ht, h, V, hV => by cases (h : _ = _); rfl
  | .mapSS, v, w, hw, ht, h, V, hV => by cases (h : _ = _); rfl
  | .emptyStruct, v, w, hw, ht, h, V, hV => by cases (h : _ = _); rfl
theorem decPF_eq {x : Ext} {src : Bytes} {o : Options} (ho : o.disallowUnknownFields = false) : ∀ (fs : List (Bytes × Nat × Ty)) {j : Nat} {f : Bytes × Nat × Ty}, fs[j]? = some f → ∀ {v w : JVal}, Wf src v →
    (∃ p, Right x src (some o) f.2.2 p v) → Without x src o f.2.2 v w → ∀ V, HasTy f.2.2 V → decPV x src (some o) f.2.2 v V = decPV x src (some o) f.2.2 w V
  | [], j, f, hf, _, _, _, _, _, _, _ => by simp at hf
  | (_, _, t) :: fs, 0, f, hf, v, w, hw, ht, h, V, hV => by
    simp only [List.getElem?_cons_zero, Option.some.injEq] at hf
    subst hf
    exact decP_eq ho t hw ht h V hV
  | _ :: fs, j + 1, f, hf, v, w, hw, ht, h, V, hV => by
    simp only [List.getElem?_cons_succ] at hf
    exact decPF_eq ho fs hf hw ht h V hV
end

mutual
theorem without_right {x : Ext} {src : Bytes} {o : Options} : ∀ (ty : Ty) {p : Place} {v w : JVal}, Wf src v → Right x src (some o) ty p v → Without x src o ty v w → Right x src (some o) ty p w
  | .array n e, p, v, w, hw, ht, h => by
    rcases h with rfl | ⟨i, vs, ws, k, rfl, rfl, h⟩
    · exact ht
    · simp only [Right] at ht ⊢
      rw [← pairs_len h]
      by_cases hl : vs.length ≤ n
      · rw [if_pos hl] at ht ⊢
        exact pairs_butLast h ht (fun v hv w hvw hr => without_right e (wfL_mem hw.2.2.2.2 v hv) hr hvw) fun v hv w hvw hr => without_right e (wfL_mem hw.2.2.2.2 v hv) hr hvw
      · rw [if_neg hl] at ht ⊢
        intro w hwm
        obtain ⟨v, h1, h2⟩ := pairs_mem (pairs_take n h) w hwm
        exact without_right e (wfL_mem hw.2.2.2.2 v (List.mem_of_mem_take h1)) (ht v h1) h2
  | .slice e, p, v, w, hw, ht, h => by
    rcases h with rfl | ⟨i, vs, ws, k, rfl, rfl, h⟩
    · exact ht
    · simp only [Right] at ht ⊢
      exact pairs_butLast h ht (fun v hv w hvw hr => without_right e (wfL_mem hw.2.2.2.2 v hv) hr hvw) fun v hv w hvw hr => without_right e (wfL_mem hw.2.2.2.2 v hv) hr hvw
  | .map kt e, p, v, w, hw, ht, h => by
    rcases h with rfl | ⟨i, ms, ms', k, rfl, rfl, h⟩
    · exact ht
    · refine ⟨fun hk => (pairs_nil h).1 (ht.1 hk), ?_⟩
      exact pairs_butLast h ht.2 (fun m hm m' hmm hr => without_right e (wfM_mem hw.2.2.2.2 m hm).2 hr hmm.2) fun m hm m' hmm hr => without_right e (wfM_mem hw.2.2.2.2 m hm).2 hr hmm.2
  | .struct n fs, p, v, w, hw, ht, h => by
    rcases h with rfl | ⟨i, ms, ms', k, rfl, rfl, h⟩
    · exact ht
    · simp only [Right] at ht ⊢
      intro o' ho'
      cases ho'
      refine drop_butLast ms ms' h (ht o rfl) fun m hm w p hmw hr raw name hraw hname => ?_
      have hr := hr raw name hraw hname
      rcases hmw with h3 | ⟨j, Q, hs, hQ, h3⟩
      · rw [← h3]; exact hr
      · obtain ⟨name', g1, g2⟩ := key_selects (wfM_mem hw.2.2.2.2 m hm).1 hs
        rw [hraw, Option.bind_some, hname] at g1
        cases g1
        rw [g2] at hr ⊢
        rw [withoutF_get] at hQ
        cases hf : fs[j]? with
        | none => rw [hf] at hQ; cases hQ
        | some f =>
          rw [hf] at hQ
          simp only [Option.map_some, Option.some.injEq] at hQ
          subst hQ
          intro R hR
          have hR' := Sim.rightF_get x src (some o) fs j f.1 f.2.1 f.2.2 hf
          rw [hR'] at hR
          cases hR
          exact without_rightF fs hf (wfM_mem hw.2.2.2.2 m hm).2 (hr _ hR') h3
  | .ptr e, p, v, w, hw, ht, h => by
    by_cases hn : ∃ i j, v = .null i j
    · obtain ⟨i, j, rfl⟩ := hn
      rw [without_null e h]; trivial
    · have hn1 : ∀ i j, v ≠ .null i j := fun i j h => hn ⟨i, j, h⟩
      have hn2 : ∀ i j, w ≠ .null i j := fun i j h' => hn1 i j ((without_kind e h).1 i j h')
      rw [right_ptr_iff hn1] at ht
      rw [right_ptr_iff hn2]
      refine ⟨ht.1, ?_⟩
      have ht := ht.2
      cases p with
      | inside => exact ht
      | last => exact without_right e hw ht h
      | final => exact without_right e hw ht h
  | .any, p, v, w, hw, ht, h => by cases (h : _ = _); exact ht
  | .number, p, v, w, hw, ht, h => by cases (h : _ = _); exact ht
  | .scalar k, p, v, w, hw, ht, h => by cases (h : _ = _); exact ht
  | .quoted k, p, v, w, hw, ht, h => by cases (h : _ = _); exact ht
  | .jsonU a b c, p, v, w, hw, ht, h => by cases (h : _ = _); exact ht
  | .textU a b c, p, v, w, hw, ht, h => by cases (h : _ = _); exact ht
  | .array0, p, v, w, hw, ht, h => by cases (h : _ = _); exact ht
  | .sliceOf k, p, v, w, hw, ht, h => by cases (h : _ = _); exact ht
  | .sliceES, p, v, w, hw, ht, h => by cases (h : _ = _); exact ht
  | .mapSS, p, v, w, hw, ht, h => by cases (h : _ = _); exact ht
  | .emptyStruct, p, v, w, hw, ht, h => by cases (h : _ = _); exact ht
theorem without_rightF {x : Ext} {src : Bytes} {o : Options} : ∀ (fs : List (Bytes × Nat × Ty)) {j : Nat} {f : Bytes × Nat × Ty}, fs[j]? = some f → ∀ {p : Place} {v w : JVal}, Wf src v → Right x src (some o) f.2.2 p v →
    Without x src o f.2.2 v w → Right x src (some o) f.2.2 p w
  | [], j, f, hf, _, _, _, _, _, _ => by simp at hf
  | (_, _, t) :: fs, 0, f, hf, p, v, w, hw, ht, h => by
    simp only [List.getElem?_cons_zero, Option.some.injEq] at hf
    subst hf
    exact without_right t hw ht h
  | _ :: fs, j + 1, f, hf, p, v, w, hw, ht, h => by
    simp only [List.getElem?_cons_succ] at hf
    exact without_rightF fs hf hw ht h
end

end Verif.Proof.Drop

import Verif.Proof.NoUnknown
import Verif.Proof.TypedRight
import Verif.Proof.RightMono
/-!
# Decoding with and without DisallowUnknownFields, with pointers at the right end
-/
namespace Verif.Proof.Unknown
open Verif.Model Verif.Big Verif.Spec Verif.Proof Verif.Proof.Outcome Verif.Proof.Safe Verif.Proof.Typed

theorem structP_lax {x : Ext} {src : Bytes} {o : Options} {fs : List (Bytes × Nat × Ty)} :
    ∀ (ms : List ((Nat × Nat) × JVal)) (Ws : List Val) {L : List Nat}, WfM src ms →
      (∀ m ∈ ms, ∀ (j : Nat) f, fs[j]? = some f → ∀ L W, HasTy f.2.2 W → UnknownKeys x src o f.2.2 m.2 L →
        Lax L (decPV x src (some (lenient o)) f.2.2 m.2 W) (decPV x src (some (strict o)) f.2.2 m.2 W)) → HasTyF fs Ws →
      Concat (UnknownMember x src o (fs.map (·.1)) (UnknownKeysF x src o fs)) ms L →
      Lax L (structV x src (lenient o) (decPVF x src (some (lenient o)) fs) ms Ws) (structV x src (strict o) (decPVF x src (some (strict o)) fs) ms Ws)
  | [], Ws, L, _, _, _, hL => by simp only [Concat] at hL; subst hL; exact lax_refl
  | ((i, e), v) :: ms, Ws, L, hw, h, hT, hL => by
    obtain ⟨L1, L2, rfl, h1, h2⟩ := hL
    rcases h1 with ⟨hu, rfl⟩ | ⟨j, Q, hs, hQ, hL1⟩
    · obtain ⟨name, g1, g2⟩ := key_unknown (o := strict o) (k := (i, e)) hw.1 hu
      refine .inl ⟨Ws, ?_⟩
      simp only [] at g1
      simp only [structV, g1, Val.decPVF_names, g2]; rfl
    · obtain ⟨name, g1, g2⟩ := key_selects (o := lenient o) (k := (i, e)) hw.1 hs
      have g1' : (Model.slice src (i + 1) (e - 1)).bind (keyName (strict o)) = some name := g1
      have g2' : findField x (strict o) ((fs.map (·.1)).zipIdx) name = some j := g2
      simp only [] at g1
      rw [unknownF_get] at hQ
      cases hf : fs[j]? with
      | none => rw [hf] at hQ; cases hQ
      | some f =>
        rw [hf] at hQ
        simp only [Option.map_some, Option.some.injEq] at hQ
        subst hQ
        obtain ⟨W, hW, hWT⟩ := hasTyF_get hT hf
        have hlax := h _ List.mem_cons_self j f hf L1 W hWT hL1
        have hkeep := decPV_keeps (x := x) (src := src) (o := some (lenient o)) f.2.2 (v := v) hWT
        simp only [structV, g1, g1', Val.decPVF_names, g2, g2', Val.decPVF_get, hf, Option.map_some, hW]
        refine lax_seq (F := fun r => match r with
          | .ok W => structV x src (lenient o) (decPVF x src (some (lenient o)) fs) ms (Ws.set j W)
          | .err i e W => .err i e (Ws.set j W)
          | .crash => .crash
          | .unsup => .unsup) (G := fun r => match r with
          | .ok W => structV x src (strict o) (decPVF x src (some (strict o)) fs) ms (Ws.set j W)
          | .err i e W => .err i e (Ws.set j W)
          | .crash => .crash
          | .unsup => .unsup) ⟨fun i e a => ⟨_, rfl, rfl⟩, rfl, rfl, rfl, rfl⟩ hlax ?_
        intro W' hW'
        rw [hW'] at hkeep
        exact structP_lax ms _ hw.2.2 (fun v hv => h v (List.mem_cons_of_mem _ hv)) (hasTyF_set hT hf hkeep) h2

mutual
/-- The unknown keys decide how the two readings differ. -/
theorem decP_lax {x : Ext} {src : Bytes} {o : Options} : ∀ (ty : Ty) {v : JVal} {V : Val} {L : List Nat}, HasTy ty V → Wf src v → UnknownKeys x src o ty v L →
    Lax L (decPV x src (some (lenient o)) ty v V) (decPV x src (some (strict o)) ty v V)
  | .any, v, V, L, _, _, hL => lax_same rfl hL
  | .number, v, V, L, _, _, hL => lax_same rfl hL
  | .scalar _, v, V, L, _, _, hL => lax_same rfl hL
  | .quoted _, v, V, L, _, _, hL => lax_same rfl hL
  | .jsonU _ _ _, v, V, L, _, _, hL => lax_same rfl hL
  | .textU _ _ _, v, V, L, _, _, hL => lax_same rfl hL
  | .array0, v, V, L, _, _, hL => lax_same rfl hL
  | .sliceOf _, v, V, L, _, _, hL => lax_same rfl hL
  | .sliceES, v, V, L, _, _, hL => lax_same rfl hL
  | .mapSS, v, V, L, _, _, hL => lax_same rfl hL
  | .emptyStruct, v, V, L, _, _, hL => lax_same rfl hL
  | .array n e, v, V, L, hV, hw, hL => by
    obtain ⟨es, rfl, hn, he⟩ := hV
    cases v with
    | arr i vs k =>
      simp only [decPV]
      apply lax_map
      refine elems_lax (T := HasTy e) vs es (fun v hv L W hW hL => decP_lax e hW (wfL_mem hw.2.2.2.2 v (List.mem_of_mem_take hv)) hL) he ?_
      rw [hn]; exact hL
    | _ => exact lax_same rfl hL
  | .slice e, v, V, L, hV, hw, hL => by
    cases v with
    | arr i vs k =>
      simp only [decPV]
      exact slice_lax (T := HasTy e) (P := UnknownKeys x src o e) (fun v hv L W hW hL => decP_lax e hW (wfL_mem hw.2.2.2.2 v hv) hL) hV (zero_typed e) hL
    | _ => exact lax_same rfl hL
  | .map k e, v, V, L, hV, hw, hL => by
    cases v with
    | obj i ms kk =>
      simp only [decPV]
      split
      · cases L with
        | nil => rfl
        | cons a b => exact .inr ⟨rfl, fun _ h => by cases h⟩
      · have hm : ∀ a ∈ mapParts V, HasTy e a.2 := by
          rcases hV with rfl | ⟨es, rfl, h⟩
          · intro a ha; cases ha
          · exact h
        apply lax_map
        exact map_lax (T := HasTy e) (P := UnknownKeys x src o e) (zero_typed e) ms _ (fun m hm L W hW hL => decP_lax e hW (wfM_mem hw.2.2.2.2 m hm).2 hL) (fun m _ W hW => decPV_keeps e hW) hm hL
    | _ => exact lax_same rfl hL
  | .struct n fs, v, V, L, hV, hw, hL => by
    obtain ⟨Ws, rfl, hW⟩ := hV
    cases v with
    | obj i ms k =>
      simp only [decPV]
      split
      · rename_i h; subst h; exact lax_same rfl hL
      · apply lax_map
        exact structP_lax ms Ws hw.2.2.2.2 (fun m hm j f hf L W hT hL => decPF_lax fs hf hT (wfM_mem hw.2.2.2.2 m hm).2 hL) hW hL
    | _ => exact lax_same rfl hL
  | .ptr e, v, V, L, hV, hw, hL => by
    have hp : Lax L ((decPV x src (some (lenient o)) e v (zeroV x e)).map Val.ptr) ((decPV x src (some (strict o)) e v (zeroV x e)).map Val.ptr) :=
      lax_map _ (decP_lax e (zero_typed e) hw hL)
    cases v with
    | null i j => exact lax_same rfl (unknown_null e hL)
    | _ => exact hp
theorem decPF_lax {x : Ext} {src : Bytes} {o : Options} : ∀ (fs : List (Bytes × Nat × Ty)) {j : Nat} {f : Bytes × Nat × Ty}, fs[j]? = some f → ∀ {v : JVal} {V : Val} {L : List Nat}, HasTy f.2.2 V → Wf src v →
    UnknownKeys x src o f.2.2 v L → Lax L (decPV x src (some (lenient o)) f.2.2 v V) (decPV x src (some (strict o)) f.2.2 v V)
  | [], j, f, hf, v, V, L, hV, hw, hL => by simp at hf
  | (_, _, t) :: fs, 0, f, hf, v, V, L, hV, hw, hL => by
    simp only [List.getElem?_cons_zero, Option.some.injEq] at hf
    subst hf
    exact decP_lax t hV hw hL
  | _ :: fs, j + 1, f, hf, v, V, L, hV, hw, hL => by
    simp only [List.getElem?_cons_succ] at hf
    exact decPF_lax fs hf hV hw hL
end

mutual
theorem decPV_nu {x : Ext} {src : Bytes} {o : Options} (ho : o.disallowUnknownFields = false) : ∀ (ty : Ty) {v : JVal} {V : Val}, NU (decPV x src (some o) ty v V)
  | .array n e, v, V => by
    cases v with
    | arr i vs k =>
      cases V <;> simp only [decPV] <;> first | exact leafV_nu | exact (elemsV_nu vs _ (fun v hv W => decPV_nu ho e)).map
    | _ => simp only [decPV]; exact leafV_nu
  | .slice e, v, V => by
    cases v with
    | arr i vs k => simp only [decPV]; exact sliceV_nu (fun v hv W => decPV_nu ho e)
    | _ => simp only [decPV]; exact leafV_nu
  | .map k e, v, V => by
    cases v with
    | obj i ms kk =>
      simp only [decPV]
      split
      · trivial
      · exact (mapV_nu ms _ (fun a ha W => decPV_nu ho e)).map
    | _ => simp only [decPV]; exact leafV_nu
  | .struct n fs, v, V => by
    cases v with
    | obj i ms k =>
      cases V with
      | struct Ws =>
        simp only [decPV]
        split
        · trivial
        · refine (structV_nu ho ms Ws (fun m hm j f hf W => ?_)).map
          rw [Val.decPVF_get] at hf
          cases hfj : fs[j]? with
          | none => rw [hfj] at hf; cases hf
          | some g =>
            rw [hfj] at hf
            simp only [Option.map_some, Option.some.injEq] at hf
            subst hf
            exact decPVF_nu ho fs hfj
      | _ => simp only [decPV]; exact leafV_nu
    | _ => simp only [decPV]; exact leafV_nu
  | .emptyStruct, v, V => by cases v <;> simp only [decPV] <;> first | trivial | exact leafV_nu
  | .ptr e, v, V => by
    have hp := (decPV_nu (x := x) (src := src) ho e (v := v) (V := zeroV x e)).map (f := Val.ptr)
    cases v <;> first | trivial | exact hp
  | .jsonU rt n impl, v, V => by simp only [decPV]; exact decV_nu ho _
  | .textU rt n impl, v, V => by simp only [decPV]; exact decV_nu ho _
  | .any, v, V => by simp only [decPV]; exact decV_nu ho _
  | .array0, v, V => by simp only [decPV]; exact decV_nu ho _
  | .sliceOf k, v, V => by simp only [decPV]; exact decV_nu ho _
  | .sliceES, v, V => by simp only [decPV]; exact decV_nu ho _
  | .mapSS, v, V => by simp only [decPV]; exact decV_nu ho _
  | .number, v, V => by simp only [decPV]; exact decV_nu ho _
  | .scalar k, v, V => by simp only [decPV]; exact decV_nu ho _
  | .quoted k, v, V => by simp only [decPV]; exact decV_nu ho _
theorem decPVF_nu {x : Ext} {src : Bytes} {o : Options} (ho : o.disallowUnknownFields = false) : ∀ (fs : List (Bytes × Nat × Ty)) {j : Nat} {f : Bytes × Nat × Ty}, fs[j]? = some f → ∀ {v : JVal} {V : Val},
    NU (decPV x src (some o) f.2.2 v V)
  | [], j, f, hf, v, V => by simp at hf
  | (_, _, t) :: fs, 0, f, hf, v, V => by
    simp only [List.getElem?_cons_zero, Option.some.injEq] at hf
    subst hf
    exact decPV_nu ho t
  | _ :: fs, j + 1, f, hf, v, V => by
    simp only [List.getElem?_cons_succ] at hf
    exact decPVF_nu ho fs hf
end

/-- The members of a struct under other options. -/
theorem right_struct {x : Ext} {src : Bytes} {o o' : Options} {n : Nat} {fs : List (Bytes × Nat × Ty)} {p : Place} {a z : Nat} {ms : List ((Nat × Nat) × JVal)}
    (hk : ∀ raw, keyName o' raw = keyName o raw) (hff : ∀ names name, findField x o' names name = findField x o names name)
    (hu : ∀ m ∈ ms, ∀ raw name, Model.slice src (m.1.1 + 1) (m.1.2 - 1) = some raw → keyName o raw = some name → findField x o ((fs.map (·.1)).zipIdx) name = none →
      o'.disallowUnknownFields = true ∨ hasObj m.2 = false)
    (hf : ∀ m ∈ ms, ∀ raw name (j : Nat) f, Model.slice src (m.1.1 + 1) (m.1.2 - 1) = some raw → keyName o raw = some name → findField x o ((fs.map (·.1)).zipIdx) name = some j → fs[j]? = some f →
      ∀ p, Right x src (some o) f.2.2 p m.2 → Right x src (some o') f.2.2 p m.2)
    (h : Right x src (some o) (.struct n fs) p (.obj a ms z)) : Right x src (some o') (.struct n fs) p (.obj a ms z) := by
  have key : ∀ m ∈ ms, ∀ p, RightM x src o (fs.map (·.1)) (RightF x src (some o) fs) p m → RightM x src o' (fs.map (·.1)) (RightF x src (some o') fs) p m := by
    intro m hm p h raw name hraw hname
    rw [hk] at hname
    rw [hff]
    have h1 := h raw name hraw hname
    cases hj : findField x o ((fs.map (·.1)).zipIdx) name with
    | none => exact hu m hm raw name hraw hname hj
    | some j =>
      rw [hj] at h1
      intro R hR
      cases hfj : fs[j]? with
      | none =>
        have hlt := Sim.findField_lt hj
        rw [List.length_map] at hlt
        rw [List.getElem?_eq_getElem hlt] at hfj
        cases hfj
      | some f =>
        rw [Sim.rightF_get x src (some o') fs j f.1 f.2.1 f.2.2 hfj] at hR
        cases hR
        exact hf m hm raw name j f hraw hname hj hfj p (h1 _ (Sim.rightF_get x src (some o) fs j f.1 f.2.1 f.2.2 hfj))
  simp only [Right] at h ⊢
  intro o'' ho
  cases ho
  exact Sim.ButLast.imp (h o rfl) (fun m hm => key m hm .inside) fun m hm => key m hm p

mutual
/-- Fewer documents leave the fragment with DisallowUnknownFields. -/
theorem right_to_strict {x : Ext} {src : Bytes} {o : Options} : ∀ (ty : Ty) {p : Place} {v : JVal}, Right x src (some (lenient o)) ty p v → Right x src (some (strict o)) ty p v
  | .array n e, p, v, h => by
    cases v <;> simp only [Right] at h ⊢
    split at h <;> rename_i hl
    · rw [if_pos hl]; exact Sim.ButLast.imp h (fun w _ h => right_to_strict e h) fun w _ h => right_to_strict e h
    · rw [if_neg hl]; exact fun w hw => right_to_strict e (h w hw)
  | .slice e, p, v, h => by
    cases v <;> simp only [Right] at h ⊢
    exact Sim.ButLast.imp h (fun w _ h => right_to_strict e h) fun w _ h => right_to_strict e h
  | .map k e, p, v, h => by
    cases v <;> simp only [Right] at h ⊢
    exact ⟨h.1, Sim.ButLast.imp h.2 (fun m _ h => right_to_strict e h) fun m _ h => right_to_strict e h⟩
  | .struct n fs, p, v, h => by
    cases v with
    | obj a ms z => exact right_struct (o := lenient o) (o' := strict o) (fun _ => rfl) (fun _ _ => rfl) (fun _ _ _ _ _ _ _ => .inl rfl) (fun m hm raw name j f _ _ _ hf p h => right_to_strictF fs hf h) h
    | _ => trivial
  | .emptyStruct, p, v, h => by cases v <;> exact h
  | .ptr e, p, v, h => by
    cases v <;> first | trivial | (refine ⟨h.1, ?_⟩; have h := h.2; cases p <;> first | exact h | exact right_to_strict e h)
  | .any, p, v, h => trivial
  | .number, p, v, h => trivial
  | .scalar _, p, v, h => trivial
  | .quoted _, p, v, h => trivial
  | .jsonU _ _ _, p, v, h => trivial
  | .textU _ _ _, p, v, h => trivial
  | .array0, p, v, h => trivial
  | .sliceOf _, p, v, h => trivial
  | .sliceES, p, v, h => trivial
  | .mapSS, p, v, h => trivial
theorem right_to_strictF {x : Ext} {src : Bytes} {o : Options} : ∀ (fs : List (Bytes × Nat × Ty)) {j : Nat} {f : Bytes × Nat × Ty}, fs[j]? = some f → ∀ {p : Place} {v : JVal},
    Right x src (some (lenient o)) f.2.2 p v → Right x src (some (strict o)) f.2.2 p v
  | [], j, f, hf, p, v, h => by simp at hf
  | (_, _, t) :: fs, 0, f, hf, p, v, h => by
    simp only [List.getElem?_cons_zero, Option.some.injEq] at hf
    subst hf
    exact right_to_strict t h
  | _ :: fs, j + 1, f, hf, p, v, h => by
    simp only [List.getElem?_cons_succ] at hf
    exact right_to_strictF fs hf h
end

mutual
/-- Without unknown keys the fragment is the same. -/
theorem right_to_lenient {x : Ext} {src : Bytes} {o : Options} : ∀ (ty : Ty) {p : Place} {v : JVal}, Wf src v → UnknownKeys x src o ty v [] → Right x src (some (strict o)) ty p v → Right x src (some (lenient o)) ty p v
  | .array n e, p, v, hw, hu, h => by
    cases v <;> simp only [Right] at h ⊢
    rename_i vs _
    split at h <;> rename_i hl
    · rw [if_pos hl]
      have hu' : ∀ w ∈ vs, UnknownKeys x src o e w [] := by simp only [UnknownKeys] at hu; rw [List.take_of_length_le hl] at hu; exact concat_nil hu
      exact Sim.ButLast.imp h (fun w hm h => right_to_lenient e (wfL_mem hw.2.2.2.2 w hm) (hu' w hm) h) fun w hm h => right_to_lenient e (wfL_mem hw.2.2.2.2 w hm) (hu' w hm) h
    · rw [if_neg hl]; exact fun w hm => right_to_lenient e (wfL_mem hw.2.2.2.2 w (List.mem_of_mem_take hm)) (concat_nil hu w hm) (h w hm)
  | .slice e, p, v, hw, hu, h => by
    cases v <;> simp only [Right] at h ⊢
    exact Sim.ButLast.imp h (fun w hm h => right_to_lenient e (wfL_mem hw.2.2.2.2 w hm) (concat_nil hu w hm) h) fun w hm h => right_to_lenient e (wfL_mem hw.2.2.2.2 w hm) (concat_nil hu w hm) h
  | .map k e, p, v, hw, hu, h => by
    cases v <;> simp only [Right] at h ⊢
    exact ⟨h.1, Sim.ButLast.imp h.2 (fun w hm h => right_to_lenient e (wfM_mem hw.2.2.2.2 w hm).2 (concat_nil hu w hm) h) fun w hm h => right_to_lenient e (wfM_mem hw.2.2.2.2 w hm).2 (concat_nil hu w hm) h⟩
  | .struct n fs, p, v, hw, hu, h => by
    cases v with
    | obj a ms z =>
      refine right_struct (o := strict o) (o' := lenient o) (fun _ => rfl) (fun _ _ => rfl) (fun m hm raw name hr hn hf => ?_) (fun m hm raw name j f hr hn hj hf p h => ?_) h
      · obtain ⟨j, f, hj, -, -⟩ := member_known (wfM_mem hw.2.2.2.2 m hm).1 (concat_nil hu m hm) hr hn
        have : findField x (strict o) ((fs.map (·.1)).zipIdx) name = some j := hj
        rw [this] at hf; cases hf
      · obtain ⟨j', f', hj', hf', hu'⟩ := member_known (wfM_mem hw.2.2.2.2 m hm).1 (concat_nil hu m hm) hr hn
        have : findField x (strict o) ((fs.map (·.1)).zipIdx) name = some j' := hj'
        rw [this] at hj; cases hj
        rw [hf'] at hf; cases hf
        exact right_to_lenientF fs hf' (wfM_mem hw.2.2.2.2 m hm).2 hu' h
    | _ => trivial
  | .emptyStruct, p, v, hw, hu, h => by cases v <;> exact h
  | .ptr e, p, v, hw, hu, h => by
    cases v <;> first | trivial | (refine ⟨h.1, ?_⟩; have h := h.2; cases p <;> first | exact h | exact right_to_lenient e hw hu h)
  | .any, p, v, hw, hu, h => trivial
  | .number, p, v, hw, hu, h => trivial
  | .scalar _, p, v, hw, hu, h => trivial
  | .quoted _, p, v, hw, hu, h => trivial
  | .jsonU _ _ _, p, v, hw, hu, h => trivial
  | .textU _ _ _, p, v, hw, hu, h => trivial
  | .array0, p, v, hw, hu, h => trivial
  | .sliceOf _, p, v, hw, hu, h => trivial
  | .sliceES, p, v, hw, hu, h => trivial
  | .mapSS, p, v, hw, hu, h => trivial
theorem right_to_lenientF {x : Ext} {src : Bytes} {o : Options} : ∀ (fs : List (Bytes × Nat × Ty)) {j : Nat} {f : Bytes × Nat × Ty}, fs[j]? = some f → ∀ {p : Place} {v : JVal}, Wf src v → UnknownKeys x src o f.2.2 v [] →
    Right x src (some (strict o)) f.2.2 p v → Right x src (some (lenient o)) f.2.2 p v
  | [], j, f, hf, p, v, hw, hu, h => by simp at hf
  | (_, _, t) :: fs, 0, f, hf, p, v, hw, hu, h => by
    simp only [List.getElem?_cons_zero, Option.some.injEq] at hf
    subst hf
    exact right_to_lenient t hw hu h
  | _ :: fs, j + 1, f, hf, p, v, hw, hu, h => by
    simp only [List.getElem?_cons_succ] at hf
    exact right_to_lenientF fs hf hw hu h
end

end Verif.Proof.Unknown

import Verif.Proof.Unknown
/-!
# Without DisallowUnknownFields no reading ends with `ErrUnknownField`
-/
namespace Verif.Proof.Unknown
open Verif.Model Verif.Big Verif.Spec Verif.Proof Verif.Proof.Outcome Verif.Proof.Safe Verif.Proof.Typed

/-- The outcome is not `ErrUnknownField`. -/
def NU {α : Type} : R α → Prop
  | .err _ e _ => e ≠ .unknownField
  | _ => True

theorem NU.map {α β : Type} {f : α → β} {r : R α} (h : NU r) : NU (r.map f) := by cases r <;> exact h

/-- The action does not report `ErrUnknownField`. -/
def ANU : Act → Prop
  | .err e => e ≠ .unknownField
  | _ => True

theorem actV_nu {idx : Nat} {z V : Val} {call : Option (Block → Bytes → Block × Option Nat)} {a : Act} (h : ANU a) : NU (actV idx z call V a) := by
  cases a with
  | text t =>
    simp only [actV]
    split
    · split
      · trivial
      · exact fun h => by cases h
    · trivial
  | err e => exact h
  | _ => trivial

theorem storeInt_nu {x : Ext} {k : IKind} {s : Bytes} {e : Err} (he : e ≠ .unknownField) : ANU (storeInt x k s e) := by
  unfold storeInt
  split <;> first | trivial | exact he

theorem storeFlt_nu (n : Nat) (r : Except Nat Flt) : ANU (storeFlt n r) := by
  cases r
  · exact fun h => by cases h
  · trivial

theorem onInteger_nu {x : Ext} {et : EType} {s : Bytes} : ANU (onInteger x et s) := by
  unfold onInteger
  split
  · split
    · trivial
    · exact fun h => by cases h
  · split
    · split
      · trivial
      · split
        · exact fun h => by cases h
        · exact storeInt_nu (by simp)
    · exact storeInt_nu (by simp)
  · exact storeFlt_nu _ _
  · trivial
  · trivial
  · trivial
  · exact fun h => by cases h

theorem onNumber_nu {x : Ext} {et : EType} {s : Bytes} : ANU (onNumber x et s) := by
  unfold onNumber
  split
  · split
    · trivial
    · exact fun h => by cases h
  · exact storeFlt_nu _ _
  · trivial
  · trivial
  · trivial
  · exact fun h => by cases h

theorem ue_nu : ANU (.err .unexpectedValue) := fun h => by cases h

theorem onString_nu {x : Ext} {et : EType} {s : Bytes} : ANU (onString x et s) := by
  unfold onString
  split
  · split <;> trivial
  · split <;> trivial
  · split <;> trivial
  · split
    · trivial
    · split
      · trivial
      · exact ue_nu
  · split
    · exact ue_nu
    · simp only []
      split
      · exact ue_nu
      · trivial
  · split
    · trivial
    · split
      · exact ue_nu
      · trivial
  · split
    · trivial
    · split
      · exact ue_nu
      · exact storeFlt_nu _ _
  · split
    · trivial
    · exact ue_nu
    · trivial
  · trivial
  · trivial
  · exact ue_nu

theorem leaf_nu {x : Ext} {src : Bytes} {et : EType} {v : JVal} : ANU (leaf x src et v) := by
  cases v with
  | null i e => simp only [leaf]; unfold onNull; split <;> trivial
  | bool b i e =>
    simp only [leaf]; unfold onBool
    split <;> first | trivial | exact ue_nu
  | num b i e => cases b <;> simp only [leaf] <;> split <;> first | trivial | exact onNumber_nu | exact onInteger_nu
  | str i e =>
    simp only [leaf]; split
    · trivial
    · exact onString_nu
  | arr i es k => exact ue_nu
  | obj i ms k => exact ue_nu

theorem leafV_nu {x : Ext} {src : Bytes} {ty : Ty} {v : JVal} {V : Val} : NU (leafV x src ty v V) := actV_nu leaf_nu

theorem elemAct_nu {x : Ext} {src : Bytes} {k : SKind} {v : JVal} : ANU (elemAct x src k v) := by
  cases v with
  | null i e => trivial
  | bool b i e => cases k <;> simp only [elemAct] <;> first | trivial | exact ue_nu
  | num isInt i e =>
    cases k with
    | bool => exact ue_nu
    | str => exact ue_nu
    | int k =>
      cases isInt
      · exact ue_nu
      · simp only [elemAct, if_true]
        split
        · trivial
        · exact onInteger_nu
    | flt k =>
      simp only [elemAct]
      split
      · trivial
      · exact storeFlt_nu _ _
  | str i e =>
    cases k <;> simp only [elemAct] <;> try exact ue_nu
    split <;> trivial
  | arr i es k => exact ue_nu
  | obj i ms k => exact ue_nu

theorem elemsV_nu {f : JVal → Val → R Val} : ∀ (vs : List JVal) (Ws : List Val), (∀ v ∈ vs, ∀ W, NU (f v W)) → NU (elemsV f vs Ws)
  | [], Ws, _ => by cases Ws <;> trivial
  | v :: vs, [], _ => trivial
  | v :: vs, W :: Ws, hf => by
    have h1 := hf v List.mem_cons_self W
    simp only [elemsV]
    cases hr : f v W with
    | ok W' => exact (elemsV_nu vs Ws (fun v hv => hf v (List.mem_cons_of_mem _ hv))).map
    | err i e W' => rw [hr] at h1; exact h1
    | crash => trivial
    | unsup => trivial

theorem sliceV_nu {f : JVal → Val → R Val} {z V : Val} {c : Bool} {vs : List JVal} (hf : ∀ v ∈ vs, ∀ W, NU (f v W)) : NU (sliceV f z c vs V) := by
  unfold sliceV
  split
  · trivial
  · generalize prepSlice z c vs.length V = q
    exact (elemsV_nu vs _ hf).map

theorem sliceOfV_nu {f : JVal → Val → R Val} {z V : Val} {vs : List JVal} (hf : ∀ v ∈ vs, ∀ W, NU (f v W)) : NU (sliceOfV f z vs V) := by
  unfold sliceOfV
  split
  · trivial
  · generalize sliceParts V = q
    obtain ⟨es, sp⟩ := q
    simp only []
    split
    · have := elemsV_nu vs (List.replicate vs.length z) hf
      cases hr : elemsV f vs (List.replicate vs.length z) with
      | err i e es' => rw [hr] at this; exact this
      | _ => trivial
    · have := elemsV_nu vs ((es ++ sp).take vs.length) hf
      cases hr : elemsV f vs ((es ++ sp).take vs.length) with
      | err i e es' => rw [hr] at this; exact this
      | _ => trivial

theorem key_nu {x : Ext} {key : Bytes} {k : KeyTy} {er : Err} (h : k.key x key = some (.error er)) : er ≠ .unknownField := by
  unfold KeyTy.key at h
  split at h
  · cases hu : x.unescStr key <;> simp [hu] at h
  · split at h <;> simp at h
    rw [← h]; exact fun h => by cases h
  · split at h
    · split at h <;> simp at h
      rw [← h]; exact fun h => by cases h
    · cases h
  · cases h

theorem mapV_nu {x : Ext} {src : Bytes} {f : JVal → Val → R Val} {k : KeyTy} {z : Val} {fresh : Bool} :
    ∀ (ms : List ((Nat × Nat) × JVal)) (m : List (Key × Val)), (∀ a ∈ ms, ∀ W, NU (f a.2 W)) → NU (mapV x src f k z fresh ms m)
  | [], m, _ => trivial
  | ((i, e), v) :: ms, m, hf => by
    simp only [mapV]
    split
    · trivial
    · rename_i er h
      cases hs : Model.slice src (i + 1) (e - 1) with
      | none => rw [hs] at h; cases h
      | some raw => rw [hs, Option.bind_some] at h; exact key_nu h
    · rename_i k' _
      have h1 := hf _ List.mem_cons_self (if fresh = true then z else (lookupV k' m).getD z)
      simp only [] at h1
      split <;> rename_i hr' <;> rw [hr'] at h1
      · exact mapV_nu ms _ (fun a ha => hf a (List.mem_cons_of_mem _ ha))
      · exact h1
      · trivial
      · trivial

theorem mapSSV_nu {x : Ext} {src : Bytes} : ∀ (ms : List ((Nat × Nat) × JVal)) (m : List (Key × Val)) {i : Nat} {er : Err}, mapSSV x src ms m = some (.error (i, er)) → er ≠ .unknownField
  | [], m, i, er, hr => by cases hr
  | ((i, e), v) :: ms, m, i', er, hr => by
    simp only [mapSSV] at hr
    split at hr
    · split at hr
      · exact mapSSV_nu ms _ hr
      · cases hr
    · split at hr
      · exact mapSSV_nu ms _ hr
      · cases hr
    · simp only [Option.some.injEq, Except.error.injEq, Prod.mk.injEq] at hr
      rw [← hr.2]; exact fun h => by cases h

theorem structV_nu {x : Ext} {src : Bytes} {o : Options} (ho : o.disallowUnknownFields = false) {fs : List (Bytes × (JVal → Val → R Val))} :
    ∀ (ms : List ((Nat × Nat) × JVal)) (Ws : List Val), (∀ m ∈ ms, ∀ (j : Nat) f, fs[j]? = some f → ∀ W, NU (f.2 m.2 W)) → NU (structV x src o fs ms Ws)
  | [], Ws, _ => trivial
  | ((i, e), v) :: ms, Ws, hf => by
    simp only [structV]
    split
    · trivial
    · split
      · rename_i j _
        split
        · rename_i nm f W hf1 _
          have h1 := hf _ List.mem_cons_self j _ hf1 W
          simp only [] at h1
          split <;> rename_i hr <;> rw [hr] at h1
          · exact structV_nu ho ms _ (fun m hm => hf m (List.mem_cons_of_mem _ hm))
          · exact h1
          · trivial
          · trivial
        · trivial
      · rw [if_neg (by simp [ho])]
        split
        · trivial
        · exact structV_nu ho ms _ (fun m hm => hf m (List.mem_cons_of_mem _ hm))

mutual
theorem decV_nu {x : Ext} {src : Bytes} {o : Options} (ho : o.disallowUnknownFields = false) : ∀ (ty : Ty) {v : JVal} {V : Val}, NU (decV x src (some o) ty v V)
  | .jsonU rt n impl, v, V => by
    simp only [decV, jsonV]
    split
    · split
      · trivial
      · exact fun h => by cases h
    · trivial
  | .textU rt n impl, v, V => actV_nu leaf_nu
  | .any, v, V => by
    have ha : NU (anyV x src v V) := by
      unfold anyV
      split
      · trivial
      · exact fun h => by cases h
      · trivial
    cases v <;> simp only [decV] <;> first | exact ha | exact leafV_nu
  | .array0, v, V => by cases v <;> simp only [decV] <;> first | trivial | exact leafV_nu
  | .array n e, v, V => by
    cases v with
    | arr i vs k =>
      cases V <;> simp only [decV] <;> first | exact leafV_nu | exact (elemsV_nu vs _ (fun v hv W => decV_nu ho e)).map
    | _ => simp only [decV]; exact leafV_nu
  | .slice e, v, V => by
    cases v with
    | arr i vs k => simp only [decV]; exact sliceV_nu (fun v hv W => decV_nu ho e)
    | _ => simp only [decV]; exact leafV_nu
  | .sliceOf k, v, V => by
    cases v with
    | arr i vs k => simp only [decV]; exact sliceOfV_nu (fun v hv W => actV_nu elemAct_nu)
    | _ => simp only [decV]; exact leafV_nu
  | .sliceES, v, V => by
    cases v with
    | arr i vs kk => trivial
    | _ => simp only [decV]; exact leafV_nu
  | .mapSS, v, V => by
    cases v with
    | obj i ms k =>
      simp only [decV]
      split
      · trivial
      · rename_i h; exact mapSSV_nu ms [] h
      · trivial
    | _ => simp only [decV]; exact leafV_nu
  | .map k e, v, V => by
    cases v with
    | obj i ms kk =>
      simp only [decV]
      split
      · trivial
      · exact (mapV_nu ms _ (fun a ha W => decV_nu ho e)).map
    | _ => simp only [decV]; exact leafV_nu
  | .struct n fs, v, V => by
    cases v with
    | obj i ms k =>
      cases V with
      | struct Ws =>
        simp only [decV]
        split
        · trivial
        · refine (structV_nu ho ms Ws (fun m hm j f hf W => ?_)).map
          rw [Val.decVF_get] at hf
          cases hfj : fs[j]? with
          | none => rw [hfj] at hf; cases hf
          | some g =>
            rw [hfj] at hf
            simp only [Option.map_some, Option.some.injEq] at hf
            subst hf
            exact decVF_nu ho fs hfj
      | _ => simp only [decV]; exact leafV_nu
    | _ => simp only [decV]; exact leafV_nu
  | .emptyStruct, v, V => by cases v <;> simp only [decV] <;> first | trivial | exact leafV_nu
  | .ptr e, v, V => by
    have hp := (decV_nu (x := x) (src := src) ho e (v := v) (V := pointee (zeroV x e) V)).map (f := Val.ptr)
    cases v <;> first | trivial | exact hp
  | .number, v, V => leafV_nu
  | .scalar k, v, V => leafV_nu
  | .quoted k, v, V => leafV_nu
theorem decVF_nu {x : Ext} {src : Bytes} {o : Options} (ho : o.disallowUnknownFields = false) : ∀ (fs : List (Bytes × Nat × Ty)) {j : Nat} {f : Bytes × Nat × Ty}, fs[j]? = some f → ∀ {v : JVal} {V : Val},
    NU (decV x src (some o) f.2.2 v V)
  | [], j, f, hf, v, V => by simp at hf
  | (_, _, t) :: fs, 0, f, hf, v, V => by
    simp only [List.getElem?_cons_zero, Option.some.injEq] at hf
    subst hf
    exact decV_nu ho t
  | _ :: fs, j + 1, f, hf, v, V => by
    simp only [List.getElem?_cons_succ] at hf
    exact decVF_nu ho fs hf
end

theorem top_nu {x : Ext} {src : Bytes} {o : Options} (ho : o.disallowUnknownFields = false) : ∀ (ty : Ty) {v : JVal} {V : Val}, NU (decTopV x src (some o) ty v V)
  | .ptr e, v, V => by
    have hp : NU (if tokOK src v = false then R.crash else if e.size x = 0 then .unsup else (decTopV x src (some o) e v (zeroV x e)).map Val.ptr) := by
      split
      · trivial
      · split
        · trivial
        · exact (top_nu ho e).map
    cases v <;> first | trivial | exact hp
  | .emptyStruct, v, V => by
    have h := decV_nu (x := x) (src := src) ho .emptyStruct (v := v) (V := V)
    cases v <;> first | trivial | exact h
  | .any, v, V => decV_nu ho .any
  | .number, v, V => decV_nu ho .number
  | .scalar k, v, V => decV_nu ho (.scalar k)
  | .quoted k, v, V => decV_nu ho (.quoted k)
  | .jsonU a b c, v, V => decV_nu ho (.jsonU a b c)
  | .textU a b c, v, V => decV_nu ho (.textU a b c)
  | .array0, v, V => decV_nu ho .array0
  | .sliceOf k, v, V => decV_nu ho (.sliceOf k)
  | .sliceES, v, V => decV_nu ho .sliceES
  | .mapSS, v, V => decV_nu ho .mapSS
  | .array n e, v, V => decV_nu ho (.array n e)
  | .slice e, v, V => decV_nu ho (.slice e)
  | .map k e, v, V => decV_nu ho (.map k e)
  | .struct n fs, v, V => decV_nu ho (.struct n fs)

/-! ## The list of unknown keys exists -/

theorem concat_exists {α : Type} {P : α → List Nat → Prop} : ∀ {as : List α}, (∀ a ∈ as, ∃ L, P a L) → ∃ L, Concat P as L
  | [], _ => ⟨[], rfl⟩
  | a :: as, h => by
    obtain ⟨L1, h1⟩ := h a List.mem_cons_self
    obtain ⟨L2, h2⟩ := concat_exists (fun b hb => h b (List.mem_cons_of_mem _ hb))
    exact ⟨L1 ++ L2, L1, L2, rfl, h1, h2⟩

mutual
theorem unknown_exists {x : Ext} {src : Bytes} {o : Options} : ∀ (ty : Ty) {v : JVal}, Wf src v → ∃ L, UnknownKeys x src o ty v L
  | .array n e, v, hw => by
    cases v with
    | arr i vs k => exact concat_exists fun w hm => unknown_exists e (wfL_mem hw.2.2.2.2 w (List.mem_of_mem_take hm))
    | _ => exact ⟨[], rfl⟩
  | .slice e, v, hw => by
    cases v with
    | arr i vs k => exact concat_exists fun w hm => unknown_exists e (wfL_mem hw.2.2.2.2 w hm)
    | _ => exact ⟨[], rfl⟩
  | .map k e, v, hw => by
    cases v with
    | obj i ms k => exact concat_exists fun w hm => unknown_exists e (wfM_mem hw.2.2.2.2 w hm).2
    | _ => exact ⟨[], rfl⟩
  | .struct n fs, v, hw => by
    cases v with
    | obj i ms k =>
      refine concat_exists fun m hm => ?_
      obtain ⟨h1, h2⟩ := wfM_mem hw.2.2.2.2 m hm
      rcases key_cases x o (fs.map (·.1)) h1 with ⟨j, hj⟩ | hu
      · obtain ⟨name, -, hff⟩ := key_selects h1 hj
        have hlt := Sim.findField_lt hff
        simp only [List.length_map] at hlt
        obtain ⟨L, hL⟩ := unknown_existsF fs (List.getElem?_eq_getElem hlt) h2
        exact ⟨L, .inr ⟨j, _, hj, by rw [unknownF_get, List.getElem?_eq_getElem hlt]; rfl, hL⟩⟩
      · exact ⟨_, .inl ⟨hu, rfl⟩⟩
    | _ => exact ⟨[], rfl⟩
  | .ptr e, v, hw => unknown_exists e hw
  | .any, _, _ => ⟨[], rfl⟩
  | .number, _, _ => ⟨[], rfl⟩
  | .scalar _, _, _ => ⟨[], rfl⟩
  | .quoted _, _, _ => ⟨[], rfl⟩
  | .jsonU _ _ _, _, _ => ⟨[], rfl⟩
  | .textU _ _ _, _, _ => ⟨[], rfl⟩
  | .array0, _, _ => ⟨[], rfl⟩
  | .sliceOf _, _, _ => ⟨[], rfl⟩
  | .sliceES, _, _ => ⟨[], rfl⟩
  | .mapSS, _, _ => ⟨[], rfl⟩
  | .emptyStruct, _, _ => ⟨[], rfl⟩
theorem unknown_existsF {x : Ext} {src : Bytes} {o : Options} : ∀ (fs : List (Bytes × Nat × Ty)) {j : Nat} {f : Bytes × Nat × Ty}, fs[j]? = some f → ∀ {v : JVal}, Wf src v → ∃ L, UnknownKeys x src o f.2.2 v L
  | [], j, f, hf, v, hw => by simp at hf
  | (_, _, t) :: fs, 0, f, hf, v, hw => by
    simp only [List.getElem?_cons_zero, Option.some.injEq] at hf
    subst hf
    exact unknown_exists t hw
  | _ :: fs, j + 1, f, hf, v, hw => by
    simp only [List.getElem?_cons_succ] at hf
    exact unknown_existsF fs hf hw
end

end Verif.Proof.Unknown

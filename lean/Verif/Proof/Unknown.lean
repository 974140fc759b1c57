import Verif.Proof.Comp
import Verif.Proof.Typed
import Verif.Spec.Unknown
/-!
# Decoding with and without DisallowUnknownFields
-/
namespace Verif.Proof.Unknown
open Verif.Model Verif.Big Verif.Spec Verif.Proof Verif.Proof.Outcome Verif.Proof.Safe Verif.Proof.Typed

/-- How the strict outcome `s` relates to the lenient outcome `r`, if `L` are the unknown keys. -/
def Lax {α : Type} (L : List Nat) (r s : R α) : Prop :=
  match L with
  | [] => s = r
  | k :: _ => (∃ a, s = .err k .unknownField a) ∨ (s = r ∧ ∀ a, r ≠ .ok a)

/-- `F` continues after success only. -/
def Strict {α β : Type} (F G : R α → R β) : Prop :=
  (∀ i e a, ∃ b, F (.err i e a) = .err i e b ∧ G (.err i e a) = .err i e b) ∧ F .crash = .crash ∧ F .unsup = .unsup ∧ G .crash = .crash ∧ G .unsup = .unsup

theorem lax_seq {α β : Type} {L1 L2 : List Nat} {r s : R α} {F G : R α → R β} (hFG : Strict F G) (h1 : Lax L1 r s)
    (h2 : ∀ a, r = .ok a → Lax L2 (F (.ok a)) (G (.ok a))) : Lax (L1 ++ L2) (F r) (G s) := by
  obtain ⟨he, hc, hu, hc', hu'⟩ := hFG
  have key : (∀ a, r ≠ .ok a) → G r = F r ∧ ∀ b, F r ≠ .ok b := by
    intro hr
    cases r with
    | ok a => exact absurd rfl (hr a)
    | err i e a => obtain ⟨b, h1, h2⟩ := he i e a; rw [h1, h2]; exact ⟨rfl, fun _ h => by cases h⟩
    | crash => rw [hc, hc']; exact ⟨rfl, fun _ h => by cases h⟩
    | unsup => rw [hu, hu']; exact ⟨rfl, fun _ h => by cases h⟩
  cases L1 with
  | cons k L1 =>
    rcases h1 with ⟨a, rfl⟩ | ⟨rfl, h1⟩
    · obtain ⟨b, -, hb⟩ := he k .unknownField a
      exact .inl ⟨b, hb⟩
    · exact .inr (key h1)
  | nil =>
    change s = r at h1
    subst h1
    cases s with
    | ok a => exact h2 a rfl
    | err i e a =>
      have := key (fun _ h => by cases h)
      cases L2 with
      | nil => exact this.1
      | cons k L2 => exact .inr this
    | crash =>
      have := key (fun _ h => by cases h)
      cases L2 with
      | nil => exact this.1
      | cons k L2 => exact .inr this
    | unsup =>
      have := key (fun _ h => by cases h)
      cases L2 with
      | nil => exact this.1
      | cons k L2 => exact .inr this

theorem lax_refl {α : Type} {r : R α} : Lax [] r r := rfl

theorem lax_map {α β : Type} {L : List Nat} {r s : R α} (f : α → β) (h : Lax L r s) : Lax L (r.map f) (s.map f) := by
  have := lax_seq (F := R.map f) (G := R.map f) (L2 := []) ⟨fun i e a => ⟨_, rfl, rfl⟩, rfl, rfl, rfl, rfl⟩ h (fun a _ => lax_refl)
  simpa using this

theorem elems_lax {T : Val → Prop} {P : JVal → List Nat → Prop} {f g : JVal → Val → R Val} : ∀ (vs : List JVal) (Ws : List Val) {L : List Nat},
    (∀ v ∈ vs.take Ws.length, ∀ L W, T W → P v L → Lax L (f v W) (g v W)) → (∀ W ∈ Ws, T W) → Concat P (vs.take Ws.length) L → Lax L (elemsV f vs Ws) (elemsV g vs Ws)
  | [], Ws, L, _, _, hL => by
    cases Ws <;> (simp only [List.take_nil, Concat] at hL; subst hL; exact lax_refl)
  | v :: vs, [], L, _, _, hL => by
    simp only [List.length_nil, List.take_zero, Concat] at hL; subst hL; exact lax_refl
  | v :: vs, W :: Ws, L, h, hT, hL => by
    simp only [List.length_cons, List.take_succ_cons] at h hL
    obtain ⟨L1, L2, rfl, h1, h2⟩ := hL
    have hr := h v List.mem_cons_self L1 W (hT W List.mem_cons_self) h1
    refine lax_seq (F := fun r => match r with
      | .ok W => (elemsV f vs Ws).map (W :: ·)
      | .err i e W => .err i e (W :: Ws)
      | .crash => .crash
      | .unsup => .unsup) (G := fun r => match r with
      | .ok W => (elemsV g vs Ws).map (W :: ·)
      | .err i e W => .err i e (W :: Ws)
      | .crash => .crash
      | .unsup => .unsup) ⟨fun i e a => ⟨_, rfl, rfl⟩, rfl, rfl, rfl, rfl⟩ hr ?_
    intro W' _
    exact lax_map _ (elems_lax vs Ws (fun v hv => h v (List.mem_cons_of_mem _ hv)) (fun W hW => hT W (List.mem_cons_of_mem _ hW)) h2)

theorem prep_len {z : Val} {c : Bool} {n : Nat} {V : Val} : n ≤ (prepSlice z c n V).1.length := by
  unfold prepSlice
  obtain ⟨es, sp⟩ := sliceParts V
  dsimp only
  split
  · split
    · simp only [List.length_append, List.length_replicate]; omega
    · simp
  · simp only [List.length_take]; omega

theorem slice_lax {T : Val → Prop} {P : JVal → List Nat → Prop} {f g : JVal → Val → R Val} {z : Val} {c : Bool} {vs : List JVal} {V : Val} {L : List Nat}
    (h : ∀ v ∈ vs, ∀ L W, T W → P v L → Lax L (f v W) (g v W)) (hV : SliceP T V) (hz : T z) (hL : Concat P vs L) : Lax L (sliceV f z c vs V) (sliceV g z c vs V) := by
  unfold sliceV
  split
  · rename_i hn; subst hn
    simp only [Concat] at hL; subst hL; exact lax_refl
  · have hl := prep_len (z := z) (c := c) (n := vs.length) (V := V)
    have ht : vs.take (prepSlice z c vs.length V).1.length = vs := List.take_of_length_le hl
    have hT := prepSlice_P (c := c) (n := vs.length) hV hz
    generalize prepSlice z c vs.length V = q at ht hT
    apply lax_map
    exact elems_lax (T := T) (P := P) vs q.1 (by rw [ht]; exact h) (fun W hW => hT W (List.mem_append_left _ hW)) (by rw [ht]; exact hL)

theorem map_lax {x : Ext} {src : Bytes} {T : Val → Prop} {P : JVal → List Nat → Prop} {f g : JVal → Val → R Val} {k : KeyTy} {z : Val} {fresh : Bool} (hz : T z) :
    ∀ (ms : List ((Nat × Nat) × JVal)) (m : List (Key × Val)) {L : List Nat}, (∀ m ∈ ms, ∀ L W, T W → P m.2 L → Lax L (f m.2 W) (g m.2 W)) → (∀ m ∈ ms, ∀ W, T W → Keeps T (f m.2 W)) → (∀ e ∈ m, T e.2) → Concat (fun m => P m.2) ms L →
      Lax L (mapV x src f k z fresh ms m) (mapV x src g k z fresh ms m)
  | [], m, L, _, _, _, hL => by simp only [Concat] at hL; subst hL; exact lax_refl
  | ((i, e), v) :: ms, m, L, h, hk, hm, hL => by
    obtain ⟨L1, L2, rfl, h1, h2⟩ := hL
    simp only [mapV]
    split
    · cases hL' : L1 ++ L2 with
      | nil => rfl
      | cons a b => exact .inr ⟨rfl, fun _ h => by cases h⟩
    · cases hL' : L1 ++ L2 with
      | nil => rfl
      | cons a b => exact .inr ⟨rfl, fun _ h => by cases h⟩
    · rename_i k' _
      have ho : T (if fresh = true then z else (lookupV k' m).getD z) := by
        cases fresh
        · exact lookupV_P hz hm
        · exact hz
      have hr := h ((i, e), v) List.mem_cons_self L1 _ ho h1
      have hkeep := hk ((i, e), v) List.mem_cons_self _ ho
      refine lax_seq (F := fun r => match r with
        | .ok W => mapV x src f k z fresh ms (assignV k' W m)
        | .err i e W => .err i e (assignV k' W m)
        | .crash => .crash
        | .unsup => .unsup) (G := fun r => match r with
        | .ok W => mapV x src g k z fresh ms (assignV k' W m)
        | .err i e W => .err i e (assignV k' W m)
        | .crash => .crash
        | .unsup => .unsup) ⟨fun i e a => ⟨_, rfl, rfl⟩, rfl, rfl, rfl, rfl⟩ hr ?_
      intro W' hW'
      rw [hW'] at hkeep
      exact map_lax hz ms _ (fun v hv => h v (List.mem_cons_of_mem _ hv)) (fun v hv => hk v (List.mem_cons_of_mem _ hv)) (assignV_P hkeep hm) h2

theorem unknownF_get {x : Ext} {src : Bytes} {o : Options} : ∀ (fs : List (Bytes × Nat × Ty)) (j : Nat), (UnknownKeysF x src o fs)[j]? = fs[j]?.map fun f => UnknownKeys x src o f.2.2
  | [], j => by simp [UnknownKeysF]
  | (a, b, t) :: fs, 0 => by simp [UnknownKeysF]
  | (a, b, t) :: fs, j + 1 => by simp only [UnknownKeysF, List.getElem?_cons_succ]; exact unknownF_get fs j

theorem struct_lax {x : Ext} {src : Bytes} {o : Options} {fs : List (Bytes × Nat × Ty)} :
    ∀ (ms : List ((Nat × Nat) × JVal)) (Ws : List Val) {L : List Nat}, WfM src ms →
      (∀ m ∈ ms, ∀ (j : Nat) f, fs[j]? = some f → ∀ L W, HasTy f.2.2 W → UnknownKeys x src o f.2.2 m.2 L →
        Lax L (decV x src (some (lenient o)) f.2.2 m.2 W) (decV x src (some (strict o)) f.2.2 m.2 W)) → HasTyF fs Ws →
      Concat (UnknownMember x src o (fs.map (·.1)) (UnknownKeysF x src o fs)) ms L →
      Lax L (structV x src (lenient o) (decVF x src (some (lenient o)) fs) ms Ws) (structV x src (strict o) (decVF x src (some (strict o)) fs) ms Ws)
  | [], Ws, L, _, _, _, hL => by simp only [Concat] at hL; subst hL; exact lax_refl
  | ((i, e), v) :: ms, Ws, L, hw, h, hT, hL => by
    obtain ⟨L1, L2, rfl, h1, h2⟩ := hL
    rcases h1 with ⟨hu, rfl⟩ | ⟨j, Q, hs, hQ, hL1⟩
    · obtain ⟨name, g1, g2⟩ := key_unknown (o := strict o) (k := (i, e)) hw.1 hu
      refine .inl ⟨Ws, ?_⟩
      simp only [] at g1
      simp only [structV, g1, Val.decVF_names, g2]; rfl
    · obtain ⟨name, g1, g2⟩ := key_selects (o := lenient o) (k := (i, e)) hw.1 hs
      have g1' : (Model.slice src (i + 1) (e - 1)).bind (keyName (strict o)) = some name := g1
      have g2' : findField x (strict o) ((fs.map (·.1)).zipIdx) name = some j := g2
      simp only [] at g1
      rw [unknownF_get] at hQ
      cases hf : fs[j]? with
      | none => rw [hf] at hQ; cases hQ
      | some f =>
        rw [hf] at hQ
        simp only [Option.map_some, Option.some.injEq] at hQ
        subst hQ
        obtain ⟨W, hW, hWT⟩ := hasTyF_get hT hf
        have hlax := h _ List.mem_cons_self j f hf L1 W hWT hL1
        have hkeep := decV_keeps (x := x) (src := src) (o := some (lenient o)) f.2.2 (v := v) hWT
        simp only [structV, g1, g1', Val.decVF_names, g2, g2', Val.decVF_get, hf, Option.map_some, hW]
        refine lax_seq (F := fun r => match r with
          | .ok W => structV x src (lenient o) (decVF x src (some (lenient o)) fs) ms (Ws.set j W)
          | .err i e W => .err i e (Ws.set j W)
          | .crash => .crash
          | .unsup => .unsup) (G := fun r => match r with
          | .ok W => structV x src (strict o) (decVF x src (some (strict o)) fs) ms (Ws.set j W)
          | .err i e W => .err i e (Ws.set j W)
          | .crash => .crash
          | .unsup => .unsup) ⟨fun i e a => ⟨_, rfl, rfl⟩, rfl, rfl, rfl, rfl⟩ hlax ?_
        intro W' hW'
        rw [hW'] at hkeep
        exact struct_lax ms _ hw.2.2 (fun v hv => h v (List.mem_cons_of_mem _ hv)) (hasTyF_set hT hf hkeep) h2

/-- Readings that do not depend on the options at all. -/
theorem lax_same {α : Type} {L : List Nat} {r s : R α} (hs : s = r) (hL : L = []) : Lax L r s := by subst hL; exact hs

theorem unknown_null {x : Ext} {src : Bytes} {o : Options} {i e : Nat} {L : List Nat} : ∀ (ty : Ty), UnknownKeys x src o ty (.null i e) L → L = []
  | .array _ _, h | .slice _, h | .map _ _, h | .struct _ _, h => h
  | .ptr t, h => unknown_null t h
  | .any, h | .number, h | .scalar _, h | .quoted _, h | .jsonU _ _ _, h | .textU _ _ _, h | .array0, h | .sliceOf _, h | .sliceES, h | .mapSS, h | .emptyStruct, h => h

mutual
/-- The unknown keys decide how the two readings differ. -/
theorem dec_lax {x : Ext} {src : Bytes} {o : Options} : ∀ (ty : Ty) {v : JVal} {V : Val} {L : List Nat}, HasTy ty V → Wf src v → UnknownKeys x src o ty v L →
    Lax L (decV x src (some (lenient o)) ty v V) (decV x src (some (strict o)) ty v V)
  | .any, v, V, L, _, _, hL => lax_same rfl hL
  | .number, v, V, L, _, _, hL => lax_same rfl hL
  | .scalar _, v, V, L, _, _, hL => lax_same rfl hL
  | .quoted _, v, V, L, _, _, hL => lax_same rfl hL
  | .jsonU _ _ _, v, V, L, _, _, hL => lax_same rfl hL
  | .textU _ _ _, v, V, L, _, _, hL => lax_same rfl hL
  | .array0, v, V, L, _, _, hL => lax_same rfl hL
  | .sliceOf _, v, V, L, _, _, hL => lax_same rfl hL
  | .sliceES, v, V, L, _, _, hL => lax_same rfl hL
  | .mapSS, v, V, L, _, _, hL => lax_same rfl hL
  | .emptyStruct, v, V, L, _, _, hL => lax_same rfl hL
  | .array n e, v, V, L, hV, hw, hL => by
    obtain ⟨es, rfl, hn, he⟩ := hV
    cases v with
    | arr i vs k =>
      simp only [decV]
      apply lax_map
      refine elems_lax (T := HasTy e) vs es (fun v hv L W hW hL => dec_lax e hW (wfL_mem hw.2.2.2.2 v (List.mem_of_mem_take hv)) hL) he ?_
      rw [hn]; exact hL
    | _ => exact lax_same rfl hL
  | .slice e, v, V, L, hV, hw, hL => by
    cases v with
    | arr i vs k =>
      simp only [decV]
      exact slice_lax (T := HasTy e) (P := UnknownKeys x src o e) (fun v hv L W hW hL => dec_lax e hW (wfL_mem hw.2.2.2.2 v hv) hL) hV (zero_typed e) hL
    | _ => exact lax_same rfl hL
  | .map k e, v, V, L, hV, hw, hL => by
    cases v with
    | obj i ms kk =>
      simp only [decV]
      split
      · cases L with
        | nil => rfl
        | cons a b => exact .inr ⟨rfl, fun _ h => by cases h⟩
      · have hm : ∀ a ∈ mapParts V, HasTy e a.2 := by
          rcases hV with rfl | ⟨es, rfl, h⟩
          · intro a ha; cases ha
          · exact h
        apply lax_map
        exact map_lax (T := HasTy e) (P := UnknownKeys x src o e) (zero_typed e) ms _ (fun m hm L W hW hL => dec_lax e hW (wfM_mem hw.2.2.2.2 m hm).2 hL) (fun m _ W hW => decV_keeps e hW) hm hL
    | _ => exact lax_same rfl hL
  | .struct n fs, v, V, L, hV, hw, hL => by
    obtain ⟨Ws, rfl, hW⟩ := hV
    cases v with
    | obj i ms k =>
      simp only [decV]
      split
      · rename_i h; subst h; exact lax_same rfl hL
      · apply lax_map
        exact struct_lax ms Ws hw.2.2.2.2 (fun m hm j f hf L W hT hL => decF_lax fs hf hT (wfM_mem hw.2.2.2.2 m hm).2 hL) hW hL
    | _ => exact lax_same rfl hL
  | .ptr e, v, V, L, hV, hw, hL => by
    have hp : Lax L ((decV x src (some (lenient o)) e v (pointee (zeroV x e) V)).map Val.ptr) ((decV x src (some (strict o)) e v (pointee (zeroV x e) V)).map Val.ptr) :=
      lax_map _ (dec_lax e (Safe.pointee_typed hV) hw hL)
    cases v with
    | null i j => exact lax_same rfl (unknown_null e hL)
    | _ => exact hp
theorem decF_lax {x : Ext} {src : Bytes} {o : Options} : ∀ (fs : List (Bytes × Nat × Ty)) {j : Nat} {f : Bytes × Nat × Ty}, fs[j]? = some f → ∀ {v : JVal} {V : Val} {L : List Nat}, HasTy f.2.2 V → Wf src v →
    UnknownKeys x src o f.2.2 v L → Lax L (decV x src (some (lenient o)) f.2.2 v V) (decV x src (some (strict o)) f.2.2 v V)
  | [], j, f, hf, v, V, L, hV, hw, hL => by simp at hf
  | (_, _, t) :: fs, 0, f, hf, v, V, L, hV, hw, hL => by
    simp only [List.getElem?_cons_zero, Option.some.injEq] at hf
    subst hf
    exact dec_lax t hV hw hL
  | _ :: fs, j + 1, f, hf, v, V, L, hV, hw, hL => by
    simp only [List.getElem?_cons_succ] at hf
    exact decF_lax fs hf hV hw hL
end

/-- The same for whole documents. -/
theorem top_lax {x : Ext} {src : Bytes} {o : Options} : ∀ (ty : Ty) {v : JVal} {V : Val} {L : List Nat}, HasTy ty V → Wf src v → UnknownKeys x src o ty v L →
    Lax L (decTopV x src (some (lenient o)) ty v V) (decTopV x src (some (strict o)) ty v V)
  | .ptr e, v, V, L, hV, hw, hL => by
    have hp : Lax L (if tokOK src v = false then R.crash else if e.size x = 0 then .unsup else (decTopV x src (some (lenient o)) e v (zeroV x e)).map Val.ptr)
        (if tokOK src v = false then R.crash else if e.size x = 0 then .unsup else (decTopV x src (some (strict o)) e v (zeroV x e)).map Val.ptr) := by
      have hs : ∀ r : R Val, (∀ a, r ≠ .ok a) → Lax L r r := fun r hr => by
        cases L with
        | nil => rfl
        | cons a b => exact .inr ⟨rfl, hr⟩
      split
      · exact hs _ (fun _ h => by cases h)
      · split
        · exact hs _ (fun _ h => by cases h)
        · exact lax_map _ (top_lax e (zero_typed e) hw hL)
    cases v with
    | null i j => exact lax_same rfl (unknown_null e hL)
    | _ => exact hp
  | .emptyStruct, v, V, L, hV, hw, hL => by cases v <;> exact lax_same rfl hL
  | .any, v, V, L, hV, hw, hL => dec_lax _ hV hw hL
  | .number, v, V, L, hV, hw, hL => dec_lax _ hV hw hL
  | .scalar _, v, V, L, hV, hw, hL => dec_lax _ hV hw hL
  | .quoted _, v, V, L, hV, hw, hL => dec_lax _ hV hw hL
  | .jsonU _ _ _, v, V, L, hV, hw, hL => dec_lax _ hV hw hL
  | .textU _ _ _, v, V, L, hV, hw, hL => dec_lax _ hV hw hL
  | .array0, v, V, L, hV, hw, hL => dec_lax _ hV hw hL
  | .sliceOf _, v, V, L, hV, hw, hL => dec_lax _ hV hw hL
  | .sliceES, v, V, L, hV, hw, hL => dec_lax _ hV hw hL
  | .mapSS, v, V, L, hV, hw, hL => dec_lax _ hV hw hL
  | .array _ _, v, V, L, hV, hw, hL => dec_lax _ hV hw hL
  | .slice _, v, V, L, hV, hw, hL => dec_lax _ hV hw hL
  | .map _ _, v, V, L, hV, hw, hL => dec_lax _ hV hw hL
  | .struct _ _, v, V, L, hV, hw, hL => dec_lax _ hV hw hL

/-! ## Tameness -/

theorem concat_nil {α : Type} {P : α → List Nat → Prop} : ∀ {as : List α}, Concat P as [] → ∀ a ∈ as, P a []
  | [], _, a, h => by cases h
  | b :: as, ⟨L1, L2, he, h1, h2⟩, a, h => by
    obtain ⟨rfl, rfl⟩ := List.append_eq_nil_iff.1 he.symm
    rcases List.mem_cons.1 h with rfl | h
    · exact h1
    · exact concat_nil h2 a h

theorem tameF_get {x : Ext} {src : Bytes} {o : Option Options} : ∀ (fs : List (Bytes × Nat × Ty)) (j : Nat), (TameF x src o fs)[j]? = fs[j]?.map fun f => Tame x src o f.2.2
  | [], j => by simp [TameF]
  | (a, b, t) :: fs, 0 => by simp [TameF]
  | (a, b, t) :: fs, j + 1 => by simp only [TameF, List.getElem?_cons_succ]; exact tameF_get fs j

/-- One direction for structs: from the fields to the struct. -/
theorem tame_struct {x : Ext} {src : Bytes} {o o' : Options} {n : Nat} {fs : List (Bytes × Nat × Ty)} {a z : Nat} {ms : List ((Nat × Nat) × JVal)}
    (hk : ∀ raw, keyName o' raw = keyName o raw) (hff : ∀ names name, findField x o' names name = findField x o names name)
    (hu : ∀ m ∈ ms, ∀ raw name, Model.slice src (m.1.1 + 1) (m.1.2 - 1) = some raw → keyName o raw = some name → findField x o ((fs.map (·.1)).zipIdx) name = none →
      o'.disallowUnknownFields = true ∨ hasObj m.2 = false)
    (hf : ∀ m ∈ ms, ∀ raw name (j : Nat) f, Model.slice src (m.1.1 + 1) (m.1.2 - 1) = some raw → keyName o raw = some name → findField x o ((fs.map (·.1)).zipIdx) name = some j → fs[j]? = some f →
      Tame x src (some o) f.2.2 m.2 → Tame x src (some o') f.2.2 m.2)
    (h : Tame x src (some o) (.struct n fs) (.obj a ms z)) : Tame x src (some o') (.struct n fs) (.obj a ms z) := by
  simp only [Tame] at h ⊢
  intro m hm o'' ho raw name hraw hname
  cases ho
  rw [hk] at hname
  rw [hff]
  have h1 := h m hm o rfl raw name hraw hname
  cases hj : findField x o ((fs.map (·.1)).zipIdx) name with
  | none => exact hu m hm raw name hraw hname hj
  | some j =>
    rw [hj] at h1
    intro T hT
    rw [tameF_get] at hT
    cases hfj : fs[j]? with
    | none => rw [hfj] at hT; cases hT
    | some f =>
      rw [hfj] at hT
      simp only [Option.map_some, Option.some.injEq] at hT
      subst hT
      exact hf m hm raw name j f hraw hname hj hfj (h1 _ (by rw [tameF_get, hfj]; rfl))

mutual
/-- Fewer documents leave the fragment with DisallowUnknownFields. -/
theorem tame_to_strict {x : Ext} {src : Bytes} {o : Options} : ∀ (ty : Ty) {v : JVal}, Tame x src (some (lenient o)) ty v → Tame x src (some (strict o)) ty v
  | .array n e, v, h => by
    cases v <;> simp only [Tame] at h ⊢
    exact fun w hw => tame_to_strict e (h w hw)
  | .slice e, v, h => by
    cases v <;> simp only [Tame] at h ⊢
    exact fun w hw => tame_to_strict e (h w hw)
  | .map k e, v, h => by
    cases v <;> simp only [Tame] at h ⊢
    exact ⟨h.1, fun w hw => tame_to_strict e (h.2 w hw)⟩
  | .struct n fs, v, h => by
    cases v with
    | obj a ms z => exact tame_struct (o := lenient o) (o' := strict o) (fun _ => rfl) (fun _ _ => rfl) (fun _ _ _ _ _ _ _ => .inl rfl) (fun m hm raw name j f _ _ _ hf h => tame_to_strictF fs hf h) h
    | _ => trivial
  | .emptyStruct, v, h => by cases v <;> exact h
  | .ptr e, v, h => by cases v <;> exact h
  | .any, v, h => trivial
  | .number, v, h => trivial
  | .scalar k, v, h => trivial
  | .quoted k, v, h => trivial
  | .jsonU a b c, v, h => trivial
  | .textU a b c, v, h => trivial
  | .array0, v, h => trivial
  | .sliceOf k, v, h => trivial
  | .sliceES, v, h => trivial
  | .mapSS, v, h => trivial
theorem tame_to_strictF {x : Ext} {src : Bytes} {o : Options} : ∀ (fs : List (Bytes × Nat × Ty)) {j : Nat} {f : Bytes × Nat × Ty}, fs[j]? = some f → ∀ {v : JVal},
    Tame x src (some (lenient o)) f.2.2 v → Tame x src (some (strict o)) f.2.2 v
  | [], j, f, hf, v, h => by simp at hf
  | (_, _, t) :: fs, 0, f, hf, v, h => by
    simp only [List.getElem?_cons_zero, Option.some.injEq] at hf
    subst hf
    exact tame_to_strict t h
  | _ :: fs, j + 1, f, hf, v, h => by
    simp only [List.getElem?_cons_succ] at hf
    exact tame_to_strictF fs hf h
end

/-- For a member without unknown keys: the key selects a field whose value has none. -/
theorem member_known {x : Ext} {src : Bytes} {o : Options} {fs : List (Bytes × Nat × Ty)} {m : (Nat × Nat) × JVal} (hw : WfStr src m.1.1 m.1.2)
    (h : UnknownMember x src o (fs.map (·.1)) (UnknownKeysF x src o fs) m []) {raw name : Bytes} (hr : Model.slice src (m.1.1 + 1) (m.1.2 - 1) = some raw) (hn : keyName o raw = some name) :
    ∃ j f, findField x o ((fs.map (·.1)).zipIdx) name = some j ∧ fs[j]? = some f ∧ UnknownKeys x src o f.2.2 m.2 [] := by
  rcases h with ⟨-, h⟩ | ⟨j, Q, hs, hQ, hL⟩
  · cases h
  · obtain ⟨name', g1, g2⟩ := key_selects hw hs
    rw [hr, Option.bind_some, hn] at g1
    cases g1
    rw [unknownF_get] at hQ
    cases hf : fs[j]? with
    | none => rw [hf] at hQ; cases hQ
    | some f =>
      rw [hf] at hQ
      simp only [Option.map_some, Option.some.injEq] at hQ
      subst hQ
      exact ⟨j, f, g2, hf, hL⟩

mutual
/-- Without unknown keys the fragment is the same. -/
theorem tame_to_lenient {x : Ext} {src : Bytes} {o : Options} : ∀ (ty : Ty) {v : JVal}, Wf src v → UnknownKeys x src o ty v [] → Tame x src (some (strict o)) ty v → Tame x src (some (lenient o)) ty v
  | .array n e, v, hw, hu, h => by
    cases v <;> simp only [Tame] at h ⊢
    exact fun w hm => tame_to_lenient e (wfL_mem hw.2.2.2.2 w (List.mem_of_mem_take hm)) (concat_nil hu w hm) (h w hm)
  | .slice e, v, hw, hu, h => by
    cases v <;> simp only [Tame] at h ⊢
    exact fun w hm => tame_to_lenient e (wfL_mem hw.2.2.2.2 w hm) (concat_nil hu w hm) (h w hm)
  | .map k e, v, hw, hu, h => by
    cases v <;> simp only [Tame] at h ⊢
    exact ⟨h.1, fun w hm => tame_to_lenient e (wfM_mem hw.2.2.2.2 w hm).2 (concat_nil hu w hm) (h.2 w hm)⟩
  | .struct n fs, v, hw, hu, h => by
    cases v with
    | obj a ms z =>
      refine tame_struct (o := strict o) (o' := lenient o) (fun _ => rfl) (fun _ _ => rfl) (fun m hm raw name hr hn hf => ?_) (fun m hm raw name j f hr hn hj hf h => ?_) h
      · obtain ⟨j, f, hj, -, -⟩ := member_known (wfM_mem hw.2.2.2.2 m hm).1 (concat_nil hu m hm) hr hn
        have : findField x (strict o) ((fs.map (·.1)).zipIdx) name = some j := hj
        rw [this] at hf; cases hf
      · obtain ⟨j', f', hj', hf', hu'⟩ := member_known (wfM_mem hw.2.2.2.2 m hm).1 (concat_nil hu m hm) hr hn
        have : findField x (strict o) ((fs.map (·.1)).zipIdx) name = some j' := hj'
        rw [this] at hj; cases hj
        rw [hf'] at hf; cases hf
        exact tame_to_lenientF fs hf' (wfM_mem hw.2.2.2.2 m hm).2 hu' h
    | _ => trivial
  | .emptyStruct, v, hw, hu, h => by cases v <;> exact h
  | .ptr e, v, hw, hu, h => by cases v <;> exact h
  | .any, v, hw, hu, h => trivial
  | .number, v, hw, hu, h => trivial
  | .scalar k, v, hw, hu, h => trivial
  | .quoted k, v, hw, hu, h => trivial
  | .jsonU a b c, v, hw, hu, h => trivial
  | .textU a b c, v, hw, hu, h => trivial
  | .array0, v, hw, hu, h => trivial
  | .sliceOf k, v, hw, hu, h => trivial
  | .sliceES, v, hw, hu, h => trivial
  | .mapSS, v, hw, hu, h => trivial
theorem tame_to_lenientF {x : Ext} {src : Bytes} {o : Options} : ∀ (fs : List (Bytes × Nat × Ty)) {j : Nat} {f : Bytes × Nat × Ty}, fs[j]? = some f → ∀ {v : JVal}, Wf src v → UnknownKeys x src o f.2.2 v [] →
    Tame x src (some (strict o)) f.2.2 v → Tame x src (some (lenient o)) f.2.2 v
  | [], j, f, hf, v, hw, hu, h => by simp at hf
  | (_, _, t) :: fs, 0, f, hf, v, hw, hu, h => by
    simp only [List.getElem?_cons_zero, Option.some.injEq] at hf
    subst hf
    exact tame_to_lenient t hw hu h
  | _ :: fs, j + 1, f, hf, v, hw, hu, h => by
    simp only [List.getElem?_cons_succ] at hf
    exact tame_to_lenientF fs hf hw hu h
end

theorem tameDoc_to_strict {x : Ext} {src : Bytes} {o : Options} : ∀ (ty : Ty) {v : JVal}, TameDoc x src (some (lenient o)) ty v → TameDoc x src (some (strict o)) ty v
  | .ptr e, v, h => by cases v <;> first | trivial | exact ⟨h.1, tameDoc_to_strict e h.2⟩
  | .emptyStruct, v, h => trivial
  | .any, v, h => trivial
  | .number, v, h => trivial
  | .scalar k, v, h => trivial
  | .quoted k, v, h => trivial
  | .jsonU a b c, v, h => trivial
  | .textU a b c, v, h => trivial
  | .array0, v, h => trivial
  | .sliceOf k, v, h => trivial
  | .sliceES, v, h => trivial
  | .mapSS, v, h => trivial
  | .array n e, v, h => tame_to_strict (.array n e) h
  | .slice e, v, h => tame_to_strict (.slice e) h
  | .map k e, v, h => tame_to_strict (.map k e) h
  | .struct n fs, v, h => tame_to_strict (.struct n fs) h

theorem tameDoc_to_lenient {x : Ext} {src : Bytes} {o : Options} : ∀ (ty : Ty) {v : JVal}, Wf src v → UnknownKeys x src o ty v [] → TameDoc x src (some (strict o)) ty v → TameDoc x src (some (lenient o)) ty v
  | .ptr e, v, hw, hu, h => by cases v <;> first | trivial | exact ⟨h.1, tameDoc_to_lenient e hw hu h.2⟩
  | .emptyStruct, v, hw, hu, h => trivial
  | .any, v, hw, hu, h => trivial
  | .number, v, hw, hu, h => trivial
  | .scalar k, v, hw, hu, h => trivial
  | .quoted k, v, hw, hu, h => trivial
  | .jsonU a b c, v, hw, hu, h => trivial
  | .textU a b c, v, hw, hu, h => trivial
  | .array0, v, hw, hu, h => trivial
  | .sliceOf k, v, hw, hu, h => trivial
  | .sliceES, v, hw, hu, h => trivial
  | .mapSS, v, hw, hu, h => trivial
  | .array n e, v, hw, hu, h => tame_to_lenient (.array n e) hw hu h
  | .slice e, v, hw, hu, h => tame_to_lenient (.slice e) hw hu h
  | .map k e, v, hw, hu, h => tame_to_lenient (.map k e) hw hu h
  | .struct n fs, v, hw, hu, h => tame_to_lenient (.struct n fs) hw hu h

end Verif.Proof.Unknown

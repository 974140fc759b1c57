import Verif.Proof.Unique
/-!
# Readings of composite values, component by component
-/
namespace Verif.Proof.Comp
open Verif.Model Verif.Big Verif.Spec Verif.Proof Verif.Proof.Outcome

theorem map_ok_iff {α β : Type} {f : α → β} {r : R α} {b : β} : r.map f = .ok b ↔ ∃ a, r = .ok a ∧ f a = b := by
  cases r <;> simp [R.map]

theorem map_err_iff {α β : Type} {f : α → β} {r : R α} {i : Nat} {e : Err} {b : β} : r.map f = .err i e b ↔ ∃ a, r = .err i e a ∧ f a = b := by
  cases r <;> simp [R.map]
  rename_i j g a
  constructor
  · rintro ⟨rfl, rfl, rfl⟩; exact ⟨a, ⟨rfl, rfl, rfl⟩, rfl⟩
  · rintro ⟨a', ⟨rfl, rfl, rfl⟩, rfl⟩; exact ⟨rfl, rfl, rfl⟩

theorem elemsV_ok (f : JVal → Val → R Val) : ∀ (vs : List JVal) (Ws Ws' : List Val), elemsV f vs Ws = .ok Ws' ↔
    Ws'.length = Ws.length ∧ (∀ (j : Nat) v W W', vs[j]? = some v → Ws[j]? = some W → Ws'[j]? = some W' → f v W = .ok W') ∧ ∀ j : Nat, vs.length ≤ j → Ws'[j]? = Ws[j]?
  | [], Ws, Ws' => by
    simp only [elemsV, R.ok.injEq]
    constructor
    · rintro rfl; exact ⟨rfl, by simp, fun _ _ => rfl⟩
    · rintro ⟨-, -, h⟩; exact (List.ext_getElem? fun j => (h j (Nat.zero_le _))).symm
  | v :: vs, [], Ws' => by
    simp only [elemsV, R.ok.injEq]
    constructor
    · rintro rfl; exact ⟨rfl, by simp, fun _ _ => rfl⟩
    · rintro ⟨h, -⟩; exact (List.eq_nil_of_length_eq_zero h).symm
  | v :: vs, W :: Ws, Ws' => by
    simp only [elemsV]
    cases hf : f v W with
    | ok W1 =>
      simp only [map_ok_iff]
      constructor
      · rintro ⟨Us, h1, rfl⟩
        obtain ⟨g1, g2, g3⟩ := (elemsV_ok f vs Ws Us).1 h1
        refine ⟨by simp [g1], ?_, ?_⟩
        · intro j w U U' h1 h2 h3
          cases j with
          | zero => simp only [List.getElem?_cons_zero, Option.some.injEq] at h1 h2 h3; subst h1 h2 h3; exact hf
          | succ j => exact g2 j w U U' (by simpa using h1) (by simpa using h2) (by simpa using h3)
        · intro j hj
          cases j with
          | zero => simp at hj
          | succ j => simpa using g3 j (by simpa using hj)
      · rintro ⟨h1, h2, h3⟩
        cases Ws' with
        | nil => simp at h1
        | cons U Us =>
          have := h2 0 v W U rfl rfl rfl
          rw [hf] at this; cases this
          refine ⟨Us, (elemsV_ok f vs Ws Us).2 ⟨by simpa using h1, fun j w A B a b c => h2 (j + 1) w A B (by simpa using a) (by simpa using b) (by simpa using c), fun j hj => ?_⟩, rfl⟩
          simpa using h3 (j + 1) (by simpa using hj)
    | err i e W1 =>
      simp only [reduceCtorEq, false_iff]
      rintro ⟨h1, h2, -⟩
      cases Ws' with
      | nil => simp at h1
      | cons U Us => have := h2 0 v W U rfl rfl rfl; rw [hf] at this; cases this
    | crash =>
      simp only [reduceCtorEq, false_iff]
      rintro ⟨h1, h2, -⟩
      cases Ws' with
      | nil => simp at h1
      | cons U Us => have := h2 0 v W U rfl rfl rfl; rw [hf] at this; cases this
    | unsup =>
      simp only [reduceCtorEq, false_iff]
      rintro ⟨h1, h2, -⟩
      cases Ws' with
      | nil => simp at h1
      | cons U Us => have := h2 0 v W U rfl rfl rfl; rw [hf] at this; cases this

/-- The first element that fails decides. -/
theorem elemsV_err (f : JVal → Val → R Val) {i : Nat} {e : Err} : ∀ (vs : List JVal) (Ws Ws' : List Val), elemsV f vs Ws = .err i e Ws' →
    Ws'.length = Ws.length ∧ ∃ j v W W', vs[j]? = some v ∧ Ws[j]? = some W ∧ Ws'[j]? = some W' ∧ f v W = .err i e W' ∧
      (∀ (k : Nat) v W W', k < j → vs[k]? = some v → Ws[k]? = some W → Ws'[k]? = some W' → f v W = .ok W') ∧ ∀ k : Nat, j < k → Ws'[k]? = Ws[k]?
  | [], Ws, Ws', h => by simp [elemsV] at h
  | v :: vs, [], Ws', h => by simp [elemsV] at h
  | v :: vs, W :: Ws, Ws', h => by
    simp only [elemsV] at h
    cases hf : f v W with
    | ok W1 =>
      rw [hf] at h
      obtain ⟨Us, h1, rfl⟩ := map_err_iff.1 h
      obtain ⟨g1, j, w, A, B, g2, g3, g4, g5, g6, g7⟩ := elemsV_err f vs Ws Us h1
      refine ⟨by simp [g1], j + 1, w, A, B, by simpa using g2, by simpa using g3, by simpa using g4, g5, ?_, ?_⟩
      · intro k w' A' B' hk a b c
        cases k with
        | zero => simp only [List.getElem?_cons_zero, Option.some.injEq] at a b c; subst a b c; exact hf
        | succ k => exact g6 k w' A' B' (by omega) (by simpa using a) (by simpa using b) (by simpa using c)
      · intro k hk
        cases k with
        | zero => omega
        | succ k => simpa using g7 k (by omega)
    | err i' e' W1 =>
      rw [hf] at h; cases h
      refine ⟨by simp, 0, v, W, W1, rfl, rfl, rfl, hf, fun k _ _ _ hk => absurd hk (Nat.not_lt_zero _), fun k hk => ?_⟩
      cases k with
      | zero => omega
      | succ k => simp
    | crash => rw [hf] at h; cases h
    | unsup => rw [hf] at h; cases h

/-- Elements of slices of scalars are read as scalars. -/
theorem elem_scalar (x : Ext) {src : Bytes} (o : Option Options) (k : SKind) {v : JVal} (hw : Wf src v) (W : Val) :
    actV v.index (zeroS k) none W (elemAct x src k v) = decV x src o (.scalar k) v W := by
  simp only [decV, leafV, Ty.etype, zeroV]
  cases v with
  | null i e => rfl
  | bool b i e => cases k <;> rfl
  | num b i e =>
    cases b <;> cases k <;> simp [elemAct, leaf, Doc.slice_text hw.1 hw.2.1, onInteger, onNumber]
  | str i e =>
    obtain ⟨out, hden⟩ := hw.2.2
    obtain ⟨s, hs⟩ := Safe.unescStr_some x hden
    cases k <;> simp [elemAct, leaf, Doc.slice_inner hw, onString, hs, SKind.bytes]
  | arr i es k' => rfl
  | obj i ms k' => rfl

/-! ## Structs -/

/-- What the decoder does with a key, in terms of the specification. -/
theorem key_fun {src : Bytes} (x : Ext) (o : Options) (names : List Bytes) {k : Nat × Nat} (hw : WfStr src k.1 k.2) :
    ∃ name, (Model.slice src (k.1 + 1) (k.2 - 1)).bind (keyName o) = some name ∧ (∀ j, KeySelects x src o names k j ↔ findField x o names.zipIdx name = some j) ∧
      (KeyUnknown x src o names k ↔ findField x o names.zipIdx name = none) := by
  obtain ⟨name, h1, h2⟩ := is_keyName (o := o) hw
  refine ⟨name, by rw [Doc.slice_inner hw]; exact h2, fun j => ⟨?_, fun h => ⟨name, h1, selects_iff.1 h⟩⟩, ?_, fun h => ⟨name, h1, unknown_iff.1 h⟩⟩
  · rintro ⟨n', g1, g2⟩
    rw [keyIs_unique h1 g1]; exact selects_iff.2 g2
  · rintro ⟨n', g1, g2⟩
    rw [keyIs_unique h1 g1]; exact unknown_iff.2 g2

/-- Success or failure with a value. -/
def Gives (r : R (List Val)) (Ws : List Val) : Prop := r = .ok Ws ∨ ∃ i e, r = .err i e Ws

theorem structV_keep {x : Ext} {src : Bytes} {o : Options} {fs : List (Bytes × (JVal → Val → R Val))} {j : Nat} : ∀ {ms : List ((Nat × Nat) × JVal)} {Ws Ws' : List Val},
    WfM src ms → Gives (structV x src o fs ms Ws) Ws' → (∀ m ∈ ms, ¬ KeySelects x src o (fs.map (·.1)) m.1 j) → Ws'[j]? = Ws[j]?
  | [], Ws, Ws', _, h, _ => by rcases h with h | ⟨_, _, h⟩ <;> cases h; rfl
  | ((a, z), v) :: ms, Ws, Ws', hw, h, hn => by
    obtain ⟨name, h1, h2, -⟩ := key_fun x o (fs.map (·.1)) (k := (a, z)) hw.1
    simp only [structV, h1, Gives] at h
    cases hf : findField x o ((fs.map (·.1)).zipIdx) name with
    | some j' =>
      simp only [hf] at h
      have hj : j' ≠ j := by rintro rfl; exact hn _ (List.mem_cons_self) ((h2 j').2 hf)
      cases hg : fs[j']? with
      | none => simp [hg] at h
      | some f =>
        cases hW : Ws[j']? with
        | none => simp [hg, hW] at h
        | some W =>
          simp only [hg, hW] at h
          cases hr : f.2 v W with
          | ok W1 =>
            simp only [hr] at h
            rw [structV_keep hw.2.2 h fun m hm => hn m (List.mem_cons_of_mem _ hm), List.getElem?_set_ne hj]
          | err i e W1 =>
            simp only [hr, reduceCtorEq, false_or] at h
            obtain ⟨_, _, h⟩ := h; cases h
            rw [List.getElem?_set_ne hj]
          | crash => simp [hr] at h
          | unsup => simp [hr] at h
    | none =>
      simp only [hf] at h
      split at h
      · simp only [reduceCtorEq, false_or] at h
        obtain ⟨_, _, h⟩ := h; cases h; rfl
      · split at h
        · simp at h
        · exact structV_keep hw.2.2 h fun m hm => hn m (List.mem_cons_of_mem _ hm)

theorem structV_last {x : Ext} {src : Bytes} {o : Options} {fs : List (Bytes × (JVal → Val → R Val))} {j : Nat} {f : Bytes × (JVal → Val → R Val)} (hf : fs[j]? = some f) {k : Nat × Nat} {v : JVal}
    {ms2 : List ((Nat × Nat) × JVal)} (hs : KeySelects x src o (fs.map (·.1)) k j) (hn : ∀ m ∈ ms2, ¬ KeySelects x src o (fs.map (·.1)) m.1 j) :
    ∀ {ms1 : List ((Nat × Nat) × JVal)} {Ws Ws' : List Val}, WfM src (ms1 ++ (k, v) :: ms2) → structV x src o fs (ms1 ++ (k, v) :: ms2) Ws = .ok Ws' →
      ∃ W W', Ws'[j]? = some W' ∧ f.2 v W = .ok W' ∧ ((∀ m ∈ ms1, ¬ KeySelects x src o (fs.map (·.1)) m.1 j) → Ws[j]? = some W)
  | [], Ws, Ws', hw, h => by
    obtain ⟨name, h1, h2, -⟩ := key_fun x o (fs.map (·.1)) (k := k) hw.1
    have h3 := (h2 j).1 hs
    simp only [List.nil_append, structV, h1, h3, hf] at h
    cases hW : Ws[j]? with
    | none => simp [hW] at h
    | some W =>
      simp only [hW] at h
      cases hr : f.2 v W with
      | ok W1 =>
        simp only [hr] at h
        refine ⟨W, W1, ?_, hr, fun _ => rfl⟩
        rw [structV_keep hw.2.2 (.inl h) hn]
        have := (List.getElem?_eq_some_iff.1 hW).1
        simp [this]
      | err i e W1 => simp [hr] at h
      | crash => simp [hr] at h
      | unsup => simp [hr] at h
  | ((a, z), u) :: ms, Ws, Ws', hw, h => by
    obtain ⟨name, h1, h2, -⟩ := key_fun x o (fs.map (·.1)) (k := (a, z)) hw.1
    simp only [List.cons_append, structV, h1] at h
    cases hff : findField x o ((fs.map (·.1)).zipIdx) name with
    | some j' =>
      simp only [hff] at h
      cases hg : fs[j']? with
      | none => simp [hg] at h
      | some f' =>
        cases hW : Ws[j']? with
        | none => simp [hg, hW] at h
        | some W =>
          simp only [hg, hW] at h
          cases hr : f'.2 u W with
          | ok W1 =>
            simp only [hr] at h
            obtain ⟨A, B, g1, g2, g3⟩ := structV_last hf hs hn hw.2.2 h
            refine ⟨A, B, g1, g2, fun hm => ?_⟩
            have hj : j' ≠ j := by rintro rfl; exact hm _ (List.mem_cons_self) ((h2 j').2 hff)
            have := g3 fun m hmm => hm m (List.mem_cons_of_mem _ hmm)
            rwa [List.getElem?_set_ne hj] at this
          | err i e W1 => simp [hr] at h
          | crash => simp [hr] at h
          | unsup => simp [hr] at h
    | none =>
      simp only [hff] at h
      split at h
      · simp at h
      · split at h
        · simp at h
        · obtain ⟨A, B, g1, g2, g3⟩ := structV_last hf hs hn hw.2.2 h
          exact ⟨A, B, g1, g2, fun hm => g3 fun m hmm => hm m (List.mem_cons_of_mem _ hmm)⟩

theorem structV_length {x : Ext} {src : Bytes} {o : Options} {fs : List (Bytes × (JVal → Val → R Val))} : ∀ {ms : List ((Nat × Nat) × JVal)} {Ws Ws' : List Val},
    Gives (structV x src o fs ms Ws) Ws' → Ws'.length = Ws.length
  | [], Ws, Ws', h => by rcases h with h | ⟨_, _, h⟩ <;> cases h; rfl
  | ((a, z), v) :: ms, Ws, Ws', h => by
    simp only [structV, Gives] at h
    cases h1 : (Model.slice src (a + 1) (z - 1)).bind (keyName o) with
    | none => simp [h1] at h
    | some name =>
      simp only [h1] at h
      cases hf : findField x o ((fs.map (·.1)).zipIdx) name with
      | some j' =>
        simp only [hf] at h
        cases hg : fs[j']? with
        | none => simp [hg] at h
        | some f =>
          cases hW : Ws[j']? with
          | none => simp [hg, hW] at h
          | some W =>
            simp only [hg, hW] at h
            cases hr : f.2 v W with
            | ok W1 =>
              simp only [hr] at h
              rw [structV_length h, List.length_set]
            | err i e W1 =>
              simp only [hr, reduceCtorEq, false_or] at h
              obtain ⟨_, _, h⟩ := h; cases h
              rw [List.length_set]
            | crash => simp [hr] at h
            | unsup => simp [hr] at h
      | none =>
        simp only [hf] at h
        split at h
        · simp only [reduceCtorEq, false_or] at h
          obtain ⟨_, _, h⟩ := h; cases h; rfl
        · split at h
          · simp at h
          · exact structV_length h

end Verif.Proof.Comp

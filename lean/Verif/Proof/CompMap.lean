import Verif.Proof.Comp
import Verif.Props.Scalars
/-!
# Readings of maps, entry by entry
-/
namespace Verif.Proof.Comp
open Verif.Model Verif.Big Verif.Spec Verif.Proof Verif.Proof.Outcome

theorem same_iff {a b : Key} : a.same b = true ↔ match a, b with
    | .str a, .str b => a.bytes = b.bytes
    | .int a, .int b => a = b
    | .opaque a, .opaque b => a = b
    | _, _ => False := by
  cases a <;> cases b <;> simp [Key.same]

theorem same_symm {a b : Key} (h : a.same b = true) : b.same a = true := by
  cases a <;> cases b <;> simp_all [Key.same]

theorem same_trans {a b c : Key} (h : a.same b = true) (h' : b.same c = true) : a.same c = true := by
  cases a <;> cases b <;> cases c <;> simp_all [Key.same]

theorem lookupV_same {a b : Key} (h : a.same b = true) : ∀ m, lookupV a m = lookupV b m
  | [] => rfl
  | e :: m => by
    simp only [lookupV]
    by_cases he : e.1.same a = true
    · rw [if_pos he, if_pos (same_trans he h)]
    · rw [if_neg he, if_neg (fun hb => he (same_trans hb (same_symm h))), lookupV_same h m]

theorem lookupV_assign (k : Key) (v : Val) : ∀ m, lookupV k (assignV k v m) = some v
  | [] => by simp [assignV, lookupV, Mem.same_refl]
  | e :: m => by
    simp only [assignV]
    by_cases he : e.1.same k = true
    · rw [if_pos he]; simp [lookupV, he]
    · rw [if_neg he]; simp [lookupV, he, lookupV_assign k v m]

theorem lookupV_assign_ne {k k' : Key} (h : k'.same k = false) (v : Val) : ∀ m, lookupV k (assignV k' v m) = lookupV k m
  | [] => by simp [assignV, lookupV, h]
  | e :: m => by
    simp only [assignV]
    by_cases he : e.1.same k' = true
    · rw [if_pos he]
      have : e.1.same k = false := by
        cases hk : e.1.same k with
        | false => rfl
        | true => rw [same_trans (same_symm he) hk] at h; cases h
      simp [lookupV, this]
    · rw [if_neg he]; simp only [lookupV, lookupV_assign_ne h v m]

/-- The map key of a member, as computed. -/
def keyAt (x : Ext) (src : Bytes) (k : KeyTy) (m : Nat × Nat) : Option (Except Err Key) := (Model.slice src (m.1 + 1) (m.2 - 1)).bind fun key => k.key x key

theorem keyOf_key {x : Ext} {k : KeyTy} {raw : Bytes} {K : Key} (h : KeyOf x k raw K) : ∃ K', k.key x raw = some (.ok K') ∧ K'.same K = true := by
  cases h with
  | str h =>
    rename_i s
    obtain ⟨u, hu⟩ := Safe.unescStr_some x h
    refine ⟨.str u, by simp [KeyTy.key, hu], ?_⟩
    simp only [Ext.unescStr, Props.C09_unescape _ _ h, Option.map_some, Option.some.injEq] at hu
    simp [Key.same, ← hu]
  | @int k0 _ v0 h => exact ⟨.int v0, by simp [KeyTy.key, Props.quotedInt_good h], Mem.same_refl _⟩
  | @text rt0 _ _ k0 h1 h2 => exact ⟨.opaque k0, by simp [KeyTy.key, Props.C09_unescape _ _ h1, h2], Mem.same_refl _⟩

/-- Members whose keys denote map keys. -/
theorem keyAt_of {x : Ext} {src : Bytes} {k : KeyTy} {m : Nat × Nat} (hw : WfStr src m.1 m.2) {K : Key} (h : KeyOf x k (inner src m.1 m.2) K) :
    ∃ K', keyAt x src k m = some (.ok K') ∧ K'.same K = true := by
  unfold keyAt; rw [Doc.slice_inner hw]; exact keyOf_key h

/-- Success or failure with a map. -/
def GivesM (r : R (List (Key × Val))) (m : List (Key × Val)) : Prop := r = .ok m ∨ ∃ i e, r = .err i e m

theorem mapV_keep {x : Ext} {src : Bytes} {f : JVal → Val → R Val} {k : KeyTy} {z : Val} {fresh : Bool} {K : Key} : ∀ {ms : List ((Nat × Nat) × JVal)} {m m' : List (Key × Val)},
    GivesM (mapV x src f k z fresh ms m) m' → (∀ mm ∈ ms, ∀ K', keyAt x src k mm.1 = some (.ok K') → K'.same K = false) → lookupV K m' = lookupV K m
  | [], m, m', h, _ => by rcases h with h | ⟨_, _, h⟩ <;> cases h; rfl
  | ((a, b), v) :: ms, m, m', h, hn => by
    simp only [mapV, GivesM] at h
    have hn0 := hn _ List.mem_cons_self
    have hns : ∀ mm ∈ ms, ∀ K', keyAt x src k mm.1 = some (.ok K') → K'.same K = false := fun mm hm => hn mm (List.mem_cons_of_mem _ hm)
    cases hk : keyAt x src k (a, b) with
    | none => unfold keyAt at hk; simp only [hk] at h; simp at h
    | some r =>
      cases r with
      | error er =>
        unfold keyAt at hk; simp only [hk] at h
        simp only [reduceCtorEq, false_or] at h
        obtain ⟨_, _, h⟩ := h; cases h; rfl
      | ok K' =>
        have hs := hn0 K' hk
        unfold keyAt at hk; simp only [hk] at h
        cases hr : f v (if fresh then z else (lookupV K' m).getD z) with
        | ok W => simp only [hr] at h; rw [mapV_keep h hns, lookupV_assign_ne hs]
        | err i e W =>
          simp only [hr, reduceCtorEq, false_or] at h
          obtain ⟨_, _, h⟩ := h; cases h
          rw [lookupV_assign_ne hs]
        | crash => simp [hr] at h
        | unsup => simp [hr] at h

theorem mapV_last {x : Ext} {src : Bytes} {f : JVal → Val → R Val} {k : KeyTy} {z : Val} {fresh : Bool} {K K0 : Key} {kk : Nat × Nat} {v : JVal} {ms2 : List ((Nat × Nat) × JVal)}
    (hk : keyAt x src k kk = some (.ok K0)) (hK : K0.same K = true) (hn : ∀ mm ∈ ms2, ∀ K', keyAt x src k mm.1 = some (.ok K') → K'.same K = false) :
    ∀ {ms1 : List ((Nat × Nat) × JVal)} {m m' : List (Key × Val)}, mapV x src f k z fresh (ms1 ++ (kk, v) :: ms2) m = .ok m' →
      ∃ W W', lookupV K m' = some W' ∧ f v W = .ok W' ∧ (fresh = true → W = z) ∧
        (fresh = false → (∀ mm ∈ ms1, ∀ K', keyAt x src k mm.1 = some (.ok K') → K'.same K = false) → W = (lookupV K m).getD z)
  | [], m, m', h => by
    simp only [List.nil_append, mapV] at h
    unfold keyAt at hk
    simp only [hk] at h
    cases hr : f v (if fresh then z else (lookupV K0 m).getD z) with
    | ok W =>
      simp only [hr] at h
      refine ⟨_, W, ?_, hr, fun hf => by simp [hf], fun hf _ => by simp [hf, lookupV_same hK]⟩
      rw [mapV_keep (.inl h) hn, ← lookupV_same hK, lookupV_assign]
    | err i e W => simp [hr] at h
    | crash => simp [hr] at h
    | unsup => simp [hr] at h
  | ((a, b), u) :: ms, m, m', h => by
    simp only [List.cons_append, mapV] at h
    cases hk' : keyAt x src k (a, b) with
    | none => unfold keyAt at hk'; simp [hk'] at h
    | some r =>
      cases r with
      | error er => unfold keyAt at hk'; simp [hk'] at h
      | ok K' =>
        have hk'' := hk'
        unfold keyAt at hk''
        simp only [hk''] at h
        cases hr : f u (if fresh then z else (lookupV K' m).getD z) with
        | ok W =>
          simp only [hr] at h
          obtain ⟨A, B, g1, g2, g3, g4⟩ := mapV_last hk hK hn h
          refine ⟨A, B, g1, g2, g3, fun hf hms => ?_⟩
          rw [g4 hf fun mm hm => hms mm (List.mem_cons_of_mem _ hm), lookupV_assign_ne (hms _ List.mem_cons_self K' hk')]
        | err i e W => simp [hr] at h
        | crash => simp [hr] at h
        | unsup => simp [hr] at h

/-- The keys of a map are distinct. -/
def DistinctKeys : List (Key × Val) → Prop
  | [] => True
  | e :: m => lookupV e.1 m = none ∧ DistinctKeys m

theorem assign_distinct {k : Key} {v : Val} : ∀ {m : List (Key × Val)}, DistinctKeys m → DistinctKeys (assignV k v m)
  | [], _ => ⟨rfl, trivial⟩
  | e :: m, h => by
    simp only [assignV]
    by_cases he : e.1.same k = true
    · rw [if_pos he]; exact ⟨h.1, h.2⟩
    · rw [if_neg he]
      refine ⟨?_, assign_distinct h.2⟩
      rw [lookupV_assign_ne]
      · exact h.1
      · cases hh : k.same e.1 with
        | false => rfl
        | true => exact absurd (same_symm hh) he

theorem mapV_distinct {x : Ext} {src : Bytes} {f : JVal → Val → R Val} {k : KeyTy} {z : Val} {fresh : Bool} : ∀ {ms : List ((Nat × Nat) × JVal)} {m m' : List (Key × Val)},
    DistinctKeys m → GivesM (mapV x src f k z fresh ms m) m' → DistinctKeys m'
  | [], m, m', hd, h => by rcases h with h | ⟨_, _, h⟩ <;> cases h; exact hd
  | ((a, b), v) :: ms, m, m', hd, h => by
    simp only [mapV, GivesM] at h
    cases hk : (Model.slice src (a + 1) (b - 1)).bind fun key => k.key x key with
    | none => simp [hk] at h
    | some r =>
      simp only [hk] at h
      cases r with
      | error er =>
        simp only [reduceCtorEq, false_or] at h
        obtain ⟨_, _, h⟩ := h; cases h; exact hd
      | ok K' =>
        simp only at h
        cases hr : f v (if fresh then z else (lookupV K' m).getD z) with
        | ok W => simp only [hr] at h; exact mapV_distinct (assign_distinct hd) h
        | err i e W =>
          simp only [hr, reduceCtorEq, false_or] at h
          obtain ⟨_, _, h⟩ := h; cases h
          exact assign_distinct hd
        | crash => simp [hr] at h
        | unsup => simp [hr] at h

end Verif.Proof.Comp

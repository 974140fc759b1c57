import Verif.Spec.Unknown
import Verif.Model.Api
/-!
# The machine with and without DisallowUnknownFields
-/
namespace Verif.Proof.StrictRun
open Verif.Model Verif.Spec

mutual
theorem key_tokens : ∀ (v : JVal) (ti : Nat), ∀ t ∈ flatten ti v, t.type = .key → t.index ∈ keyStarts v
  | .null i e, ti, t, ht, hk => by simp only [flatten, List.mem_singleton] at ht; subst ht; cases hk
  | .bool b i e, ti, t, ht, hk => by simp only [flatten, List.mem_singleton] at ht; subst ht; cases b <;> cases hk
  | .num b i e, ti, t, ht, hk => by simp only [flatten, List.mem_singleton] at ht; subst ht; cases b <;> cases hk
  | .str i e, ti, t, ht, hk => by simp only [flatten, List.mem_singleton] at ht; subst ht; cases hk
  | .arr i es k, ti, t, ht, hk => by
    simp only [flatten, List.mem_cons, List.mem_append, List.not_mem_nil, or_false] at ht
    rcases ht with rfl | ht | rfl
    · cases hk
    · exact key_tokensL es _ t ht hk
    · cases hk
  | .obj i ms k, ti, t, ht, hk => by
    simp only [flatten, List.mem_cons, List.mem_append, List.not_mem_nil, or_false] at ht
    rcases ht with rfl | ht | rfl
    · cases hk
    · exact key_tokensM ms _ t ht hk
    · cases hk
theorem key_tokensL : ∀ (vs : List JVal) (ti : Nat), ∀ t ∈ flattenL ti vs, t.type = .key → t.index ∈ keyStartsL vs
  | [], ti, t, ht, hk => by simp [flattenL] at ht
  | v :: vs, ti, t, ht, hk => by
    simp only [flattenL, List.mem_append] at ht
    simp only [keyStartsL, List.mem_append]
    exact ht.imp (fun h => key_tokens v _ t h hk) fun h => key_tokensL vs _ t h hk
theorem key_tokensM : ∀ (ms : List ((Nat × Nat) × JVal)) (ti : Nat), ∀ t ∈ flattenM ti ms, t.type = .key → t.index ∈ keyStartsM ms
  | [], ti, t, ht, hk => by simp [flattenM] at ht
  | ((i, e), v) :: ms, ti, t, ht, hk => by
    simp only [flattenM, List.mem_append, List.mem_cons] at ht
    simp only [keyStartsM, List.mem_append, List.mem_cons]
    rcases ht with rfl | ht | ht
    · exact .inl rfl
    · exact .inr (.inl (key_tokens v _ t ht hk))
    · exact .inr (.inr (key_tokensM ms _ t ht hk))
end

theorem findField_opts {x : Ext} {o : Options} {fs : List (Bytes × Nat)} {n : Bytes} : findField x (strict o) fs n = findField x (lenient o) fs n := rfl

theorem scan_strict {x : Ext} {src : Bytes} {o : Options} {fs : List (Bytes × Nat)} : ∀ (ts : List Token) (skip : Option Nat) (ti : Nat), (skip = none → ∀ t ∈ ts.head?, t.type = .key) →
    scanKeys x src (strict o) fs skip ts ti = scanKeys x src (lenient o) fs skip ts ti ∨ ∃ t ∈ ts, t.type = .key ∧ scanKeys x src (strict o) fs skip ts ti = .unknown t.index
  | [], skip, ti, h => .inl (by simp [scanKeys])
  | t :: ts, skip, ti, h => by
    have atKey : t.type = .key → ∀ (R : ScanRes) (hR : R = match (slice src (t.index + 1) (t.end_ - 1)).bind (keyName (strict o)) with
        | none => .crash
        | some name => match findField x (strict o) fs name with
          | some fi => .found ti fi
          | none => if (strict o).disallowUnknownFields then .unknown t.index else scanKeys x src (strict o) fs (some 0) ts (ti + 1)) (R' : ScanRes)
        (hR' : R' = match (slice src (t.index + 1) (t.end_ - 1)).bind (keyName (lenient o)) with
        | none => .crash
        | some name => match findField x (lenient o) fs name with
          | some fi => .found ti fi
          | none => if (lenient o).disallowUnknownFields then .unknown t.index else scanKeys x src (lenient o) fs (some 0) ts (ti + 1)),
        R = R' ∨ ∃ t' ∈ t :: ts, t'.type = .key ∧ R = .unknown t'.index := by
      intro hk R hR R' hR'
      have hn : keyName (strict o) = keyName (lenient o) := rfl
      rw [hn] at hR
      cases hs : (slice src (t.index + 1) (t.end_ - 1)).bind (keyName (lenient o)) with
      | none => rw [hs] at hR hR'; exact .inl (hR.trans hR'.symm)
      | some name =>
        rw [hs] at hR hR'
        simp only [findField_opts] at hR
        cases hf : findField x (lenient o) fs name with
        | some fi => rw [hf] at hR; simp only [hf] at hR'; exact .inl (hR.trans hR'.symm)
        | none =>
          rw [hf] at hR
          exact .inr ⟨t, List.mem_cons_self, hk, hR⟩
    have next : ∀ l, scanKeys x src (strict o) fs (some l) ts (ti + 1) = scanKeys x src (lenient o) fs (some l) ts (ti + 1) ∨
        ∃ t' ∈ t :: ts, t'.type = .key ∧ scanKeys x src (strict o) fs (some l) ts (ti + 1) = .unknown t'.index := fun l =>
      (scan_strict ts (some l) (ti + 1) (fun h => by cases h)).imp id fun ⟨t', h1, h2⟩ => ⟨t', List.mem_cons_of_mem _ h1, h2⟩
    cases skip with
    | none => exact atKey (h rfl t (by simp)) _ (by simp only [scanKeys]; rfl) _ (by simp only [scanKeys]; rfl)
    | some l =>
      cases ht : t.type with
      | key =>
        by_cases hl : l < 1
        · exact atKey ht _ (by simp only [scanKeys, ht, hl, if_true]; rfl) _ (by simp only [scanKeys, ht, hl, if_true]; rfl)
        · simp only [scanKeys, ht, hl, if_false]; exact next l
      | objectEnd =>
        by_cases hl : l ≤ 1
        · left; simp only [scanKeys, ht, hl, if_true]
        · simp only [scanKeys, ht, hl, if_false]; exact next _
      | _ => simp only [scanKeys, ht]; exact next _

/-- The program with the given options. -/
def withO (pr : Prog) (o : Options) : Prog := { pr with options := some o }

theorem key_strict {pr : Prog} {o : Options} {s : St} {f : Frame} {t : Token} (ht : pr.toks[s.ti]? = some t) (hk : t.type = .key) :
    onKey (withO pr (strict o)) s f t = onKey (withO pr (lenient o)) s f t ∨ ∃ t' ∈ pr.toks, t'.type = .key ∧ onKey (withO pr (strict o)) s f t = .err t'.index .unknownField s := by
  have h := scan_strict (x := pr.x) (src := pr.src) (o := o) (fs := f.fields) (pr.toks.drop s.ti) none s.ti (fun _ t' ht' => by
    rw [List.head?_drop, ht] at ht'; cases ht'; exact hk)
  cases hf : f.type with
  | struct | structRecur =>
    simp only [onKey, hf, withO]
    rcases h with h | ⟨t', h1, h2, h3⟩
    · rw [h]; exact .inl rfl
    · rw [h3]; exact .inr ⟨t', List.mem_of_mem_drop h1, h2, rfl⟩
  | _ => left; simp only [onKey, hf, withO]; try rfl

theorem step_strict {pr : Prog} {o : Options} {s : St} :
    step (withO pr (strict o)) s = step (withO pr (lenient o)) s ∨ ∃ t' ∈ pr.toks, t'.type = .key ∧ step (withO pr (strict o)) s = .err t'.index .unknownField s := by
  cases hpc : s.pc with
  | loop =>
    simp only [step, hpc, withO]
    cases ht : pr.toks[s.ti]? with
    | none => exact .inl rfl
    | some t =>
      cases hf : pr.frames[s.si]? with
      | none => exact .inl rfl
      | some f =>
        cases htt : t.type with
        | key =>
          simp only [dispatch, htt]
          exact key_strict (pr := pr) (o := o) (f := f) ht htt
        | _ => left; simp only [dispatch, htt]; rfl
  | _ => left; simp only [step, hpc, withO]; rfl

theorem run_strict {pr : Prog} {o : Options} : ∀ (n : Nat) (s : St),
    run (withO pr (strict o)) n s = run (withO pr (lenient o)) n s ∨ ∃ t' ∈ pr.toks, ∃ s', t'.type = .key ∧ run (withO pr (strict o)) n s = .err t'.index .unknownField s'
  | 0, s => .inl rfl
  | n + 1, s => by
    rcases step_strict (pr := pr) (o := o) (s := s) with h | ⟨t', h1, h2, h3⟩
    · simp only [run, h]
      cases hs : step (withO pr (lenient o)) s with
      | run s' => exact run_strict n s'
      | _ => exact .inl rfl
    · exact .inr ⟨t', h1, s, h2, by simp only [run, h3]⟩

end Verif.Proof.StrictRun

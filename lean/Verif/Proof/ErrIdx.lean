import Verif.Proof.Term
/-!
# Error indices are token positions, for every frame table
-/
namespace Verif.Proof.ErrIdx
open Verif.Model Verif.Proof.Term

/-- `i` is the byte index of a token. -/
def IsTok (toks : List Token) (i : Nat) : Prop := ∃ t ∈ toks, t.index = i

theorem isTok_at {toks : List Token} {i : Nat} {t : Token} (h : toks[i]? = some t) : IsTok (toks.drop i) t.index :=
  ⟨t, List.mem_of_getElem? (i := 0) (by simpa [List.getElem?_drop] using h), rfl⟩

theorem IsTok.of_drop {toks : List Token} {i n : Nat} (h : IsTok (toks.drop n) i) : IsTok toks i := by
  obtain ⟨t, h1, h2⟩ := h
  exact ⟨t, List.mem_of_mem_drop h1, h2⟩

theorem exec_idx {pr : Prog} {s s' : St} {f : Frame} {t : Token} {a : Act} {i : Nat} {e : Err} (ht : IsTok (pr.toks.drop s.ti) t.index)
    (h : exec pr s f t a = .err i e s') : IsTok (pr.toks.drop s.ti) i := by
  cases a with
  | store n c => simp only [exec] at h; split at h <;> cases h
  | clear n => simp only [exec] at h; split at h <;> cases h
  | nop => simp [exec] at h
  | text b =>
    simp only [exec] at h
    split at h
    · split at h
      · cases h
      · split at h <;> cases h
        exact ht
    · cases h
  | toPtr => simp [exec] at h
  | toJSON => simp [exec] at h
  | err e => simp only [exec] at h; cases h; exact ht
  | crash => simp [exec] at h

theorem sliceElems_idx {x : Ext} {src : Bytes} {k : SKind} {i : Nat} {e : Err} {a : Block} : ∀ (ts : List Token) (n : Nat) (arr : Block),
    sliceElems x src k ts n arr = .err i e a → ∃ t ∈ ts, t.index = i
  | [], n, arr, h => by simp [sliceElems] at h
  | t :: ts, n, arr, h => by
    simp only [sliceElems] at h
    split at h
    · split at h
      · cases h
      · obtain ⟨u, h1, h2⟩ := sliceElems_idx ts _ _ h
        exact ⟨u, List.mem_cons_of_mem _ h1, h2⟩
    · split at h
      · cases h
      · obtain ⟨u, h1, h2⟩ := sliceElems_idx ts _ _ h
        exact ⟨u, List.mem_cons_of_mem _ h1, h2⟩
    · cases h; exact ⟨t, List.mem_cons_self, rfl⟩
    · cases h

theorem inner_sub {toks ts : List Token} {a b i : Nat} (h : ts = (toks.take a).drop (b + 1)) (hi : ∃ t ∈ ts, t.index = i) : IsTok (toks.drop b) i := by
  obtain ⟨t, h1, h2⟩ := hi
  subst h
  rw [List.drop_take] at h1
  refine ⟨t, ?_, h2⟩
  have := List.mem_of_mem_take h1
  rw [← List.drop_drop] at this
  exact List.mem_of_mem_drop this

theorem onSliceOf_idx {pr : Prog} {s s' : St} {t : Token} {k : SKind} {i : Nat} {e : Err} (h : onSliceOf pr s t k = .err i e s') :
    IsTok (pr.toks.drop s.ti) i := by
  simp only [onSliceOf] at h
  split at h
  · split at h <;> cases h
  · split at h
    · cases h
    · split at h
      · cases h
      · split at h
        · split at h
          · cases h
          · rename_i h1
            cases h
            exact inner_sub rfl (sliceElems_idx _ _ _ h1)
          · split at h <;> cases h
        · split at h
          · cases h
          · rename_i h1
            split at h <;> cases h
            exact inner_sub rfl (sliceElems_idx _ _ _ h1)
          · split at h <;> cases h

theorem onArray_idx {pr : Prog} {s s' : St} {f : Frame} {t : Token} {i : Nat} {e : Err} (ht : IsTok (pr.toks.drop s.ti) t.index)
    (h : onArray pr s f t = .err i e s') : IsTok (pr.toks.drop s.ti) i := by
  simp only [onArray] at h
  split at h
  · cases ha : decodeAny pr.x pr.src (pr.toks.length + 1) (pr.toks.drop s.ti) with
    | ok v tail => rw [ha] at h; simp only [] at h; split at h <;> cases h
    | err e => rw [ha] at h; cases h; exact ht
    | crash => rw [ha] at h; cases h
  · cases h
  · split at h <;> cases h
  · split at h
    · cases h
    · split at h
      · split at h <;> cases h
      · split at h
        · split at h <;> cases h
        · cases h
  · split at h
    · cases h
    · split at h
      · split at h
        · cases h
        · split at h <;> cases h
      · split at h
        · split at h <;> cases h
        · cases h
  · split at h <;> cases h
  · exact onSliceOf_idx h
  · cases h
  · cases h
  · cases h; exact ht

theorem mapSS_idx {x : Ext} {src : Bytes} {W : Nat} {i : Nat} {e : Err} : ∀ (ts : List Token) (m : List (Key × Block)),
    mapSSLoop x src W ts m = some (.error (i, e)) → ∃ t ∈ ts, t.index = i
  | [], m, h => by simp [mapSSLoop] at h
  | [_], m, h => by simp [mapSSLoop] at h
  | k :: v :: ts, m, h => by
    simp only [mapSSLoop] at h
    split at h
    · split at h
      · obtain ⟨u, h1, h2⟩ := mapSS_idx ts _ h
        exact ⟨u, List.mem_cons_of_mem _ (List.mem_cons_of_mem _ h1), h2⟩
      · cases h
    · split at h
      · obtain ⟨u, h1, h2⟩ := mapSS_idx ts _ h
        exact ⟨u, List.mem_cons_of_mem _ (List.mem_cons_of_mem _ h1), h2⟩
      · cases h
    · simp only [Option.some.injEq, Except.error.injEq, Prod.mk.injEq] at h
      exact ⟨v, by simp, h.1⟩

theorem onObject_idx {pr : Prog} {s s' : St} {f : Frame} {t : Token} {i : Nat} {e : Err} (ht : IsTok (pr.toks.drop s.ti) t.index)
    (h : onObject pr s f t = .err i e s') : IsTok (pr.toks.drop s.ti) i := by
  simp only [onObject] at h
  split at h
  · cases h
  · cases ha : decodeAny pr.x pr.src (pr.toks.length + 1) (pr.toks.drop s.ti) with
    | ok v tail => rw [ha] at h; simp only [] at h; split at h <;> cases h
    | err e => rw [ha] at h; cases h; exact ht
    | crash => rw [ha] at h; cases h
  · split at h
    · split at h
      · cases h
      · split at h <;> cases h
    · cases h
  · split at h
    · cases h
    · split at h
      · cases h
      · split at h <;> cases h
  · split at h
    · cases h
    · split at h <;> cases h
  · split at h
    · split at h <;> cases h
    · split at h
      · cases h
      · split at h
        · cases h
        · rename_i h1
          cases h
          exact inner_sub rfl (mapSS_idx _ _ h1)
        · split at h <;> cases h
  · split at h <;> cases h
  · split at h <;> cases h
  · cases h
  · cases h
  · cases h; exact ht

theorem scan_idx (x : Ext) (src : Bytes) (o : Options) (tbl : List (Bytes × Nat)) (i : Nat) : ∀ (ts : List Token) (skip : Option Nat) (ti : Nat),
    scanKeys x src o tbl skip ts ti = .unknown i → ∃ t ∈ ts, t.index = i
  | [], skip, ti, h => by simp [scanKeys] at h
  | t :: ts, skip, ti, h => by
    have sub : ∀ l, scanKeys x src o tbl (some l) ts (ti + 1) = .unknown i → ∃ u ∈ t :: ts, u.index = i := by
      intro l hl
      obtain ⟨u, h1, h2⟩ := scan_idx x src o tbl i ts _ _ hl
      exact ⟨u, List.mem_cons_of_mem _ h1, h2⟩
    have key : (match (slice src (t.index + 1) (t.end_ - 1)).bind (keyName o) with
        | none => ScanRes.crash
        | some name =>
          match findField x o tbl name with
          | some fi => .found ti fi
          | none => if o.disallowUnknownFields then .unknown t.index else scanKeys x src o tbl (some 0) ts (ti + 1)) = .unknown i →
        ∃ u ∈ t :: ts, u.index = i := by
      intro h
      split at h
      · cases h
      · split at h
        · cases h
        · split at h
          · cases h; exact ⟨t, List.mem_cons_self, rfl⟩
          · exact sub _ h
    cases skip with
    | none => simp only [scanKeys] at h; exact key h
    | some l =>
      simp only [scanKeys] at h
      split at h
      · split at h
        · exact key h
        · exact sub _ h
      · exact sub _ h
      · split at h
        · cases h
        · exact sub _ h
      · exact sub _ h

theorem onKey_idx {pr : Prog} {s s' : St} {f : Frame} {t : Token} {i : Nat} {e : Err} (ht : IsTok (pr.toks.drop s.ti) t.index)
    (h : onKey pr s f t = .err i e s') : IsTok (pr.toks.drop s.ti) i := by
  have scan : ∀ o, scanKeys pr.x pr.src o f.fields none (pr.toks.drop s.ti) s.ti = .unknown i → IsTok (pr.toks.drop s.ti) i := by
    intro o h
    obtain ⟨u, h1, h2⟩ := scan_idx _ _ _ _ _ _ _ _ h
    exact ⟨u, h1, h2⟩
  simp only [onKey] at h
  split at h
  · split at h
    · cases h
    · split at h
      · cases h
      · rename_i h1; cases h; exact scan _ h1
      · cases h
      · cases h
  · split at h
    · cases h
    · split at h
      · cases h
      · rename_i h1; cases h; exact scan _ h1
      · cases h
      · cases h
  all_goals first
    | (cases h; exact ht)
    | (split at h
       · split at h
         · cases h
         · cases h; exact ht
         · split at h
           · cases h
           · split at h
             · cases h
             · split at h
               · split at h <;> cases h
               · cases h
       · cases h)

theorem step_idx {pr : Prog} {s s' : St} {i : Nat} {e : Err} (h : step pr s = .err i e s') : IsTok (pr.toks.drop s.ti) i := by
  unfold step at h
  split at h
  · split at h
    · cases h
    · rename_i t ht
      have hi := isTok_at ht
      split at h
      · cases h
      · simp only [dispatch] at h
        split at h
        · exact exec_idx hi h
        · exact exec_idx hi h
        · split at h
          · cases h
          · exact exec_idx hi h
        · split at h
          · cases h
          · exact exec_idx hi h
        · split at h
          · cases h
          · exact exec_idx hi h
        · exact exec_idx hi h
        · exact onArray_idx hi h
        · exact onObject_idx hi h
        · exact onKey_idx hi h
        · simp only [onObjectEnd] at h
          split at h
          · cases h
          · split at h
            · cases h
            · split at h <;> cases h
          · cases h
        · simp only [onArrayEnd] at h
          split at h
          · split at h
            · cases h
            · split at h <;> cases h
          · cases h
  · split at h
    · cases h
    · simp only [onRecurObjEnd] at h
      split at h
      · cases h
      · split at h
        · cases h
        · split at h <;> cases h
  · split at h
    · cases h
    · simp only [onValEnd] at h
      split at h
      · cases h
      · split at h
        · cases h
        · split at h
          · cases h
          · split at h
            · split at h <;> cases h
            · cases h
          all_goals cases h
  · simp only [onPtr] at h
    split at h
    · cases h
    · split at h
      · cases h
      · split at h
        · cases h
        · split at h <;> cases h
  · split at h
    · rename_i t f ht hf
      simp only [onJSONUnmarshaler] at h
      split at h
      · split at h
        · cases h
        · split at h <;> cases h
          exact isTok_at ht
      · cases h
    · cases h

theorem run_idx {pr : Prog} {i : Nat} {e : Err} {s' : St} : ∀ (n : Nat) (s : St), run pr n s = .err i e s' → IsTok pr.toks i
  | 0, s, h => by simp [run] at h
  | n + 1, s, h => by
    rw [run] at h
    cases hs : step pr s with
    | run s1 => rw [hs] at h; exact run_idx n s1 h
    | done _ => rw [hs] at h; cases h
    | err i' e' s1 => rw [hs] at h; cases h; exact (step_idx hs).of_drop
    | crash => rw [hs] at h; cases h

end Verif.Proof.ErrIdx

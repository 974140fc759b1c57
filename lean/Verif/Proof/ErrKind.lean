import Verif.Proof.Term
/-!
# Which errors decoding can return, for every frame table
-/
namespace Verif.Proof.ErrKind
open Verif.Model Verif.Proof.Term

/-- The errors of the token loop. -/
def DecErr (o : Option Options) : Err → Prop
  | .unexpectedValue | .integerOverflow | .parse _ | .user _ => True
  | .unknownField => ∃ o', o = some o' ∧ o'.disallowUnknownFields = true
  | _ => False

/-- The action reports one of them. -/
def ActErr (o : Option Options) (a : Act) : Prop := ∀ e, a = .err e → DecErr o e

theorem storeInt_err {o : Option Options} (x : Ext) (k : IKind) (tv : Bytes) {e : Err} (he : DecErr o e) : ActErr o (storeInt x k tv e) := by
  intro e' h; unfold storeInt at h; split at h <;> cases h; exact he

theorem storeFlt_err {o : Option Options} (n : Nat) (r : Except Nat Flt) : ActErr o (storeFlt n r) := by
  intro e h; cases r <;> simp only [storeFlt] at h <;> cases h; trivial

theorem onBool_err {o : Option Options} {x : Ext} {et : EType} {b : Bool} : ActErr o (onBool x et b) := by
  intro e h; unfold onBool at h; split at h <;> cases h; trivial

theorem onInteger_err {o : Option Options} {x : Ext} {et : EType} {tv : Bytes} : ActErr o (onInteger x et tv) := by
  intro e h
  unfold onInteger at h
  split at h
  · split at h <;> cases h; trivial
  · split at h
    · split at h
      · cases h
      · split at h
        · cases h; trivial
        · exact storeInt_err (e := .integerOverflow) _ _ _ trivial e h
    · exact storeInt_err (e := .integerOverflow) _ _ _ trivial e h
  · exact storeFlt_err _ _ e h
  · cases h
  · cases h
  · cases h
  · cases h; trivial

theorem onNumber_err {o : Option Options} {x : Ext} {et : EType} {tv : Bytes} : ActErr o (onNumber x et tv) := by
  intro e h
  unfold onNumber at h
  split at h
  · split at h <;> cases h; trivial
  · exact storeFlt_err _ _ e h
  · cases h
  · cases h
  · cases h
  · cases h; trivial

theorem onString_err {o : Option Options} {x : Ext} {et : EType} {tv : Bytes} : ActErr o (onString x et tv) := by
  intro e h
  unfold onString at h
  split at h
  · split at h <;> cases h
  · split at h <;> cases h
  · split at h <;> cases h
  · split at h
    · cases h
    · split at h <;> cases h; trivial
  · split at h
    · cases h; trivial
    · dsimp only at h; split at h <;> cases h; trivial
  · split at h
    · cases h
    · split at h <;> cases h; trivial
  · split at h
    · cases h
    · split at h
      · cases h; trivial
      · exact storeFlt_err _ _ e h
  · split at h <;> cases h; trivial
  · cases h
  · cases h
  · cases h; trivial

theorem onNull_err {o : Option Options} {x : Ext} {et : EType} : ActErr o (onNull x et) := by
  intro e h; unfold onNull at h; split at h <;> cases h

theorem elemOf_err {o : Option Options} {x : Ext} {src : Bytes} {k : SKind} {t : Token} : ActErr o (elemOf x src k t) := by
  intro e h
  unfold elemOf at h
  split at h
  · cases h
  · split at h <;> cases h; trivial
  · split at h <;> cases h; trivial
  · split at h
    · split at h <;> cases h
    · cases h; trivial
  · split at h
    · split at h
      · cases h
      · exact onInteger_err e h
    · split at h
      · cases h
      · exact storeFlt_err _ _ e h
    · cases h; trivial
  · split at h
    · split at h
      · cases h
      · exact storeFlt_err _ _ e h
    · cases h; trivial
  · cases h; trivial

theorem exec_err {pr : Prog} {s s' : St} {f : Frame} {t : Token} {a : Act} {i : Nat} {e : Err} (ha : ActErr pr.options a)
    (h : exec pr s f t a = .err i e s') : DecErr pr.options e := by
  cases a with
  | store n c => simp only [exec] at h; split at h <;> cases h
  | clear n => simp only [exec] at h; split at h <;> cases h
  | nop => simp [exec] at h
  | text b =>
    simp only [exec] at h
    split at h
    · split at h
      · cases h
      · split at h <;> cases h
        trivial
    · cases h
  | toPtr => simp [exec] at h
  | toJSON => simp [exec] at h
  | err e => simp only [exec] at h; cases h; exact ha _ rfl
  | crash => simp [exec] at h

theorem sliceElems_err {o : Option Options} {x : Ext} {src : Bytes} {k : SKind} {i : Nat} {e : Err} {a : Block} : ∀ (ts : List Token) (n : Nat) (arr : Block),
    sliceElems x src k ts n arr = .err i e a → DecErr o e
  | [], n, arr, h => by simp [sliceElems] at h
  | t :: ts, n, arr, h => by
    simp only [sliceElems] at h
    split at h
    · split at h
      · cases h
      · exact sliceElems_err ts _ _ h
    · split at h
      · cases h
      · exact sliceElems_err ts _ _ h
    · rename_i he
      cases h; exact elemOf_err _ he
    · cases h

theorem onSliceOf_err {pr : Prog} {s s' : St} {t : Token} {k : SKind} {i : Nat} {e : Err} (h : onSliceOf pr s t k = .err i e s') :
    DecErr pr.options e := by
  simp only [onSliceOf] at h
  split at h
  · split at h <;> cases h
  · split at h
    · cases h
    · split at h
      · cases h
      · split at h
        · split at h
          · cases h
          · rename_i h1
            cases h
            exact sliceElems_err _ _ _ h1
          · split at h <;> cases h
        · split at h
          · cases h
          · rename_i h1
            split at h <;> cases h
            exact sliceElems_err _ _ _ h1
          · split at h <;> cases h

theorem onArray_err {pr : Prog} {s s' : St} {f : Frame} {t : Token} {i : Nat} {e : Err} 
    (h : onArray pr s f t = .err i e s') : DecErr pr.options e := by
  simp only [onArray] at h
  split at h
  · cases ha : decodeAny pr.x pr.src (pr.toks.length + 1) (pr.toks.drop s.ti) with
    | ok v tail => rw [ha] at h; simp only [] at h; split at h <;> cases h
    | err e => rw [ha] at h; cases h; trivial
    | crash => rw [ha] at h; cases h
  · cases h
  · split at h <;> cases h
  · split at h
    · cases h
    · split at h
      · split at h <;> cases h
      · split at h
        · split at h <;> cases h
        · cases h
  · split at h
    · cases h
    · split at h
      · split at h
        · cases h
        · split at h <;> cases h
      · split at h
        · split at h <;> cases h
        · cases h
  · split at h <;> cases h
  · exact onSliceOf_err h
  · cases h
  · cases h
  · cases h; trivial

theorem mapSS_err {o : Option Options} {x : Ext} {src : Bytes} {W : Nat} {i : Nat} {e : Err} : ∀ (ts : List Token) (m : List (Key × Block)),
    mapSSLoop x src W ts m = some (.error (i, e)) → DecErr o e
  | [], m, h => by simp [mapSSLoop] at h
  | [_], m, h => by simp [mapSSLoop] at h
  | k :: v :: ts, m, h => by
    simp only [mapSSLoop] at h
    split at h
    · split at h
      · exact mapSS_err ts _ h
      · cases h
    · split at h
      · exact mapSS_err ts _ h
      · cases h
    · simp only [Option.some.injEq, Except.error.injEq, Prod.mk.injEq] at h
      rw [← h.2]; trivial

theorem onObject_err {pr : Prog} {s s' : St} {f : Frame} {t : Token} {i : Nat} {e : Err} 
    (h : onObject pr s f t = .err i e s') : DecErr pr.options e := by
  simp only [onObject] at h
  split at h
  · cases h
  · cases ha : decodeAny pr.x pr.src (pr.toks.length + 1) (pr.toks.drop s.ti) with
    | ok v tail => rw [ha] at h; simp only [] at h; split at h <;> cases h
    | err e => rw [ha] at h; cases h; trivial
    | crash => rw [ha] at h; cases h
  · split at h
    · split at h
      · cases h
      · split at h <;> cases h
    · cases h
  · split at h
    · cases h
    · split at h
      · cases h
      · split at h <;> cases h
  · split at h
    · cases h
    · split at h <;> cases h
  · split at h
    · split at h <;> cases h
    · split at h
      · cases h
      · split at h
        · cases h
        · rename_i h1
          cases h
          exact mapSS_err _ _ h1
        · split at h <;> cases h
  · split at h <;> cases h
  · split at h <;> cases h
  · cases h
  · cases h
  · cases h; trivial

theorem scan_err (x : Ext) (src : Bytes) (o : Options) (tbl : List (Bytes × Nat)) (i : Nat) : ∀ (ts : List Token) (skip : Option Nat) (ti : Nat),
    scanKeys x src o tbl skip ts ti = .unknown i → o.disallowUnknownFields = true
  | [], skip, ti, h => by simp [scanKeys] at h
  | t :: ts, skip, ti, h => by
    have sub : ∀ l, scanKeys x src o tbl (some l) ts (ti + 1) = .unknown i → o.disallowUnknownFields = true :=
      fun l hl => scan_err x src o tbl i ts _ _ hl
    have key : (match (slice src (t.index + 1) (t.end_ - 1)).bind (keyName o) with
        | none => ScanRes.crash
        | some name =>
          match findField x o tbl name with
          | some fi => .found ti fi
          | none => if o.disallowUnknownFields then .unknown t.index else scanKeys x src o tbl (some 0) ts (ti + 1)) = .unknown i →
        o.disallowUnknownFields = true := by
      intro h
      split at h
      · cases h
      · split at h
        · cases h
        · split at h
          · assumption
          · exact sub _ h
    cases skip with
    | none => simp only [scanKeys] at h; exact key h
    | some l =>
      simp only [scanKeys] at h
      split at h
      · split at h
        · exact key h
        · exact sub _ h
      · exact sub _ h
      · split at h
        · cases h
        · exact sub _ h
      · exact sub _ h

theorem quotedKey_err {o : Option Options} {x : Ext} {fk : Frame} {key : Bytes} {e : Err} (h : mapKeyOf x fk key = some (.error e)) : DecErr o e := by
  unfold mapKeyOf at h
  split at h
  · split at h
    · split at h <;> cases h; trivial
    · cases h
  · simp at h
  · split at h <;> cases h; trivial
  · cases h

theorem onKey_err {pr : Prog} {s s' : St} {f : Frame} {t : Token} {i : Nat} {e : Err} 
    (h : onKey pr s f t = .err i e s') : DecErr pr.options e := by
  simp only [onKey] at h
  split at h
  · split at h
    · cases h
    · rename_i o ho
      split at h
      · cases h
      · rename_i h1; cases h; exact ⟨o, ho, scan_err _ _ _ _ _ _ _ _ h1⟩
      · cases h
      · cases h
  · split at h
    · cases h
    · rename_i o ho
      split at h
      · cases h
      · rename_i h1; cases h; exact ⟨o, ho, scan_err _ _ _ _ _ _ _ _ h1⟩
      · cases h
      · cases h
  all_goals first
    | (cases h; trivial)
    | (split at h
       · split at h
         · cases h
         · rename_i hk; cases h; exact quotedKey_err hk
         · split at h
           · cases h
           · split at h
             · cases h
             · split at h
               · split at h <;> cases h
               · cases h
       · cases h)

theorem step_err {pr : Prog} {s s' : St} {i : Nat} {e : Err} (h : step pr s = .err i e s') : DecErr pr.options e := by
  unfold step at h
  split at h
  · split at h
    · cases h
    · rename_i t ht
      split at h
      · cases h
      · simp only [dispatch] at h
        split at h
        · exact exec_err onBool_err h
        · exact exec_err onBool_err h
        · split at h
          · cases h
          · exact exec_err onInteger_err h
        · split at h
          · cases h
          · exact exec_err onNumber_err h
        · split at h
          · cases h
          · exact exec_err onString_err h
        · exact exec_err onNull_err h
        · exact onArray_err h
        · exact onObject_err h
        · exact onKey_err h
        · simp only [onObjectEnd] at h
          split at h
          · cases h
          · split at h
            · cases h
            · split at h <;> cases h
          · cases h
        · simp only [onArrayEnd] at h
          split at h
          · split at h
            · cases h
            · split at h <;> cases h
          · cases h
  · split at h
    · cases h
    · simp only [onRecurObjEnd] at h
      split at h
      · cases h
      · split at h
        · cases h
        · split at h <;> cases h
  · split at h
    · cases h
    · simp only [onValEnd] at h
      split at h
      · cases h
      · split at h
        · cases h
        · split at h
          · cases h
          · split at h
            · split at h <;> cases h
            · cases h
          all_goals cases h
  · simp only [onPtr] at h
    split at h
    · cases h
    · split at h
      · cases h
      · split at h
        · cases h
        · split at h <;> cases h
  · split at h
    · rename_i t f ht hf
      simp only [onJSONUnmarshaler] at h
      split at h
      · split at h
        · cases h
        · split at h <;> cases h
          trivial
      · cases h
    · cases h

theorem run_err {pr : Prog} {i : Nat} {e : Err} {s' : St} : ∀ (n : Nat) (s : St), run pr n s = .err i e s' → DecErr pr.options e
  | 0, s, h => by simp [run] at h
  | n + 1, s, h => by
    rw [run] at h
    cases hs : step pr s with
    | run s1 => rw [hs] at h; exact run_err n s1 h
    | done _ => rw [hs] at h; cases h
    | err i' e' s1 => rw [hs] at h; cases h; exact step_err hs
    | crash => rw [hs] at h; cases h

end Verif.Proof.ErrKind

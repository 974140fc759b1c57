import Verif.Model.Api
import Verif.Proof.Run
/-!
# Termination of the token loop, for every frame table
-/
namespace Verif.Proof.Term
open Verif.Model

/-- Opening tokens point forward. -/
def TokOK (toks : List Token) : Prop := ∀ (i : Nat) (t : Token), toks[i]? = some t → (t.type = .array ∨ t.type = .object) → i < t.end_

/-- The machine has consumed a token or goes to a label that will. -/
def Adv (s s' : St) : Prop := s.ti < s'.ti ∨ (s'.ti = s.ti ∧ s'.si = s.si ∧ (s'.pc = .onPtr ∨ s'.pc = .onJSON))

theorem exec_adv {pr : Prog} {s s' : St} {f : Frame} {t : Token} {a : Act} (h : exec pr s f t a = .run s') : Adv s s' := by
  cases a with
  | store n c =>
    simp only [exec] at h
    split at h <;> cases h
    exact .inl (Nat.lt_succ_self _)
  | clear n =>
    simp only [exec] at h
    split at h <;> cases h
    exact .inl (Nat.lt_succ_self _)
  | nop => simp only [exec] at h; cases h; exact .inl (Nat.lt_succ_self _)
  | text b =>
    simp only [exec] at h
    split at h
    · split at h
      · cases h
      · split at h <;> cases h
        exact .inl (Nat.lt_succ_self _)
    · cases h
  | toPtr => simp only [exec] at h; cases h; exact .inr ⟨rfl, rfl, .inl rfl⟩
  | toJSON => simp only [exec] at h; cases h; exact .inr ⟨rfl, rfl, .inr rfl⟩
  | err e => simp [exec] at h
  | crash => simp [exec] at h

mutual
theorem decodeAny_tail (x : Ext) (src : Bytes) : ∀ (n : Nat) (ts : List Token) (v : AnyVal) (tail : List Token),
    decodeAny x src n ts = .ok v tail → tail.length < ts.length
  | 0, ts, v, tail, h => by simp [decodeAny] at h
  | n + 1, [], v, tail, h => by simp [decodeAny] at h
  | n + 1, t :: ts, v, tail, h => by
    simp only [decodeAny] at h
    split at h
    · cases h; simp
    · split at h
      · cases h
      · split at h <;> cases h
        simp
    · split at h
      · cases h
      · split at h <;> cases h
        simp
    · cases h; simp
    · cases h; simp
    · split at h <;> cases h
      simp
    · have := elems_tail x src n [] ts v tail h
      simp only [List.length_cons]; omega
    · split at h
      · split at h <;> cases h
        simp only [List.length_cons]; omega
      · have := members_tail x src n [] ts v tail h
        simp only [List.length_cons]; omega
    · cases h
theorem elems_tail (x : Ext) (src : Bytes) : ∀ (n : Nat) (l : List AnyVal) (ts : List Token) (v : AnyVal) (tail : List Token),
    decodeAnyElems x src n l ts = .ok v tail → tail.length < ts.length
  | 0, l, ts, v, tail, h => by simp [decodeAnyElems] at h
  | n + 1, l, [], v, tail, h => by simp [decodeAnyElems] at h
  | n + 1, l, t :: ts, v, tail, h => by
    simp only [decodeAnyElems] at h
    split at h
    · cases h; simp
    · cases h1 : decodeAny x src n (t :: ts) with
      | ok v1 tail1 =>
        rw [h1] at h
        have := decodeAny_tail x src n _ _ _ h1
        have := elems_tail x src n _ _ _ _ h
        omega
      | err e => rw [h1] at h; cases h
      | crash => rw [h1] at h; cases h
theorem members_tail (x : Ext) (src : Bytes) : ∀ (n : Nat) (m : List (Str × AnyVal)) (ts : List Token) (v : AnyVal) (tail : List Token),
    decodeAnyMembers x src n m ts = .ok v tail → tail.length < ts.length
  | 0, m, ts, v, tail, h => by simp [decodeAnyMembers] at h
  | n + 1, m, [], v, tail, h => by simp [decodeAnyMembers] at h
  | n + 1, m, t :: ts, v, tail, h => by
    simp only [decodeAnyMembers] at h
    split at h
    · cases h; simp
    · split at h
      · cases h
      · cases h1 : decodeAny x src n ts with
        | ok v1 tail1 =>
          rw [h1] at h
          simp only [] at h
          have := decodeAny_tail x src n _ _ _ h1
          split at h
          · cases h
          · have := members_tail x src n _ _ _ _ h
            simp only [List.length_cons]; omega
        | err e => rw [h1] at h; cases h
        | crash => rw [h1] at h; cases h
end

theorem lt_of_get {toks : List Token} {i : Nat} {t : Token} (h : toks[i]? = some t) : i < toks.length := by
  rcases Nat.lt_or_ge i toks.length with h' | h'
  · exact h'
  · rw [List.getElem?_eq_none h'] at h; cases h

theorem any_adv {pr : Prog} {s : St} {t : Token} (ht : pr.toks[s.ti]? = some t) {v : AnyVal} {tail : List Token} {n : Nat}
    (h : decodeAny pr.x pr.src n (pr.toks.drop s.ti) = .ok v tail) : s.ti < pr.toks.length - tail.length := by
  have h1 := decodeAny_tail pr.x pr.src n _ _ _ h
  have h2 := lt_of_get ht
  simp only [List.length_drop] at h1
  omega

theorem onSliceOf_adv {pr : Prog} {s s' : St} {t : Token} {k : SKind} (h : onSliceOf pr s t k = .run s') : Adv s s' := by
  simp only [onSliceOf] at h
  split at h
  · split at h <;> cases h
    exact .inl (by simp only []; omega)
  · split at h
    · cases h
    · split at h
      · cases h
      · split at h
        · split at h
          · cases h
          · cases h
          · split at h <;> cases h
            exact .inl (by simp only []; omega)
        · split at h
          · cases h
          · split at h <;> cases h
          · split at h <;> cases h
            exact .inl (by simp only []; omega)

theorem onArray_adv {pr : Prog} {s s' : St} {f : Frame} {t : Token} (hT : TokOK pr.toks) (ht : pr.toks[s.ti]? = some t) (hty : t.type = .array)
    (h : onArray pr s f t = .run s') : Adv s s' := by
  have hend := hT _ _ ht (.inl hty)
  simp only [onArray] at h
  split at h
  · cases ha : decodeAny pr.x pr.src (pr.toks.length + 1) (pr.toks.drop s.ti) with
    | ok v tail =>
      have := any_adv ht ha
      rw [ha] at h
      simp only [] at h
      split at h <;> cases h
      exact .inl this
    | err e => rw [ha] at h; cases h
    | crash => rw [ha] at h; cases h
  · cases h; exact .inl (by simp only []; omega)
  · split at h <;> cases h <;> exact .inl (by simp only []; omega)
  · split at h
    · cases h
    · split at h
      · split at h <;> cases h
        exact .inl (by simp only []; omega)
      · split at h
        · split at h <;> cases h
          exact .inl (by simp only []; omega)
        · cases h
  · split at h
    · cases h
    · split at h
      · split at h
        · cases h
        · split at h <;> cases h <;> exact .inl (by simp only []; omega)
      · split at h
        · split at h <;> cases h
          exact .inl (by simp only []; omega)
        · cases h
  · split at h <;> cases h
    exact .inl (by simp only []; omega)
  · exact onSliceOf_adv h
  · cases h; exact .inr ⟨rfl, rfl, .inl rfl⟩
  · cases h; exact .inr ⟨rfl, rfl, .inr rfl⟩
  · cases h

theorem onObject_adv {pr : Prog} {s s' : St} {f : Frame} {t : Token} (hT : TokOK pr.toks) (ht : pr.toks[s.ti]? = some t) (hty : t.type = .object)
    (h : onObject pr s f t = .run s') : Adv s s' := by
  have hend := hT _ _ ht (.inr hty)
  simp only [onObject] at h
  split at h
  · cases h; exact .inl hend
  · cases ha : decodeAny pr.x pr.src (pr.toks.length + 1) (pr.toks.drop s.ti) with
    | ok v tail =>
      have := any_adv ht ha
      rw [ha] at h
      simp only [] at h
      split at h <;> cases h
      exact .inl this
    | err e => rw [ha] at h; cases h
    | crash => rw [ha] at h; cases h
  · split at h
    · split at h
      · cases h
      · split at h <;> cases h <;> exact .inl (by simp only []; omega)
    · cases h
  · split at h
    · cases h
    · split at h
      · cases h
      · split at h <;> cases h <;> exact .inl (by simp only []; omega)
  · split at h
    · cases h
    · split at h <;> cases h <;> exact .inl (by simp only []; omega)
  · split at h
    · split at h <;> cases h
      exact .inl (by simp only []; omega)
    · split at h
      · cases h
      · split at h
        · cases h
        · cases h
        · split at h <;> cases h
          exact .inl (by simp only []; omega)
  · split at h <;> cases h <;> exact .inl (by simp only []; omega)
  · split at h <;> cases h <;> exact .inl (by simp only []; omega)
  · cases h; exact .inr ⟨rfl, rfl, .inl rfl⟩
  · cases h; exact .inr ⟨rfl, rfl, .inr rfl⟩
  · cases h

/-- The key scan moves forward. -/
theorem scan_adv (x : Ext) (src : Bytes) (o : Options) (tbl : List (Bytes × Nat)) : ∀ (ts : List Token) (skip : Option Nat) (ti : Nat),
    (∀ ti' fi, scanKeys x src o tbl skip ts ti = .found ti' fi → ti ≤ ti') ∧
    (∀ ti', scanKeys x src o tbl skip ts ti = .brk ti' → ti ≤ ti' + 1 ∧ (skip = none → ti ≤ ti'))
  | [], skip, ti => by constructor <;> intros <;> simp_all [scanKeys]
  | t :: ts, skip, ti => by
    have key : ∀ r, (match (slice src (t.index + 1) (t.end_ - 1)).bind (keyName o) with
        | none => ScanRes.crash
        | some name =>
          match findField x o tbl name with
          | some fi => .found ti fi
          | none => if o.disallowUnknownFields then .unknown t.index else scanKeys x src o tbl (some 0) ts (ti + 1)) = r →
        (∀ ti' fi, r = .found ti' fi → ti ≤ ti') ∧ (∀ ti', r = .brk ti' → ti ≤ ti') := by
      intro r hr
      split at hr
      · subst hr; simp
      · split at hr
        · subst hr; simp
        · split at hr
          · subst hr; simp
          · obtain ⟨h1, h2⟩ := scan_adv x src o tbl ts (some 0) (ti + 1)
            rw [hr] at h1 h2
            exact ⟨fun ti' fi h => by have := h1 ti' fi h; omega, fun ti' h => by have := (h2 ti' h).1; omega⟩
    have sub : ∀ l, (∀ ti' fi, scanKeys x src o tbl (some l) ts (ti + 1) = .found ti' fi → ti ≤ ti') ∧
        (∀ ti', scanKeys x src o tbl (some l) ts (ti + 1) = .brk ti' → ti ≤ ti' + 1) := by
      intro l
      obtain ⟨h1, h2⟩ := scan_adv x src o tbl ts (some l) (ti + 1)
      exact ⟨fun ti' fi h => by have := h1 ti' fi h; omega, fun ti' h => by have := (h2 ti' h).1; omega⟩
    cases skip with
    | none =>
      simp only [scanKeys]
      obtain ⟨h1, h2⟩ := key _ rfl
      exact ⟨h1, fun ti' h => ⟨by have := h2 ti' h; omega, fun _ => h2 ti' h⟩⟩
    | some l =>
      simp only [scanKeys]
      split
      · split
        · obtain ⟨h1, h2⟩ := key _ rfl
          exact ⟨h1, fun ti' h => ⟨by have := h2 ti' h; omega, by simp⟩⟩
        · exact ⟨(sub _).1, fun ti' h => ⟨(sub _).2 ti' h, by simp⟩⟩
      · exact ⟨(sub _).1, fun ti' h => ⟨(sub _).2 ti' h, by simp⟩⟩
      · split
        · constructor
          · intro ti' fi h; cases h
          · intro ti' h; cases h; exact ⟨by omega, by simp⟩
        · exact ⟨(sub _).1, fun ti' h => ⟨(sub _).2 ti' h, by simp⟩⟩
      · exact ⟨(sub _).1, fun ti' h => ⟨(sub _).2 ti' h, by simp⟩⟩

theorem onKey_adv {pr : Prog} {s s' : St} {f : Frame} {t : Token} (h : onKey pr s f t = .run s') : Adv s s' := by
  simp only [onKey] at h
  split at h
  · split at h
    · cases h
    · rename_i o _
      obtain ⟨h1, h2⟩ := scan_adv pr.x pr.src o f.fields (pr.toks.drop s.ti) none s.ti
      split at h
      · cases h
      · cases h
      · rename_i ti' heq
        cases h
        have := (h2 ti' heq).2 rfl
        exact .inl (by simp only []; omega)
      · rename_i ti' fi heq
        cases h
        have := h1 ti' fi heq
        exact .inl (by simp only []; omega)
  · split at h
    · cases h
    · rename_i o _
      obtain ⟨h1, h2⟩ := scan_adv pr.x pr.src o f.fields (pr.toks.drop s.ti) none s.ti
      split at h
      · cases h
      · cases h
      · rename_i ti' heq
        cases h
        have := (h2 ti' heq).2 rfl
        exact .inl (by simp only []; omega)
      · rename_i ti' fi heq
        cases h
        have := h1 ti' fi heq
        exact .inl (by simp only []; omega)
  all_goals first
    | (cases h; done)
    | (split at h
       · split at h
         · cases h
         · cases h
         · split at h
           · cases h
           · split at h
             · cases h
             · split at h
               · split at h <;> cases h
                 exact .inl (by simp only []; omega)
               · cases h
                 exact .inl (by simp only []; omega)
       · cases h)

theorem onObjectEnd_adv {pr : Prog} {s s' : St} {f : Frame} (h : onObjectEnd pr s f = .run s') : Adv s s' := by
  simp only [onObjectEnd] at h
  split at h
  · cases h; exact .inl (by simp only []; omega)
  · split at h
    · cases h
    · split at h <;> cases h <;> exact .inl (by simp only []; omega)
  · cases h; exact .inl (by simp only []; omega)

theorem onArrayEnd_adv {pr : Prog} {s s' : St} {f : Frame} (h : onArrayEnd pr s f = .run s') : Adv s s' := by
  simp only [onArrayEnd] at h
  split at h
  · split at h
    · cases h; exact .inl (by simp only []; omega)
    · split at h <;> cases h
      exact .inl (by simp only []; omega)
  · cases h; exact .inl (by simp only []; omega)

theorem dispatch_adv {pr : Prog} {s s' : St} {f : Frame} {t : Token} (hT : TokOK pr.toks) (ht : pr.toks[s.ti]? = some t)
    (h : dispatch pr s f t = .run s') : Adv s s' := by
  simp only [dispatch] at h
  split at h
  · exact exec_adv h
  · exact exec_adv h
  · split at h
    · cases h
    · exact exec_adv h
  · split at h
    · cases h
    · exact exec_adv h
  · split at h
    · cases h
    · exact exec_adv h
  · exact exec_adv h
  · rename_i hty; exact onArray_adv hT ht hty h
  · rename_i hty; exact onObject_adv hT ht hty h
  · exact onKey_adv h
  · exact onObjectEnd_adv h
  · exact onArrayEnd_adv h

/-- Rank of a label. -/
def rank (F : Nat) (s : St) : Nat :=
  match s.pc with
  | .loop => 2 * (F - s.si)
  | .onPtr | .onJSON => 2 * (F - s.si) - 1
  | .valEnd => 2 * F + 1
  | .recurObjEnd => 2 * F + 2

/-- What decreases in every step. -/
def measure (pr : Prog) (s : St) : Nat := (pr.toks.length - s.ti) * (2 * pr.frames.length + 3) + rank pr.frames.length s

theorem rank_lt (F : Nat) (s : St) : rank F s < 2 * F + 3 := by
  unfold rank; split <;> omega

theorem measure_adv {pr : Prog} {s s' : St} (hl : s.ti < pr.toks.length) (h : s.ti < s'.ti) : measure pr s' < measure pr s := by
  unfold measure
  have h1 := rank_lt pr.frames.length s'
  have h2 : (pr.toks.length - s'.ti) + 1 ≤ pr.toks.length - s.ti := by omega
  have h3 := Nat.mul_le_mul_right (2 * pr.frames.length + 3) h2
  rw [Nat.add_mul, Nat.one_mul] at h3
  omega

theorem measure_rank {pr : Prog} {s s' : St} (h : s.ti ≤ s'.ti) (hr : rank pr.frames.length s' < rank pr.frames.length s) :
    measure pr s' < measure pr s := by
  unfold measure
  have h2 : pr.toks.length - s'.ti ≤ pr.toks.length - s.ti := by omega
  have h3 := Nat.mul_le_mul_right (2 * pr.frames.length + 3) h2
  omega

theorem frame_lt {fr : List Frame} {i : Nat} {f : Frame} (h : fr[i]? = some f) : i < fr.length := by
  rcases Nat.lt_or_ge i fr.length with h' | h'
  · exact h'
  · rw [List.getElem?_eq_none h'] at h; cases h

theorem step_measure {pr : Prog} {s s' : St} (hT : TokOK pr.toks) (h : step pr s = .run s') : measure pr s' < measure pr s := by
  unfold step at h
  split at h
  · -- loop
    rename_i hpc
    split at h
    · cases h
    · rename_i t ht
      split at h
      · cases h
      · rename_i f hf
        have hlt := frame_lt hf
        rcases dispatch_adv hT ht h with h1 | ⟨h1, h2, h3⟩
        · exact measure_adv (lt_of_get ht) h1
        · refine measure_rank (by omega) ?_
          rcases h3 with h3 | h3 <;> simp only [rank, hpc, h3, h2] <;> omega
  · -- recurObjEnd
    rename_i hpc
    split at h
    · cases h
    · rename_i f hf
      simp only [onRecurObjEnd] at h
      refine measure_rank ?_ ?_
      · split at h
        · cases h; exact Nat.le_refl _
        · split at h
          · cases h
          · split at h <;> cases h <;> exact Nat.le_refl _
      · split at h
        · cases h; simp only [rank, hpc]; omega
        · split at h
          · cases h
          · split at h <;> cases h <;> simp only [rank, hpc] <;> omega
  · -- valEnd
    rename_i hpc
    split at h
    · cases h
    · rename_i f hf
      simp only [onValEnd] at h
      refine measure_rank ?_ ?_
      · split at h
        · cases h; exact Nat.le_refl _
        · split at h
          · cases h
          · split at h
            · cases h; exact Nat.le_refl _
            · split at h
              · split at h <;> cases h
                exact Nat.le_add_right _ _
              · cases h; exact Nat.le_refl _
            all_goals cases h; exact Nat.le_refl _
      · split at h
        · cases h; simp only [rank, hpc]; omega
        · split at h
          · cases h
          · split at h
            · cases h; simp only [rank, hpc]; omega
            · split at h
              · split at h <;> cases h
                simp only [rank, hpc]; omega
              · cases h; simp only [rank, hpc]; omega
            all_goals cases h; simp only [rank, hpc]; omega
  · -- onPtr
    rename_i hpc
    simp only [onPtr] at h
    split at h
    · cases h
    · rename_i fe hfe
      have hlt := frame_lt hfe
      split at h
      · cases h
      · refine measure_rank ?_ ?_
        · split at h
          · cases h; exact Nat.le_refl _
          · split at h <;> cases h
            exact Nat.le_refl _
        · split at h
          · cases h; simp only [rank, hpc]; omega
          · split at h <;> cases h
            simp only [rank, hpc]; omega
  · -- onJSON
    rename_i hpc
    split at h
    · rename_i t f ht hf
      simp only [onJSONUnmarshaler] at h
      split at h
      · rename_i raw ti rt old hraw _ _ _
        have hti : s.ti < ti := by
          simp only [rawValue] at hraw
          split at hraw
          · rename_i hty
            have hend := hT _ _ ht (hty.symm)
            split at hraw
            · cases hraw
            · simp only [Option.map_eq_some_iff, Prod.mk.injEq] at hraw
              obtain ⟨_, _, -, h2⟩ := hraw
              omega
          · simp only [Option.map_eq_some_iff, Prod.mk.injEq] at hraw
            obtain ⟨_, _, -, h2⟩ := hraw
            omega
        split at h
        · cases h
        · split at h <;> cases h
          exact measure_adv (lt_of_get ht) hti
      · cases h
    · cases h

theorem run_measure {pr : Prog} (hT : TokOK pr.toks) : ∀ (n : Nat) (s : St), measure pr s < n → ∀ s', run pr n s ≠ .run s'
  | 0, s, h => by omega
  | n + 1, s, h => by
    intro s'
    rw [run]
    cases hs : step pr s with
    | run s1 =>
      have := step_measure hT hs
      exact run_measure hT n s1 (by omega) s'
    | done _ => simp
    | err _ _ _ => simp
    | crash => simp

/-- With the fuel of `decode` the machine stops. -/
theorem run_stops {pr : Prog} (hT : TokOK pr.toks) (d : Nat → Dyn) (m : Block) (s' : St) : run pr (fuelFor pr) (initSt d m) ≠ .run s' := by
  refine run_measure hT _ _ ?_ s'
  unfold measure fuelFor
  have := rank_lt pr.frames.length (initSt d m)
  rw [Nat.add_mul, Nat.one_mul]
  simp only [initSt, Nat.sub_zero] at this ⊢
  omega

/-! ## Token arrays of documents -/

theorem getElem_cons_append {t te u : Token} {ts : List Token} {i : Nat} (h : (t :: (ts ++ [te]))[i]? = some u) :
    (i = 0 ∧ u = t) ∨ (∃ j, i = j + 1 ∧ ts[j]? = some u) ∨ u = te := by
  cases i with
  | zero => simp only [List.getElem?_cons_zero, Option.some.injEq] at h; exact .inl ⟨rfl, h.symm⟩
  | succ j =>
    simp only [List.getElem?_cons_succ] at h
    rw [List.getElem?_append] at h
    split at h
    · exact .inr (.inl ⟨j, rfl, h⟩)
    · right; right
      cases hk : j - ts.length with
      | zero => rw [hk] at h; simp at h; exact h.symm
      | succ n => rw [hk] at h; simp at h

mutual
theorem flatten_fwd (ti : Nat) : ∀ (v : JVal) (i : Nat) (t : Token), (flatten ti v)[i]? = some t → (t.type = .array ∨ t.type = .object) → ti + i < t.end_
  | .null _ _, i, t, h, ht | .str _ _, i, t, h, ht => by
    cases i with
    | zero => simp [flatten] at h; subst h; simp at ht
    | succ n => simp [flatten] at h
  | .bool b _ _, i, t, h, ht | .num b _ _, i, t, h, ht => by
    cases i with
    | zero => simp [flatten] at h; subst h; cases b <;> simp at ht
    | succ n => simp [flatten] at h
  | .arr a es k, i, t, h, ht => by
    simp only [flatten] at h
    rcases getElem_cons_append h with ⟨rfl, rfl⟩ | ⟨j, rfl, hj⟩ | rfl
    · simp only []; omega
    · have := flattenL_fwd (ti + 1) es j t hj ht; omega
    · simp at ht
  | .obj a ms k, i, t, h, ht => by
    simp only [flatten] at h
    rcases getElem_cons_append h with ⟨rfl, rfl⟩ | ⟨j, rfl, hj⟩ | rfl
    · simp only []; omega
    · have := flattenM_fwd (ti + 1) ms j t hj ht; omega
    · simp at ht
theorem flattenL_fwd (ti : Nat) : ∀ (vs : List JVal) (i : Nat) (t : Token), (flattenL ti vs)[i]? = some t → (t.type = .array ∨ t.type = .object) → ti + i < t.end_
  | [], i, t, h, ht => by simp [flattenL] at h
  | v :: vs, i, t, h, ht => by
    simp only [flattenL] at h
    rw [List.getElem?_append] at h
    split at h
    · exact flatten_fwd ti v i t h ht
    · have := flattenL_fwd (ti + (flatten ti v).length) vs _ t h ht
      omega
theorem flattenM_fwd (ti : Nat) : ∀ (ms : List ((Nat × Nat) × JVal)) (i : Nat) (t : Token), (flattenM ti ms)[i]? = some t → (t.type = .array ∨ t.type = .object) → ti + i < t.end_
  | [], i, t, h, ht => by simp [flattenM] at h
  | ((a, e), v) :: ms, i, t, h, ht => by
    simp only [flattenM] at h
    cases i with
    | zero => simp at h; subst h; simp at ht
    | succ i =>
      simp only [List.getElem?_cons_succ] at h
      rw [List.getElem?_append] at h
      split at h
      · have := flatten_fwd (ti + 1) v i t h ht; omega
      · have := flattenM_fwd (ti + 1 + (flatten (ti + 1) v).length) ms _ t h ht
        omega
end

theorem tokOK_flatten (v : JVal) : TokOK (flatten 0 v) := fun i t h ht => by have := flatten_fwd 0 v i t h ht; omega

end Verif.Proof.Term

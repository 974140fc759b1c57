import Verif.Proof.Append
/-!
# Map frames know whether the runtime's function for string keys may be used
-/
namespace Verif.Proof.Append
open Verif.Model

/-- A frame whose flag, if it is a map frame, is the one of its map type. -/
def FastFrame (env : TypeEnv) (f : Frame) : Prop :=
  (f.faststr = true ∨ f.type = .map ∨ f.type = .mapRecur) → ∃ mt, (env mt).kind = .map ∧ f.mapValueSize = (env (env mt).elem).size ∧ f.faststr = canUseAssignFaststr env mt

/-- All frames are such frames. -/
def FastAll (env : TypeEnv) (s : List Frame) : Prop := ∀ f ∈ s, FastFrame env f

/-- A change of a frame that keeps this. -/
def Keeping (g : Frame → Frame) : Prop :=
  ∀ f, (g f).faststr = f.faststr ∧ (g f).mapValueSize = f.mapValueSize ∧ ((g f).type = f.type ∨ ((g f).type ≠ .map ∧ (g f).type ≠ .mapRecur))

theorem FastAll.modify {env : TypeEnv} {s : List Frame} (h : FastAll env s) (i : Nat) {g : Frame → Frame} (hg : Keeping g) : FastAll env (s.modify i g) := by
  intro f hf
  obtain ⟨j, hj⟩ := List.mem_iff_getElem?.1 hf
  rw [List.getElem?_modify] at hj
  obtain ⟨f0, h0, rfl⟩ := Option.map_eq_some_iff.1 hj
  have hm := h f0 (List.mem_of_getElem? h0)
  split
  · obtain ⟨a, b, c⟩ := hg f0
    intro hp
    rw [a] at hp ⊢
    rw [b]
    refine hm ?_
    rcases hp with hp | hp
    · exact .inl hp
    · rcases c with c | c
      · rw [c] at hp; exact .inr hp
      · exact absurd hp (by simp [c.1, c.2])
  · exact hm

theorem FastAll.push {env : TypeEnv} {s : List Frame} (h : FastAll env s) {f : Frame} (hf : FastFrame env f) : FastAll env (s ++ [f]) := by
  intro g hg
  rcases List.mem_append.1 hg with hg | hg
  · exact h g hg
  · rw [List.mem_singleton.1 hg]; exact hf

theorem FastAll.mark {env : TypeEnv} {s : List Frame} (h : FastAll env s) (j : Nat) : FastAll env (markRecur s j) :=
  h.modify j (g := fun f => { f with type := .structRecur }) fun f => ⟨rfl, rfl, .inr ⟨by simp, by simp⟩⟩

theorem link_fast {env : TypeEnv} {p i : Nat} {r : AppendRes} {s' : List Frame} (h : linkParent p i r = .ok s') (hr : ∀ s1, r = .ok s1 → FastAll env s1) : FastAll env s' := by
  cases r <;> simp only [linkParent, AppendRes.ok.injEq, reduceCtorEq] at h
  subst h
  exact (hr _ rfl).modify _ (g := fun f => { f with parent := some p }) fun f => ⟨rfl, rfl, .inl rfl⟩

theorem fields_fast {env : TypeEnv} {rec' : List Frame → TypeId → AppendRes} {opts : Option InitOptions} (hrec : ∀ s t s', FastAll env s → rec' s t = .ok s' → FastAll env s') {p : Nat} :
    ∀ (fs : List FieldInfo) (s s' : List Frame), FastAll env s → appendFields rec' opts p fs s = .ok s' → FastAll env s' := by
  intro fs
  induction fs with
  | nil => intro s s' h hr; cases hr; exact h
  | cons f fs ih =>
    intro s s' h hr
    simp only [appendFields] at hr
    split at hr
    · exact ih s s' h hr
    · rename_i name opt _
      split at hr
      · rename_i s1 hs1
        have hb := hrec _ _ _ h hs1
        have hb' := (hb.modify p (g := fun p => { p with fields := p.fields ++ [(name, s.length)] }) fun f => ⟨rfl, rfl, .inl rfl⟩).modify s.length (g := fun g => { g with offset := f.offset, parent := some p })
          fun f => ⟨rfl, rfl, .inl rfl⟩
        split at hr
        · split at hr
          · cases hr
          · split at hr
            · rename_i t' ht'
              refine ih _ s' (hb'.modify _ (g := fun g => { g with type := t' }) fun f => ⟨rfl, rfl, .inr ?_⟩) hr
              revert ht'
              unfold retagString
              split <;> intro ht' <;> cases ht'
              exact ⟨by simp, by simp⟩
            · split at hr
              · cases hr
              · split at hr
                · cases hr
                · exact ih _ s' hb' hr
        · exact ih _ s' hb' hr
      · rename_i hne
        exact absurd hr (hne s')

theorem append_fast (env : TypeEnv) (W : Nat) (opts : Option InitOptions) : ∀ (fuel : Nat) (s : List Frame) (t : Option TypeId) (s' : List Frame),
    FastAll env s → appendType env W opts fuel s t = .ok s' → FastAll env s' := by
  intro fuel
  induction fuel with
  | zero => intro s t s' _ h; cases h
  | succ n ih =>
    intro s t s' hs h
    have no : ∀ f : Frame, f.faststr = false → f.type ≠ .map → f.type ≠ .mapRecur → FastFrame env f := fun f h1 h2 h3 hp => by simp_all
    have one : ∀ f : Frame, f.faststr = false → f.type ≠ .map → f.type ≠ .mapRecur → FastAll env (s ++ [f]) := fun f h1 h2 h3 => hs.push (no f h1 h2 h3)
    have mk : ∀ j (f : Frame), f.faststr = false → f.type ≠ .map → f.type ≠ .mapRecur → FastAll env (markRecur s j ++ [f]) := fun j f h1 h2 h3 => (hs.mark j).push (no f h1 h2 h3)
    cases t with
    | none => simp only [appendType, AppendRes.ok.injEq] at h; subst h; exact one _ rfl (by simp) (by simp)
    | some t =>
    rw [appendType] at h
    simp only [] at h
    by_cases hJ : (env t).implJSON
    · simp only [hJ, if_true, AppendRes.ok.injEq] at h; subst h; exact one _ rfl (by simp) (by simp)
    by_cases hT : (env t).implText
    · simp only [hJ, hT, if_true, if_false, Bool.false_eq_true, AppendRes.ok.injEq] at h; subst h; exact one _ rfl (by simp) (by simp)
    simp only [hJ, hT, if_false, Bool.false_eq_true] at h
    cases hk : (env t).kind with
    | bool => simp only [hk, AppendRes.ok.injEq] at h; subst h; exact one _ rfl (by simp) (by simp)
    | int k => simp only [hk, AppendRes.ok.injEq] at h; subst h; exact one _ rfl (by simp) (by simp)
    | float k => simp only [hk, AppendRes.ok.injEq] at h; subst h; exact one _ rfl (by simp) (by simp)
    | other => simp only [hk] at h; cases h
    | string =>
      simp only [hk] at h
      split at h <;> cases h <;> exact one _ rfl (by simp) (by simp)
    | interface =>
      simp only [hk] at h
      split at h <;> cases h; exact one _ rfl (by simp) (by simp)
    | array =>
      simp only [hk] at h
      split at h
      · cases h; exact one _ rfl (by simp) (by simp)
      · split at h
        · rename_i s1 hs1
          cases h
          exact (ih _ _ _ (one _ rfl (by simp) (by simp)) hs1).modify _ fun f => ⟨rfl, rfl, .inl rfl⟩
        · rename_i hne
          exact absurd h (hne s')
    | pointer =>
      simp only [hk] at h
      split at h
      · cases h; exact mk _ _ rfl (by simp) (by simp)
      · exact link_fast h (fun s1 hs1 => ih _ _ _ (one _ rfl (by simp) (by simp)) hs1)
    | struct =>
      simp only [hk] at h
      split at h
      · cases h; exact one _ rfl (by simp) (by simp)
      · exact fields_fast (fun a b c ha hc => ih a _ c ha hc) _ _ _ (one _ rfl (by simp) (by simp)) h
    | map =>
      simp only [hk] at h
      split at h
      · exact link_fast h (fun s1 hs1 => ih _ _ _ ((hs.mark _).push fun _ => ⟨t, hk, rfl, rfl⟩) hs1)
      · split at h
        · cases h; exact one _ rfl (by simp) (by simp)
        · split at h
          · rename_i s1 hs1
            have e1 := link_fast hs1 (fun s1 hs1 => ih _ _ _ (hs.push fun _ => ⟨t, hk, rfl, rfl⟩) hs1)
            exact link_fast h (fun s2 hs2 => ih _ _ _ e1 hs2)
          · rename_i hne
            exact absurd h (hne s')
    | slice =>
      have pl : ∀ (f : Frame) s1, f.faststr = false → f.type ≠ .map → f.type ≠ .mapRecur → linkParent s.length (s.length + 1) (appendType env W opts n (s ++ [f]) (some (env t).elem)) = .ok s1 → FastAll env s1 :=
        fun f s1 h1 h2 h3 hs1 => link_fast hs1 (fun s1 hs1 => ih _ _ _ (one f h1 h2 h3) hs1)
      simp only [hk] at h
      cases he : (env (env t).elem).kind with
      | struct =>
        simp only [he] at h
        split at h
        · cases h; exact one _ rfl (by simp) (by simp)
        · split at h
          · cases h; exact mk _ _ rfl (by simp) (by simp)
          · exact pl _ _ rfl (by simp) (by simp) h
      | string =>
        simp only [he] at h
        split at h
        · exact pl _ _ rfl (by simp) (by simp) h
        · cases h; exact one _ rfl (by simp) (by simp)
      | bool => simp only [he] at h; cases h; exact one _ rfl (by simp) (by simp)
      | int k => simp only [he] at h; cases h; exact one _ rfl (by simp) (by simp)
      | float k => simp only [he] at h; cases h; exact one _ rfl (by simp) (by simp)
      | interface => simp only [he] at h; exact pl _ _ rfl (by simp) (by simp) h
      | array => simp only [he] at h; exact pl _ _ rfl (by simp) (by simp) h
      | slice => simp only [he] at h; exact pl _ _ rfl (by simp) (by simp) h
      | map => simp only [he] at h; exact pl _ _ rfl (by simp) (by simp) h
      | pointer => simp only [he] at h; exact pl _ _ rfl (by simp) (by simp) h
      | other => simp only [he] at h; exact pl _ _ rfl (by simp) (by simp) h

end Verif.Proof.Append

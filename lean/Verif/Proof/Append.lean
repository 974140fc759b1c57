import Verif.Model.Api
/-!
# `appendTypeToStack` only appends: what is on the stack stays
-/
namespace Verif.Proof.Append
open Verif.Model

/-- The stack `s'` extends `s`: nothing that was there changed, except that struct frames may have been marked as recursive. -/
structure Ext' (s s' : List Frame) : Prop where
  le : s.length ≤ s'.length
  keep : ∀ (i : Nat) (f : Frame), s[i]? = some f → ∃ f' : Frame, s'[i]? = some f' ∧ f'.fields = f.fields ∧ f'.rtype = f.rtype ∧ f'.parent = f.parent ∧ f'.offset = f.offset ∧
    f'.size = f.size ∧ (f'.type = f.type ∨ f'.type = .structRecur)

theorem Ext'.refl (s : List Frame) : Ext' s s := ⟨Nat.le_refl _, fun _ f h => ⟨f, h, rfl, rfl, rfl, rfl, rfl, .inl rfl⟩⟩

theorem Ext'.trans {a b c : List Frame} (h : Ext' a b) (h' : Ext' b c) : Ext' a c := by
  refine ⟨Nat.le_trans h.le h'.le, fun i f hf => ?_⟩
  obtain ⟨g, h1, h2, h3, h4, h5, h6, h7⟩ := h.keep i f hf
  obtain ⟨k, k1, k2, k3, k4, k5, k6, k7⟩ := h'.keep i g h1
  refine ⟨k, k1, k2.trans h2, k3.trans h3, k4.trans h4, k5.trans h5, k6.trans h6, ?_⟩
  rcases k7 with k7 | k7
  · rcases h7 with h7 | h7
    · exact .inl (k7.trans h7)
    · exact .inr (k7.trans h7)
  · exact .inr k7

theorem Ext'.push (s : List Frame) (l : List Frame) : Ext' s (s ++ l) := by
  refine ⟨by simp, fun i f h => ⟨f, ?_, rfl, rfl, rfl, rfl, rfl, .inl rfl⟩⟩
  rw [List.getElem?_append_left (List.getElem?_eq_some_iff.1 h).1]; exact h

/-- A change above the old stack. -/
theorem Ext'.modify {s s' : List Frame} (h : Ext' s s') {i : Nat} (hi : s.length ≤ i) (g : Frame → Frame) : Ext' s (s'.modify i g) := by
  refine ⟨by simp [h.le], fun j f hf => ?_⟩
  obtain ⟨f', h1, h2⟩ := h.keep j f hf
  refine ⟨f', ?_, h2⟩
  have hj := (List.getElem?_eq_some_iff.1 hf).1
  have hne : i ≠ j := by omega
  rw [List.getElem?_modify, h1]
  simp [hne]

theorem Ext'.mark (s : List Frame) (i : Nat) : Ext' s (markRecur s i) := by
  refine ⟨by simp [markRecur], fun j f hf => ?_⟩
  simp only [markRecur, List.getElem?_modify, hf]
  by_cases h : i = j
  · simp [h]
  · simp [h]

theorem link_ext {s : List Frame} {p i : Nat} {r : AppendRes} {s' : List Frame} (hi : s.length ≤ i) (h : linkParent p i r = .ok s')
    (hr : ∀ s1, r = .ok s1 → Ext' s s1 ∧ s.length < s1.length) : Ext' s s' ∧ s.length < s'.length := by
  cases r with
  | ok s1 =>
    simp only [linkParent, AppendRes.ok.injEq] at h
    subst h
    obtain ⟨h1, h2⟩ := hr s1 rfl
    exact ⟨h1.modify hi _, by simpa using h2⟩
  | err e => cases h
  | panic => cases h
  | fuel => cases h

theorem fields_ext {rec' : List Frame → TypeId → AppendRes} {opts : Option InitOptions}
    (hrec : ∀ s t s', rec' s t = .ok s' → Ext' s s' ∧ s.length < s'.length) {b : List Frame} {p : Nat} (hp : b.length ≤ p) :
    ∀ (fs : List FieldInfo) (s s' : List Frame), Ext' b s → b.length < s.length → appendFields rec' opts p fs s = .ok s' → Ext' b s' ∧ b.length < s'.length := by
  intro fs
  induction fs with
  | nil => intro s s' h hl hr; cases hr; exact ⟨h, hl⟩
  | cons f fs ih =>
    intro s s' h hl hr
    simp only [appendFields] at hr
    split at hr
    · exact ih s s' h hl hr
    · rename_i name opt _
      split at hr
      · rename_i s1 hs1
        obtain ⟨e1, e2⟩ := hrec _ _ _ hs1
        have hb : Ext' b s1 := h.trans e1
        have hb' := (hb.modify hp (fun p => { p with fields := p.fields ++ [(name, s.length)] })).modify h.le (fun g => { g with offset := f.offset, parent := some p })
        have hl' : b.length < s1.length := by omega
        split at hr
        · split at hr
          · cases hr
          · split at hr
            · exact ih _ s' (hb'.modify h.le _) (by simpa using hl') hr
            · split at hr
              · cases hr
              · split at hr
                · cases hr
                · exact ih _ s' hb' (by simpa using hl') hr
        · exact ih _ s' hb' (by simpa using hl') hr
      · rename_i hne
        exact absurd hr (hne s')

theorem append_ext (env : TypeEnv) (W : Nat) (opts : Option InitOptions) : ∀ (fuel : Nat) (s : List Frame) (t : Option TypeId) (s' : List Frame),
    appendType env W opts fuel s t = .ok s' → Ext' s s' ∧ s.length < s'.length := by
  intro fuel
  induction fuel with
  | zero => intro s t s' h; cases h
  | succ n ih =>
    intro s t s' h
    have one : ∀ f, Ext' s (s ++ [f]) ∧ s.length < (s ++ [f]).length := fun f => ⟨.push s _, by simp⟩
    have sub : ∀ f s1 t, appendType env W opts n (s ++ [f]) t = .ok s1 → Ext' s s1 ∧ s.length < s1.length := by
      intro f s1 t h1
      obtain ⟨e1, e2⟩ := ih _ _ _ h1
      exact ⟨(Ext'.push s _).trans e1, by simp at e2; omega⟩
    have mk : ∀ j f, Ext' s (markRecur s j ++ [f]) ∧ s.length < (markRecur s j ++ [f]).length :=
      fun j f => ⟨(Ext'.mark s j).trans (.push _ _), by simp [markRecur]⟩
    have mark : ∀ j f s1 t, appendType env W opts n (markRecur s j ++ [f]) t = .ok s1 → Ext' s s1 ∧ s.length < s1.length := by
      intro j f s1 t h1
      obtain ⟨e1, e2⟩ := ih _ _ _ h1
      exact ⟨(mk j f).1.trans e1, by simp [markRecur] at e2; omega⟩
    cases t with
    | none => simp only [appendType, AppendRes.ok.injEq] at h; subst h; exact one _
    | some t =>
    rw [appendType] at h
    simp only [] at h
    by_cases hJ : (env t).implJSON
    · simp only [hJ, if_true, AppendRes.ok.injEq] at h; subst h; exact one _
    by_cases hT : (env t).implText
    · simp only [hJ, hT, if_true, if_false, Bool.false_eq_true, AppendRes.ok.injEq] at h; subst h; exact one _
    simp only [hJ, hT, if_false, Bool.false_eq_true] at h
    cases hk : (env t).kind with
    | bool => simp only [hk, AppendRes.ok.injEq] at h; subst h; exact one _
    | int k => simp only [hk, AppendRes.ok.injEq] at h; subst h; exact one _
    | float k => simp only [hk, AppendRes.ok.injEq] at h; subst h; exact one _
    | other => simp only [hk] at h; cases h
    | string =>
      simp only [hk] at h
      split at h <;> cases h <;> exact one _
    | interface =>
      simp only [hk] at h
      split at h <;> cases h; exact one _
    | array =>
      simp only [hk] at h
      split at h
      · cases h; exact one _
      · split at h
        · rename_i s1 hs1
          cases h
          obtain ⟨e1, e2⟩ := sub _ _ _ hs1
          exact ⟨e1.modify (by omega) _, by simpa using e2⟩
        · rename_i hne
          exact absurd h (hne s')
    | pointer =>
      simp only [hk] at h
      split at h
      · cases h; exact mk _ _
      · exact link_ext (by omega) h (fun s1 hs1 => sub _ _ _ hs1)
    | struct =>
      simp only [hk] at h
      split at h
      · cases h; exact one _
      · exact fields_ext (fun a b c hc => ih a _ c hc) (Nat.le_refl _) _ _ _ (one _).1 (one _).2 h
    | map =>
      simp only [hk] at h
      split at h
      · exact link_ext (by omega) h (fun s1 hs1 => mark _ _ _ _ hs1)
      · split at h
        · cases h; exact one _
        · split at h
          · rename_i s1 hs1
            obtain ⟨e1, e2⟩ := link_ext (by omega) hs1 (fun s1 hs1 => sub _ _ _ hs1)
            refine link_ext (by omega) h (fun s2 hs2 => ?_)
            obtain ⟨g1, g2⟩ := ih _ _ _ hs2
            exact ⟨e1.trans g1, by omega⟩
          · rename_i hne
            exact absurd h (hne s')
    | slice =>
      have pl : ∀ f s1, linkParent s.length (s.length + 1) (appendType env W opts n (s ++ [f]) (some (env t).elem)) = .ok s1 → Ext' s s1 ∧ s.length < s1.length :=
        fun f s1 hs1 => link_ext (by omega) hs1 (fun s1 hs1 => sub _ _ _ hs1)
      simp only [hk] at h
      cases he : (env (env t).elem).kind with
      | struct =>
        simp only [he] at h
        split at h
        · cases h; exact one _
        · split at h
          · cases h; exact mk _ _
          · exact pl _ _ h
      | string =>
        simp only [he] at h
        split at h
        · exact pl _ _ h
        · cases h; exact one _
      | bool => simp only [he] at h; cases h; exact one _
      | int k => simp only [he] at h; cases h; exact one _
      | float k => simp only [he] at h; cases h; exact one _
      | interface => simp only [he] at h; exact pl _ _ h
      | array => simp only [he] at h; exact pl _ _ h
      | slice => simp only [he] at h; exact pl _ _ h
      | map => simp only [he] at h; exact pl _ _ h
      | pointer => simp only [he] at h; exact pl _ _ h
      | other => simp only [he] at h; exact pl _ _ h

theorem new_frames {env : TypeEnv} {W : Nat} {opts : Option InitOptions} {depth : Nat} {t : Option TypeId} {d : Decoder} (h : newDecoder env W opts depth t = .ok d) : d.frames ≠ [] := by
  simp only [newDecoder] at h
  split at h <;> cases h
  rename_i s hs
  have := (append_ext env W opts depth [] t s hs).2
  intro hc
  simp only at hc
  subst hc; simp at this

end Verif.Proof.Append

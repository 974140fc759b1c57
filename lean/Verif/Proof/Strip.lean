import Verif.Proof.NewDecoder
/-!
# The `string` option on unsupported types is ignored
-/
namespace Verif.Proof.TypeGraph
open Verif.Model Verif.Spec Verif.Proof.Append

theorem fields_strip {env : TypeEnv} {rec' : List Frame → TypeId → AppendRes} {o : InitOptions} (ho : o.disallowStringTagOptOnUnsupportedTypes = false)
    (hhead : ∀ s t s', rec' s t = .ok s' → ∃ g : Frame, s'[s.length]? = some g ∧ (retagString g.type).isSome = plainScalar (env t)) (hlen : ∀ s t s', rec' s t = .ok s' → s.length < s'.length) {p : Nat}
    {fs fs' : List FieldInfo} (h : UnstrungL env fs fs') : ∀ s, p < s.length → appendFields rec' (some o) p fs s = appendFields rec' (some o) p fs' s := by
  induction h with
  | nil => intro s _; rfl
  | @cons f f' fs fs' hf _ ih =>
    intro s hp
    rcases hf with rfl | ⟨h1, h2, h3, h4, name, h5, h6⟩
    · cases ht : parseTag f'.name f'.tag with
      | none => simp only [appendFields, ht]; exact ih s hp
      | some r =>
        obtain ⟨name, str⟩ := r
        cases hr : rec' s f'.type with
        | ok s1 =>
          have hl := hlen _ _ _ hr
          simp only [appendFields, ht, hr, ho]
          have e1 : ∀ s2 : List Frame, s2.length = s1.length → appendFields rec' (some o) p fs s2 = appendFields rec' (some o) p fs' s2 := fun s2 h2 => ih s2 (by omega)
          rw [e1 _ (by simp)]
          split
          · split
            · rfl
            · split
              · exact e1 _ (by simp)
              · rfl
          · rfl
        | _ => simp only [appendFields, ht, hr]
    · rw [tag_iff] at h5
      rw [tag_iff, ← h1] at h6
      cases hr : rec' s f.type with
      | ok s1 =>
        have hl := hlen _ _ _ hr
        obtain ⟨g, g1, g2⟩ := hhead _ _ _ hr
        rw [h4] at g2
        have hget : ((s1.modify p fun q => { q with fields := q.fields ++ [(name, s.length)] }).modify s.length fun g => { g with offset := f.offset, parent := some p })[s.length]? =
            some { g with offset := f.offset, parent := some p } := by
          rw [List.getElem?_modify, List.getElem?_modify, g1]
          have : p ≠ s.length := by omega
          simp [this]
        have hrt : retagString g.type = none := by simpa using g2
        simp only [appendFields, h5, h6, h2, h3, hr, if_true, hget, hrt, ho, Bool.false_eq_true, if_false]
        exact ih _ (by simp; omega)
      | _ => simp only [appendFields, h5, h6, h2, hr]

theorem append_strip {env env' : TypeEnv} {W : Nat} {o : InitOptions} (ho : o.disallowStringTagOptOnUnsupportedTypes = false) (h : SameTypes env env') :
    ∀ (n : Nat) (s : List Frame) (t : Option TypeId), appendType env W (some o) n s t = appendType env' W (some o) n s t := by
  have e1 : ∀ t, (env' t).kind = (env t).kind := fun t => by obtain ⟨fs, -, h⟩ := h t; rw [h]
  have e2 : ∀ t, (env' t).size = (env t).size := fun t => by obtain ⟨fs, -, h⟩ := h t; rw [h]
  have e3 : ∀ t, (env' t).elem = (env t).elem := fun t => by obtain ⟨fs, -, h⟩ := h t; rw [h]
  have e4 : ∀ t, (env' t).key = (env t).key := fun t => by obtain ⟨fs, -, h⟩ := h t; rw [h]
  have e5 : ∀ t, (env' t).len = (env t).len := fun t => by obtain ⟨fs, -, h⟩ := h t; rw [h]
  have e6 : ∀ t, (env' t).numMethod = (env t).numMethod := fun t => by obtain ⟨fs, -, h⟩ := h t; rw [h]
  have e7 : ∀ t, (env' t).implJSON = (env t).implJSON := fun t => by obtain ⟨fs, -, h⟩ := h t; rw [h]
  have e8 : ∀ t, (env' t).implText = (env t).implText := fun t => by obtain ⟨fs, -, h⟩ := h t; rw [h]
  have e9 : ∀ t, (env' t).isNumber = (env t).isNumber := fun t => by obtain ⟨fs, -, h⟩ := h t; rw [h]
  have ef : ∀ t, UnstrungL env (env t).fields (env' t).fields := fun t => by obtain ⟨fs, h1, h⟩ := h t; rw [h]; exact h1
  intro n
  induction n with
  | zero => intro s t; rfl
  | succ n ih =>
    intro s t
    cases t with
    | none => rfl
    | some t =>
      have hrec : (fun (s : List Frame) (t : TypeId) => appendType env W (some o) n s (some t)) = fun s t => appendType env' W (some o) n s (some t) := funext fun s => funext fun t => ih s (some t)
      by_cases hk : (env t).kind = .struct
      · have hnil : (env' t).fields = [] ↔ (env t).fields = [] := by
          have := ef t
          generalize (env t).fields = a at this
          generalize (env' t).fields = b at this
          cases this <;> simp
        simp only [appendType, e1, e2, e7, e8, hk, hnil]
        split
        · rfl
        · split
          · rfl
          · split
            · rfl
            · rw [← hrec]
              exact fields_strip (env := env) ho (fun s t s' h => head_frame h) (fun s t s' h => (append_ext _ _ _ _ _ _ _ h).2) (ef t) _ (by simp)
      · simp only [appendType, canUseAssignFaststr, e1, e2, e3, e4, e5, e6, e7, e8, e9]
        simp only [ih]
        cases hkk : (env t).kind <;> first | exact absurd hkk hk | rfl

end Verif.Proof.TypeGraph

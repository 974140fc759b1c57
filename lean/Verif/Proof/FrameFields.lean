import Verif.Proof.NewDecoder
/-!
# Field tables of all struct types
-/
namespace Verif.Proof.TypeGraph
open Verif.Model Verif.Spec Verif.Proof.Append

/-- Frames other than `p` keep their offsets. -/
def KeepOff (p : Nat) (s s' : List Frame) : Prop := ∀ j, j ≠ p → ∀ f : Frame, s[j]? = some f → ∃ f' : Frame, s'[j]? = some f' ∧ f'.offset = f.offset

theorem KeepOff.trans {p : Nat} {a b c : List Frame} (h : KeepOff p a b) (h' : KeepOff p b c) : KeepOff p a c := fun j hj f hf => by
  obtain ⟨g, h1, h2⟩ := h j hj f hf
  obtain ⟨k, k1, k2⟩ := h' j hj g h1
  exact ⟨k, k1, k2.trans h2⟩

theorem fields_named {rec' : List Frame → TypeId → AppendRes} {opts : Option InitOptions} (hrec : ∀ s t s', rec' s t = .ok s' → Ext' s s' ∧ s.length < s'.length) {p : Nat} :
    ∀ (fs : List FieldInfo) (s s' : List Frame), p < s.length → appendFields rec' opts p fs s = .ok s' →
      KeepOff p s s' ∧ ∀ q : Frame, s[p]? = some q → ∃ q' L, s'[p]? = some q' ∧ q'.fields = q.fields ++ L ∧ FrameFields s' fs L := by
  intro fs
  induction fs with
  | nil =>
    intro s s' hp h
    cases h
    exact ⟨fun j _ f hf => ⟨f, hf, rfl⟩, fun q hq => ⟨q, [], hq, by simp, .nil⟩⟩
  | cons f fs ih =>
    intro s s' hp h
    simp only [appendFields] at h
    split at h
    · rename_i ht
      obtain ⟨h1, h2⟩ := ih s s' hp h
      refine ⟨h1, fun q hq => ?_⟩
      obtain ⟨q', L, k1, k2, k3⟩ := h2 q hq
      exact ⟨q', L, k1, k2, .ignored (tag_iff.2 ht) k3⟩
    · rename_i name str ht
      split at h
      · rename_i s1 hs1
        obtain ⟨e1, e2⟩ := hrec _ _ _ hs1
        -- whatever happens to the type of the new frame
        have go : ∀ s2 : List Frame, (∃ g : Frame → Frame, (∀ f, (g f).offset = f.offset) ∧ s2 = ((s1.modify p fun q => { q with fields := q.fields ++ [(name, s.length)] }).modify s.length fun g => { g with offset := f.offset, parent := some p }).modify s.length g) →
            appendFields rec' opts p fs s2 = .ok s' →
            KeepOff p s s' ∧ ∀ q : Frame, s[p]? = some q → ∃ q' L, s'[p]? = some q' ∧ q'.fields = q.fields ++ L ∧ FrameFields s' (f :: fs) L := by
          rintro s2 ⟨g, hg, rfl⟩ h
          have hlen : s1.length = (((s1.modify p fun q => { q with fields := q.fields ++ [(name, s.length)] }).modify s.length fun g => { g with offset := f.offset, parent := some p }).modify s.length g).length := by simp
          obtain ⟨h1, h2⟩ := ih _ s' (by omega) h
          constructor
          · refine KeepOff.trans (b := _) ?_ h1
            intro j hj f' hf'
            obtain ⟨f'', k1, -, -, -, k2, -⟩ := e1.keep j f' hf'
            have hjl := (List.getElem?_eq_some_iff.1 hf').1
            refine ⟨f'', ?_, k2⟩
            rw [List.getElem?_modify, List.getElem?_modify, List.getElem?_modify, k1]
            have a1 : s.length ≠ j := by omega
            simp [a1, Ne.symm hj]
          · intro q hq
            obtain ⟨q1, k1, k2, -⟩ := e1.keep p q hq
            have hp2 : (((s1.modify p fun q => { q with fields := q.fields ++ [(name, s.length)] }).modify s.length fun g => { g with offset := f.offset, parent := some p }).modify s.length g)[p]? =
                some { q1 with fields := q1.fields ++ [(name, s.length)] } := by
              rw [List.getElem?_modify, List.getElem?_modify, List.getElem?_modify, k1]
              have a1 : s.length ≠ p := by omega
              simp [a1]
            obtain ⟨q', L, m1, m2, m3⟩ := h2 _ hp2
            obtain ⟨fn, hfn⟩ : ∃ fn, s1[s.length]? = some fn := ⟨_, List.getElem?_eq_getElem e2⟩
            have hn2 : (((s1.modify p fun q => { q with fields := q.fields ++ [(name, s.length)] }).modify s.length fun g => { g with offset := f.offset, parent := some p }).modify s.length g)[s.length]? =
                some (g { fn with offset := f.offset, parent := some p }) := by
              rw [List.getElem?_modify, List.getElem?_modify, List.getElem?_modify, hfn]
              have a1 : p ≠ s.length := by omega
              simp [a1]
            obtain ⟨g', n1, n2⟩ := h1 s.length (by omega) _ hn2
            refine ⟨q', (name, s.length) :: L, m1, by rw [m2, k2]; simp, .field (tag_iff.2 ht) n1 (by rw [n2, hg]) m3⟩
        have self : ∀ l : List Frame, l.modify s.length (fun f => f) = l := fun l => by
          refine List.ext_getElem? fun i => ?_
          rw [List.getElem?_modify]
          cases l[i]? <;> simp
        split at h
        · split at h
          · cases h
          · split at h
            · rename_i t' _
              exact go _ ⟨fun g => { g with type := t' }, fun _ => rfl, rfl⟩ h
            · split at h
              · cases h
              · split at h
                · cases h
                · exact go _ ⟨fun f => f, fun _ => rfl, (self _).symm⟩ h
        · exact go _ ⟨fun f => f, fun _ => rfl, (self _).symm⟩ h
      · rename_i hne; exact absurd h (hne s')

theorem struct_named {env : TypeEnv} {W : Nat} {opts : Option InitOptions} {n : Nat} {s s' : List Frame} {t : TypeId} (hu : TypeInfo.unmarshaler (env t) = false) (hk : (env t).kind = .struct)
    (hne : (env t).fields ≠ []) (h : appendType env W opts n s (some t) = .ok s') : ∃ f, s'[s.length]? = some f ∧ FrameFields s' (env t).fields f.fields := by
  cases n with
  | zero => cases h
  | succ n =>
    have hu : (env t).implJSON = false ∧ (env t).implText = false := by simpa [TypeInfo.unmarshaler] using hu
    simp only [appendType, hu.1, hu.2, hk, hne, if_false, Bool.false_eq_true] at h
    obtain ⟨-, h2⟩ := fields_named (fun s t s' hr => append_ext _ _ _ _ _ _ _ hr) _ _ _ (by simp) h
    obtain ⟨q', L, k1, k2, k3⟩ := h2 { type := .struct, rtype := some t, size := (env t).size, typ := some t } (by simp)
    refine ⟨q', k1, ?_⟩
    rw [k2]
    simpa using k3

end Verif.Proof.TypeGraph

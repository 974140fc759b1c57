import Verif.Proof.Append
import Verif.Proof.StrictRun
import Verif.Proof.TypeGraph
import Verif.Spec.Session
/-!
# Nil options
-/
namespace Verif.Proof.NilOpts
open Verif Verif.Model Verif.Spec Verif.Proof.Append Verif.Proof.StrictRun

/-- The program with nil options. -/
def withNil (pr : Prog) : Prog := { pr with options := none }

theorem key_nil {pr : Prog} {o : Options} {s : St} {f : Frame} {t : Token} :
    onKey (withNil pr) s f t = onKey (withO pr o) s f t ∨ (f.type = .struct ∨ f.type = .structRecur) ∧ onKey (withNil pr) s f t = .crash := by
  cases hf : f.type with
  | struct => exact .inr ⟨.inl rfl, by simp only [onKey, hf, withNil]⟩
  | structRecur => exact .inr ⟨.inr rfl, by simp only [onKey, hf, withNil]⟩
  | _ => left; simp only [onKey, hf, withO, withNil]; try rfl

theorem step_nil {pr : Prog} {o : Options} {s : St} :
    step (withNil pr) s = step (withO pr o) s ∨ (∃ f ∈ pr.frames, f.type = .struct ∨ f.type = .structRecur) ∧ step (withNil pr) s = .crash := by
  cases hpc : s.pc with
  | loop =>
    simp only [step, hpc, withO, withNil]
    cases ht : pr.toks[s.ti]? with
    | none => exact .inl rfl
    | some t =>
      cases hf : pr.frames[s.si]? with
      | none => exact .inl rfl
      | some f =>
        cases htt : t.type with
        | key =>
          simp only [dispatch, htt]
          exact (key_nil (pr := pr) (o := o) (s := s) (f := f) (t := t)).imp id fun h => ⟨⟨f, List.mem_of_getElem? hf, h.1⟩, h.2⟩
        | _ => left; simp only [dispatch, htt]; rfl
  | _ => left; simp only [step, hpc, withO, withNil]; rfl

theorem run_nil {pr : Prog} {o : Options} : ∀ (n : Nat) (s : St),
    run (withNil pr) n s = run (withO pr o) n s ∨ (∃ f ∈ pr.frames, f.type = .struct ∨ f.type = .structRecur) ∧ run (withNil pr) n s = .crash
  | 0, s => .inl rfl
  | n + 1, s => by
    rcases step_nil (pr := pr) (o := o) (s := s) with h | ⟨h1, h2⟩
    · simp only [run, h]
      cases hs : step (withO pr o) s with
      | run s' => exact run_nil n s'
      | _ => exact .inl rfl
    · exact .inr ⟨h1, by simp only [run, h2]⟩

theorem decode_nil {x : Ext} {d : Decoder} {src : Bytes} {doc : Except (Nat × Nat) JVal} {t : Option Block} {o : Options} :
    decode x d src doc t none = decode x d src doc t (some o) ∨ (∃ f ∈ d.frames, f.type = .struct ∨ f.type = .structRecur) ∧ decode x d src doc t none = none := by
  unfold decode
  cases t with
  | none => exact .inl rfl
  | some mem =>
    cases doc with
    | error e => exact .inl rfl
    | ok v =>
      cases hf : d.frames with
      | nil => exact .inl rfl
      | cons f0 fs =>
        have h := run_nil (pr := { x := x, src := src, toks := flatten 0 v, frames := f0 :: fs, options := none, epoch := d.calls }) (o := o)
          (fuelFor { x := x, src := src, toks := flatten 0 v, frames := f0 :: fs, options := none, epoch := d.calls }) (initSt d.dyn mem)
        simp only [withO, withNil, fuelFor] at h
        simp only [fuelFor]
        rcases h with h | ⟨h1, h2⟩
        · exact .inl (by simp only [h])
        · exact .inr ⟨h1, by simp only [h2]⟩

/-! ## Struct frames are for struct types -/

/-- Every struct frame comes from a struct type that is needed for `root`. -/
def StructsOf (env : TypeEnv) (root : TypeId) (s : List Frame) : Prop :=
  ∀ f ∈ s, f.type = .struct ∨ f.type = .structRecur → ∃ t, Reach env root t ∧ (env t).kind = .struct

section
variable {env : TypeEnv} {root : TypeId}

theorem StructsOf.modify {s : List Frame} (h : StructsOf env root s) (i : Nat) {g : Frame → Frame} (hg : ∀ f, (g f).type = f.type ∨ ((g f).type ≠ .struct ∧ (g f).type ≠ .structRecur)) :
    StructsOf env root (s.modify i g) := by
  intro f hf
  obtain ⟨j, hj⟩ := List.mem_iff_getElem?.1 hf
  rw [List.getElem?_modify] at hj
  obtain ⟨f0, h0, rfl⟩ := Option.map_eq_some_iff.1 hj
  have hm := h f0 (List.mem_of_getElem? h0)
  split
  · intro hp
    rcases hg f0 with c | c
    · rw [c] at hp; exact hm hp
    · exact absurd hp (by simp [c.1, c.2])
  · exact hm

theorem StructsOf.push {s : List Frame} (h : StructsOf env root s) {f : Frame} (hf : f.type = .struct ∨ f.type = .structRecur → ∃ t, Reach env root t ∧ (env t).kind = .struct) :
    StructsOf env root (s ++ [f]) := by
  intro g hg
  rcases List.mem_append.1 hg with hg | hg
  · exact h g hg
  · rw [List.mem_singleton.1 hg]; exact hf

theorem StructsOf.mark {s : List Frame} (h : StructsOf env root s) (j : Nat) (ht : ∃ t, Reach env root t ∧ (env t).kind = .struct) : StructsOf env root (markRecur s j) := by
  intro f hf hp
  exact ht

theorem link_structs {p i : Nat} {r : AppendRes} {s' : List Frame} (h : linkParent p i r = .ok s') (hr : ∀ s1, r = .ok s1 → StructsOf env root s1) : StructsOf env root s' := by
  cases r <;> simp only [linkParent, AppendRes.ok.injEq, reduceCtorEq] at h
  subst h
  exact (hr _ rfl).modify _ (g := fun f => { f with parent := some p }) fun f => .inl rfl

theorem fields_structs {rec' : List Frame → TypeId → AppendRes} {opts : Option InitOptions} {p : Nat} :
    ∀ (fs : List FieldInfo) (s s' : List Frame), (∀ f ∈ fs, ∀ n, parseTag f.name f.tag = some n → ∀ s s', StructsOf env root s → rec' s f.type = .ok s' → StructsOf env root s') →
    StructsOf env root s → appendFields rec' opts p fs s = .ok s' → StructsOf env root s' := by
  intro fs
  induction fs with
  | nil => intro s s' _ h hr; cases hr; exact h
  | cons f fs ih =>
    intro s s' hrec h hr
    have ih := fun s s' => ih s s' (fun f hf => hrec f (List.mem_cons_of_mem _ hf))
    simp only [appendFields] at hr
    split at hr
    · exact ih s s' h hr
    · rename_i name opt hp
      split at hr
      · rename_i s1 hs1
        have hb := hrec f List.mem_cons_self _ hp _ _ h hs1
        have hb' := (hb.modify p (g := fun p => { p with fields := p.fields ++ [(name, s.length)] }) fun f => .inl rfl).modify s.length (g := fun g => { g with offset := f.offset, parent := some p })
          fun f => .inl rfl
        split at hr
        · split at hr
          · cases hr
          · split at hr
            · rename_i t' ht'
              refine ih _ s' (hb'.modify _ (g := fun g => { g with type := t' }) fun f => .inr ?_) hr
              revert ht'
              unfold retagString
              split <;> intro ht' <;> cases ht'
              exact ⟨by simp, by simp⟩
            · split at hr
              · cases hr
              · split at hr
                · cases hr
                · exact ih _ s' hb' hr
        · exact ih _ s' hb' hr
      · rename_i hne
        exact absurd hr (hne s')

theorem append_structs {W : Nat} {opts : Option InitOptions} : ∀ (fuel : Nat) (s : List Frame) (t : TypeId) (s' : List Frame), Reach env root t →
    StructsOf env root s → appendType env W opts fuel s (some t) = .ok s' → StructsOf env root s' := by
  intro fuel
  induction fuel with
  | zero => intro s t s' _ _ h; cases h
  | succ n ih =>
    intro s t s' hR hs h
    have one : ∀ f : Frame, f.type ≠ .struct → f.type ≠ .structRecur → StructsOf env root (s ++ [f]) := fun f h2 h3 => hs.push fun h => absurd h (by simp [h2, h3])
    rw [appendType] at h
    simp only [] at h
    by_cases hJ : (env t).implJSON
    · simp only [hJ, if_true, AppendRes.ok.injEq] at h; subst h; exact one _ (by simp) (by simp)
    by_cases hT : (env t).implText
    · simp only [hJ, hT, if_true, if_false, Bool.false_eq_true, AppendRes.ok.injEq] at h; subst h; exact one _ (by simp) (by simp)
    simp only [hJ, hT, if_false, Bool.false_eq_true] at h
    have hu : TypeInfo.unmarshaler (env t) = false := by simp [TypeInfo.unmarshaler, hJ, hT]
    cases hk : (env t).kind with
    | bool => simp only [hk, AppendRes.ok.injEq] at h; subst h; exact one _ (by simp) (by simp)
    | int k => simp only [hk, AppendRes.ok.injEq] at h; subst h; exact one _ (by simp) (by simp)
    | float k => simp only [hk, AppendRes.ok.injEq] at h; subst h; exact one _ (by simp) (by simp)
    | other => simp only [hk] at h; cases h
    | string =>
      simp only [hk] at h
      split at h <;> cases h <;> exact one _ (by simp) (by simp)
    | interface =>
      simp only [hk] at h
      split at h <;> cases h; exact one _ (by simp) (by simp)
    | array =>
      simp only [hk] at h
      split at h
      · cases h; exact one _ (by simp) (by simp)
      · rename_i hl
        split at h
        · rename_i s1 hs1
          cases h
          exact (ih _ _ _ (.step hR (.array hu hk hl)) (one _ (by simp) (by simp)) hs1).modify _ fun f => .inl rfl
        · rename_i hne
          exact absurd h (hne s')
    | pointer =>
      simp only [hk] at h
      have hc := Reach.step hR (.pointer hu hk)
      split at h
      · rename_i hj
        split at hj
        · rename_i hst
          cases h; exact (hs.mark _ ⟨_, hc, hst.1⟩).push fun h => absurd h (by simp)
        · cases hj
      · exact link_structs h (fun s1 hs1 => ih _ _ _ hc (one _ (by simp) (by simp)) hs1)
    | struct =>
      simp only [hk] at h
      split at h
      · cases h; exact one _ (by simp) (by simp)
      · refine fields_structs _ _ _ ?_ (hs.push fun _ => ⟨t, hR, hk⟩) h
        intro f hf r hr a b ha hb
        exact ih a _ b (.step hR (.field hu hk hf (Verif.Proof.TypeGraph.tag_iff.2 hr))) ha hb
    | map =>
      simp only [hk] at h
      split at h
      · rename_i hj
        split at hj
        · rename_i hst
          have hn : ¬ ((env (env t).key).kind = .string ∧ (env (env t).elem).kind = .string) := fun hc => by rw [hst.1] at hc; cases hc.2
          exact link_structs h (fun s1 hs1 => ih _ _ _ (.step hR (.key hu hk hn)) ((hs.mark _ ⟨_, .step hR (.value hu hk hn), hst.1⟩).push fun h => absurd h (by simp)) hs1)
        · cases hj
      · split at h
        · cases h; exact one _ (by simp) (by simp)
        · rename_i hn
          split at h
          · rename_i s1 hs1
            have e1 := link_structs hs1 (fun s1 hs1 => ih _ _ _ (.step hR (.key hu hk hn)) (one _ (by simp) (by simp)) hs1)
            exact link_structs h (fun s2 hs2 => ih _ _ _ (.step hR (.value hu hk hn)) e1 hs2)
          · rename_i hne
            exact absurd h (hne s')
    | slice =>
      have pl : ∀ (f : Frame) s1, sliceLeaf (env (env t).elem) = false → f.type ≠ .struct → f.type ≠ .structRecur → linkParent s.length (s.length + 1) (appendType env W opts n (s ++ [f]) (some (env t).elem)) = .ok s1 → StructsOf env root s1 :=
        fun f s1 h1 h2 h3 hs1 => link_structs hs1 (fun s1 hs1 => ih _ _ _ (.step hR (.slice hu hk h1)) (one f h2 h3) hs1)
      simp only [hk] at h
      cases he : (env (env t).elem).kind with
      | struct =>
        simp only [he] at h
        split at h
        · cases h; exact one _ (by simp) (by simp)
        · rename_i hsz
          have hl : sliceLeaf (env (env t).elem) = false := by simp only [sliceLeaf, he]; simp; omega
          split at h
          · cases h; exact (hs.mark _ ⟨_, .step hR (.slice hu hk hl), he⟩).push fun h => absurd h (by simp)
          · exact pl _ _ hl (by simp) (by simp) h
      | string =>
        simp only [he] at h
        split at h
        · rename_i hn
          exact pl _ _ (by simp [sliceLeaf, he, hn]) (by simp) (by simp) h
        · cases h; exact one _ (by simp) (by simp)
      | bool => simp only [he] at h; cases h; exact one _ (by simp) (by simp)
      | int k => simp only [he] at h; cases h; exact one _ (by simp) (by simp)
      | float k => simp only [he] at h; cases h; exact one _ (by simp) (by simp)
      | interface => simp only [he] at h; exact pl _ _ (by simp [sliceLeaf, he]) (by simp) (by simp) h
      | array => simp only [he] at h; exact pl _ _ (by simp [sliceLeaf, he]) (by simp) (by simp) h
      | slice => simp only [he] at h; exact pl _ _ (by simp [sliceLeaf, he]) (by simp) (by simp) h
      | map => simp only [he] at h; exact pl _ _ (by simp [sliceLeaf, he]) (by simp) (by simp) h
      | pointer => simp only [he] at h; exact pl _ _ (by simp [sliceLeaf, he]) (by simp) (by simp) h
      | other => simp only [he] at h; exact pl _ _ (by simp [sliceLeaf, he]) (by simp) (by simp) h

end

/-- Frame `p` is a struct frame. -/
def StructAt (p : Nat) (s : List Frame) : Prop := ∃ f, s[p]? = some f ∧ (f.type = .struct ∨ f.type = .structRecur)

theorem StructAt.modify {p : Nat} {s : List Frame} (h : StructAt p s) (i : Nat) {g : Frame → Frame} (hg : i = p → ∀ f, (g f).type = f.type) : StructAt p (s.modify i g) := by
  obtain ⟨f, h1, h2⟩ := h
  rw [StructAt, List.getElem?_modify, h1]
  by_cases hi : i = p
  · simp only [hi, if_true, Option.map_eq_map, Option.map_some, Option.some.injEq, exists_eq_left', hg hi f]; exact h2
  · simp only [hi, if_false, Option.map_eq_map, Option.map_some, Option.some.injEq, exists_eq_left', id]; exact h2

theorem fields_structAt {rec' : List Frame → TypeId → AppendRes} {opts : Option InitOptions} (hrec : ∀ s t s', rec' s t = .ok s' → Ext' s s' ∧ s.length < s'.length) {p : Nat} :
    ∀ (fs : List FieldInfo) (s s' : List Frame), StructAt p s → appendFields rec' opts p fs s = .ok s' → StructAt p s' := by
  intro fs
  induction fs with
  | nil => intro s s' h hr; cases hr; exact h
  | cons f fs ih =>
    intro s s' h hr
    simp only [appendFields] at hr
    split at hr
    · exact ih s s' h hr
    · rename_i name opt hp
      split at hr
      · rename_i s1 hs1
        obtain ⟨g, g1, g2⟩ := h
        have hlt : p < s.length := (List.getElem?_eq_some_iff.1 g1).1
        have hb : StructAt p s1 := by
          obtain ⟨g', k1, -, -, -, -, -, k2⟩ := (hrec _ _ _ hs1).1.keep p g g1
          refine ⟨g', k1, ?_⟩
          rcases k2 with k2 | k2
          · rw [k2]; exact g2
          · exact .inr k2
        have hb' := (hb.modify p (g := fun p => { p with fields := p.fields ++ [(name, s.length)] }) fun _ f => rfl).modify s.length (g := fun g => { g with offset := f.offset, parent := some p })
          fun _ f => rfl
        split at hr
        · split at hr
          · cases hr
          · split at hr
            · exact ih _ s' (hb'.modify _ fun hc => by omega) hr
            · split at hr
              · cases hr
              · split at hr
                · cases hr
                · exact ih _ s' hb' hr
        · exact ih _ s' hb' hr
      · rename_i hne
        exact absurd hr (hne s')

/-! ## Nil init options -/

theorem fields_nil {rec' rec'' : List Frame → TypeId → AppendRes} {o : InitOptions} {p : Nat} (hrec : ∀ s t, rec' s t = rec'' s t ∨ rec' s t = .panic) :
    ∀ (fs : List FieldInfo) (s : List Frame), appendFields rec' none p fs s = appendFields rec'' (some o) p fs s ∨ appendFields rec' none p fs s = .panic := by
  intro fs
  induction fs with
  | nil => intro s; exact .inl rfl
  | cons f fs ih =>
    intro s
    simp only [appendFields]
    cases parseTag f.name f.tag with
    | none => exact ih s
    | some r =>
      obtain ⟨name, opt⟩ := r
      simp only []
      rcases hrec s f.type with h | h
      · rw [h]
        cases rec'' s f.type with
        | ok s1 =>
          simp only []
          cases opt with
          | false => exact ih _
          | true =>
            simp only [if_true]
            split
            · exact .inl rfl
            · split
              · exact ih _
              · exact .inr rfl
        | _ => exact .inl rfl
      · rw [h]; exact .inr rfl

theorem link_nil {p i : Nat} {r r' : AppendRes} (h : r = r' ∨ r = .panic) : linkParent p i r = linkParent p i r' ∨ linkParent p i r = .panic :=
  h.imp (congrArg _) fun h => by rw [h]; rfl

theorem append_nil {env : TypeEnv} {W : Nat} {o : InitOptions} : ∀ (fuel : Nat) (s : List Frame) (t : Option TypeId),
    appendType env W none fuel s t = appendType env W (some o) fuel s t ∨ appendType env W none fuel s t = .panic := by
  intro fuel
  induction fuel with
  | zero => intro s t; exact .inl rfl
  | succ n ih =>
    intro s t
    cases t with
    | none => exact .inl rfl
    | some t =>
    rw [appendType, appendType]
    simp only []
    split
    · exact .inl rfl
    split
    · exact .inl rfl
    cases hk : (env t).kind with
    | array =>
      simp only []
      split
      · exact .inl rfl
      · rcases ih (s ++ [{ type := .array, size := (env t).size, typ := some t }]) (some (env t).elem) with h | h
        · rw [h]; exact .inl rfl
        · rw [h]; exact .inr rfl
    | pointer =>
      simp only []
      split
      · exact .inl rfl
      · exact link_nil (ih _ _)
    | struct =>
      simp only []
      split
      · exact .inl rfl
      · exact fields_nil (fun s t => ih s (some t)) _ _
    | map =>
      simp only []
      split
      · exact link_nil (ih _ _)
      · split
        · exact .inl rfl
        · rcases link_nil (p := s.length) (i := s.length + 1) (ih (s ++ [{ type := .map, rtype := some t, size := (env t).size, mapValueSize := (env (env t).elem).size, mapValueTyp := some (env t).elem, faststr := canUseAssignFaststr env t, typ := some t }]) (some (env t).key)) with h | h
          · rw [h]
            split
            · exact link_nil (ih _ _)
            · exact .inl rfl
          · rw [h]; exact .inr rfl
    | slice =>
      simp only []
      cases he : (env (env t).elem).kind with
      | struct =>
        simp only []
        split
        · exact .inl rfl
        · split
          · exact .inl rfl
          · exact link_nil (ih _ _)
      | string =>
        simp only []
        split
        · exact link_nil (ih _ _)
        · exact .inl rfl
      | bool | int k | float k => exact .inl rfl
      | _ => exact link_nil (ih _ _)
    | _ => exact .inl rfl

end Verif.Proof.NilOpts

import Verif.Spec.Options
import Verif.Proof.StrictRun
import Verif.Proof.Outcome
import Verif.Proof.Append
import Verif.Proof.NewDecoder
/-!
# Runs of the machine under options that treat the keys of the document alike
-/
namespace Verif.Proof.Opts
open Verif.Model Verif.Spec Verif.Proof.StrictRun Verif.Proof.Append

mutual
theorem key_tokens : ∀ (v : JVal) (ti : Nat), ∀ t ∈ flatten ti v, t.type = .key → (t.index, t.end_) ∈ keyRanges v
  | .null i e, ti, t, ht, hk => by simp only [flatten, List.mem_singleton] at ht; subst ht; cases hk
  | .bool b i e, ti, t, ht, hk => by simp only [flatten, List.mem_singleton] at ht; subst ht; cases b <;> cases hk
  | .num b i e, ti, t, ht, hk => by simp only [flatten, List.mem_singleton] at ht; subst ht; cases b <;> cases hk
  | .str i e, ti, t, ht, hk => by simp only [flatten, List.mem_singleton] at ht; subst ht; cases hk
  | .arr i es k, ti, t, ht, hk => by
    simp only [flatten, List.mem_cons, List.mem_append, List.not_mem_nil, or_false] at ht
    rcases ht with rfl | ht | rfl
    · cases hk
    · exact key_tokensL es _ t ht hk
    · cases hk
  | .obj i ms k, ti, t, ht, hk => by
    simp only [flatten, List.mem_cons, List.mem_append, List.not_mem_nil, or_false] at ht
    rcases ht with rfl | ht | rfl
    · cases hk
    · exact key_tokensM ms _ t ht hk
    · cases hk
theorem key_tokensL : ∀ (vs : List JVal) (ti : Nat), ∀ t ∈ flattenL ti vs, t.type = .key → (t.index, t.end_) ∈ keyRangesL vs
  | [], ti, t, ht, hk => by simp [flattenL] at ht
  | v :: vs, ti, t, ht, hk => by
    simp only [flattenL, List.mem_append] at ht
    simp only [keyRangesL, List.mem_append]
    exact ht.imp (fun h => key_tokens v _ t h hk) fun h => key_tokensL vs _ t h hk
theorem key_tokensM : ∀ (ms : List ((Nat × Nat) × JVal)) (ti : Nat), ∀ t ∈ flattenM ti ms, t.type = .key → (t.index, t.end_) ∈ keyRangesM ms
  | [], ti, t, ht, hk => by simp [flattenM] at ht
  | ((i, e), v) :: ms, ti, t, ht, hk => by
    simp only [flattenM, List.mem_append, List.mem_cons] at ht
    simp only [keyRangesM, List.mem_append, List.mem_cons]
    rcases ht with rfl | ht | ht
    · exact .inl rfl
    · exact .inr (.inl (key_tokens v _ t ht hk))
    · exact .inr (.inr (key_tokensM ms _ t ht hk))
end

mutual
theorem key_wf {src : Bytes} : ∀ (v : JVal), Wf src v → ∀ k ∈ keyRanges v, WfStr src k.1 k.2
  | .null i e, _, k, hk => by simp [keyRanges] at hk
  | .bool b i e, _, k, hk => by simp [keyRanges] at hk
  | .num b i e, _, k, hk => by simp [keyRanges] at hk
  | .str i e, _, k, hk => by simp [keyRanges] at hk
  | .arr i es j, h, k, hk => key_wfL es h.2.2.2.2 k hk
  | .obj i ms j, h, k, hk => key_wfM ms h.2.2.2.2 k hk
theorem key_wfL {src : Bytes} : ∀ (vs : List JVal), WfL src vs → ∀ k ∈ keyRangesL vs, WfStr src k.1 k.2
  | [], _, k, hk => by simp [keyRangesL] at hk
  | v :: vs, h, k, hk => by
    simp only [keyRangesL, List.mem_append] at hk
    rcases hk with hk | hk
    · exact key_wf v h.1 k hk
    · exact key_wfL vs h.2 k hk
theorem key_wfM {src : Bytes} : ∀ (ms : List ((Nat × Nat) × JVal)), WfM src ms → ∀ k ∈ keyRangesM ms, WfStr src k.1 k.2
  | [], _, k, hk => by simp [keyRangesM] at hk
  | m :: ms, h, k, hk => by
    simp only [keyRangesM, List.mem_append, List.mem_cons] at hk
    rcases hk with hk | hk | hk
    · rw [hk]; exact h.1
    · exact key_wf m.2 h.2.1 k hk
    · exact key_wfM ms h.2.2 k hk
end

/-- The field selected by a key token, `none` for a panic. -/
def pick (x : Ext) (src : Bytes) (o : Options) (fs : List (Bytes × Nat)) (t : Token) : Option (Option Nat) :=
  ((slice src (t.index + 1) (t.end_ - 1)).bind (keyName o)).map (findField x o fs)

/-- The options treat all keys alike. -/
structure Alike (x : Ext) (src : Bytes) (o o' : Options) (fs : List (Bytes × Nat)) (ts : List Token) : Prop where
  unknown : o.disallowUnknownFields = o'.disallowUnknownFields
  pick : ∀ t ∈ ts, t.type = .key → pick x src o fs t = pick x src o' fs t

theorem scan_alike {x : Ext} {src : Bytes} {o o' : Options} {fs : List (Bytes × Nat)} : ∀ (ts : List Token), Alike x src o o' fs ts → ∀ (skip : Option Nat) (ti : Nat), (skip = none → ∀ t ∈ ts.head?, t.type = .key) →
    scanKeys x src o fs skip ts ti = scanKeys x src o' fs skip ts ti
  | [], _, skip, ti, h => by simp [scanKeys]
  | t :: ts, ha, skip, ti, h => by
    have next : ∀ l, scanKeys x src o fs (some l) ts (ti + 1) = scanKeys x src o' fs (some l) ts (ti + 1) := fun l =>
      scan_alike ts ⟨ha.unknown, fun t ht => ha.pick t (List.mem_cons_of_mem _ ht)⟩ (some l) (ti + 1) (fun h => by cases h)
    have atKey : t.type = .key → ∀ (R : ScanRes) (_ : R = match (slice src (t.index + 1) (t.end_ - 1)).bind (keyName o) with
        | none => .crash
        | some name => match findField x o fs name with
          | some fi => .found ti fi
          | none => if o.disallowUnknownFields then .unknown t.index else scanKeys x src o fs (some 0) ts (ti + 1)) (R' : ScanRes)
        (_ : R' = match (slice src (t.index + 1) (t.end_ - 1)).bind (keyName o') with
        | none => .crash
        | some name => match findField x o' fs name with
          | some fi => .found ti fi
          | none => if o'.disallowUnknownFields then .unknown t.index else scanKeys x src o' fs (some 0) ts (ti + 1)),
        R = R' := by
      intro hk R hR R' hR'
      have hp := ha.pick t List.mem_cons_self hk
      simp only [pick] at hp
      rw [next 0, ha.unknown] at hR
      cases h1 : (slice src (t.index + 1) (t.end_ - 1)).bind (keyName o) with
      | none =>
        cases h2 : (slice src (t.index + 1) (t.end_ - 1)).bind (keyName o') with
        | none => rw [h1] at hR; rw [h2] at hR'; exact hR.trans hR'.symm
        | some b => rw [h1, h2] at hp; cases hp
      | some a =>
        cases h2 : (slice src (t.index + 1) (t.end_ - 1)).bind (keyName o') with
        | none => rw [h1, h2] at hp; cases hp
        | some b =>
          rw [h1, h2] at hp
          rw [h1] at hR; rw [h2] at hR'
          simp only [Option.map_some, Option.some.injEq] at hp
          simp only [hp] at hR
          exact hR.trans hR'.symm
    cases skip with
    | none => exact atKey (h rfl t (by simp)) _ (by simp only [scanKeys]; rfl) _ (by simp only [scanKeys]; rfl)
    | some l =>
      cases ht : t.type with
      | key =>
        by_cases hl : l < 1
        · exact atKey ht _ (by simp only [scanKeys, ht, hl, if_true]; rfl) _ (by simp only [scanKeys, ht, hl, if_true]; rfl)
        · simp only [scanKeys, ht, hl, if_false]; exact next l
      | objectEnd =>
        by_cases hl : l ≤ 1
        · simp only [scanKeys, ht, hl, if_true]
        · simp only [scanKeys, ht, hl, if_false]; exact next _
      | _ => simp only [scanKeys, ht]; exact next _

theorem key_alike {pr : Prog} {o o' : Options} {s : St} {f : Frame} {t : Token} (ht : pr.toks[s.ti]? = some t) (hk : t.type = .key) (ha : Alike pr.x pr.src o o' f.fields pr.toks) :
    onKey (withO pr o) s f t = onKey (withO pr o') s f t := by
  have h := scan_alike (x := pr.x) (src := pr.src) (o := o) (o' := o') (fs := f.fields) (pr.toks.drop s.ti) ⟨ha.unknown, fun t ht => ha.pick t (List.mem_of_mem_drop ht)⟩ none s.ti (fun _ t' ht' => by
    rw [List.head?_drop, ht] at ht'; cases ht'; exact hk)
  cases hf : f.type with
  | struct | structRecur => simp only [onKey, hf, withO]; rw [h]
  | _ => simp only [onKey, hf, withO]; try rfl

theorem step_alike {pr : Prog} {o o' : Options} {s : St} (ha : ∀ f ∈ pr.frames, Alike pr.x pr.src o o' f.fields pr.toks) : step (withO pr o) s = step (withO pr o') s := by
  cases hpc : s.pc with
  | loop =>
    simp only [step, hpc, withO]
    cases ht : pr.toks[s.ti]? with
    | none => rfl
    | some t =>
      cases hf : pr.frames[s.si]? with
      | none => rfl
      | some f =>
        cases htt : t.type with
        | key =>
          simp only [dispatch, htt]
          exact key_alike (pr := pr) (o := o) (o' := o') (f := f) ht htt (ha f (List.mem_of_getElem? hf))
        | _ => simp only [dispatch, htt]; rfl
  | _ => simp only [step, hpc, withO]; rfl

theorem run_alike {pr : Prog} {o o' : Options} (ha : ∀ f ∈ pr.frames, Alike pr.x pr.src o o' f.fields pr.toks) : ∀ (n : Nat) (s : St), run (withO pr o) n s = run (withO pr o') n s
  | 0, s => rfl
  | n + 1, s => by
    simp only [run, step_alike ha]
    cases hs : step (withO pr o') s with
    | run s' => exact run_alike ha n s'
    | _ => rfl

theorem decode_alike {x : Ext} {d : Decoder} {src : Bytes} {v : JVal} {t : Option Block} {o o' : Options} (ha : ∀ f ∈ d.frames, Alike x src o o' f.fields (flatten 0 v)) :
    decode x d src (.ok v) t (some o) = decode x d src (.ok v) t (some o') := by
  unfold decode
  cases t with
  | none => rfl
  | some mem =>
    cases hf : d.frames with
    | nil => rfl
    | cons f0 fs =>
      rw [hf] at ha
      have h := run_alike (pr := { x := x, src := src, toks := flatten 0 v, frames := f0 :: fs, options := none, epoch := d.calls }) (o := o) (o' := o') ha
        (fuelFor { x := x, src := src, toks := flatten 0 v, frames := f0 :: fs, options := none, epoch := d.calls }) (initSt d.dyn mem)
      simp only [withO, fuelFor] at h
      simp only [fuelFor, h]

/-! ## Names of the fields of all frames -/

/-- All names in the field tables satisfy `P`. -/
def AllNames (P : Bytes → Prop) (s : List Frame) : Prop := ∀ f ∈ s, ∀ e ∈ f.fields, P e.1

theorem AllNames.push {P : Bytes → Prop} {s : List Frame} (h : AllNames P s) {f : Frame} (hf : f.fields = []) : AllNames P (s ++ [f]) := by
  intro g hg
  rcases List.mem_append.1 hg with hg | hg
  · exact h g hg
  · rw [List.mem_singleton.1 hg, hf]; intro e he; cases he

theorem AllNames.modify {P : Bytes → Prop} {s : List Frame} (h : AllNames P s) (i : Nat) {g : Frame → Frame} (hg : ∀ f ∈ s, ∀ e ∈ (g f).fields, P e.1) : AllNames P (s.modify i g) := by
  intro f hf
  obtain ⟨j, hj⟩ := List.mem_iff_getElem?.1 hf
  rw [List.getElem?_modify] at hj
  cases hs : s[j]? with
  | none => rw [hs] at hj; simp at hj
  | some f' =>
    rw [hs] at hj
    have hm := List.mem_of_getElem? hs
    by_cases hij : i = j
    · simp [hij] at hj; rw [← hj]; exact hg f' hm
    · simp [hij] at hj; rw [← hj]; exact h f' hm

theorem AllNames.keep {P : Bytes → Prop} {s : List Frame} (h : AllNames P s) (i : Nat) {g : Frame → Frame} (hg : ∀ f, (g f).fields = f.fields) : AllNames P (s.modify i g) :=
  h.modify i fun f hf => by rw [hg]; exact h f hf

theorem AllNames.mark {P : Bytes → Prop} {s : List Frame} (h : AllNames P s) (i : Nat) : AllNames P (markRecur s i) := h.keep i fun _ => rfl

theorem link_names {P : Bytes → Prop} {p i : Nat} {r : AppendRes} {s' : List Frame} (h : linkParent p i r = .ok s') (hr : ∀ s1, r = .ok s1 → AllNames P s1) : AllNames P s' := by
  cases r with
  | ok s1 =>
    simp only [linkParent, AppendRes.ok.injEq] at h
    subst h
    exact (hr s1 rfl).keep _ fun _ => rfl
  | err e => cases h
  | panic => cases h
  | fuel => cases h

theorem fields_names {P : Bytes → Prop} {rec' : List Frame → TypeId → AppendRes} {opts : Option InitOptions} {p : Nat} :
    ∀ (fs : List FieldInfo) (s s' : List Frame), (∀ f ∈ fs, ∀ n q, parseTag f.name f.tag = some (n, q) → P n) →
      (∀ f ∈ fs, ∀ r, parseTag f.name f.tag = some r → ∀ s s', AllNames P s → rec' s f.type = .ok s' → AllNames P s') →
      AllNames P s → appendFields rec' opts p fs s = .ok s' → AllNames P s' := by
  intro fs
  induction fs with
  | nil => intro s s' _ _ h hr; cases hr; exact h
  | cons f fs ih =>
    intro s s' hn hrec h hr
    have ih := fun s s' => ih s s' (fun g hg => hn g (List.mem_cons_of_mem _ hg)) (fun g hg => hrec g (List.mem_cons_of_mem _ hg))
    simp only [appendFields] at hr
    split at hr
    · exact ih s s' h hr
    · rename_i name opt hpt
      split at hr
      · rename_i s1 hs1
        have e1 := hrec f List.mem_cons_self _ hpt _ _ h hs1
        have e2 : AllNames P ((s1.modify p fun p => { p with fields := p.fields ++ [(name, s.length)] }).modify s.length fun g => { g with offset := f.offset, parent := some p }) := by
          refine AllNames.keep (e1.modify p fun g hg e he => ?_) _ fun _ => rfl
          simp only [List.mem_append, List.mem_singleton] at he
          rcases he with he | he
          · exact e1 g hg e he
          · rw [he]; exact hn f List.mem_cons_self _ _ hpt
        split at hr
        · split at hr
          · cases hr
          · split at hr
            · rename_i t' _
              exact ih _ s' (e2.keep s.length (g := fun g => { g with type := t' }) fun _ => rfl) hr
            · split at hr
              · cases hr
              · split at hr
                · cases hr
                · exact ih _ s' e2 hr
        · exact ih _ s' e2 hr
      · rename_i hne
        exact absurd hr (hne s')

theorem reach_child {env : TypeEnv} {t c : TypeId} (h : Child env t c) : ∀ {c'}, Spec.Reach env c c' → Spec.Reach env t c' := by
  intro c' hr
  induction hr with
  | self => exact .step .self h
  | step _ hc ih => exact .step ih hc

theorem append_names (env : TypeEnv) (W : Nat) (opts : Option InitOptions) {P : Bytes → Prop} : ∀ (fuel : Nat) (s : List Frame) (t : Option TypeId) (s' : List Frame),
    (∀ t', t = some t' → ∀ n, FieldName env t' n → P n) → AllNames P s → appendType env W opts fuel s t = .ok s' → AllNames P s' := by
  intro fuel
  induction fuel with
  | zero => intro s t s' _ _ h; cases h
  | succ n ih =>
    intro s t s' hP hs h
    cases t with
    | none => simp only [appendType, AppendRes.ok.injEq] at h; subst h; exact hs.push rfl
    | some t =>
    have hP := hP t rfl
    have child : ∀ c, Child env t c → ∀ a a', AllNames P a → appendType env W opts n a (some c) = .ok a' → AllNames P a' := by
      intro c hc a a' ha h
      refine ih _ _ _ ?_ ha h
      rintro _ ⟨⟩ m ⟨c', f, q, h1, h2⟩
      exact hP m ⟨c', f, q, reach_child hc h1, h2⟩
    rw [appendType] at h
    simp only [] at h
    by_cases hJ : (env t).implJSON
    · simp only [hJ, if_true, AppendRes.ok.injEq] at h; subst h; exact hs.push rfl
    by_cases hT : (env t).implText
    · simp only [hJ, hT, if_true, if_false, Bool.false_eq_true, AppendRes.ok.injEq] at h; subst h; exact hs.push rfl
    have hu : TypeInfo.unmarshaler (env t) = false := by simp [TypeInfo.unmarshaler, hJ, hT]
    simp only [hJ, hT, if_false, Bool.false_eq_true] at h
    cases hk : (env t).kind with
    | bool => simp only [hk, AppendRes.ok.injEq] at h; subst h; exact hs.push rfl
    | int k => simp only [hk, AppendRes.ok.injEq] at h; subst h; exact hs.push rfl
    | float k => simp only [hk, AppendRes.ok.injEq] at h; subst h; exact hs.push rfl
    | other => simp only [hk] at h; cases h
    | string =>
      simp only [hk] at h
      split at h <;> cases h <;> exact hs.push rfl
    | interface =>
      simp only [hk] at h
      split at h <;> cases h; exact hs.push rfl
    | array =>
      simp only [hk] at h
      split at h
      · cases h; exact hs.push rfl
      · rename_i hlen
        split at h
        · rename_i s1 hs1
          cases h
          exact (child _ (.array hu hk hlen) _ _ (hs.push rfl) hs1).keep _ fun _ => rfl
        · rename_i hne
          exact absurd h (hne s')
    | pointer =>
      simp only [hk] at h
      split at h
      · cases h; exact (hs.mark _).push rfl
      · exact link_names h (fun s1 hs1 => child _ (.pointer hu hk) _ _ (hs.push rfl) hs1)
    | struct =>
      simp only [hk] at h
      split at h
      · cases h; exact hs.push rfl
      · refine fields_names _ _ _ (fun f hf m q hq => hP m ⟨t, f, q, .self, hu, hk, hf, TypeGraph.tag_iff.2 hq⟩) (fun f hf r hr a a' ha h => ?_) (hs.push rfl) h
        exact child _ (.field hu hk hf (TypeGraph.tag_iff.2 hr)) _ _ ha h
    | map =>
      have hkey : ∀ {j}, (if (env (env t).elem).kind = .struct ∧ 0 < (env (env t).elem).size then findRType (env t).elem s else none) = some j → ¬ ((env (env t).key).kind = .string ∧ (env (env t).elem).kind = .string) := by
        intro j hj hc
        rw [hc.2] at hj; simp at hj
      simp only [hk] at h
      split at h
      · rename_i j hj
        exact link_names h (fun s1 hs1 => child _ (.key hu hk (hkey hj)) _ _ ((hs.mark _).push rfl) hs1)
      · split at h
        · cases h; exact hs.push rfl
        · rename_i hss
          split at h
          · rename_i s1 hs1
            have e1 := link_names hs1 (fun s1 hs1 => child _ (.key hu hk hss) _ _ (hs.push rfl) hs1)
            exact link_names h (fun s2 hs2 => child _ (.value hu hk hss) _ _ e1 hs2)
          · rename_i hne
            exact absurd h (hne s')
    | slice =>
      have pl : ∀ f s1, f.fields = [] → sliceLeaf (env (env t).elem) = false → linkParent s.length (s.length + 1) (appendType env W opts n (s ++ [f]) (some (env t).elem)) = .ok s1 → AllNames P s1 :=
        fun f s1 hf hl hs1 => link_names hs1 (fun s1 hs1 => child _ (.slice hu hk hl) _ _ (hs.push hf) hs1)
      simp only [hk] at h
      cases he : (env (env t).elem).kind with
      | struct =>
        simp only [he] at h
        split at h
        · cases h; exact hs.push rfl
        · rename_i hsz
          split at h
          · cases h; exact (hs.mark _).push rfl
          · exact pl _ _ rfl (by simp [sliceLeaf, he]; omega) h
      | string =>
        simp only [he] at h
        split at h
        · rename_i hnum
          exact pl _ _ rfl (by simp [sliceLeaf, he, hnum]) h
        · cases h; exact hs.push rfl
      | bool => simp only [he] at h; cases h; exact hs.push rfl
      | int k => simp only [he] at h; cases h; exact hs.push rfl
      | float k => simp only [he] at h; cases h; exact hs.push rfl
      | interface => simp only [he] at h; exact pl _ _ rfl (by simp [sliceLeaf, he]) h
      | array => simp only [he] at h; exact pl _ _ rfl (by simp [sliceLeaf, he]) h
      | slice => simp only [he] at h; exact pl _ _ rfl (by simp [sliceLeaf, he]) h
      | map => simp only [he] at h; exact pl _ _ rfl (by simp [sliceLeaf, he]) h
      | pointer => simp only [he] at h; exact pl _ _ rfl (by simp [sliceLeaf, he]) h
      | other => simp only [he] at h; exact pl _ _ rfl (by simp [sliceLeaf, he]) h

end Verif.Proof.Opts

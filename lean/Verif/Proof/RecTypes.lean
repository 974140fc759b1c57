import Verif.Spec.Recursive
import Verif.Proof.Types
/-!
# The frame table built by `appendTypeToStack` for a recursive struct type
-/
namespace Verif.Proof.Types
open Verif.Model Verif.Big Verif.Spec Verif.Proof.Sim

/-- What the recursive call for the type of a field delivers: `pre` are the frames before the struct, `sf` is the frame of the struct, `acc` are the frames of the fields before. -/
structure FBuilt (x : Ext) (size : Nat) (pre : List Frame) (sf : Frame) (acc : List Frame) (res : AppendRes) (rf : RField) (fsize : Nat) (seen' : List TypeId) (root : Frame) (tl : List Frame) : Prop where
  app : res = .ok (pre ++ { sf with type := if RField.recursive rf then .structRecur else sf.type } :: (acc ++ root :: tl))
  len : 1 + tl.length = rf.width
  rep : ∀ fr r, Variant r root → fr[pre.length + 1 + acc.length]? = some r → At fr (pre.length + 1 + acc.length + 1) tl → rf.Rep x fr pre.length size (pre.length + 1 + acc.length)
  seen : SeenOK (pre ++ sf :: (acc ++ root :: tl)) seen'
  ok : ∀ e, OK x e → OK x (rf.ty e)
  size : ∀ e, (rf.ty e).size x = fsize
  quoted : ∀ k, rf = .plain (.scalar k) → root.type = .scalar k ∧
    ∀ fr b r, Variant r root → fr[b]? = some { r with type := .quoted k } → Rep x fr (.quoted k) b
  unquoted : (∀ k, rf ≠ .plain (.scalar k)) → retagString root.type = none

theorem findRType_at {t₀ : TypeId} {sf : Frame} {acc : List Frame} : ∀ {pre : List Frame}, (∀ f ∈ pre, f.rtype ≠ some t₀) → sf.rtype = some t₀ →
    findRType t₀ (pre ++ sf :: acc) = some pre.length
  | [], _, hsf => by simp [findRType, hsf]
  | f :: pre, h, hsf => by
    simp only [List.cons_append, findRType]
    rw [if_neg (h f (by simp)), findRType_at (pre := pre) (fun g hg => h g (by simp [hg])) hsf]
    rfl

theorem recField_built {env : TypeEnv} {x : Ext} (hL : Layout env x) {allow : Bool} {opts : Option InitOptions}
    (hopt : allow = true → ∃ o, opts = some o ∧ o.disallowStringTagOptOnUnsupportedTypes = false) {depth : Nat} {t₀ : TypeId} {seen seen' : List TypeId} {t : TypeId} {rf : RField}
    (h : recField env allow depth t₀ seen t = some (rf, seen')) (h0 : (env t₀).kind = .struct) (h1 : 0 < (env t₀).size) {pre : List Frame} {sf : Frame} {acc : List Frame}
    (hpre : ∀ f ∈ pre, f.rtype ≠ some t₀) (hsf : sf.rtype = some t₀) (hs : SeenOK (pre ++ sf :: acc) seen) :
    ∃ root tl, FBuilt x (env t₀).size pre sf acc (appendType env x.W opts depth (pre ++ sf :: acc) (some t)) rf (env t).size seen' root tl := by
  have hplain : ∀ {ty : Ty}, typeTree env allow depth seen t = some (ty, seen') → rf = .plain ty →
      ∃ root tl, FBuilt x (env t₀).size pre sf acc (appendType env x.W opts depth (pre ++ sf :: acc) (some t)) rf (env t).size seen' root tl := by
    intro ty ht hrf
    subst hrf
    obtain ⟨root, tl, hb⟩ := tree_built hL hopt depth seen t ty seen' (pre ++ sf :: acc) ht hs
    have hlen : (pre ++ sf :: acc).length = pre.length + 1 + acc.length := by simp; omega
    refine ⟨root, tl, ?_, hb.len, ?_, by simpa using hb.seen, fun _ _ => hb.ok, fun _ => hb.size, ?_, ?_⟩
    · rw [hb.app]; simp [RField.recursive]
    · intro fr r hv hf hat
      have := hb.rep fr r hv (by rw [hlen]; exact hf) (by rw [hlen]; exact hat)
      rw [hlen] at this; exact this
    · intro k hk
      cases hk
      refine ⟨hb.type, fun fr b r hv hf => built_quoted hb hv hf⟩
    · intro hk
      rw [hb.type]
      cases ty <;> first | rfl | exact absurd rfl (hk _)
  have hfind : findRType t₀ (pre ++ sf :: acc) = some pre.length := findRType_at hpre hsf
  have hmark : markRecur (pre ++ sf :: acc) pre.length = pre ++ { sf with type := .structRecur } :: acc := modify_at pre acc sf _ rfl _
  have hlen : (pre ++ sf :: acc).length = pre.length + 1 + acc.length := by simp; omega
  simp only [recField] at h
  split at h
  · cases h
  rename_i hdep
  obtain ⟨d, rfl⟩ : ∃ d, depth = d + 1 + 1 := ⟨depth - 2, by omega⟩
  have hpl : ((typeTree env allow (d + 1 + 1) seen t).map fun r => (RField.plain r.1, r.2)) = some (rf, seen') →
      ∃ root tl, FBuilt x (env t₀).size pre sf acc (appendType env x.W opts (d + 1 + 1) (pre ++ sf :: acc) (some t)) rf (env t).size seen' root tl := by
    intro h
    cases ht : typeTree env allow (d + 1 + 1) seen t with
    | none => rw [ht] at h; cases h
    | some r =>
      rw [ht] at h
      cases h
      exact hplain ht rfl
  split at h
  · rename_i hc
    obtain ⟨hj, htx, he⟩ := hc
    have hLt := hL t
    cases hk : (env t).kind <;> rw [hk] at h hLt <;> simp only [] at h hLt <;> first | exact hpl h | skip
    case slice =>
      cases h
      refine ⟨{ type := .sliceRecur, size := (env t).size, recurFrame := pre.length, typ := some t }, [], ?_, rfl, ?_, ?_, fun _ h => h, fun _ => hLt.symm, (fun _ hc => by cases hc), fun _ => rfl⟩
      · rw [appendType]
        simp only [hj, htx, hk, he, h0, hfind, hmark, if_neg (show ¬ (env t₀).size < 1 by omega)]
        simp [RField.recursive]
      · intro fr r hv hf _
        exact variant_get hv hf fun c o p => ⟨rfl, rfl⟩
      · have := SeenOK.push (stack := pre ++ sf :: acc) hs (f := { type := .sliceRecur, size := (env t).size, recurFrame := pre.length, typ := some t }) rfl
        simpa using this
    case pointer =>
      cases h
      refine ⟨{ type := .ptrRecur, size := (env t).size, recurFrame := pre.length, typ := some t }, [], ?_, rfl, ?_, ?_, fun _ h => h, fun _ => hLt.symm, (fun _ hc => by cases hc), fun _ => rfl⟩
      · rw [appendType]
        simp only [hj, htx, hk, he, h0, h1, and_self, if_true, hfind, hmark]
        simp [RField.recursive]
      · intro fr r hv hf _
        exact variant_get hv hf fun c o p => ⟨rfl, rfl⟩
      · have := SeenOK.push (stack := pre ++ sf :: acc) hs (f := { type := .ptrRecur, size := (env t).size, recurFrame := pre.length, typ := some t }) rfl
        simpa using this
    case map =>
      cases hkt : keyTree env (env t).key with
      | none => rw [hkt] at h; cases h
      | some ks =>
        obtain ⟨k, s⟩ := ks
        rw [hkt] at h
        cases h
        have hs1 : SeenOK (pre ++ { sf with type := .structRecur } :: acc ++ [({ type := .mapRecur, size := (env t).size, mapValueSize := (env t₀).size, mapValueTyp := some t₀, faststr := canUseAssignFaststr env t, recurFrame := pre.length, typ := some t } : Frame)]) seen :=
          SeenOK.congr (SeenOK.push (stack := pre ++ sf :: acc) hs (f := { type := .mapRecur, size := (env t).size, mapValueSize := (env t₀).size, mapValueTyp := some t₀, faststr := canUseAssignFaststr env t, recurFrame := pre.length, typ := some t }) rfl) (by simp)
        obtain ⟨kroot, hka, hkr, hks⟩ := key_built (x := x) (opts := opts) (d := d) hkt hs1
        refine ⟨{ type := .mapRecur, size := (env t).size, mapValueSize := (env t₀).size, mapValueTyp := some t₀, faststr := canUseAssignFaststr env t, recurFrame := pre.length, typ := some t }, [{ kroot with parent := some (pre.length + 1 + acc.length) }], ?_, rfl, ?_, ?_,
          fun _ h => h, fun _ => hLt.symm, (fun _ hc => by cases hc), fun _ => rfl⟩
        · rw [appendType]
          simp only [hj, htx, hk, he, h0, h1, and_self, if_true, hfind, hmark]
          simp only [Bool.false_eq_true, if_false, List.cons_append, hka, linkParent, RField.recursive, if_true]
          have := modify_at (pre ++ { sf with type := .structRecur } :: acc ++ [({ type := .mapRecur, size := (env t).size, mapValueSize := (env t₀).size, mapValueTyp := some t₀, faststr := canUseAssignFaststr env t, recurFrame := pre.length, typ := some t } : Frame)]) [] kroot
            ((pre ++ sf :: acc).length + 1) (by simp; omega) (fun f => { f with parent := some (pre ++ sf :: acc).length })
          rw [this]
          simp
          omega
        · intro fr r hv hf hat
          obtain ⟨a1, -⟩ := hat.cons
          exact ⟨variant_get hv hf fun c o p => ⟨rfl, rfl, rfl, fun h => by have := canUse_le h; rw [he] at this; exact this⟩, ⟨_, a1, rfl, hkr _ ⟨kroot.cap, kroot.offset, _, rfl⟩⟩⟩
        · refine hks.congr ?_
          simp
  · exact hpl h

theorem recFields_built {env : TypeEnv} {x : Ext} (hL : Layout env x) {allow : Bool} {opts : Option InitOptions}
    (hopt : allow = true → ∃ o, opts = some o ∧ o.disallowStringTagOptOnUnsupportedTypes = false) {depth : Nat} {t₀ : TypeId}
    (h0 : (env t₀).kind = .struct) (h1 : 0 < (env t₀).size) {size : Nat} :
    ∀ (fs : List FieldInfo) (seen : List TypeId) (fts : RFields) (seen' : List TypeId) (pre : List Frame) (sf : Frame) (acc : List Frame),
      recFields env allow depth t₀ seen fs = some (fts, seen') → (∀ f ∈ pre, f.rtype ≠ some t₀) → sf.rtype = some t₀ → SeenOK (pre ++ sf :: acc) seen → Layout.FieldsIn env size fs →
      ∃ tbl new, appendFields (fun s t => appendType env x.W opts depth s (some t)) opts pre.length fs (pre ++ sf :: acc) =
          .ok (pre ++ { sf with fields := sf.fields ++ tbl, type := if fts.any (fun f => RField.recursive f.2.2) then .structRecur else sf.type } :: (acc ++ new)) ∧
        new.length = widthR fts ∧
        (∀ fr, At fr (pre.length + 1 + acc.length) new → RepR x fr pre.length (env t₀).size fts (pre.length + 1 + acc.length) tbl) ∧
        SeenOK (pre ++ { sf with fields := sf.fields ++ tbl, type := if fts.any (fun f => RField.recursive f.2.2) then .structRecur else sf.type } :: (acc ++ new)) seen' ∧
        (∀ e, OK x e → OKF x size (tyF e fts)) ∧
        (∀ g ∈ fts, ∃ f ∈ fs, g.2.1 = f.offset ∧ ∀ e, (g.2.2.ty e).size x = (env f.type).size) := by
  intro fs
  induction fs with
  | nil =>
    intro seen fts seen' pre sf acc h hpre hsf hs _
    simp only [recFields, Option.some.injEq, Prod.mk.injEq] at h
    obtain ⟨rfl, rfl⟩ := h
    exact ⟨[], [], by simp [appendFields], rfl, fun _ _ => by simp [RepR], by simpa using hs, fun _ _ => trivial, by simp⟩
  | cons f fs ih =>
    intro seen fts seen' pre sf acc h hpre hsf hs hLf
    obtain ⟨hL1, hL2, hL3⟩ := hLf
    simp only [recFields] at h
    cases hpt : parseTag f.name f.tag with
    | none =>
      rw [hpt] at h
      obtain ⟨tbl, new, h1, h2, h3, h3', h4, h5⟩ := ih seen fts seen' pre sf acc h hpre hsf hs hL3
      refine ⟨tbl, new, by simp only [appendFields, hpt]; exact h1, h2, h3, h3', h4, fun g hg => ?_⟩
      obtain ⟨f', hf', h⟩ := h5 g hg
      exact ⟨f', by simp [hf'], h⟩
    | some no =>
      obtain ⟨name, opt⟩ := no
      rw [hpt] at h
      simp only [] at h
      cases htr : recField env allow depth t₀ seen f.type with
      | none => rw [htr] at h; cases h
      | some r =>
        obtain ⟨rf, seen1⟩ := r
        rw [htr] at h
        simp only [] at h
        obtain ⟨root, tl, hb⟩ := recField_built hL hopt htr h0 h1 hpre hsf hs
        obtain ⟨rf', root', hty', hw', hsz', hok', hrc', hrt', happ, hrep'⟩ : ∃ rf' root', withStringR allow opt rf = some rf' ∧
            rf'.width = rf.width ∧ (∀ e, (rf'.ty e).size x = (rf.ty e).size x) ∧ (∀ e, OK x e → OK x (rf'.ty e)) ∧ RField.recursive rf' = RField.recursive rf ∧ root'.rtype = root.rtype ∧
            appendFields (fun s t => appendType env x.W opts depth s (some t)) opts pre.length (f :: fs) (pre ++ sf :: acc) =
              appendFields (fun s t => appendType env x.W opts depth s (some t)) opts pre.length fs
                (pre ++ { sf with fields := sf.fields ++ [(name, pre.length + 1 + acc.length)], type := if RField.recursive rf then .structRecur else sf.type } :: (acc ++ root' :: tl)) ∧
            ∀ fr, At fr (pre.length + 1 + acc.length) (root' :: tl) →
              Linked fr pre.length (pre.length + 1 + acc.length) (fun c => c.offset = f.offset) ∧ rf'.Rep x fr pre.length (env t₀).size (pre.length + 1 + acc.length) := by
          have hlen : (pre ++ sf :: acc).length = pre.length + 1 + acc.length := by simp; omega
          have hm2 : ∀ (q : Frame) (r : Frame) (g : Frame → Frame), (pre ++ q :: (acc ++ r :: tl)).modify (pre.length + 1 + acc.length) g = pre ++ q :: (acc ++ g r :: tl) := by
            intro q r g
            have := modify_at (pre ++ q :: acc) tl r (pre.length + 1 + acc.length) (by simp; omega) g
            simpa using this
          have hm1 : ∀ (q : Frame) (l : List Frame) (g : Frame → Frame), (pre ++ q :: l).modify pre.length g = pre ++ g q :: l := fun q l g => modify_at pre l q _ rfl g
          have hg2 : ∀ (q : Frame) (r : Frame), (pre ++ q :: (acc ++ r :: tl))[pre.length + 1 + acc.length]? = some r := by
            intro q r
            have := get_at (pre ++ q :: acc) tl r
            rw [← this]; simp only [List.append_assoc, List.cons_append]; congr 1; simp; omega
          have hplain : ∀ fr, At fr (pre.length + 1 + acc.length) ({ root with offset := f.offset, parent := some pre.length } :: tl) →
              Linked fr pre.length (pre.length + 1 + acc.length) (fun c => c.offset = f.offset) ∧ rf.Rep x fr pre.length (env t₀).size (pre.length + 1 + acc.length) := by
            intro fr hat
            obtain ⟨k1, k2⟩ := hat.cons
            exact ⟨⟨_, k1, rfl, rfl⟩, hb.rep fr _ ⟨_, _, _, rfl⟩ k1 k2⟩
          cases opt with
          | false =>
            refine ⟨rf, { root with offset := f.offset, parent := some pre.length }, ?_, rfl, fun _ => rfl, hb.ok, rfl, rfl, ?_, hplain⟩
            · cases rf <;> rfl
            · simp only [appendFields, hpt, hb.app, hlen, hm1, hm2]
              simp
          | true =>
            by_cases hk : ∃ k, rf = .plain (.scalar k)
            · obtain ⟨k, rfl⟩ := hk
              obtain ⟨ht, hq⟩ := hb.quoted k rfl
              refine ⟨.plain (.quoted k), { root with offset := f.offset, parent := some pre.length, type := .quoted k }, rfl, rfl, fun _ => rfl, fun _ _ => trivial, rfl, rfl, ?_, ?_⟩
              · simp only [appendFields, hpt, hb.app, hlen, hm1, hm2, hg2, ht, retagString]
                simp
              · intro fr hat
                obtain ⟨k1, k2⟩ := hat.cons
                exact ⟨⟨_, k1, rfl, rfl⟩, hq _ _ { root with offset := f.offset, parent := some pre.length } ⟨_, _, _, rfl⟩ k1⟩
            · have hrt := hb.unquoted (fun k hc => hk ⟨k, hc⟩)
              have hns : withStringR allow true rf = if allow then some rf else none := by
                cases rf with
                | plain ty =>
                  cases ty <;> first | exact absurd ⟨_, rfl⟩ hk | (cases allow <;> rfl)
                | _ => cases allow <;> rfl
              rw [hns] at h
              rw [hns]
              cases hal : allow with
              | false => rw [hal] at h; cases h
              | true =>
                obtain ⟨o, ho, hod⟩ := hopt hal
                subst ho
                refine ⟨rf, { root with offset := f.offset, parent := some pre.length }, rfl, rfl, fun _ => rfl, hb.ok, rfl, rfl, ?_, hplain⟩
                simp only [appendFields, hpt, hb.app, hlen, hm1, hm2, hg2, hrt, hod]
                simp
        rw [hty'] at h
        simp only [] at h
        cases hft : recFields env allow depth t₀ seen1 fs with
        | none => rw [hft] at h; cases h
        | some r =>
          obtain ⟨fts1, seen2⟩ := r
          rw [hft] at h
          simp only [Option.map_some, Option.some.injEq, Prod.mk.injEq] at h
          obtain ⟨rfl, rfl⟩ := h
          have hs' : SeenOK (pre ++ { sf with fields := sf.fields ++ [(name, pre.length + 1 + acc.length)], type := if RField.recursive rf then .structRecur else sf.type } :: (acc ++ root' :: tl)) seen1 :=
            hb.seen.congr (by simp [hrt'])
          obtain ⟨tbl, new, k1, k2, k3, k3', k4, k5⟩ := ih seen1 fts1 seen2 pre
            { sf with fields := sf.fields ++ [(name, pre.length + 1 + acc.length)], type := if RField.recursive rf then .structRecur else sf.type } (acc ++ root' :: tl) hft hpre hsf hs' hL3
          have hlt : (root' :: tl).length = rf.width := by have := hb.len; simp only [List.length_cons]; omega
          refine ⟨(name, pre.length + 1 + acc.length) :: tbl, root' :: tl ++ new, ?_, ?_, ?_, ?_, ?_, ?_⟩
          · rw [happ, k1]
            simp only [List.append_assoc, List.cons_append, List.nil_append, List.any_cons, hrc']
            cases RField.recursive rf <;> cases fts1.any (fun f => RField.recursive f.2.2) <;> simp
          · rw [List.length_append, hlt, k2]; simp [widthR, hw']
          · intro fr hat
            obtain ⟨a1, a2⟩ := hat.append
            obtain ⟨a3, a4⟩ := hrep' fr a1
            refine ⟨tbl, rfl, a3, a4, ?_⟩
            have := k3 fr (by rw [List.length_append, ← Nat.add_assoc]; exact a2)
            rw [List.length_append, hlt, ← Nat.add_assoc] at this
            rw [hw']; exact this
          · refine k3'.congr ?_
            simp
          · intro e he
            refine ⟨by rw [hsz', hb.size]; exact hL1, hok' e he, ?_, k4 e he⟩
            intro g hg
            simp only [tyF, List.mem_map] at hg
            obtain ⟨g', hg', rfl⟩ := hg
            obtain ⟨f', hf', g1, g2⟩ := k5 g' hg'
            rw [hsz', hb.size, g1, g2]
            exact hL2 f' hf'
          · intro g hg
            simp only [List.mem_cons] at hg
            rcases hg with rfl | hg
            · exact ⟨f, by simp, rfl, fun e => by rw [hsz', hb.size]⟩
            · obtain ⟨f', hf', h⟩ := k5 g hg
              exact ⟨f', by simp [hf'], h⟩

/-- The frames of a recursive struct type. -/
theorem rec_built {env : TypeEnv} {x : Ext} {opts : Option InitOptions} {depth : Nat} {t : TypeId} {size : Nat} {fs : RFields} (h : RecType env x opts depth t size fs) :
    ∃ f fr, appendType env x.W opts (depth + 1) [] (some t) = .ok (f :: fr) ∧ f.parent = none ∧ f.offset = 0 ∧ f.type = .structRecur ∧ f.size = size ∧
      RepR x (f :: fr) 0 size fs 1 f.fields ∧ (∀ e, OK x e → OKF x size (tyF e fs)) := by
  obtain ⟨hL, h1, h2, h3, h4, h5, ⟨allow, seen, hopt, h6⟩, h7⟩ := h
  subst h4
  have hLt := hL t
  rw [h3] at hLt
  have hne : (env t).fields ≠ [] := fun hc => by rw [hc] at h6; cases h6; cases h7
  obtain ⟨tbl, new, k1, k2, k3, -, k4, -⟩ := recFields_built hL hopt h3 h5 (env t).fields [t] fs seen [] { type := .struct, rtype := some t, size := (env t).size, typ := some t } [] h6 (by simp) rfl
    (by intro g hg r hr; simp only [List.nil_append, List.mem_singleton] at hg; subst hg; cases hr; simp) hLt.2
  rw [h7] at k1
  refine ⟨{ type := .structRecur, rtype := some t, size := (env t).size, fields := [] ++ tbl, typ := some t }, [] ++ new, ?_, ?_, ?_, ?_, ?_, ?_, k4⟩
  · rw [appendType]
    simp only [h1, h2, h3, if_neg hne, List.nil_append]
    exact k1
  · rfl
  · rfl
  · rfl
  · rfl
  · exact k3 _ (fun i g hi => by first | (simp only [List.nil_append, List.length_nil, Nat.add_zero, Nat.zero_add]; rw [Nat.add_comm]; simpa using hi) | (rw [Nat.add_comm]; simpa using hi))

end Verif.Proof.Types

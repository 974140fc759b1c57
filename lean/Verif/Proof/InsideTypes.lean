import Verif.Spec.Inside
import Verif.Proof.RecTypes
/-!
# The frame table built by `appendTypeToStack` for a type with recursive struct types inside
-/
namespace Verif.Proof.Types
open Verif.Model Verif.Big Verif.Spec Verif.Proof.Sim

mutual
/-- The offsets and sizes of the fields fit. -/
def OKX (x : Ext) : RTy → Prop
  | .plain t => OK x t
  | .self size fs => ∀ e, OK x e → OKF x size (tyF e fs)
  | .array _ e | .slice e | .map _ e => OKX x e
  | .struct size fs => (∀ n, OKF x size (tysX n fs)) ∧ OKXs x fs
/-- All field types. -/
def OKXs (x : Ext) : List (Bytes × Nat × RTy) → Prop
  | [] => True
  | (_, _, t) :: fs => OKX x t ∧ OKXs x fs
end

theorem unroll_ok {x : Ext} {size : Nat} {fs : RFields} (h : ∀ e, OK x e → OKF x size (tyF e fs)) : ∀ n, OK x (unroll size fs n)
  | 0 => trivial
  | n + 1 => h _ (unroll_ok h n)

theorem OKX.ok {x : Ext} : ∀ {ty : RTy}, OKX x ty → ∀ n, OK x (ty.ty n)
  | .plain _, h, _ => h
  | .self _ _, h, n => unroll_ok h (n + 1)
  | .array _ e, h, n => OKX.ok (ty := e) h n
  | .slice e, h, n => OKX.ok (ty := e) h n
  | .map _ e, h, n => OKX.ok (ty := e) h n
  | .struct _ _, h, n => h.1 n

theorem ty_size {x : Ext} : ∀ (ty : RTy) (n : Nat), (ty.ty n).size x = ty.size x
  | .plain _, _ => rfl
  | .self _ _, _ => rfl
  | .array m e, n => by simp only [RTy.ty, Ty.size, RTy.size, ty_size e n]
  | .slice _, _ => rfl
  | .map _ _, _ => rfl
  | .struct _ _, _ => rfl

/-- What the recursive call for a type has to deliver. -/
structure BuiltX (x : Ext) (stack : List Frame) (res : AppendRes) (ty : RTy) (size : Nat) (seen' : List TypeId) (root : Frame) (tl : List Frame) : Prop where
  app : res = .ok (stack ++ root :: tl)
  len : 1 + tl.length = ty.width
  parent : root.parent = none
  offset : root.offset = 0
  type : root.type = ty.etype
  rep : ∀ fr r, Variant r root → fr[stack.length]? = some r → At fr (stack.length + 1) tl → RepX x fr ty stack.length
  seen : SeenOK (stack ++ root :: tl) seen'
  ok : OKX x ty
  size : ty.size x = size

theorem builtX_plain {x : Ext} {stack : List Frame} {res : AppendRes} {ty : Ty} {size : Nat} {seen' : List TypeId} {root : Frame} {tl : List Frame}
    (h : Built x stack res ty size seen' root tl) : BuiltX x stack res (.plain ty) size seen' root tl :=
  ⟨h.app, h.len, h.parent, h.offset, h.type, h.rep, h.seen, h.ok, h.size⟩

/-- A type with one element type. -/
theorem builtX_elem {x : Ext} {stack : List Frame} {ty e : RTy} {size esize : Nat} {seen' : List TypeId} {root croot : Frame} {ctl : List Frame} {res : AppendRes}
    (hb : BuiltX x (stack ++ [root]) res e esize seen' croot ctl) (g : Frame → Frame) (hg : Variant (g croot) croot)
    (hw : ty.width = 1 + e.width)
    (hp : root.parent = none) (ho : root.offset = 0) (hty : root.type = ty.etype)
    (hrep : ∀ fr b r, b = stack.length → Variant r root → fr[b]? = some r → fr[b + 1]? = some (g croot) → RepX x fr e (b + 1) → RepX x fr ty b)
    (hok : OKX x e → OKX x ty) (hsz : ty.size x = size) :
    BuiltX x stack (match res with
      | .ok stack' => .ok (stack'.modify (stack.length + 1) g)
      | r => r) ty size seen' root (g croot :: ctl) := by
  have hlen := hb.len
  obtain ⟨c, o, p, hgv⟩ := hg
  refine ⟨?_, by simp only [List.length_cons]; omega, hp, ho, hty, ?_, ?_, hok hb.ok, hsz⟩
  · rw [hb.app]
    simp only []
    rw [modify_at _ _ _ _ (by simp)]
    simp
  · intro fr r hv hf hat
    obtain ⟨h1, h2⟩ := hat.cons
    have hl : (stack ++ [root]).length = stack.length + 1 := by simp
    have hc := hb.rep fr (g croot) ⟨c, o, p, hgv⟩ (by rw [hl]; exact h1) (by rw [hl]; exact h2)
    rw [hl] at hc
    exact hrep fr _ r rfl hv hf h1 hc
  · refine hb.seen.congr ?_
    simp [hgv]

theorem builtX_quoted {x : Ext} {stack : List Frame} {res : AppendRes} {k : SKind} {size : Nat} {seen' : List TypeId} {root : Frame} {tl : List Frame}
    (hb : BuiltX x stack res (.plain (.scalar k)) size seen' root tl) {fr : List Frame} {b : Nat} {r : Frame} (hv : Variant r root) (hf : fr[b]? = some { r with type := .quoted k }) :
    Rep x fr (.quoted k) b :=
  built_quoted (x := x) (stack := stack) (res := res) (size := size) (seen' := seen') (tl := tl)
    ⟨hb.app, hb.len, hb.parent, hb.offset, hb.type, hb.rep, hb.seen, hb.ok, hb.size⟩ hv hf

theorem etypeX_scalar {ty : RTy} (h : ∀ k, ty ≠ .plain (.scalar k)) : retagString ty.etype = none := by
  cases ty with
  | plain t => cases t <;> first | rfl | exact absurd rfl (h _)
  | _ => rfl

theorem builtX_fields {x : Ext} {env : TypeEnv} {opts : Option InitOptions} {allow : Bool} {size : Nat}
    (hopt : allow = true → ∃ o, opts = some o ∧ o.disallowStringTagOptOnUnsupportedTypes = false)
    {tree : List TypeId → TypeId → Option (RTy × List TypeId)} {rec' : List Frame → TypeId → AppendRes}
    (hrec : ∀ seen t ty seen' stack, tree seen t = some (ty, seen') → SeenOK stack seen → ∃ root tl, BuiltX x stack (rec' stack t) ty (env t).size seen' root tl) :
    ∀ (fs : List FieldInfo) (seen : List TypeId) (fts : List (Bytes × Nat × RTy)) (seen' : List TypeId) (pre : List Frame) (sf : Frame) (acc : List Frame),
      fieldTreesX tree allow seen fs = some (fts, seen') → SeenOK (pre ++ sf :: acc) seen → Layout.FieldsIn env size fs →
      ∃ tbl new, appendFields rec' opts pre.length fs (pre ++ sf :: acc) = .ok (pre ++ { sf with fields := sf.fields ++ tbl } :: (acc ++ new)) ∧
        new.length = widthX fts ∧
        (∀ fr, At fr (pre.length + 1 + acc.length) new → RepFieldsX x fr pre.length fts (pre.length + 1 + acc.length) tbl) ∧
        SeenOK (pre ++ { sf with fields := sf.fields ++ tbl } :: (acc ++ new)) seen' ∧ (∀ n, OKF x size (tysX n fts)) ∧ OKXs x fts ∧
        (∀ n, ∀ g ∈ tysX n fts, ∃ f ∈ fs, g.2.1 = f.offset ∧ g.2.2.size x = (env f.type).size) := by
  intro fs
  induction fs with
  | nil =>
    intro seen fts seen' pre sf acc h hs _
    simp only [fieldTreesX, Option.some.injEq, Prod.mk.injEq] at h
    obtain ⟨rfl, rfl⟩ := h
    exact ⟨[], [], by simp [appendFields], rfl, fun _ _ => by simp [RepFieldsX], by simpa using hs, fun _ => trivial, trivial, by simp [tysX]⟩
  | cons f fs ih =>
    intro seen fts seen' pre sf acc h hs hL
    obtain ⟨hL1, hL2, hL3⟩ := hL
    simp only [fieldTreesX] at h
    cases hpt : parseTag f.name f.tag with
    | none =>
      rw [hpt] at h
      obtain ⟨tbl, new, h1, h2, h3, h4, h5, h5', h6⟩ := ih seen fts seen' pre sf acc h hs hL3
      refine ⟨tbl, new, by simp only [appendFields, hpt]; exact h1, h2, h3, h4, h5, h5', fun n g hg => ?_⟩
      obtain ⟨f', hf', h⟩ := h6 n g hg
      exact ⟨f', by simp [hf'], h⟩
    | some no =>
      obtain ⟨name, opt⟩ := no
      rw [hpt] at h
      simp only [] at h
      cases htr : tree seen f.type with
      | none => rw [htr] at h; cases h
      | some r =>
        obtain ⟨ty, seen1⟩ := r
        rw [htr] at h
        simp only [] at h
        obtain ⟨root, tl, hb⟩ := hrec _ _ _ _ _ htr hs
        obtain ⟨ty', root', hty', hw', hsz', hok', hrt', happ, hrep'⟩ : ∃ ty' root', withStringX allow opt ty = some ty' ∧
            ty'.width = ty.width ∧ ty'.size x = ty.size x ∧ OKX x ty' ∧ root'.rtype = root.rtype ∧
            appendFields rec' opts pre.length (f :: fs) (pre ++ sf :: acc) =
              appendFields rec' opts pre.length fs (pre ++ { sf with fields := sf.fields ++ [(name, pre.length + 1 + acc.length)] } :: (acc ++ root' :: tl)) ∧
            ∀ fr, At fr (pre.length + 1 + acc.length) (root' :: tl) →
              Linked fr pre.length (pre.length + 1 + acc.length) (fun c => c.offset = f.offset) ∧ RepX x fr ty' (pre.length + 1 + acc.length) := by
          have hlen : (pre ++ sf :: acc).length = pre.length + 1 + acc.length := by simp; omega
          have hm1 : ∀ g : Frame → Frame, (pre ++ sf :: acc ++ root :: tl).modify pre.length g = pre ++ g sf :: acc ++ root :: tl := by
            intro g
            have := modify_at pre (acc ++ root :: tl) sf pre.length rfl g
            simpa using this
          have hm2 : ∀ (q : Frame) (r : Frame) (g : Frame → Frame), (pre ++ q :: acc ++ r :: tl).modify (pre ++ sf :: acc).length g = pre ++ q :: acc ++ g r :: tl := by
            intro q r g
            exact modify_at (pre ++ q :: acc) tl r _ (by simp) g
          have hg2 : ∀ (q : Frame) (r : Frame), (pre ++ q :: acc ++ r :: tl)[(pre ++ sf :: acc).length]? = some r := by
            intro q r
            have := get_at (pre ++ q :: acc) tl r
            rw [← this]; congr 1; simp
          have hplain : ∀ fr, At fr (pre.length + 1 + acc.length) ({ root with offset := f.offset, parent := some pre.length } :: tl) →
              Linked fr pre.length (pre.length + 1 + acc.length) (fun c => c.offset = f.offset) ∧ RepX x fr ty (pre.length + 1 + acc.length) := by
            intro fr hat
            obtain ⟨k1, k2⟩ := hat.cons
            refine ⟨⟨_, k1, rfl, rfl⟩, ?_⟩
            have := hb.rep fr _ ⟨_, _, _, rfl⟩ (by rw [hlen]; exact k1) (by rw [hlen]; exact k2)
            rw [hlen] at this; exact this
          cases opt with
          | false =>
            refine ⟨ty, { root with offset := f.offset, parent := some pre.length }, by cases ty <;> rfl, rfl, rfl, hb.ok, rfl, ?_, hplain⟩
            simp only [appendFields, hpt, hb.app, hm1, hm2]
            simp [hlen, Nat.add_assoc]
          | true =>
            by_cases hk : ∃ k, ty = .plain (.scalar k)
            · obtain ⟨k, rfl⟩ := hk
              have ht := hb.type
              simp only [RTy.etype, Ty.etype] at ht
              refine ⟨.plain (.quoted k), { root with offset := f.offset, parent := some pre.length, type := .quoted k }, rfl, rfl, rfl, trivial, rfl, ?_, ?_⟩
              · simp only [appendFields, hpt, hb.app, hm1, hm2, hg2, ht, retagString]
                simp [hlen, Nat.add_assoc]
              · intro fr hat
                obtain ⟨k1, k2⟩ := hat.cons
                exact ⟨⟨_, k1, rfl, rfl⟩, builtX_quoted hb (r := { root with offset := f.offset, parent := some pre.length }) ⟨_, _, _, rfl⟩ k1⟩
            · have hns : withStringX allow true ty = if allow then some ty else none := by
                cases ty with
                | plain t => cases t <;> first | exact absurd ⟨_, rfl⟩ hk | (cases allow <;> rfl)
                | _ => cases allow <;> rfl
              rw [hns] at h ⊢
              cases hal : allow with
              | false => rw [hal] at h; cases h
              | true =>
                obtain ⟨o, ho, hod⟩ := hopt hal
                have hrt : retagString root.type = none := by
                  rw [hb.type]
                  exact etypeX_scalar fun k hc => hk ⟨k, hc⟩
                refine ⟨ty, { root with offset := f.offset, parent := some pre.length }, rfl, rfl, rfl, hb.ok, rfl, ?_, hplain⟩
                simp only [appendFields, hpt, hb.app, hm1, hm2, hg2, hrt, ho, hod]
                simp [hlen, Nat.add_assoc]
        rw [hty'] at h
        simp only [] at h
        cases hft : fieldTreesX tree allow seen1 fs with
        | none => rw [hft] at h; cases h
        | some r =>
          obtain ⟨fts1, seen2⟩ := r
          rw [hft] at h
          simp only [Option.map_some, Option.some.injEq, Prod.mk.injEq] at h
          obtain ⟨rfl, rfl⟩ := h
          have hs' : SeenOK (pre ++ { sf with fields := sf.fields ++ [(name, pre.length + 1 + acc.length)] } :: (acc ++ root' :: tl)) seen1 :=
            hb.seen.congr (by simp [hrt'])
          obtain ⟨tbl, new, h1, h2, h3, h4, h5, h5', h6⟩ := ih seen1 fts1 seen2 pre _ (acc ++ root' :: tl) hft hs' hL3
          have hlt : (root' :: tl).length = ty.width := by have := hb.len; simp only [List.length_cons]; omega
          refine ⟨(name, pre.length + 1 + acc.length) :: tbl, root' :: tl ++ new, ?_, ?_, ?_, ?_, ?_, ⟨hok', h5'⟩, ?_⟩
          · rw [happ, h1]; simp
          · rw [List.length_append, hlt, h2]; simp [widthX, hw']
          · intro fr hat
            obtain ⟨k1, k2⟩ := hat.append
            obtain ⟨k3, k4⟩ := hrep' fr k1
            refine ⟨tbl, rfl, k3, k4, ?_⟩
            have := h3 fr (by rw [List.length_append, ← Nat.add_assoc]; exact k2)
            rw [List.length_append, hlt, ← Nat.add_assoc] at this
            rw [hw']; exact this
          · refine h4.congr ?_
            simp
          · intro n
            simp only [tysX]
            refine ⟨by rw [ty_size, hsz', hb.size]; exact hL1, hok'.ok n, ?_, h5 n⟩
            intro g hg
            obtain ⟨f', hf', g1, g2⟩ := h6 n g hg
            rw [ty_size, hsz', hb.size, g1, g2]
            exact hL2 f' hf'
          · intro n g hg
            simp only [tysX, List.mem_cons] at hg
            rcases hg with rfl | hg
            · exact ⟨f, by simp, rfl, by rw [ty_size, hsz', hb.size]⟩
            · obtain ⟨f', hf', h⟩ := h6 n g hg
              exact ⟨f', by simp [hf'], h⟩

/-- `appendTypeToStack` appends the frames of the tree of the type. -/
theorem rty_built {env : TypeEnv} {x : Ext} (hL : Layout env x) {allow : Bool} {opts : Option InitOptions}
    (hopt : allow = true → ∃ o, opts = some o ∧ o.disallowStringTagOptOnUnsupportedTypes = false) :
    ∀ (depth : Nat) (seen : List TypeId) (t : TypeId) (ty : RTy) (seen' : List TypeId) (stack : List Frame),
      rtyTree env allow depth seen t = some (ty, seen') → SeenOK stack seen →
      ∃ root tl, BuiltX x stack (appendType env x.W opts depth stack (some t)) ty (env t).size seen' root tl := by
  intro depth
  induction depth with
  | zero => intro seen t ty seen' stack h; cases h
  | succ d ih =>
    intro seen t ty seen' stack h hs
    simp only [rtyTree] at h
    split at h
    · rename_i r hr
      cases h
      obtain ⟨root, tl, hb⟩ := tree_built hL hopt (d + 1) seen t r.1 r.2 stack hr hs
      exact ⟨root, tl, builtX_plain hb⟩
    split at h
    · cases h
    rename_i hu
    have h1 : ¬ (env t).implJSON = true := fun hc => hu (.inl hc)
    have h2 : ¬ (env t).implText = true := fun hc => hu (.inr hc)
    have hLt := hL t
    cases hk : (env t).kind <;> rw [hk] at h hLt <;> simp only [] at h hLt <;> first | cases h; done | skip
    case array =>
      by_cases hn : (env t).len = 0
      · rw [if_pos hn] at h; cases h
      · rw [if_neg hn] at h
        cases he : rtyTree env allow d seen (env t).elem with
        | none => rw [he] at h; cases h
        | some r =>
          obtain ⟨e, se⟩ := r
          rw [he] at h
          cases h
          obtain ⟨croot, ctl, hb⟩ := ih _ _ _ _ (stack ++ [{ type := .array, size := (env t).size, typ := some t }]) he (hs.push rfl)
          refine ⟨{ type := .array, size := (env t).size, typ := some t }, { croot with parent := some stack.length, cap := (env t).len } :: ctl, ?_⟩
          simp only [appendType, if_neg h1, if_neg h2, hk, if_neg hn]
          refine builtX_elem (ty := .array (env t).len e) hb (fun f => { f with parent := some stack.length, cap := (env t).len }) ⟨_, croot.offset, _, rfl⟩ rfl rfl rfl rfl
            (fun fr b r hbeq hv hf hc hre => ?_) (fun h => h) (by simp only [RTy.size]; rw [hb.size, hLt])
          subst hbeq
          refine ⟨variant_get hv hf fun c o p => ⟨rfl, ?_⟩, by omega, ⟨_, hc, rfl, rfl⟩, hre⟩
          simp only []
          rw [hLt, hb.size]
    case slice =>
      split at h
      · cases h
      rename_i hc
      have hes : ¬ ((env (env t).elem).kind = .struct ∧ (env (env t).elem).size = 0) := fun h => hc (.inl h)
      have hsc : sliceScalar (env (env t).elem) = none := by
        cases hsc : sliceScalar (env (env t).elem) with
        | none => rfl
        | some k => exact absurd (.inr (.inl (by rw [hsc]; rfl))) hc
      have hrc : ¬ (isStruct1 (env (env t).elem) && seen.contains (env t).elem) = true := fun h => hc (.inr (.inr h))
      cases he : rtyTree env allow d seen (env t).elem with
      | none => rw [he] at h; cases h
      | some r =>
        obtain ⟨e, se⟩ := r
        rw [he] at h
        cases h
        obtain ⟨croot, ctl, hb⟩ := ih _ _ _ _ (stack ++ [{ type := .slice, size := (env t).size, typ := some t }]) he (hs.push rfl)
        refine ⟨{ type := .slice, size := (env t).size, typ := some t }, { croot with parent := some stack.length } :: ctl, ?_⟩
        have hap : appendType env x.W opts (d + 1) stack (some t) = linkParent stack.length (stack.length + 1)
            (appendType env x.W opts d (stack ++ [{ type := .slice, size := (env t).size, typ := some t }]) (some (env t).elem)) := by
          simp only [appendType, if_neg h1, if_neg h2, hk]
          simp only [sliceScalar] at hsc
          cases hke : (env (env t).elem).kind <;> rw [hke] at hsc <;> simp [Kind.scalar?] at hsc <;> simp only []
          case struct =>
            have hsz : ¬ (env (env t).elem).size < 1 := by
              intro hc; exact hes ⟨hke, by omega⟩
            have hct : seen.contains (env t).elem = false := by
              simp only [isStruct1, hke, true_and, Bool.and_eq_true, not_and, Bool.not_eq_true, decide_eq_true_eq] at hrc
              exact hrc (by omega)
            rw [if_neg hsz, hs.find hct]
          case string => rw [if_pos hsc]
        rw [hap, link_eq]
        refine builtX_elem (ty := .slice e) hb (fun f => { f with parent := some stack.length }) ⟨croot.cap, croot.offset, _, rfl⟩ rfl rfl rfl rfl
          (fun fr b r hbeq hv hf hc hre => ?_) (fun h => h) (by simp only [RTy.size]; rw [hLt])
        subst hbeq
        exact ⟨variant_get hv hf fun c o p => ⟨rfl, hLt⟩, ⟨_, hc, rfl, trivial⟩, hre⟩
    case map =>
      split at h
      · cases h
      rename_i hc
      have hrc : ¬ (isStruct1 (env (env t).elem) && seen.contains (env t).elem) = true := fun h => hc (.inl h)
      have hss : ¬ ((env (env t).key).kind = .string ∧ (env (env t).elem).kind = .string) := fun h => hc (.inr h)
      have hfind : (if (env (env t).elem).kind = .struct ∧ 0 < (env (env t).elem).size then findRType (env t).elem stack else none) = none := by
        by_cases hc : (env (env t).elem).kind = .struct ∧ 0 < (env (env t).elem).size
        · rw [if_pos hc]
          refine hs.find ?_
          simp only [isStruct1, hc.1, hc.2, and_self, decide_true, Bool.true_and, Bool.not_eq_true] at hrc
          exact hrc
        · rw [if_neg hc]
      cases hkt : keyTree env (env t).key with
      | none => rw [hkt] at h; cases h
      | some ks =>
        obtain ⟨k, s⟩ := ks
        rw [hkt] at h
        simp only [] at h
        cases he : rtyTree env allow d (s ++ t :: seen) (env t).elem with
        | none => rw [he] at h; cases h
        | some r =>
          obtain ⟨e, se⟩ := r
          rw [he] at h
          cases h
          obtain ⟨d', rfl⟩ : ∃ d', d = d' + 1 := by
            cases d with
            | zero => cases he
            | succ d' => exact ⟨d', rfl⟩
          have hs1 : SeenOK (stack ++ [{ type := .map, rtype := some t, size := (env t).size, mapValueSize := (env (env t).elem).size, mapValueTyp := some (env t).elem, faststr := canUseAssignFaststr env t, typ := some t }]) (t :: seen) := hs.push' rfl
          obtain ⟨kroot, hka, hkr, hks⟩ := key_built (x := x) (opts := opts) (d := d') hkt hs1
          have hks' : SeenOK (stack ++ [{ type := .map, rtype := some t, size := (env t).size, mapValueSize := (env (env t).elem).size, mapValueTyp := some (env t).elem, faststr := canUseAssignFaststr env t, typ := some t }] ++
              [{ kroot with parent := some stack.length }]) (s ++ t :: seen) := hks.congr (by simp)
          obtain ⟨croot, ctl, hb⟩ := ih _ _ _ _ _ he hks'
          refine ⟨{ type := .map, rtype := some t, size := (env t).size, mapValueSize := (env (env t).elem).size, mapValueTyp := some (env t).elem, faststr := canUseAssignFaststr env t, typ := some t },
            { kroot with parent := some stack.length } :: { croot with parent := some stack.length } :: ctl, ?_⟩
          have hap : appendType env x.W opts (d' + 1 + 1) stack (some t) = .ok (stack ++ { type := .map, rtype := some t, size := (env t).size, mapValueSize := (env (env t).elem).size, mapValueTyp := some (env t).elem, faststr := canUseAssignFaststr env t, typ := some t } ::
              { kroot with parent := some stack.length } :: { croot with parent := some stack.length } :: ctl) := by
            rw [appendType]
            simp only [if_neg h1, if_neg h2, hk, hfind, if_neg hss, hka, linkParent]
            rw [modify_at _ _ _ _ (by simp)]
            simp only [hb.app]
            rw [modify_at _ _ _ _ rfl]
            simp
          rw [hap]
          have hlen := hb.len
          have hl2 : (stack ++ [({ type := .map, rtype := some t, size := (env t).size, mapValueSize := (env (env t).elem).size, mapValueTyp := some (env t).elem, faststr := canUseAssignFaststr env t, typ := some t } : Frame)] ++
              [{ kroot with parent := some stack.length }]).length = stack.length + 2 := by simp
          refine ⟨rfl, by simp only [List.length_cons, RTy.width]; omega, rfl, rfl, rfl, ?_, ?_, hb.ok, hLt.symm⟩
          · intro fr r hv hf hat
            obtain ⟨a1, hat⟩ := hat.cons
            obtain ⟨a2, a3⟩ := hat.cons
            refine ⟨variant_get hv hf fun c o p => ⟨rfl, hLt, hb.size.symm, canUse_le⟩, ⟨_, a1, rfl, hkr _ ⟨kroot.cap, kroot.offset, _, rfl⟩⟩, ⟨_, a2, rfl, hb.offset⟩, ?_⟩
            have := hb.rep fr _ ⟨croot.cap, croot.offset, some stack.length, rfl⟩ (by rw [hl2]; exact a2) (by rw [hl2]; exact a3)
            rw [hl2] at this; exact this
          · refine hb.seen.congr ?_
            simp
    case struct =>
      by_cases hfe : (env t).fields = []
      · rw [if_pos hfe] at h; cases h
      · rw [if_neg hfe] at h
        cases hrf : recFields env allow d t (t :: seen) (env t).fields with
        | some r =>
          obtain ⟨fs, s⟩ := r
          rw [hrf] at h
          simp only [] at h
          split at h
          · rename_i hc
            obtain ⟨hc1, hc2, hc3⟩ := hc
            cases h
            have hpre : ∀ f ∈ stack, f.rtype ≠ some t := by
              intro f hf hr
              have := hs f hf t hr
              simp at hc3
              exact hc3 this
            obtain ⟨tbl, new, k1, k2, k3, k3', k4, -⟩ := recFields_built hL hopt hk hc2 (env t).fields (t :: seen) fs seen' stack
              { type := .struct, rtype := some t, size := (env t).size, typ := some t } [] hrf hpre rfl (hs.push' rfl) hLt.2
            rw [hc1] at k1 k3'
            refine ⟨{ type := .structRecur, rtype := some t, size := (env t).size, fields := [] ++ tbl, typ := some t }, [] ++ new, ?_⟩
            have hap : appendType env x.W opts (d + 1) stack (some t) = .ok (stack ++ { type := .structRecur, rtype := some t, size := (env t).size, fields := [] ++ tbl, typ := some t } :: ([] ++ new)) := by
              rw [appendType]
              simp only [if_neg h1, if_neg h2, hk, if_neg hfe]
              exact k1
            rw [hap]
            refine ⟨rfl, by simp only [RTy.width, List.nil_append]; rw [k2], rfl, rfl, rfl, ?_, k3', k4, rfl⟩
            intro fr r hv hf hat
            simp only [RepX, RepRec]
            refine variant_get hv hf fun c o p => ⟨rfl, rfl, ?_⟩
            exact k3 fr hat
          · cases h
        | none =>
          rw [hrf] at h
          simp only [] at h
          cases hft : fieldTreesX (rtyTree env allow d) allow (t :: seen) (env t).fields with
          | none => rw [hft] at h; cases h
          | some r =>
            obtain ⟨fts, sf⟩ := r
            rw [hft] at h
            cases h
            obtain ⟨tbl, new, k1, k2, k3, k4, k5, k5', -⟩ := builtX_fields (x := x) (env := env) (opts := opts) (size := (env t).size) hopt
              (rec' := fun s t => appendType env x.W opts d s (some t)) (fun seen t ty seen' stack h hs => ih seen t ty seen' stack h hs)
              (env t).fields (t :: seen) fts sf stack { type := .struct, rtype := some t, size := (env t).size, typ := some t } [] hft (hs.push' rfl) hLt.2
            refine ⟨{ type := .struct, rtype := some t, size := (env t).size, fields := [] ++ tbl, typ := some t }, [] ++ new, ?_⟩
            have hap : appendType env x.W opts (d + 1) stack (some t) = .ok (stack ++ { type := .struct, rtype := some t, size := (env t).size, fields := [] ++ tbl, typ := some t } :: ([] ++ new)) := by
              rw [appendType]
              simp only [if_neg h1, if_neg h2, hk, if_neg hfe]
              exact k1
            rw [hap]
            refine ⟨rfl, by simp only [RTy.width, List.nil_append]; rw [k2], rfl, rfl, rfl, ?_, k4, ⟨k5, k5'⟩, rfl⟩
            intro fr r hv hf hat
            simp only [RepX]
            refine variant_get hv hf fun c o p => ⟨rfl, rfl, ?_⟩
            exact k3 fr hat

end Verif.Proof.Types
